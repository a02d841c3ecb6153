import Verif.Props.Access
import Verif.SpecIntro
import Verif.Props.Lists
import Verif.Props.Times
/-!
# Messages with a long and a short form (C16)
-/
namespace BM.Props
open Tables F Spec

/-- A message type with a long and a short form: the fields of either, their sizes in bytes, and which received payloads are valid. -/
structure Form where
  op : Nat
  name : String
  long : List (RI UInt8)
  short : List (RI UInt8)
  longSize : Nat
  shortSize : Nat
  valid : List UInt8 → Bool := fun _ => true

/-- The message type as specified. -/
abbrev Form.msg (f : Form) : MsgSpec := BM.msg f.op f.name (optMin f.long f.short)

abbrev setForm (op : Nat) (name : String) (rs : List (RI UInt8)) (n : Nat) : Form :=
  ⟨op, name, [embed rs, embed [transition, delayMs]], rs, n + 2, n, fun _ => true⟩

/-- The scene number must not be 0. -/
def sceneNumberValid (s : List UInt8) : Bool := leNat (s.take 2) != 0
/-- The status code must be a known one. -/
def sceneStatusValid (s : List UInt8) : Bool := leNat (s.take 1) ≤ 2

def onoffForms : List Form := [
  ⟨0x8202, "generic_onoff_set", [u8 "onoff", tid, transition, delayMs], [u8 "onoff", tid], 4, 2, fun _ => true⟩,
  ⟨0x8203, "generic_onoff_set_unacknowledged", [u8 "onoff", tid, transition, delayMs], [u8 "onoff", tid], 4, 2, fun _ => true⟩,
  ⟨0x8204, "generic_onoff_status", [u8 "present_onoff", u8 "target_onoff", remaining 63], [u8 "present_onoff"], 3, 1, fun _ => true⟩]
def levelForms : List Form := [
  setForm 0x8206 "generic_level_set" [s16 "level", tid] 3, setForm 0x8207 "generic_level_set_unacknowledged" [s16 "level", tid] 3,
  ⟨0x8208, "generic_level_status", [embed [s16 "present_level"], s16 "target_level", remaining 63], [s16 "present_level"], 5, 2, fun _ => true⟩,
  setForm 0x8209 "generic_delta_set" [fld "delta_level" (sint 4), tid] 5,
  setForm 0x820A "generic_delta_set_unacknowledged" [fld "delta_level" (sint 4), tid] 5,
  setForm 0x820B "generic_move_set" [s16 "delta_level", tid] 3, setForm 0x820C "generic_move_set_unacknowledged" [s16 "delta_level", tid] 3]
def lightnessForms : List Form := [
  setForm 0x824C "light_lightness_set" [u16 "lightness", tid] 3, setForm 0x824D "light_lightness_set_unacknowledged" [u16 "lightness", tid] 3,
  ⟨0x824E, "light_lightness_status", [embed [u16 "present_lightness"], u16 "target_lightness", remaining 63], [u16 "present_lightness"], 5, 2, fun _ => true⟩,
  setForm 0x8250 "light_lightness_linear_set" [u16 "lightness", tid] 3,
  setForm 0x8251 "light_lightness_linear_set_unacknowledged" [u16 "lightness", tid] 3,
  ⟨0x8252, "light_lightness_linear_status", [embed [u16 "present_lightness"], u16 "target_lightness", remaining 63], [u16 "present_lightness"], 5, 2,
    fun _ => true⟩]
def ctlForms : List Form := [
  setForm 0x825E "light_ctl_set" [embed ctl, tid] 7, setForm 0x825F "light_ctl_set_unacknowledged" [embed ctl, tid] 7,
  ⟨0x8260, "light_ctl_status", [embed [u16 "present_ctl_lightness", u16 "present_ctl_temperature"], u16 "target_ctl_lightness",
    u16 "target_ctl_temperature", remaining 63], [u16 "present_ctl_lightness", u16 "present_ctl_temperature"], 9, 4, fun _ => true⟩,
  setForm 0x8264 "light_ctl_temperature_set" [u16 "ctl_temperature", u16 "ctl_delta_uv", tid] 5,
  setForm 0x8265 "light_ctl_temperature_set_unacknowledged" [u16 "ctl_temperature", u16 "ctl_delta_uv", tid] 5,
  ⟨0x8266, "light_ctl_temperature_status", [embed [u16 "present_ctl_temperature", u16 "present_ctl_delta_uv"], u16 "target_ctl_temperature",
    u16 "target_ctl_delta_uv", remaining 63], [u16 "present_ctl_temperature", u16 "present_ctl_delta_uv"], 9, 4, fun _ => true⟩]
def sceneForms : List Form := [
  ⟨0x8242, "scene_recall", [sceneNumber, tid, transition, delayMs], [sceneNumber, tid], 5, 3, sceneNumberValid⟩,
  ⟨0x8243, "scene_recall_unacknowledged", [sceneNumber, tid, transition, delayMs], [sceneNumber, tid], 5, 3, sceneNumberValid⟩,
  ⟨0x5E, "scene_status", [sceneStatusCode, u16 "current_scene", u16 "target_scene", remaining 62], [sceneStatusCode, u16 "current_scene"], 6, 3,
    sceneStatusValid⟩]

/-- All message types with an optional transition or remaining time. -/
def forms : List Form := onoffForms ++ (levelForms ++ (lightnessForms ++ (ctlForms ++ sceneForms)))

/-- The forms are the ones of the specification of the messages. -/
theorem forms_specified : forms.map Form.msg = onoffPlain ++ (levelPlain ++ (lightnessPlain ++ (ctlPlain ++ scenePlain))) := rfl

theorem Form.specified [Platform] {f : Form} (h : f ∈ forms) : f.msg ∈ Spec.messages := by
  have : f.msg ∈ forms.map Form.msg := List.mem_map_of_mem h
  rw [forms_specified] at this
  simp only [Spec.messages, Spec.plainOnly, List.mem_append] at this ⊢
  tauto

/-! ### Building -/

section
variable [Platform]

/-- **C16 (long form).** An object that can be written in the long form is written in the long form.  (The fields may be wrapped in a
dictionary under `optional`.) -/
theorem C16_long {f : Form} (hf : f ∈ forms) {o : Dict} {b v} (h : record f.long ((dget o "optional").getD (.dict o)) b v)
    (L : Lib) {d : Dict} {k : Val} (hk : dget d "opcode" = some k) (hs : Spells f.msg k) (hp : payload f.msg d = some (.dict o)) :
    ∃ r, accessBuild registry L (.dict d) = .ok (wireOpcode f.op ++ b, r) := by
  have hv : ∃ dv, v = .dict dv := by obtain ⟨_, dv, -, -, rfl⟩ := h; exact ⟨dv, rfl⟩
  obtain ⟨dv, rfl⟩ := hv
  have := (C05_encode_decode (Form.specified hf) (.inl ⟨o, dv, rfl, h, rfl⟩) L hk hs hp).1
  simpa [header] using this

omit [Platform] in
theorem unencodable_named {α} {n : String} {G : Fmt α} {o : Dict} (h : Unencodable G ((dget o n).getD (.dict o))) :
    Unencodable (named n G) (.dict o) := by
  rintro ⟨b, v, d, dv, hd, hg, -⟩
  cases hd
  exact h ⟨_, _, hg⟩

/-- **C16 (short form).** An object that cannot be written in the long form, but whose mandatory part is valid, is written in the short form,
without an error. -/
theorem C16_short {f : Form} (hf : f ∈ forms) {o : Dict} {b v} (h1 : Unencodable (record f.long) ((dget o "optional").getD (.dict o)))
    (h2 : record f.short ((dget o "minimal").getD (.dict o)) b v)
    (L : Lib) {d : Dict} {k : Val} (hk : dget d "opcode" = some k) (hs : Spells f.msg k) (hp : payload f.msg d = some (.dict o)) :
    ∃ r, accessBuild registry L (.dict d) = .ok (wireOpcode f.op ++ b, r) := by
  have hv : ∃ dv, v = .dict dv := by obtain ⟨_, dv, -, -, rfl⟩ := h2; exact ⟨dv, rfl⟩
  obtain ⟨dv, rfl⟩ := hv
  have := (C05_encode_decode (Form.specified hf) (.inr ⟨unencodable_named h1, o, dv, rfl, h2, rfl⟩) L hk hs hp).1
  simpa [header] using this

/-- **C16 (neither form).** An object that can be written in neither form is rejected. -/
theorem C16_neither {f : Form} (hf : f ∈ forms) {u : Val}
    (h1 : ∀ o, u = .dict o → Unencodable (record f.long) ((dget o "optional").getD u))
    (h2 : ∀ o, u = .dict o → Unencodable (record f.short) ((dget o "minimal").getD u))
    {L : Lib} (hL : L.Strict) {d : Dict} {k : Val} (hk : dget d "opcode" = some k) (hs : Spells f.msg k) (hp : payload f.msg d = some u) :
    ∃ e, accessBuild registry L (.dict d) = .error e := by
  cases hb : accessBuild registry L (.dict d) with
  | error e => exact ⟨e, rfl⟩
  | ok r =>
    exfalso
    obtain ⟨b, v, hG, -⟩ := C08_build_sound (Form.specified hf) hL hk hs hp hb (by exact id)
    rcases hG with ⟨o, dv, hu, hg, -⟩ | ⟨-, o, dv, hu, hg, -⟩
    · exact h1 o hu ⟨_, _, hg⟩
    · exact h2 o hu ⟨_, _, hg⟩
end

/-- The mandatory fields of a record, with those of embedded records. -/
inductive HasField (k : String) (G : Fmt UInt8) : List (RI UInt8) → Prop
  | here {rs} : HasField k G (fld k G :: rs)
  | there {r rs} : HasField k G rs → HasField k G (r :: rs)
  | inner {rs rs'} : HasField k G rs → HasField k G (embed rs :: rs')

theorem HasField.get {k : String} {G : Fmt UInt8} {rs : List (RI UInt8)} (h : HasField k G rs) :
    ∀ {du b dv}, seqRel rs du b dv → ∃ x b' v', dget du k = some x ∧ G x b' v' := by
  induction h with
  | here => rintro du b dv ⟨b1, b2, d1, d2, -, -, ⟨u, v, hu, hg, -⟩, -⟩; exact ⟨u, b1, v, hu, hg⟩
  | there _ ih => rintro du b dv ⟨b1, b2, d1, d2, -, -, -, hr⟩; exact ih hr
  | inner _ ih => rintro du b dv ⟨b1, b2, d1, d2, -, -, hr, -⟩; exact ih hr

/-- An object in which a field of a record is missing or has a value that the field cannot take, cannot be written as that record. -/
theorem HasField.unencodable {k : String} {G : Fmt UInt8} {rs : List (RI UInt8)} (h : HasField k G rs) {o : Dict}
    (hx : ∀ x, dget o k = some x → Unencodable G x) : Unencodable (record rs) (.dict o) := by
  rintro ⟨b, v, du, dv, hd, hs, -⟩
  cases hd
  obtain ⟨x, b', v', hx', hg⟩ := h.get hs
  exact hx x hx' ⟨b', v', hg⟩

syntax "hasfield" : tactic
macro_rules | `(tactic| hasfield) => `(tactic| with_reducible first
  | exact HasField.here | (apply HasField.inner; hasfield) | (apply HasField.there; hasfield))

theorem hasTransition : ∀ f ∈ forms, "transition_time" ∈ f.long.flatMap RI.keys →
    HasField "transition_time" (F.transitionTime 62) f.long ∧ HasField "delay" F.delay f.long := by
  intro f hf
  simp only [forms, onoffForms, levelForms, lightnessForms, ctlForms, sceneForms, List.cons_append, List.nil_append, List.mem_cons,
    List.not_mem_nil, or_false] at hf
  rcases hf with rfl | rfl | rfl | rfl | rfl | rfl | rfl | rfl | rfl | rfl | rfl | rfl | rfl | rfl | rfl | rfl | rfl | rfl | rfl | rfl | rfl | rfl | rfl | rfl | rfl
  all_goals first
    | (intro h; exfalso; revert h; decide)
    | (intro _; exact ⟨by hasfield, by hasfield⟩)

theorem hasRemaining : ∀ f ∈ forms, "remaining_time" ∈ f.long.flatMap RI.keys →
    ∃ max, HasField "remaining_time" (F.transitionTime max) f.long ∧ max ≤ 63 := by
  intro f hf
  simp only [forms, onoffForms, levelForms, lightnessForms, ctlForms, sceneForms, List.cons_append, List.nil_append, List.mem_cons,
    List.not_mem_nil, or_false] at hf
  rcases hf with rfl | rfl | rfl | rfl | rfl | rfl | rfl | rfl | rfl | rfl | rfl | rfl | rfl | rfl | rfl | rfl | rfl | rfl | rfl | rfl | rfl | rfl | rfl | rfl | rfl
  all_goals first
    | (intro h; exfalso; revert h; decide)
    | (intro _; exact ⟨_, by hasfield, by decide⟩)

theorem forms_kinds : ∀ f ∈ forms, "transition_time" ∈ f.long.flatMap RI.keys ∨ "remaining_time" ∈ f.long.flatMap RI.keys := by decide +kernel

/-- A value that no transition time (and no remaining time) can take: not a number, or more than 37 800 seconds. -/
def NoTime (x : Option Val) : Prop := ∀ y, x = some y → ∀ q, asNum y = some q → 37800 < q

/-- A value that no delay can take: not a number, at least 1.28 seconds, or at most -5 milliseconds (up to a nanosecond). -/
def NoDelay (x : Option Val) : Prop :=
  ∀ y, x = some y → ∀ q, asNum y = some q → q ≤ -(5 / 1000) - nano ∨ 256 * (5 / 1000) + nano ≤ q

theorem noTime_unencodable {max : Nat} (hmax : max ≤ 63) {y : Val} (h : NoTime (some y)) : Unencodable (F.transitionTime max) y := by
  rintro ⟨b, v, q, r, k, hq, hr, h1, h2, h3, h4, hb, hv⟩
  have hlt := h y rfl q hq
  obtain ⟨e, he⟩ := C14_reject (unk := true) (L := anyLib) (ctx := []) hq (.inl hlt)
  obtain ⟨r', hr'⟩ := (meets_tt true).enc (u := y) (b := b) (v := v) ⟨q, r, k, hq, hr, h1, h2, by simp; omega, h4, hb, hv⟩ anyLib [] False.elim
  rw [hr'] at he; cases he

theorem noDelay_unencodable {y : Val} (h : NoDelay (some y)) : Unencodable F.delay y := by
  rintro ⟨b, v, q, n, hq, h1, h2, hb, hv⟩
  obtain ⟨e, he⟩ := (C15_range anyLib [] hq).2 (h y rfl q hq)
  obtain ⟨r', hr'⟩ := meets_dly.enc (u := y) (b := b) (v := v) ⟨q, n, hq, h1, h2, hb, hv⟩ anyLib [] False.elim
  rw [hr'] at he; cases he

/-- **C16 (optional fields missing or invalid).** If the transition time, the delay or the remaining time is missing, not a number or out of
range, and the mandatory part is valid, then the short form is written, without an error. -/
theorem C16_silent [Platform] {f : Form} (hf : f ∈ forms) {o : Dict} {b v} (ho : dget o "optional" = none) (ho' : dget o "minimal" = none)
    (hbad : "transition_time" ∈ f.long.flatMap RI.keys ∧ (NoTime (dget o "transition_time") ∨ NoDelay (dget o "delay")) ∨
      "remaining_time" ∈ f.long.flatMap RI.keys ∧ NoTime (dget o "remaining_time"))
    (h2 : record f.short (.dict o) b v)
    (L : Lib) {d : Dict} {k : Val} (hk : dget d "opcode" = some k) (hs : Spells f.msg k) (hp : payload f.msg d = some (.dict o)) :
    ∃ r, accessBuild registry L (.dict d) = .ok (wireOpcode f.op ++ b, r) := by
  refine C16_short hf (v := v) ?_ (by simpa [ho'] using h2) L hk hs hp
  rw [ho, Option.getD_none]
  rcases hbad with ⟨h, hb | hb⟩ | ⟨h, hb⟩
  · exact (hasTransition f hf h).1.unencodable fun x hx => noTime_unencodable (by decide) (hx ▸ hb)
  · exact (hasTransition f hf h).2.unencodable fun x hx => noDelay_unencodable (hx ▸ hb)
  · obtain ⟨max, h1, hmax⟩ := hasRemaining f hf h
    exact h1.unencodable fun x hx => noTime_unencodable hmax (hx ▸ hb)

/-! ### Parsing -/

/-- `it` reads `n` bytes and reports the fields `ks`, if there are that many and they are valid; it fails otherwise. -/
def ReadsIf (P : List UInt8 → Bool) (it : Item UInt8) (n : Nat) (ks : List String) : Prop :=
  ∀ (L : Lib) (acc : Dict) (s : List UInt8),
    (n ≤ s.length → P s = true → ∃ d, it.parse L acc s = .ok (dmerge acc d, s.drop n) ∧ dkeys d = ks) ∧
    (s.length < n ∨ P s = false → ∃ e, it.parse L acc s = .error e ∧ e ≠ .diverge)

/-- The same for consecutive members. -/
def ReadsIs (P : List UInt8 → Bool) (its : List (Item UInt8)) (n : Nat) (ks : List String) : Prop :=
  ∀ (L : Lib) (acc : Dict) (s : List UInt8),
    (n ≤ s.length → P s = true → ∃ d, parseItems L its acc s = .ok (dmerge acc d, s.drop n) ∧ dkeys d = ks) ∧
    (s.length < n ∨ P s = false → ∃ e, parseItems L its acc s = .error e ∧ e ≠ .diverge)

/-- A construct that reads `n` bytes if there are that many and they are valid, and fails otherwise. -/
def ReadsC (P : List UInt8 → Bool) (c : Con UInt8) (n : Nat) : Prop :=
  ∀ (L : Lib) (ctx : Dict) (s : List UInt8),
    (n ≤ s.length → P s = true → ∃ v, c.parse L ctx s = .ok (v, s.drop n)) ∧
    (s.length < n ∨ P s = false → ∃ e, c.parse L ctx s = .error e ∧ e ≠ .diverge)

abbrev always : List UInt8 → Bool := fun _ => true

theorem readsIs_nil : ReadsIs always [] 0 [] := by
  intro L acc s
  exact ⟨fun _ _ => ⟨[], rfl, rfl⟩, fun h => by rcases h with h | h <;> simp at h⟩

theorem ReadsIf.cons {P it its n m ks ks'} (h : ReadsIf P it n ks) (hs : ReadsIs always its m ks') : ReadsIs P (it :: its) (n + m) (ks ++ ks') := by
  intro L acc s
  obtain ⟨h1, h2⟩ := h L acc s
  constructor
  · intro hn hP
    obtain ⟨d, hd, hk⟩ := h1 (by omega) hP
    obtain ⟨d', hd', hk'⟩ := (hs L (dmerge acc d) (s.drop n)).1 (by simp; omega) rfl
    refine ⟨d ++ d', ?_, by simp [dkeys_append, hk, hk']⟩
    simp [parseItems, hd, hd', dmerge_append]
  · intro hn
    by_cases hh : s.length < n ∨ P s = false
    · obtain ⟨e, he, hd⟩ := h2 hh
      exact ⟨e, by simp [parseItems, he], hd⟩
    · simp only [not_or, Bool.not_eq_false, not_lt] at hh
      obtain ⟨d, hd, hk⟩ := h1 hh.1 hh.2
      have : s.length < n + m := by
        rcases hn with h | h
        · exact h
        · rw [hh.2] at h; cases h
      obtain ⟨e, he, hde⟩ := (hs L (dmerge acc d) (s.drop n)).2 (.inl (by simp; omega))
      exact ⟨e, by simp [parseItems, hd, he], hde⟩

theorem ReadsC.field {P c n} (k : String) (h : ReadsC P c n) : ReadsIf P (field k c) n [k] := by
  intro L acc s
  constructor
  · intro hn hP
    obtain ⟨v, hv⟩ := (h L acc s).1 hn hP
    exact ⟨[(k, v)], by simp [BM.field, hv, dmerge], rfl⟩
  · intro hn
    obtain ⟨e, he, hd⟩ := (h L acc s).2 hn
    exact ⟨e, by simp [BM.field, he], hd⟩

theorem ReadsIs.embedded {P its n ks} (h : ReadsIs P its n ks) (hk : ks.Nodup) : ReadsIf P (embedded its) n ks := by
  intro L acc s
  constructor
  · intro hn hP
    obtain ⟨d, hd, hks⟩ := (h L [] s).1 hn hP
    refine ⟨d, ?_, hks⟩
    rw [dmerge_nil_of_nodup d (by rw [hks]; exact hk)] at hd
    simp [BM.embedded, hd]
  · intro hn
    obtain ⟨e, he, hd⟩ := (h L [] s).2 hn
    exact ⟨e, by simp [BM.embedded, he], hd⟩

theorem readsC_uint (n : Nat) : ReadsC always (uintLE n) n := by
  intro L ctx s
  constructor
  · intro hn _
    have := takeN_append (b := s.take n) (n := n) (rest := s.drop n) (by simp [hn])
    rw [List.take_append_drop] at this
    exact ⟨_, by simp [uintLE, this]; rfl⟩
  · intro h
    rcases h with h | h
    · exact ⟨.stream, by simp [uintLE, takeN_short h], by simp⟩
    · cases h

theorem readsC_sint (n : Nat) : ReadsC always (sintLE n) n := by
  intro L ctx s
  constructor
  · intro hn _
    have := takeN_append (b := s.take n) (n := n) (rest := s.drop n) (by simp [hn])
    rw [List.take_append_drop] at this
    exact ⟨_, by simp [sintLE, this]; rfl⟩
  · intro h
    rcases h with h | h
    · exact ⟨.stream, by simp [sintLE, takeN_short h], by simp⟩
    · cases h

theorem readsC_tt (unk : Bool) : ReadsC always (BM.transitionTime unk) 1 := by
  intro L ctx s
  match s with
  | [] => exact ⟨fun h => by simp at h, fun _ => ⟨.stream, rfl, by simp⟩⟩
  | x :: s =>
    refine ⟨fun _ _ => ?_, fun h => by simp at h⟩
    obtain ⟨v, q, h, -⟩ := C14_decode unk L ctx x s
    exact ⟨v, h⟩

theorem readsC_delay : ReadsC always BM.delay 1 := by
  intro L ctx s
  match s with
  | [] => exact ⟨fun h => by simp at h, fun _ => ⟨.stream, rfl, by simp⟩⟩
  | x :: s => exact ⟨fun _ _ => ⟨_, C15_decode L ctx x s⟩, fun h => by simp at h⟩

theorem readsC_sceneNumber : ReadsC sceneNumberValid Scene.sceneNumber 2 := by
  intro L ctx s
  constructor
  · intro hn hP
    have := takeN_append (b := s.take 2) (n := 2) (rest := s.drop 2) (by simp [hn])
    rw [List.take_append_drop] at this
    have h0 : 0 < leNat (s.take 2) := by simp [sceneNumberValid] at hP; omega
    refine ⟨.int (leNat (s.take 2)), ?_⟩
    simp [Scene.sceneNumber, validator, adapter, uintLE, this, asNum, asInt, h0]
  · intro h
    by_cases hn : s.length < 2
    · exact ⟨.stream, by simp [Scene.sceneNumber, validator, adapter, uintLE, takeN_short hn], by simp⟩
    · have hP : sceneNumberValid s = false := by rcases h with h | h; · omega
                                                 · exact h
      have := takeN_append (b := s.take 2) (n := 2) (rest := s.drop 2) (by simp; omega)
      rw [List.take_append_drop] at this
      have h0 : leNat (s.take 2) = 0 := by simpa [sceneNumberValid] using hP
      exact ⟨.validation, by simp [Scene.sceneNumber, validator, adapter, uintLE, this, asNum, asInt, h0], by simp⟩

theorem readsC_sceneStatus : ReadsC sceneStatusValid Scene.statusCode 1 := by
  intro L ctx s
  match s with
  | [] => exact ⟨fun h => by simp at h, fun _ => ⟨.stream, rfl, by simp⟩⟩
  | x :: s =>
    have hv : sceneStatusValid (x :: s) = decide (x.toNat ≤ 2) := by simp [sceneStatusValid, leNat]
    have hh : E.SceneStatusCode.has (x.toNat : Int) = decide (x.toNat ≤ 2) := by
      simp only [EnumDef.has, E.SceneStatusCode, List.any_cons, List.any_nil, Bool.or_false]
      rw [Bool.eq_iff_iff]
      simp only [Bool.or_eq_true, beq_iff_eq, decide_eq_true_eq]
      omega
    have hp : Scene.statusCode.parse L ctx (x :: s) = (do let v ← enumDecode E.SceneStatusCode (.int x.toNat); .ok (v, s)) := by
      simp [Scene.statusCode, enumAdapter, adapter, uintLE, takeN_one, leNat]
    rw [hp]
    simp only [enumDecode, hashInt, asInt, hh, hv]
    constructor
    · intro _ h
      rw [h]
      exact ⟨_, rfl⟩
    · intro h
      have h : decide (x.toNat ≤ 2) = false := by rcases h with h | h; · simp at h
                                                  · exact h
      rw [h]
      exact ⟨.validation, rfl, by simp⟩

macro "reads" : tactic => `(tactic| repeat' with_reducible first
  | exact readsIs_nil | exact readsC_uint _ | exact readsC_sint _ | exact readsC_tt _ | exact readsC_delay | exact readsC_sceneNumber
  | exact readsC_sceneStatus | apply ReadsIf.cons | apply ReadsC.field | apply ReadsIs.embedded | with_unfolding_all decide)

theorem ReadsIs.cast {P P' its n n' ks ks'} (h : ReadsIs P its n ks) (hP : P = P') (hn : n = n') (hk : ks = ks') : ReadsIs P' its n' ks' := by
  subst hP hn hk; exact h

macro "readsall" : tactic => `(tactic| (apply ReadsIs.cast; (· reads); (· rfl); (· rfl); (· rfl)))

/-- What is read from the payload `s` of a message with two forms: the long form if there are enough bytes for it (whatever follows), else
the short form if there are enough bytes for that (even if some bytes of the long form follow), else nothing. -/
def TwoForms (f : Form) (cls : String) (res : R (Val × List UInt8)) (s : List UInt8) : Prop :=
  (f.longSize ≤ s.length → f.valid s = true → ∃ d, res = .ok (.dict [("opcode", .enum cls f.op), (f.name, .dict d)], s.drop f.longSize) ∧
    dkeys d = f.long.flatMap RI.keys ++ ["_name"] ∧ dget d "_name" = some (.str "optional")) ∧
  (f.shortSize ≤ s.length → s.length < f.longSize → f.valid s = true →
    ∃ d, res = .ok (.dict [("opcode", .enum cls f.op), (f.name, .dict d)], s.drop f.shortSize) ∧
      dkeys d = f.short.flatMap RI.keys ++ ["_name"] ∧ dget d "_name" = some (.str "minimal")) ∧
  (s.length < f.shortSize ∨ f.valid s = false → ∃ e, res = .error e)

theorem struct_named {P its n ks} (hk : (ks ++ ["_name"]).Nodup) (h : ReadsIs P its n ks) (name : String) (L ctx s) :
    (n ≤ s.length → P s = true → ∃ d, (nameAdapter name (struct its)).parse L ctx s = .ok (.dict d, s.drop n) ∧ dkeys d = ks ++ ["_name"] ∧
      dget d "_name" = some (.str name)) ∧
    (s.length < n ∨ P s = false → ∃ e, (nameAdapter name (struct its)).parse L ctx s = .error e ∧ e ≠ .diverge) := by
  obtain ⟨h1, h2⟩ := h L [] s
  have hn := List.nodup_append.1 hk
  constructor
  · intro hl hP
    obtain ⟨d, hd, hks⟩ := h1 hl hP
    rw [dmerge_nil_of_nodup d (by rw [hks]; exact hn.1)] at hd
    have hnk : "_name" ∉ dkeys d := by rw [hks]; intro hm; exact hn.2.2 _ hm _ (by simp) rfl
    refine ⟨dset d "_name" (.str name), by simp [nameAdapter, struct_parse, hd], ?_, dget_dset_self ..⟩
    rw [dset_of_not_mem _ _ _ hnk]
    rw [dkeys_append, hks]; rfl
  · intro hl
    obtain ⟨e, he, hd⟩ := h2 hl
    exact ⟨e, by simp [nameAdapter, struct_parse, he], hd⟩

theorem twoForms [Platform] {e : Entry} (he : e ∈ registry) {N : String} {f : Form} (hN : (N, (f.op : Int)) ∈ e.1.members) (hl : lower N = f.name)
    {its₁ its₂ : List (Item UInt8)} (hc : findCase f.op e.2 = some (optionalMinimal its₁ its₂))
    (h1 : ReadsIs f.valid its₁ f.longSize (f.long.flatMap RI.keys)) (h2 : ReadsIs f.valid its₂ f.shortSize (f.short.flatMap RI.keys))
    (hk1 : (f.long.flatMap RI.keys ++ ["_name"]).Nodup) (hk2 : (f.short.flatMap RI.keys ++ ["_name"]).Nodup) (hlt : f.shortSize < f.longSize)
    (L : Lib) (s : List UInt8) :
    TwoForms f e.1.cls (accessParse registry L (wireOpcode f.op ++ s)) s := by
  have hp := C04_parse he hN L s
  rw [hc, Option.getD_some, hl] at hp
  obtain ⟨a1, a2⟩ := struct_named hk1 h1 "optional" L [("opcode", .enum e.1.cls f.op)] s
  obtain ⟨b1, b2⟩ := struct_named hk2 h2 "minimal" L [("opcode", .enum e.1.cls f.op)] s
  rw [hp]
  refine ⟨?_, ?_, ?_⟩
  · intro hn hv
    obtain ⟨d, hd, hk⟩ := a1 hn hv
    exact ⟨d, by simp [optionalMinimal, namedSelect, select, selectParse, hd], hk⟩
  · intro hn hn' hv
    obtain ⟨e, he, hde⟩ := a2 (.inl hn')
    obtain ⟨d, hd, hk⟩ := b1 hn hv
    exact ⟨d, by simp [optionalMinimal, namedSelect, select, selectParse, hd, he, hde], hk⟩
  · intro hn
    obtain ⟨e, he, hde⟩ := a2 (hn.imp_left fun h => by omega)
    obtain ⟨e', he', hde'⟩ := b2 hn
    exact ⟨.select, by simp [optionalMinimal, namedSelect, select, selectParse, he, hde, he', hde']⟩

/-- **C16 (parsing).** The number of bytes received decides which form is read. -/
theorem C16_parse [Platform] {f : Form} (hf : f ∈ forms) : ∃ cls, ∀ (L : Lib) (s : List UInt8),
    TwoForms f cls (accessParse registry L (wireOpcode f.op ++ s)) s := by
  have e1 : (E.GenericOnOffOpcode, genericOnOffCases) ∈ registry := by inreg
  have e2 : (E.GenericLevelOpcode, genericLevelCases) ∈ registry := by inreg
  have e3 : (E.LightLightnessOpcode, lightLightnessCases) ∈ registry := by inreg
  have e4 : (E.LightCTLOpcode, lightCTLCases) ∈ registry := by inreg
  have e5 : (E.SceneOpcode, sceneCases) ∈ registry := by inreg
  simp only [forms, List.mem_append] at hf
  rcases hf with hf | hf | hf | hf | hf
  · refine ⟨"GenericOnOffOpcode", fun L s => ?_⟩
    simp only [onoffForms, List.mem_cons, List.not_mem_nil, or_false] at hf
    rcases hf with rfl | rfl | rfl
    · exact twoForms (N := "GENERIC_ONOFF_SET") e1 (by simp [E.GenericOnOffOpcode]) (by decide) rfl (by readsall) (by readsall) (by decide) (by decide) (by decide) L s
    · exact twoForms (N := "GENERIC_ONOFF_SET_UNACKNOWLEDGED") e1 (by simp [E.GenericOnOffOpcode]) (by decide) rfl (by readsall) (by readsall) (by decide) (by decide) (by decide) L s
    · exact twoForms (N := "GENERIC_ONOFF_STATUS") e1 (by simp [E.GenericOnOffOpcode]) (by decide) rfl (by readsall) (by readsall) (by decide) (by decide) (by decide) L s
  · refine ⟨"GenericLevelOpcode", fun L s => ?_⟩
    simp only [levelForms, List.mem_cons, List.not_mem_nil, or_false] at hf
    rcases hf with rfl | rfl | rfl | rfl | rfl | rfl | rfl
    · exact twoForms (N := "GENERIC_LEVEL_SET") e2 (by simp [E.GenericLevelOpcode]) (by decide) rfl (by readsall) (by readsall) (by decide) (by decide) (by decide) L s
    · exact twoForms (N := "GENERIC_LEVEL_SET_UNACKNOWLEDGED") e2 (by simp [E.GenericLevelOpcode]) (by decide) rfl (by readsall) (by readsall) (by decide) (by decide) (by decide) L s
    · exact twoForms (N := "GENERIC_LEVEL_STATUS") e2 (by simp [E.GenericLevelOpcode]) (by decide) rfl (by readsall) (by readsall) (by decide) (by decide) (by decide) L s
    · exact twoForms (N := "GENERIC_DELTA_SET") e2 (by simp [E.GenericLevelOpcode]) (by decide) rfl (by readsall) (by readsall) (by decide) (by decide) (by decide) L s
    · exact twoForms (N := "GENERIC_DELTA_SET_UNACKNOWLEDGED") e2 (by simp [E.GenericLevelOpcode]) (by decide) rfl (by readsall) (by readsall) (by decide) (by decide) (by decide) L s
    · exact twoForms (N := "GENERIC_MOVE_SET") e2 (by simp [E.GenericLevelOpcode]) (by decide) rfl (by readsall) (by readsall) (by decide) (by decide) (by decide) L s
    · exact twoForms (N := "GENERIC_MOVE_SET_UNACKNOWLEDGED") e2 (by simp [E.GenericLevelOpcode]) (by decide) rfl (by readsall) (by readsall) (by decide) (by decide) (by decide) L s
  · refine ⟨"LightLightnessOpcode", fun L s => ?_⟩
    simp only [lightnessForms, List.mem_cons, List.not_mem_nil, or_false] at hf
    rcases hf with rfl | rfl | rfl | rfl | rfl | rfl
    · exact twoForms (N := "LIGHT_LIGHTNESS_SET") e3 (by simp [E.LightLightnessOpcode]) (by decide) rfl (by readsall) (by readsall) (by decide) (by decide) (by decide) L s
    · exact twoForms (N := "LIGHT_LIGHTNESS_SET_UNACKNOWLEDGED") e3 (by simp [E.LightLightnessOpcode]) (by decide) rfl (by readsall) (by readsall) (by decide) (by decide) (by decide) L s
    · exact twoForms (N := "LIGHT_LIGHTNESS_STATUS") e3 (by simp [E.LightLightnessOpcode]) (by decide) rfl (by readsall) (by readsall) (by decide) (by decide) (by decide) L s
    · exact twoForms (N := "LIGHT_LIGHTNESS_LINEAR_SET") e3 (by simp [E.LightLightnessOpcode]) (by decide) rfl (by readsall) (by readsall) (by decide) (by decide) (by decide) L s
    · exact twoForms (N := "LIGHT_LIGHTNESS_LINEAR_SET_UNACKNOWLEDGED") e3 (by simp [E.LightLightnessOpcode]) (by decide) rfl (by readsall) (by readsall) (by decide) (by decide) (by decide) L s
    · exact twoForms (N := "LIGHT_LIGHTNESS_LINEAR_STATUS") e3 (by simp [E.LightLightnessOpcode]) (by decide) rfl (by readsall) (by readsall) (by decide) (by decide) (by decide) L s
  · refine ⟨"LightCTLOpcode", fun L s => ?_⟩
    simp only [ctlForms, List.mem_cons, List.not_mem_nil, or_false] at hf
    rcases hf with rfl | rfl | rfl | rfl | rfl | rfl
    · exact twoForms (N := "LIGHT_CTL_SET") e4 (by simp [E.LightCTLOpcode]) (by decide) rfl (by readsall) (by readsall) (by decide) (by decide) (by decide) L s
    · exact twoForms (N := "LIGHT_CTL_SET_UNACKNOWLEDGED") e4 (by simp [E.LightCTLOpcode]) (by decide) rfl (by readsall) (by readsall) (by decide) (by decide) (by decide) L s
    · exact twoForms (N := "LIGHT_CTL_STATUS") e4 (by simp [E.LightCTLOpcode]) (by decide) rfl (by readsall) (by readsall) (by decide) (by decide) (by decide) L s
    · exact twoForms (N := "LIGHT_CTL_TEMPERATURE_SET") e4 (by simp [E.LightCTLOpcode]) (by decide) rfl (by readsall) (by readsall) (by decide) (by decide) (by decide) L s
    · exact twoForms (N := "LIGHT_CTL_TEMPERATURE_SET_UNACKNOWLEDGED") e4 (by simp [E.LightCTLOpcode]) (by decide) rfl (by readsall) (by readsall) (by decide) (by decide) (by decide) L s
    · exact twoForms (N := "LIGHT_CTL_TEMPERATURE_STATUS") e4 (by simp [E.LightCTLOpcode]) (by decide) rfl (by readsall) (by readsall) (by decide) (by decide) (by decide) L s
  · refine ⟨"SceneOpcode", fun L s => ?_⟩
    simp only [sceneForms, List.mem_cons, List.not_mem_nil, or_false] at hf
    rcases hf with rfl | rfl | rfl
    · exact twoForms (N := "SCENE_RECALL") e5 (by simp [E.SceneOpcode]) (by decide) rfl (by readsall) (by readsall) (by decide) (by decide) (by decide) L s
    · exact twoForms (N := "SCENE_RECALL_UNACKNOWLEDGED") e5 (by simp [E.SceneOpcode]) (by decide) rfl (by readsall) (by readsall) (by decide) (by decide) (by decide) L s
    · exact twoForms (N := "SCENE_STATUS") e5 (by simp [E.SceneOpcode]) (by decide) rfl (by readsall) (by readsall) (by decide) (by decide) (by decide) L s

/-! ### Sensor Get -/

/-- **C16 (Sensor Get).** A Sensor Get is read with its property identifier if two bytes are present, without it otherwise; it is never
rejected. -/
theorem C16_sensor_get [Platform] (L : Lib) (s : List UInt8) :
    accessParse registry L (0x82 :: 0x31 :: s) = .ok (.dict [("opcode", .enum "SensorOpcode" 0x8231), ("sensor_get",
      .dict (if 2 ≤ s.length then [("property_id", idValue (s.take 2)), ("_name", .str "optional")] else [("_name", .str "minimal")]))],
      if 2 ≤ s.length then s.drop 2 else s) := by
  have he : (E.SensorOpcode, sensorCases) ∈ registry := by inreg
  have h2 : ("SENSOR_GET", ((0x8231 : Nat) : Int)) ∈ E.SensorOpcode.members := by simp [E.SensorOpcode]
  have := C04_parse he h2 L s
  have hc : findCase (0x8231 : Nat) sensorCases = some Sensor.get := rfl
  rw [show wireOpcode 0x8231 = [0x82, 0x31] from rfl, hc] at this
  simp only [List.cons_append, List.nil_append] at this
  rw [this, Option.getD_some]
  obtain ⟨r1, r2⟩ := readsAll_propertyId L []
  by_cases h : 2 ≤ s.length
  · have := r1 (s.take 2) (s.drop 2) (by simp [h])
    rw [List.take_append_drop] at this
    have hn : ∀ ctx, (nameAdapter "optional" (struct Sensor.getOptional)).parse L ctx s =
        .ok (.dict [("property_id", idValue (s.take 2)), ("_name", .str "optional")], s.drop 2) := by
      intro ctx
      simp only [nameAdapter, struct_parse, Sensor.getOptional, parseItems, field, this, ok_bind]
      rfl
    simp only [if_pos h]
    rw [show Sensor.get.parse = fun L ctx s => selectParse L ctx [nameAdapter "optional" (struct Sensor.getOptional),
      nameAdapter "minimal" (struct Sensor.getMinimal)] s from rfl]
    simp only [selectParse, hn, ok_bind]
    rfl
  · obtain ⟨e, he, hd⟩ := r2 s (by omega)
    have hn : ∀ ctx, (nameAdapter "optional" (struct Sensor.getOptional)).parse L ctx s = .error e := by
      intro ctx
      simp only [nameAdapter, struct_parse, Sensor.getOptional, parseItems, field, he, error_bind]
    simp only [if_neg h]
    rw [show Sensor.get.parse = fun L ctx s => selectParse L ctx [nameAdapter "optional" (struct Sensor.getOptional),
      nameAdapter "minimal" (struct Sensor.getMinimal)] s from rfl]
    simp only [selectParse, hn, if_neg hd]
    rfl

/-! ### Examples -/

/-- A Generic Level Set with a transition time of an hour and a delay of 50 ms can be written in the long form. -/
example : ∃ f ∈ forms, f.name = "generic_level_set" ∧ ∃ b v, record f.long (.dict [("level", .int (-2)), ("tid", .int 7),
    ("transition_time", .int 3600), ("delay", .int 0)]) b v := by
  let o : Dict := [("level", .int (-2)), ("tid", .int 7), ("transition_time", .int 3600), ("delay", .int 0)]
  have h1 : sint 2 (.int (-2)) [254, 255] (.int (-2)) := ⟨-2, rfl, rfl, by decide, rfl⟩
  have h2 : uint 1 (.int 7) [7] (.int 7) := ⟨7, rfl, trivial, rfl, rfl, rfl⟩
  have h3 : F.transitionTime 62 (.int 3600) [198] (ttValue 3 6) :=
    ⟨3600, 3, 6, by decide +kernel, by decide, by decide +kernel, by decide +kernel, by decide +kernel, by decide +kernel, rfl, rfl⟩
  have h4 : F.delay (.int 0) [0] (.flt (fdiv (0 : Nat) 200)) := ⟨0, 0, by decide +kernel, by decide +kernel, by decide, rfl, rfl⟩
  exact ⟨setForm 0x8206 "generic_level_set" [s16 "level", tid] 3, by simp [forms, levelForms], rfl, [254, 255, 7, 198, 0], _,
    record_mk (du := o) (seq_cons (r := embed [s16 "level", tid]) (b₁ := [254, 255, 7]) (b₂ := [198, 0])
      (seq_cons (b₁ := [254, 255]) (b₂ := [7]) (fld_mk rfl h1) (seq_one (fld_mk rfl h2)))
      (seq_one (r := embed [transition, delayMs]) (seq_cons (b₁ := [198]) (b₂ := [0]) (fld_mk rfl h3) (seq_one (fld_mk rfl h4)))))⟩

/-- One with an impossible transition time is written in the short form. -/
example : NoTime (dget [("level", .int (-2)), ("tid", .int 7), ("transition_time", .int 40000), ("delay", .int 0)] "transition_time") := by
  intro y hy q hq
  cases hy; cases hq
  norm_num

/-- One with the transition time given as a string as well. -/
example : NoTime (dget [("level", .int (-2)), ("tid", .int 7), ("transition_time", .str "1"), ("delay", .int 0)] "transition_time") := by
  intro y hy q hq
  cases hy; cases hq

end BM.Props
