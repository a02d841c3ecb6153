import Verif.Props.Access
import Verif.Props.Coverage
import Verif.Props.Opcodes
import Verif.Witness
/-!
# C46: what is sent determines the message, and exactly the specified payloads are accepted
-/
namespace BM.Props
open Tables F Spec
variable [Platform]

set_option maxRecDepth 100000 in
set_option maxHeartbeats 4000000 in
theorem subs_by_opcode : ((Spec.messages ++ Spec.bare).all fun m => m.sub.isSome ==
    [0xF53601, 0xEA3601, 0xE93601, 0xF03601, 0xF63601, 0xFC3601, 0xFD3601, 0xE83601].contains m.op) = true := by
  with_unfolding_all exact (Eq.refl true)

/-- **C46 (unambiguous formats).** If two specified messages have the same bytes then they are of the same type, with the same sub-opcode,
and mean the same: the specification reports the same value for both. -/
theorem C46_formats {m₁ m₂ : MsgSpec} (h₁ : m₁ ∈ Spec.messages ++ Spec.bare) (h₂ : m₂ ∈ Spec.messages ++ Spec.bare) {u₁ u₂ b₁ b₂ v₁ v₂}
    (f₁ : m₁.fmt u₁ b₁ v₁) (f₂ : m₂.fmt u₂ b₂ v₂) (h : header m₁ ++ b₁ = header m₂ ++ b₂) :
    m₁.op = m₂.op ∧ m₁.name = m₂.name ∧ m₁.sub.map Sub.num = m₂.sub.map Sub.num ∧ v₁ = v₂ ∧ b₁ = b₂ := by
  let L : Lib := ⟨fun _ _ _ => .error .value, fun _ _ _ => .error .value, fun _ _ _ => ⟨_, rfl⟩, fun _ _ _ => ⟨_, rfl⟩⟩
  have read : ∀ {m : MsgSpec} (hm : m ∈ Spec.messages ++ Spec.bare) {u b v}, m.fmt u b v →
      ∃ cls scls, accessParse registry L (header m ++ b) = .ok (report m cls scls v, []) := by
    intro m hm u b v hf
    obtain ⟨c, cls, scls, hM, hb⟩ := (served_either m hm).parse registry_ok
    obtain ⟨ctx, hb⟩ := hb L b
    have := hM.dec hf L ctx [] (by simp)
    rw [List.append_nil] at this
    exact ⟨cls, scls, by rw [hb, this]⟩
  obtain ⟨c₁, s₁, r₁⟩ := read h₁ f₁
  obtain ⟨c₂, s₂, r₂⟩ := read h₂ f₂
  rw [h, r₂] at r₁
  simp only [Except.ok.injEq, Prod.mk.injEq, and_true, report, Val.dict.injEq, List.cons.injEq, Val.enum.injEq, true_and] at r₁
  obtain ⟨⟨-, hop⟩, hname, hv⟩ := r₁
  have hop : m₁.op = m₂.op := by exact_mod_cast hop.symm
  have hsome : m₁.sub.isSome = m₂.sub.isSome := by
    have a := List.all_eq_true.1 subs_by_opcode m₁ h₁
    have b := List.all_eq_true.1 subs_by_opcode m₂ h₂
    rw [beq_iff_eq] at a b
    rw [a, b, hop]
  have hsub : m₁.sub.map Sub.num = m₂.sub.map Sub.num ∧ v₁ = v₂ := by
    cases hs₁ : m₁.sub with
    | none =>
      cases hs₂ : m₂.sub with
      | none => rw [hs₁, hs₂] at hv; exact ⟨rfl, hv.symm⟩
      | some x₂ => rw [hs₁, hs₂] at hsome; cases hsome
    | some x₁ =>
      cases hs₂ : m₂.sub with
      | none => rw [hs₁, hs₂] at hsome; cases hsome
      | some x₂ =>
        rw [hs₁, hs₂] at hv
        simp only [Val.dict.injEq, List.cons.injEq, Prod.mk.injEq, Val.enum.injEq, true_and, and_true] at hv
        obtain ⟨⟨-, h1⟩, h2, h3⟩ := hv
        exact ⟨by simp only [Option.map_some, Option.some.injEq]; exact_mod_cast h1.symm, h3.symm⟩
  refine ⟨hop, hname.symm, hsub.1, hsub.2, ?_⟩
  unfold header at h
  rw [hop] at h
  simp only [List.append_assoc, List.append_cancel_left_eq] at h
  cases hs₁ : m₁.sub <;> cases hs₂ : m₂.sub <;> rw [hs₁, hs₂] at hsub h <;> simp at hsub h
  · exact h
  · exact h.2

/-- **C46 (unambiguous messages).** If two objects are built to the same bytes then their messages are of the same type and sub-opcode, and
their payloads are specified encodings of the same value.  (Provided the library rejects integers that do not fit their field, and apart
from the objects excluded from C08.) -/
theorem C46_objects {m₁ m₂ : MsgSpec} (h₁ : m₁ ∈ Spec.messages) (h₂ : m₂ ∈ Spec.messages) {L : Lib} (hL : L.Strict) {d₁ d₂ : Dict} {k₁ k₂ u₁ u₂ o₁ o₂ : Val}
    {bs : List UInt8} (hk₁ : dget d₁ "opcode" = some k₁) (hs₁ : Spells m₁ k₁) (hp₁ : payload m₁ d₁ = some u₁) (ho₁ : ¬ m₁.odd u₁)
    (hk₂ : dget d₂ "opcode" = some k₂) (hs₂ : Spells m₂ k₂) (hp₂ : payload m₂ d₂ = some u₂) (ho₂ : ¬ m₂.odd u₂)
    (hb₁ : accessBuild registry L (.dict d₁) = .ok (bs, o₁)) (hb₂ : accessBuild registry L (.dict d₂) = .ok (bs, o₂)) :
    m₁.op = m₂.op ∧ m₁.sub.map Sub.num = m₂.sub.map Sub.num ∧ ∃ b v, bs = header m₁ ++ b ∧ m₁.fmt u₁ b v ∧ m₂.fmt u₂ b v := by
  obtain ⟨b₁, v₁, f₁, e₁⟩ := C08_build_sound h₁ hL hk₁ hs₁ hp₁ hb₁ ho₁
  obtain ⟨b₂, v₂, f₂, e₂⟩ := C08_build_sound h₂ hL hk₂ hs₂ hp₂ hb₂ ho₂
  obtain ⟨a1, -, a3, rfl, rfl⟩ := C46_formats (List.mem_append_left _ h₁) (List.mem_append_left _ h₂) f₁ f₂ (e₁.symm.trans e₂)
  exact ⟨a1, a3, b₁, v₁, e₁, f₁, f₂⟩

/-- **C46 (the opcode is sent).** Whatever is built for a registered opcode, given by number, member or name, begins with the bytes of that
opcode, and with no others: a receiver reads the opcode that the object names. -/
theorem C46_opcode {e : Entry} (he : e ∈ registry) {N : String} {n : Nat} (hN : (N, (n : Int)) ∈ e.1.members) {L : Lib} {d : Dict} {k o : Val}
    {bs : List UInt8} (hk : dget d "opcode" = some k) (hs : hashInt k = some (n : Int) ∨ k = .str N) (h : accessBuild registry L (.dict d) = .ok (bs, o))
    {n' : Nat} (hw : WellFormed n') {s : List UInt8} (hb : bs = wireOpcode n' ++ s) : n' = n := by
  have hne : lower N ≠ "opcode" := fun hx => C04_keys.2.1 (by
    rw [← registry_enums]
    refine List.mem_flatMap.2 ⟨e.1, List.mem_map.2 ⟨e, he, rfl⟩, List.mem_map.2 ⟨_, hN, hx⟩⟩)
  have hw' : WellFormed n := by
    obtain ⟨j, hj, hw⟩ := C02_well_formed e.1 (by rw [← registry_enums]; exact List.mem_map.2 ⟨e, he, rfl⟩) _ hN
    have hj' : (n : Int) = (j : Int) := hj
    have : j = n := by exact_mod_cast hj'.symm
    exact this ▸ hw
  have := C04_build he hN hne L hk hs
  rw [h] at this
  split at this
  · cases this
  · rename_i u hu
    cases hc : ((findCase n e.2).getD passC).build L [("opcode", .enum e.1.cls n), ("params", u)] u with
    | error x => rw [hc] at this; cases this
    | ok r =>
      rw [hc] at this
      simp only [Except.map, Except.ok.injEq] at this
      rw [hb] at this
      exact (C01_prefix_free hw hw' this).1

/-- **C46 (exactly the specified payloads).** A byte string is read completely as a lossless message if and only if its payload is a
specified encoding. -/
theorem C46_accepted {m : MsgSpec} (hm : m ∈ Spec.lossless) (L : Lib) (s : List UInt8) :
    (∃ x, accessParse registry L (header m ++ s) = .ok (x, [])) ↔ ∃ u v, m.fmt u s v := by
  obtain ⟨c, cls, scls, hM, hb⟩ := (served_lossless m hm).parse registry_ok
  obtain ⟨ctx, hb⟩ := hb L s
  rw [hb]
  constructor
  · rintro ⟨x, hx⟩
    split at hx
    · rename_i v rest hv
      simp only [Except.ok.injEq, Prod.mk.injEq] at hx
      obtain ⟨rfl, rfl⟩ := hx
      obtain ⟨b, hs, hG⟩ := hM.exact trivial hv
      rw [List.append_nil] at hs
      subst hs
      exact ⟨_, _, hG⟩
    · cases hx
  · rintro ⟨u, v, hf⟩
    have := hM.dec hf L ctx [] (by simp)
    rw [List.append_nil] at this
    exact ⟨_, by rw [this]⟩

/-- **C46 (fixed sizes).** A lossless message of a fixed size is accepted if and only if there are at least that many bytes of payload and they
are a specified encoding; in particular nothing shorter is accepted. -/
theorem C46_accepted_sized {m : MsgSpec} (hm : m ∈ Spec.lossless) {n : Nat} (hn : m.size = some n) (L : Lib) (s : List UInt8) :
    (∃ x rest, accessParse registry L (header m ++ s) = .ok (x, rest)) ↔ n ≤ s.length ∧ ∃ u v, m.fmt u (s.take n) v := by
  constructor
  · rintro ⟨x, rest, hx⟩
    obtain ⟨h1, h2, h3⟩ := C29_parse_size hm hn L hx
    have := h3 []
    rw [List.append_nil] at this
    exact ⟨h1, (C46_accepted hm L _).1 ⟨_, this⟩⟩
  · rintro ⟨-, u, v, hf⟩
    have hmem : m ∈ Spec.messages ++ Spec.bare := List.mem_append_left _ (List.mem_append_left _ (List.mem_append_left _ hm))
    obtain ⟨-, cls, scls, h⟩ := C31_trailing hmem hn hf L (s.drop n)
    rw [List.take_append_drop] at h
    exact ⟨_, _, h⟩

/-! Examples: a beacon set message (one byte, 0 or 1) is accepted with bytes after it, nothing is accepted for the value 2 or for no payload;
the premises of `C46_objects` are met by two different spellings of one message, of which C46 says that they mean the same. -/

example : ∃ m ∈ Spec.lossless, m.op = 0x800A ∧ m.size = some 1 ∧ header m ++ [1, 0x55] = [0x80, 0x0A, 1, 0x55] :=
  ⟨_, List.mem_append_left _ (List.mem_of_getElem? (i := 5) rfl), rfl, rfl, by decide⟩

theorem beacon_parse (L : Lib) (s : List UInt8) : accessParse registry L ([0x80, 0x0A] ++ s) =
    (do let (v, rest) ← ((findCase 0x800A configCases).getD passC).parse L [("opcode", .enum E.ConfigOpcode.cls 0x800A)] s
        .ok (.dict [("opcode", .enum E.ConfigOpcode.cls 0x800A), (lower "CONFIG_BEACON_SET", v)], rest)) :=
  C04_parse (e := (E.ConfigOpcode, configCases)) (N := "CONFIG_BEACON_SET") (n := 0x800A) (by inreg) (by dsimp only; decide +kernel) L s

example (L : Lib) : ((accessParse registry L ([0x80, 0x0A] ++ [1, 0x55])).map Prod.snd).toOption = some [0x55] := by
  rw [beacon_parse]; with_unfolding_all rfl
example (L : Lib) : (accessParse registry L ([0x80, 0x0A] ++ [2, 0x55])).toOption.isSome = false := by rw [beacon_parse]; with_unfolding_all rfl
example (L : Lib) : (accessParse registry L ([0x80, 0x0A] ++ [])).toOption.isSome = false := by rw [beacon_parse]; with_unfolding_all rfl

example (L : Lib) : (accessBuild registry L (.dict [("opcode", .int 0x800D), ("config_default_ttl_set", .dict [("ttl", .int 1)])])).map Prod.fst =
      .ok [0x80, 0x0D, 1] ∧
    (accessBuild registry L (.dict [("opcode", .str "CONFIG_DEFAULT_TTL_SET"), ("params", .dict [("ttl", .bool true)])])).map Prod.fst =
      .ok [0x80, 0x0D, 1] := by
  constructor
  · rw [C04_build (e := (E.ConfigOpcode, configCases)) (N := "CONFIG_DEFAULT_TTL_SET") (n := 0x800D) (by inreg) (by dsimp only; decide +kernel)
      (by decide +kernel) L (k := .int 0x800D) rfl (.inl rfl)]
    with_unfolding_all rfl
  · rw [C04_build (e := (E.ConfigOpcode, configCases)) (N := "CONFIG_DEFAULT_TTL_SET") (n := 0x800D) (by inreg) (by dsimp only; decide +kernel)
      (by decide +kernel) L (k := .str "CONFIG_DEFAULT_TTL_SET") rfl (.inr rfl)]
    with_unfolding_all rfl

end BM.Props
