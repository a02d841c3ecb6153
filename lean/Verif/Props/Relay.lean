import Verif.Props.Forms
/-!
# C43: sending a received message with a transition time again
-/
namespace BM.Props
open Tables F Spec

/-! ### Specification -/

/-- The octet of a transition time that is read and sent again.  The two high bits are the resolution (100 ms, 1 s, 10 s, 10 min), the
others the number of steps.  The time is written with the finest resolution that can express it: up to six steps of 1 s or 10 s become
ten times as many steps of the resolution below, 10 min become 60 steps of 10 s and zero steps are zero steps of 100 ms.  43 steps of 100 ms
become 42 (4.3 seconds, divided by 0.1, is less than 43 in floating point). -/
def relayTime (x : Nat) : Nat :=
  if x = 43 then 42
  else if x % 64 = 0 then 0
  else if x / 64 = 1 ∧ x % 64 ≤ 6 then 10 * (x % 64)
  else if x / 64 = 2 ∧ x % 64 ≤ 6 then 64 + 10 * (x % 64)
  else if x / 64 = 3 ∧ x % 64 = 1 then 128 + 60
  else x

/-- The octet of a delay (5 ms) that is read and sent again: the same, or one less for 18 octets. -/
def relayDelay (y : Nat) : Nat := if y ∈ delayExceptions then y - 1 else y

/-- The optional part of a message, when it is sent again; `none` if it cannot be sent.  Set messages end with a transition time and
a delay, status messages with a remaining time.  The unknown time (63 steps) cannot be sent in set messages and in the scene status. -/
def Form.again (f : Form) (t : List UInt8) : Option (List UInt8) :=
  if "transition_time" ∈ f.long.flatMap RI.keys then
    match t with
    | [x, y] => if x.toNat % 64 = 63 then none else some [UInt8.ofNat (relayTime x.toNat), UInt8.ofNat (relayDelay y.toNat)]
    | _ => none
  else
    match t.getLast? with
    | some x => if f.op = 0x5E ∧ x.toNat % 64 = 63 then none else some (t.dropLast ++ [UInt8.ofNat (relayTime x.toNat)])
    | none => none

/-! ### Members -/

/-- What the format says about an object: it is written as the given bytes, or it cannot be written. -/
def Says {α β : Type} (rel : List α → β → Prop) : Option (List α) → Prop
  | some b => ∃ w, rel b w
  | none => ¬ ∃ b w, rel b w

/-- `c` reads `n` bytes, and what was read is written again as `A` says. -/
def RelC (c : Con UInt8) (G : Fmt UInt8) (n : Nat) (A : List UInt8 → Option (List UInt8)) : Prop :=
  ∀ (L : Lib) (ctx : Dict) (s : List UInt8) (v : Val) (rest : List UInt8), c.parse L ctx s = .ok (v, rest) →
    ∃ b, b.length = n ∧ s = b ++ rest ∧ Says (G v) (A b)

def RelI (it : Item UInt8) (r : RI UInt8) (n : Nat) (A : List UInt8 → Option (List UInt8)) : Prop :=
  ∀ (L : Lib) (acc : Dict) (s : List UInt8) (acc' : Dict) (rest : List UInt8), it.parse L acc s = .ok (acc', rest) →
    ∃ b d, b.length = n ∧ s = b ++ rest ∧ acc' = dmerge acc d ∧ dkeys d = r.keys ∧
      ∀ du, (∀ k ∈ r.keys, dget du k = dget d k) → Says (r.rel du) (A b)

def RelIs (its : List (Item UInt8)) (rs : List (RI UInt8)) (n : Nat) (A : List UInt8 → Option (List UInt8)) : Prop :=
  ∀ (L : Lib) (acc : Dict) (s : List UInt8) (acc' : Dict) (rest : List UInt8), parseItems L its acc s = .ok (acc', rest) →
    ∃ b d, b.length = n ∧ s = b ++ rest ∧ acc' = dmerge acc d ∧ dkeys d = rs.flatMap RI.keys ∧
      ∀ du, (∀ k ∈ rs.flatMap RI.keys, dget du k = dget d k) → Says (seqRel rs du) (A b)

/-- One part after another. -/
def thenA (n : Nat) (A B : List UInt8 → Option (List UInt8)) (b : List UInt8) : Option (List UInt8) :=
  match A (b.take n), B (b.drop n) with
  | some x, some y => some (x ++ y)
  | _, _ => none

theorem relC_exact {M : Mode} {e : Bool} {c : Con UInt8} {G : Fmt UInt8} {n : Nat} (h : Meets M e c G) (hX : M.X) (hl : LenEq G n) :
    RelC c G n some := by
  intro L ctx s v rest hp
  obtain ⟨b, hs, hG⟩ := h.exact hX hp
  exact ⟨b, hl hG, hs, v, hG⟩

def timeA (unk : Bool) (b : List UInt8) : Option (List UInt8) :=
  match b with
  | [x] => if unk = false ∧ x.toNat % 64 = 63 then none else some [UInt8.ofNat (relayTime x.toNat)]
  | _ => none

theorem again_time : (∀ x < 256, ttAgain 63 x = some (relayTime x)) ∧ ∀ x < 256, x % 64 ≠ 63 → ttAgain 62 x = some (relayTime x) := by
  decide +kernel

theorem relC_tt (unk : Bool) : RelC (BM.transitionTime unk) (F.transitionTime (if unk then 63 else 62)) 1 (timeA unk) := by
  intro L ctx s v rest hp
  match s with
  | [] => exact absurd hp (by simp [BM.transitionTime, adapter, bitwise, takeN])
  | x :: s =>
    have hr : rest = s := by
      obtain ⟨v', q, h, -⟩ := C14_decode unk L ctx x s
      rw [h] at hp
      cases hp; rfl
    subst hr
    refine ⟨[x], rfl, rfl, ?_⟩
    simp only [timeA]
    by_cases hb : unk = false ∧ x.toNat % 64 = 63
    · obtain ⟨rfl, h63⟩ := hb
      simp only [h63, and_self, if_true, Bool.false_eq_true, if_false]
      obtain ⟨e, he⟩ := (C14_again_strict L ctx x hp).2 h63
      rintro ⟨b, w, hG⟩
      obtain ⟨r, hr⟩ := (meets_tt false).enc hG L ctx False.elim
      rw [hr] at he; cases he
    · simp only [hb, if_false]
      have hv : v = ttValue (x.toNat / 64) (x.toNat % 64) := by
        rw [tt_parse] at hp
        cases hp; rfl
      have ha : ttAgain (if unk then 63 else 62) x.toNat = some (relayTime x.toNat) := by
        cases unk with
        | true => exact again_time.1 _ x.toNat_lt
        | false => exact again_time.2 _ x.toNat_lt (fun h => hb ⟨rfl, h⟩)
      obtain ⟨r, hr⟩ := build_of_again (unk := unk) rfl ha L ctx
      rw [← hv] at hr
      obtain ⟨w, hw⟩ := (meets_tt unk).sound (L := L) False.elim hr
      exact ⟨w, hw⟩

def delayA (b : List UInt8) : Option (List UInt8) :=
  match b with
  | [y] => some [UInt8.ofNat (relayDelay y.toNat)]
  | _ => none

theorem relC_delay : RelC BM.delay F.delay 1 delayA := by
  intro L ctx s v rest hp
  match s with
  | [] => exact absurd hp (by simp [BM.delay, adapter, uintLE, takeN])
  | x :: s =>
    have hr : rest = s := by rw [C15_decode] at hp; cases hp; rfl
    subst hr
    refine ⟨[x], rfl, rfl, ?_⟩
    obtain ⟨r, hr⟩ := C15_again L L ctx ctx x hp
    have : UInt8.ofNat (relayDelay x.toNat) = if x.toNat ∈ delayExceptions then x - 1 else x := by
      have : ∀ n < 256, UInt8.ofNat (relayDelay n) = if n ∈ delayExceptions then UInt8.ofNat n - 1 else UInt8.ofNat n := by decide +kernel
      have := this x.toNat x.toNat_lt
      rwa [UInt8.ofNat_toNat] at this
    rw [← this] at hr
    obtain ⟨w, hw⟩ := meets_dly.sound (L := L) False.elim hr
    exact ⟨w, hw⟩

theorem RelC.field {c G n A} (k : String) (h : RelC c G n A) : RelI (field k c) (fld k G) n A := by
  intro L acc s acc' rest hp
  simp only [BM.field, bind_ok] at hp
  obtain ⟨⟨v, r⟩, h1, h2⟩ := hp
  simp only [Except.ok.injEq, Prod.mk.injEq] at h2
  obtain ⟨rfl, rfl⟩ := h2
  obtain ⟨b, hl, hs, hA⟩ := h L acc s v r h1
  refine ⟨b, [(k, v)], hl, hs, by simp [dmerge], rfl, fun du hdu => ?_⟩
  have hd : dget du k = some v := by rw [hdu k (by simp [fld])]; simp [dget]
  cases hb : A b with
  | some b' =>
    rw [hb] at hA
    obtain ⟨w, hw⟩ := hA
    exact ⟨_, v, w, hd, hw, rfl⟩
  | none =>
    rw [hb] at hA
    rintro ⟨b', dv, u, w, hu, hG, -⟩
    rw [hd] at hu; cases hu
    exact hA ⟨_, _, hG⟩

theorem relIs_nil : RelIs [] [] 0 some := by
  intro L acc s acc' rest hp
  simp only [parseItems, Except.ok.injEq, Prod.mk.injEq] at hp
  obtain ⟨rfl, rfl⟩ := hp
  exact ⟨[], [], rfl, rfl, rfl, rfl, fun _ _ => ⟨_, rfl, rfl⟩⟩

theorem dget_append_left {d d' : Dict} {k : String} (h : k ∈ dkeys d) : dget (d ++ d') k = dget d k := by
  induction d with
  | nil => simp [dkeys] at h
  | cons p d ih =>
    obtain ⟨k', v⟩ := p
    by_cases e : k' = k
    · simp [dget, e]
    · have : k ∈ dkeys d := by simpa [dkeys, Ne.symm e] using h
      simp [dget, e, ih this]

theorem dget_append_right {d d' : Dict} {k : String} (h : k ∉ dkeys d) : dget (d ++ d') k = dget d' k := by
  induction d with
  | nil => rfl
  | cons p d ih =>
    obtain ⟨k', v⟩ := p
    simp only [dkeys, List.map_cons, List.mem_cons, not_or] at h
    simp only [List.cons_append, dget, if_neg (Ne.symm h.1)]
    exact ih h.2

theorem RelI.cons {it its r rs n m A B} (h : RelI it r n A) (hs : RelIs its rs m B)
    (hd : ∀ k ∈ rs.flatMap RI.keys, k ∉ r.keys) : RelIs (it :: its) (r :: rs) (n + m) (thenA n A B) := by
  intro L acc s acc' rest hp
  simp only [parseItems, bind_ok] at hp
  obtain ⟨⟨a1, r1⟩, h1, h2⟩ := hp
  obtain ⟨b, d, e1, e2, e3, e4, e5⟩ := h L acc s a1 r1 h1
  obtain ⟨b', d', f1, f2, f3, f4, f5⟩ := hs L a1 r1 acc' rest h2
  refine ⟨b ++ b', d ++ d', by simp [e1, f1], by rw [e2, f2, List.append_assoc], ?_, by simp [dkeys_append, e4, f4], fun du hdu => ?_⟩
  · rw [f3, e3, dmerge_append]
  · have g1 := e5 du (fun k hk => by rw [hdu k (by simp [hk]), dget_append_left (by rw [e4]; exact hk)])
    have g2 := f5 du (fun k hk => by
      rw [hdu k (by rw [List.flatMap_cons]; exact List.mem_append_right _ hk), dget_append_right (by rw [e4]; exact hd k hk)])
    have ht : (b ++ b').take n = b := by rw [← e1]; simp
    have hdr : (b ++ b').drop n = b' := by rw [← e1]; simp
    simp only [thenA, ht, hdr]
    cases hA : A b with
    | none =>
      rw [hA] at g1
      rintro ⟨x, w, b₁, b₂, d₁, d₂, -, -, h1, -⟩
      exact g1 ⟨_, _, h1⟩
    | some x =>
      rw [hA] at g1
      obtain ⟨w, hw⟩ := g1
      cases hB : B b' with
      | none =>
        rw [hB] at g2
        rintro ⟨x, w, b₁, b₂, d₁, d₂, -, -, -, h2⟩
        exact g2 ⟨_, _, h2⟩
      | some y =>
        rw [hB] at g2
        obtain ⟨w', hw'⟩ := g2
        exact ⟨_, _, _, _, _, rfl, rfl, hw, hw'⟩

theorem RelIs.embedded {its rs n A} (h : RelIs its rs n A) (hk : (rs.flatMap RI.keys).Nodup) : RelI (embedded its) (embed rs) n A := by
  intro L acc s acc' rest hp
  simp only [BM.embedded, bind_ok] at hp
  obtain ⟨⟨d, r⟩, h1, h2⟩ := hp
  simp only [Except.ok.injEq, Prod.mk.injEq] at h2
  obtain ⟨rfl, rfl⟩ := h2
  obtain ⟨b, d', e1, e2, e3, e4, e5⟩ := h L [] s d r h1
  rw [dmerge_nil_of_nodup d' (by rw [e4]; exact hk)] at e3
  subst e3
  exact ⟨b, d, e1, e2, rfl, e4, e5⟩

theorem RelIs.congr {its rs n n' A A'} (h : RelIs its rs n A) (hn : n = n') (hA : ∀ b, b.length = n → A b = A' b) : RelIs its rs n' A' := by
  subst hn
  intro L acc s acc' rest hp
  obtain ⟨b, d, e1, e2, e3, e4, e5⟩ := h L acc s acc' rest hp
  exact ⟨b, d, e1, e2, e3, e4, fun du hdu => hA b e1 ▸ e5 du hdu⟩

theorem thenA_last {n : Nat} {A : List UInt8 → Option (List UInt8)} {b : List UInt8} (hb : b.length = n) : thenA n A some b = A b := by
  subst hb
  simp only [thenA, List.take_length, List.drop_length]
  cases A b <;> simp

theorem thenA_some (n : Nat) : thenA n some some = some := by
  funext b
  simp [thenA]

theorem parse_append {L : Lib} {a c : List (Item UInt8)} {acc acc' : Dict} {s rest : List UInt8} (h : parseItems L (a ++ c) acc s = .ok (acc', rest)) :
    ∃ acc₁ r, parseItems L a acc s = .ok (acc₁, r) ∧ parseItems L c acc₁ r = .ok (acc', rest) := by
  induction a generalizing acc s with
  | nil => exact ⟨acc, s, rfl, h⟩
  | cons it a ih =>
    simp only [List.cons_append, parseItems, bind_ok] at h
    obtain ⟨⟨a1, r1⟩, h1, h2⟩ := h
    obtain ⟨acc₁, r, h3, h4⟩ := ih h2
    exact ⟨acc₁, r, by simp [parseItems, h1, h3], h4⟩

theorem seqRel_append {rs rs' : List (RI UInt8)} {du : Dict} {b b' : List UInt8} {d d' : Dict} (h : seqRel rs du b d) (h' : seqRel rs' du b' d') :
    seqRel (rs ++ rs') du (b ++ b') (d ++ d') := by
  induction rs generalizing b d with
  | nil => obtain ⟨rfl, rfl⟩ := h; exact h'
  | cons r rs ih =>
    obtain ⟨b1, b2, d1, d2, rfl, rfl, h1, h2⟩ := h
    exact ⟨b1, b2 ++ b', d1, d2 ++ d', by simp, by simp, h1, ih h2⟩

theorem seqRel_split {rs rs' : List (RI UInt8)} {du : Dict} {b : List UInt8} {d : Dict} (h : seqRel (rs ++ rs') du b d) :
    ∃ b' d', seqRel rs' du b' d' := by
  induction rs generalizing b d with
  | nil => exact ⟨_, _, h⟩
  | cons r rs ih => obtain ⟨b1, b2, d1, d2, rfl, rfl, h1, h2⟩ := h; exact ih h2

theorem relC_u (n : Nat) : RelC (uintLE n) (F.uint n) n some := relC_exact (M := lossless) (e := true) (meets_uint n) trivial (lenEq_uint n)
theorem relC_s (n : Nat) (h : 0 < n) : RelC (sintLE n) (F.sint n) n some :=
  relC_exact (M := lossless) (e := true) (meets_sint n h) trivial (lenEq_sint n)
theorem relC_sceneNumber : RelC Scene.sceneNumber (uintWhere 2 (0 < ·)) 2 some :=
  relC_exact (M := lossless) (e := true) meets_sceneNumber trivial (lenEq_uintWhere 2 _)
theorem relC_sceneStatus : RelC Scene.statusCode (F.enumOf (F.uint 1) E.SceneStatusCode) 1 some :=
  relC_exact (M := lossless) (e := true) (meets_enum_uint 1 _) trivial (lenEq_enumOf (lenEq_uint 1))

theorem relC_tt63 : RelC (BM.transitionTime true) (F.transitionTime 63) 1 (timeA true) := relC_tt true
theorem relC_tt62 : RelC (BM.transitionTime false) (F.transitionTime 62) 1 (timeA false) := relC_tt false

macro "relays" : tactic => `(tactic| repeat' with_reducible first
  | exact relIs_nil | exact relC_u _ | exact relC_s _ (by decide) | exact relC_tt62 | exact relC_tt63 | exact relC_delay | exact relC_sceneNumber
  | exact relC_sceneStatus | apply RelI.cons | apply RelC.field | apply RelIs.embedded | with_unfolding_all decide)

macro "relayall" : tactic => `(tactic| (apply RelIs.congr; (· relays); (· rfl); (· intro b _; simp only [thenA_some])))

/-- The optional part of a set message. -/
theorem relIs_set : RelIs optionalSetParameters [transition, delayMs] 2 (thenA 1 (timeA false) (thenA 1 delayA some)) := by
  apply RelIs.congr
  · relays
  · rfl
  · intro b _; rfl

theorem again_set {f : Form} (h : "transition_time" ∈ f.long.flatMap RI.keys) (b : List UInt8) (hb : b.length = 2) :
    thenA 1 (timeA false) (thenA 1 delayA some) b = f.again b := by
  match b, hb with
  | [x, y], _ =>
    simp only [thenA, timeA, delayA, Form.again, if_pos h, List.take, List.drop, true_and, List.append_nil]
    split_ifs <;> simp

theorem again_status {f : Form} {n : Nat} {unk : Bool} (h : "transition_time" ∉ f.long.flatMap RI.keys) (hu : unk = false ↔ f.op = 0x5E)
    (b : List UInt8) (hb : b.length = n + 1) :
    thenA n some (thenA 1 (timeA unk) some) b = f.again b := by
  have hb' : ∃ c x, b = c ++ [x] ∧ c.length = n := by
    refine ⟨b.dropLast, b.getLast (by rintro rfl; simp at hb), (List.dropLast_append_getLast _).symm, by simp [hb]⟩
  obtain ⟨c, x, rfl, rfl⟩ := hb'
  simp only [thenA, timeA, Form.again, if_neg h, List.take_left, List.drop_left, List.take, List.drop, List.getLast?_concat,
    List.dropLast_concat, hu]
  split_ifs <;> simp

/-! ### Messages -/

variable [Platform]

theorem relay_form {e : Entry} (he : e ∈ registry) {N : String} {f : Form} (hf : f ∈ forms) (hN : (N, (f.op : Int)) ∈ e.1.members) (hl : lower N = f.name)
    {pre post its₂ : List (Item UInt8)} (hc : findCase f.op e.2 = some (optionalMinimal (pre ++ post) its₂))
    {rpre rpost : List (RI UInt8)} (hlong : f.long = rpre ++ rpost) {m : Nat} (hm : f.longSize = f.shortSize + m)
    (hpre : RelIs pre rpre f.shortSize some) (hpost : RelIs post rpost m f.again) (hsh : RelIs its₂ f.short f.shortSize some)
    (hrs : ∀ du b dv, seqRel rpre du b dv → seqRel f.short du b dv)
    (hk1 : (f.long.flatMap RI.keys ++ ["_name", "optional", "minimal"]).Nodup) (hk2 : (f.short.flatMap RI.keys ++ ["_name", "optional", "minimal"]).Nodup)
    (hr1 : ReadsIs f.valid (pre ++ post) f.longSize (f.long.flatMap RI.keys)) (hr2 : ReadsIs f.valid its₂ f.shortSize (f.short.flatMap RI.keys))
    (hns : "transition_time" ∉ f.short.flatMap RI.keys ∧ "remaining_time" ∉ f.short.flatMap RI.keys)
    (L : Lib) {s rest : List UInt8} {v : Val} (h : accessParse registry L (wireOpcode f.op ++ s) = .ok (v, rest)) :
    (accessBuild registry L v).map Prod.fst = .ok (wireOpcode f.op ++
      if s.length < f.longSize then s.take f.shortSize
      else s.take f.shortSize ++ (f.again ((s.take f.longSize).drop f.shortSize)).getD []) := by
  have hname : f.name ≠ "opcode" := hl ▸ fun h => C04_keys.2.1 (by
    rw [← h, ← registry_enums]
    exact List.mem_flatMap.2 ⟨e.1, List.mem_map.2 ⟨e, he, rfl⟩, List.mem_map.2 ⟨_, hN, rfl⟩⟩)
  have build : ∀ (D : Dict) (b w), f.msg.fmt (.dict D) b w →
      (accessBuild registry L (.dict [("opcode", .enum e.1.cls f.op), (f.name, .dict D)])).map Prod.fst = .ok (wireOpcode f.op ++ b) := by
    intro D b w hG
    obtain ⟨o, ho⟩ := (C05_encode_decode (Form.specified hf) hG L (d := [("opcode", .enum e.1.cls f.op), (f.name, .dict D)])
      (k := .enum e.1.cls f.op) rfl (.inl rfl) (by simp [payload, outerPayload, dget, Ne.symm hname])).1
    rw [ho]
    simp [Except.map, header]
  have notin : ∀ {ks : List String} {x : String}, (ks ++ ["_name", "optional", "minimal"]).Nodup → x ∈ ["_name", "optional", "minimal"] → x ∉ ks :=
    fun h hx hk => (List.nodup_append.1 h).2.2 _ hk _ hx rfl
  have none_of : ∀ {D : Dict} {k : String}, k ∉ dkeys D → dget D k = none := by
    intro D k hk
    induction D with
    | nil => rfl
    | cons p D ih =>
      obtain ⟨k', v'⟩ := p
      simp only [dkeys, List.map_cons, List.mem_cons, not_or] at hk
      simp only [dget, if_neg (Ne.symm hk.1)]
      exact ih hk.2
  have hp := C04_parse he hN L s
  rw [hc, Option.getD_some, hl, h] at hp
  have drop : ∀ {D : Dict} {x : Val} {k : String}, k ≠ "_name" → dget (dset D "_name" x) k = dget D k :=
    fun h => dget_dset_ne _ _ (Ne.symm h)
  have ne : ∀ {ks : List String} {k : String}, (ks ++ ["_name", "optional", "minimal"]).Nodup → k ∈ ks → k ≠ "_name" :=
    fun h hk e => notin h (x := "_name") (by simp) (e ▸ hk)
  obtain ⟨a1, a2⟩ := hr1 L [] s
  obtain ⟨b1, b2⟩ := hr2 L [] s
  by_cases hbad : s.length < f.shortSize ∨ f.valid s = false
  · obtain ⟨e1, he1, hd1⟩ := a2 (hbad.imp_left fun h => by omega)
    obtain ⟨e2, he2, hd2⟩ := b2 hbad
    simp [optionalMinimal, namedSelect, select, selectParse, nameAdapter, struct_parse, he1, he2, hd1, hd2] at hp
  simp only [not_or, Bool.not_eq_false, not_lt] at hbad
  by_cases hlen : s.length < f.longSize
  · obtain ⟨e1, he1, hd1⟩ := a2 (.inl hlen)
    obtain ⟨D', hp2, -⟩ := b1 hbad.1 hbad.2
    obtain ⟨b, D, e1', e2', e3', e4', e5'⟩ := hsh L [] s _ _ hp2
    rw [e3', dmerge_nil_of_nodup D (by rw [e4']; exact (List.nodup_append.1 hk2).1)] at hp2
    simp only [optionalMinimal, namedSelect, select, List.map_cons, List.map_nil, selectParse, nameAdapter, struct_parse, he1, hd1, hp2, error_bind,
      ok_bind, if_false, Except.ok.injEq, Prod.mk.injEq] at hp
    rw [hp.1, if_pos hlen]
    obtain ⟨w, hw⟩ := e5' (dset D "_name" (.str "minimal")) fun k hk => drop (ne hk2 hk)
    have hb : s.take f.shortSize = b := by rw [e2', ← e1']; simp
    rw [hb]
    refine build _ b _ (.inr ⟨unencodable_named ?_, _, w, rfl, ⟨_, _, ?_, hw, rfl⟩, rfl⟩)
    · rw [drop (by decide), none_of (by rw [e4']; exact notin hk2 (by simp)), Option.getD_none]
      have hmiss : ∀ k, k ∉ f.short.flatMap RI.keys → k ≠ "_name" → dget (dset D "_name" (.str "minimal")) k = none :=
        fun k hk hk' => by rw [drop hk', none_of (by rw [e4']; exact hk)]
      rcases forms_kinds f hf with hk | hk
      · exact (hasTransition f hf hk).1.unencodable fun x hx => by rw [hmiss _ hns.1 (by decide)] at hx; cases hx
      · obtain ⟨max, h1, -⟩ := hasRemaining f hf hk
        exact h1.unencodable fun x hx => by rw [hmiss _ hns.2 (by decide)] at hx; cases hx
    · rw [drop (by decide), none_of (by rw [e4']; exact notin hk2 (by simp)), Option.getD_none]; rfl
  · obtain ⟨D', hp1, -⟩ := a1 (by omega) hbad.2
    obtain ⟨acc₁, r, q1, q2⟩ := parse_append hp1
    obtain ⟨b, D, e1', e2', e3', e4', e5'⟩ := hpre L [] s _ _ q1
    obtain ⟨b', D2, f1', f2', f3', f4', f5'⟩ := hpost L acc₁ r _ _ q2
    have hkk : dkeys (D ++ D2) = f.long.flatMap RI.keys := by rw [hlong, dkeys_append, e4', f4', List.flatMap_append]
    have hnd := (List.nodup_append.1 hk1).1
    rw [f3', e3', ← dmerge_append, dmerge_nil_of_nodup (D ++ D2) (by rw [hkk]; exact hnd)] at hp1
    simp only [optionalMinimal, namedSelect, select, List.map_cons, List.map_nil, selectParse, nameAdapter, struct_parse, hp1,
      ok_bind, Except.ok.injEq, Prod.mk.injEq] at hp
    rw [hp.1, if_neg hlen]
    have hb : s.take f.shortSize = b := by rw [e2', ← e1']; simp
    have hb' : (s.take f.longSize).drop f.shortSize = b' := by
      rw [hm, List.drop_take, Nat.add_sub_cancel_left, e2', ← e1', List.drop_left, f2', ← f1', List.take_left]
    rw [hb, hb']
    have hopt : dget (dset (D ++ D2) "_name" (.str "optional")) "optional" = none := by
      rw [drop (by decide), none_of (by rw [hkk]; exact notin hk1 (by simp))]
    have hmin : dget (dset (D ++ D2) "_name" (.str "optional")) "minimal" = none := by
      rw [drop (by decide), none_of (by rw [hkk]; exact notin hk1 (by simp))]
    have hdis : ∀ k ∈ rpost.flatMap RI.keys, k ∉ dkeys D := by
      intro k hk hk'
      rw [hlong, List.flatMap_append] at hnd
      exact (List.nodup_append.1 hnd).2.2 k (e4' ▸ hk') k hk rfl
    have hin : ∀ k, k ∈ rpre.flatMap RI.keys ∨ k ∈ rpost.flatMap RI.keys → k ≠ "_name" := fun k hk =>
      ne hk1 (by rw [hlong, List.flatMap_append]; exact List.mem_append.2 hk)
    obtain ⟨w, hw⟩ := e5' (dset (D ++ D2) "_name" (.str "optional")) fun k hk => by
      rw [drop (hin k (.inl hk)), dget_append_left (by rw [e4']; exact hk)]
    have h2 := f5' (dset (D ++ D2) "_name" (.str "optional")) fun k hk => by
      rw [drop (hin k (.inr hk)), dget_append_right (hdis k hk)]
    cases hA : f.again b' with
    | some t =>
      rw [hA] at h2
      obtain ⟨w', hw'⟩ := h2
      refine build _ _ _ (.inl ⟨_, w ++ w', rfl, ⟨_, _, by rw [hopt]; rfl, ?_, rfl⟩, rfl⟩)
      rw [hlong]
      exact seqRel_append hw hw'
    | none =>
      rw [hA] at h2
      rw [Option.getD_none, List.append_nil]
      refine build _ _ _ (.inr ⟨unencodable_named ?_, _, w, rfl, ⟨_, _, by rw [hmin]; rfl, hrs _ _ _ hw, rfl⟩, rfl⟩)
      rw [hopt, Option.getD_none]
      rintro ⟨x, y, du, dv, hdu, hsq, -⟩
      injection hdu with hdu
      subst hdu
      rw [hlong] at hsq
      exact h2 (seqRel_split hsq)

/-- The conclusion of `C43_relay`. -/
abbrev Relays (f : Form) : Prop :=
  ∀ (L : Lib) {s rest : List UInt8} {v : Val}, accessParse registry L (wireOpcode f.op ++ s) = .ok (v, rest) →
    (accessBuild registry L v).map Prod.fst = .ok (wireOpcode f.op ++
      if s.length < f.longSize then s.take f.shortSize
      else s.take f.shortSize ++ (f.again ((s.take f.longSize).drop f.shortSize)).getD [])

/-- A long form that repeats the members of the short form. -/
theorem relay_direct {e : Entry} (he : e ∈ registry) {N : String} {f : Form} (hf : f ∈ forms) (hN : (N, (f.op : Int)) ∈ e.1.members) (hl : lower N = f.name)
    {post its₂ : List (Item UInt8)} (hc : findCase f.op e.2 = some (optionalMinimal (its₂ ++ post) its₂))
    {rpost : List (RI UInt8)} (hlong : f.long = f.short ++ rpost) {m : Nat} (hm : f.longSize = f.shortSize + m)
    (hsh : RelIs its₂ f.short f.shortSize some) (hpost : RelIs post rpost m f.again)
    (hk1 : (f.long.flatMap RI.keys ++ ["_name", "optional", "minimal"]).Nodup) (hk2 : (f.short.flatMap RI.keys ++ ["_name", "optional", "minimal"]).Nodup)
    (hr1 : ReadsIs f.valid (its₂ ++ post) f.longSize (f.long.flatMap RI.keys)) (hr2 : ReadsIs f.valid its₂ f.shortSize (f.short.flatMap RI.keys))
    (hns : "transition_time" ∉ f.short.flatMap RI.keys ∧ "remaining_time" ∉ f.short.flatMap RI.keys) : Relays f :=
  fun L _ _ _ h => relay_form he hf hN hl hc hlong hm hsh hpost hsh (fun _ _ _ h => h) hk1 hk2 hr1 hr2 hns L h

/-- A long form that embeds the short form. -/
theorem relay_embedded {e : Entry} (he : e ∈ registry) {N : String} {f : Form} (hf : f ∈ forms) (hN : (N, (f.op : Int)) ∈ e.1.members) (hl : lower N = f.name)
    {post its₂ : List (Item UInt8)} (hc : findCase f.op e.2 = some (optionalMinimal (embedded its₂ :: post) its₂))
    {rpost : List (RI UInt8)} (hlong : f.long = embed f.short :: rpost) {m : Nat} (hm : f.longSize = f.shortSize + m)
    (hsh : RelIs its₂ f.short f.shortSize some) (hpost : RelIs post rpost m f.again)
    (hk1 : (f.long.flatMap RI.keys ++ ["_name", "optional", "minimal"]).Nodup) (hk2 : (f.short.flatMap RI.keys ++ ["_name", "optional", "minimal"]).Nodup)
    (hr1 : ReadsIs f.valid (embedded its₂ :: post) f.longSize (f.long.flatMap RI.keys)) (hr2 : ReadsIs f.valid its₂ f.shortSize (f.short.flatMap RI.keys))
    (hns : "transition_time" ∉ f.short.flatMap RI.keys ∧ "remaining_time" ∉ f.short.flatMap RI.keys) : Relays f := by
  refine fun L _ _ _ h => relay_form (pre := [embedded its₂]) (rpre := [embed f.short]) he hf hN hl hc hlong hm ?_ hpost hsh ?_ hk1 hk2 hr1 hr2 hns L h
  · refine ((hsh.embedded (List.nodup_append.1 hk2).1).cons relIs_nil (by simp)).congr rfl fun b _ => by rw [thenA_some]
  · rintro du b dv ⟨b1, b2, d1, d2, rfl, rfl, h1, rfl, rfl⟩
    rw [List.append_nil, List.append_nil]
    exact h1

macro "readsapp" : tactic => `(tactic| (dsimp only [optionalSetParameters, List.cons_append, List.nil_append]; readsall))

omit [Platform] in
theorem relIs_set_embedded : RelIs [embedded optionalSetParameters] [embed [transition, delayMs]] 2 (thenA 1 (timeA false) (thenA 1 delayA some)) :=
  ((relIs_set.embedded (by decide)).cons relIs_nil (by simp)).congr rfl fun _ hb => thenA_last hb

omit [Platform] in
theorem again_status2 {f : Form} {n m : Nat} {unk : Bool} (h : "transition_time" ∉ f.long.flatMap RI.keys) (hu : unk = false ↔ f.op = 0x5E)
    (b : List UInt8) (hb : b.length = n + (m + 1)) :
    thenA n some (thenA m some (thenA 1 (timeA unk) some)) b = f.again b := by
  rw [← again_status (n := n + m) (unk := unk) h hu b (by omega)]
  simp only [thenA, List.drop_drop, List.take_add]
  cases timeA unk (List.take 1 (List.drop (n + m) b)) <;> simp

/-- The optional part. -/
macro "relaypost" : tactic => `(tactic| first
  | exact relIs_set.congr rfl (again_set (by decide))
  | exact relIs_set_embedded.congr rfl (again_set (by decide))
  | (apply RelIs.congr; (· relays); (· rfl); (· first | exact again_status (by decide) (by decide) | exact again_status2 (by decide) (by decide))))

/-- **C43.** What is sent when a received message with an optional transition or remaining time is sent again: the mandatory part
unchanged; then the optional part, if it was received, with its times in the finest resolution that can express them (`relayTime`,
`relayDelay`), unless it has the unknown time where that cannot be sent, when it is dropped. -/
theorem C43_relay {f : Form} (hf : f ∈ forms) (L : Lib) {s rest : List UInt8} {v : Val}
    (h : accessParse registry L (wireOpcode f.op ++ s) = .ok (v, rest)) :
    (accessBuild registry L v).map Prod.fst = .ok (wireOpcode f.op ++
      if s.length < f.longSize then s.take f.shortSize
      else s.take f.shortSize ++ (f.again ((s.take f.longSize).drop f.shortSize)).getD []) := by
  have e1 : (E.GenericOnOffOpcode, genericOnOffCases) ∈ registry := by inreg
  have e2 : (E.GenericLevelOpcode, genericLevelCases) ∈ registry := by inreg
  have e3 : (E.LightLightnessOpcode, lightLightnessCases) ∈ registry := by inreg
  have e4 : (E.LightCTLOpcode, lightCTLCases) ∈ registry := by inreg
  have e5 : (E.SceneOpcode, sceneCases) ∈ registry := by inreg
  have hf' := hf
  suffices hR : Relays f from hR L h
  clear h
  simp only [forms, List.mem_append] at hf
  rcases hf with hf | hf | hf | hf | hf
  · simp only [onoffForms, List.mem_cons, List.not_mem_nil, or_false] at hf
    rcases hf with rfl | rfl | rfl
    · exact relay_direct (N := "GENERIC_ONOFF_SET") e1 hf' (by simp [E.GenericOnOffOpcode]) (by decide) rfl rfl rfl (by relayall) (by relaypost) (by decide) (by decide) (by readsapp) (by readsall) (by decide)
    · exact relay_direct (N := "GENERIC_ONOFF_SET_UNACKNOWLEDGED") e1 hf' (by simp [E.GenericOnOffOpcode]) (by decide) rfl rfl rfl (by relayall) (by relaypost) (by decide) (by decide) (by readsapp) (by readsall) (by decide)
    · exact relay_direct (N := "GENERIC_ONOFF_STATUS") e1 hf' (by simp [E.GenericOnOffOpcode]) (by decide) rfl rfl rfl (by relayall) (by relaypost) (by decide) (by decide) (by readsapp) (by readsall) (by decide)
  · simp only [levelForms, List.mem_cons, List.not_mem_nil, or_false] at hf
    rcases hf with rfl | rfl | rfl | rfl | rfl | rfl | rfl
    · exact relay_embedded (N := "GENERIC_LEVEL_SET") e2 hf' (by simp [E.GenericLevelOpcode]) (by decide) rfl rfl rfl (by relayall) (by relaypost) (by decide) (by decide) (by readsall) (by readsall) (by decide)
    · exact relay_embedded (N := "GENERIC_LEVEL_SET_UNACKNOWLEDGED") e2 hf' (by simp [E.GenericLevelOpcode]) (by decide) rfl rfl rfl (by relayall) (by relaypost) (by decide) (by decide) (by readsall) (by readsall) (by decide)
    · exact relay_embedded (N := "GENERIC_LEVEL_STATUS") e2 hf' (by simp [E.GenericLevelOpcode]) (by decide) rfl rfl rfl (by relayall) (by relaypost) (by decide) (by decide) (by readsall) (by readsall) (by decide)
    · exact relay_embedded (N := "GENERIC_DELTA_SET") e2 hf' (by simp [E.GenericLevelOpcode]) (by decide) rfl rfl rfl (by relayall) (by relaypost) (by decide) (by decide) (by readsall) (by readsall) (by decide)
    · exact relay_embedded (N := "GENERIC_DELTA_SET_UNACKNOWLEDGED") e2 hf' (by simp [E.GenericLevelOpcode]) (by decide) rfl rfl rfl (by relayall) (by relaypost) (by decide) (by decide) (by readsall) (by readsall) (by decide)
    · exact relay_embedded (N := "GENERIC_MOVE_SET") e2 hf' (by simp [E.GenericLevelOpcode]) (by decide) rfl rfl rfl (by relayall) (by relaypost) (by decide) (by decide) (by readsall) (by readsall) (by decide)
    · exact relay_embedded (N := "GENERIC_MOVE_SET_UNACKNOWLEDGED") e2 hf' (by simp [E.GenericLevelOpcode]) (by decide) rfl rfl rfl (by relayall) (by relaypost) (by decide) (by decide) (by readsall) (by readsall) (by decide)
  · simp only [lightnessForms, List.mem_cons, List.not_mem_nil, or_false] at hf
    rcases hf with rfl | rfl | rfl | rfl | rfl | rfl
    · exact relay_embedded (N := "LIGHT_LIGHTNESS_SET") e3 hf' (by simp [E.LightLightnessOpcode]) (by decide) rfl rfl rfl (by relayall) (by relaypost) (by decide) (by decide) (by readsall) (by readsall) (by decide)
    · exact relay_embedded (N := "LIGHT_LIGHTNESS_SET_UNACKNOWLEDGED") e3 hf' (by simp [E.LightLightnessOpcode]) (by decide) rfl rfl rfl (by relayall) (by relaypost) (by decide) (by decide) (by readsall) (by readsall) (by decide)
    · exact relay_embedded (N := "LIGHT_LIGHTNESS_STATUS") e3 hf' (by simp [E.LightLightnessOpcode]) (by decide) rfl rfl rfl (by relayall) (by relaypost) (by decide) (by decide) (by readsall) (by readsall) (by decide)
    · exact relay_embedded (N := "LIGHT_LIGHTNESS_LINEAR_SET") e3 hf' (by simp [E.LightLightnessOpcode]) (by decide) rfl rfl rfl (by relayall) (by relaypost) (by decide) (by decide) (by readsall) (by readsall) (by decide)
    · exact relay_embedded (N := "LIGHT_LIGHTNESS_LINEAR_SET_UNACKNOWLEDGED") e3 hf' (by simp [E.LightLightnessOpcode]) (by decide) rfl rfl rfl (by relayall) (by relaypost) (by decide) (by decide) (by readsall) (by readsall) (by decide)
    · exact relay_embedded (N := "LIGHT_LIGHTNESS_LINEAR_STATUS") e3 hf' (by simp [E.LightLightnessOpcode]) (by decide) rfl rfl rfl (by relayall) (by relaypost) (by decide) (by decide) (by readsall) (by readsall) (by decide)
  · simp only [ctlForms, List.mem_cons, List.not_mem_nil, or_false] at hf
    rcases hf with rfl | rfl | rfl | rfl | rfl | rfl
    · exact relay_embedded (N := "LIGHT_CTL_SET") e4 hf' (by simp [E.LightCTLOpcode]) (by decide) rfl rfl rfl (by relayall) (by relaypost) (by decide) (by decide) (by readsall) (by readsall) (by decide)
    · exact relay_embedded (N := "LIGHT_CTL_SET_UNACKNOWLEDGED") e4 hf' (by simp [E.LightCTLOpcode]) (by decide) rfl rfl rfl (by relayall) (by relaypost) (by decide) (by decide) (by readsall) (by readsall) (by decide)
    · exact relay_embedded (N := "LIGHT_CTL_STATUS") e4 hf' (by simp [E.LightCTLOpcode]) (by decide) rfl rfl rfl (by relayall) (by relaypost) (by decide) (by decide) (by readsall) (by readsall) (by decide)
    · exact relay_embedded (N := "LIGHT_CTL_TEMPERATURE_SET") e4 hf' (by simp [E.LightCTLOpcode]) (by decide) rfl rfl rfl (by relayall) (by relaypost) (by decide) (by decide) (by readsall) (by readsall) (by decide)
    · exact relay_embedded (N := "LIGHT_CTL_TEMPERATURE_SET_UNACKNOWLEDGED") e4 hf' (by simp [E.LightCTLOpcode]) (by decide) rfl rfl rfl (by relayall) (by relaypost) (by decide) (by decide) (by readsall) (by readsall) (by decide)
    · exact relay_embedded (N := "LIGHT_CTL_TEMPERATURE_STATUS") e4 hf' (by simp [E.LightCTLOpcode]) (by decide) rfl rfl rfl (by relayall) (by relaypost) (by decide) (by decide) (by readsall) (by readsall) (by decide)
  · simp only [sceneForms, List.mem_cons, List.not_mem_nil, or_false] at hf
    rcases hf with rfl | rfl | rfl
    · exact relay_direct (N := "SCENE_RECALL") e5 hf' (by simp [E.SceneOpcode]) (by decide) rfl rfl rfl (by relayall) (by relaypost) (by decide) (by decide) (by readsapp) (by readsall) (by decide)
    · exact relay_direct (N := "SCENE_RECALL_UNACKNOWLEDGED") e5 hf' (by simp [E.SceneOpcode]) (by decide) rfl rfl rfl (by relayall) (by relaypost) (by decide) (by decide) (by readsapp) (by readsall) (by decide)
    · exact relay_direct (N := "SCENE_STATUS") e5 hf' (by simp [E.SceneOpcode]) (by decide) rfl rfl rfl (by relayall) (by relaypost) (by decide) (by decide) (by readsapp) (by readsall) (by decide)

/-- The duration in tenths of a second that an octet with a resolution and a number of steps stands for. -/
def tenths (x : Nat) : Nat := x % 64 * (if x / 64 = 0 then 1 else if x / 64 = 1 then 10 else if x / 64 = 2 then 100 else 6000)

omit [Platform] in
/-- **C43 (times).** A time that is sent again is the same time, but for 4.3 seconds, which become 4.2; a delay is the same or 5 ms less. -/
theorem C43_times (x : Nat) (hx : x < 256) :
    relayTime x < 256 ∧ (x ≠ 43 → tenths (relayTime x) = tenths x) ∧ tenths (relayTime 43) = 42 ∧ relayDelay x ≤ x ∧ x ≤ relayDelay x + 1 := by
  revert x hx
  decide +kernel

/-- Octets of times and delays. -/
def timeB (x : UInt8) : UInt8 := UInt8.ofNat (relayTime x.toNat)
def delayB (y : UInt8) : UInt8 := UInt8.ofNat (relayDelay y.toNat)

omit [Platform] in
theorem bytes_all {P : UInt8 → Prop} (h : ∀ n < 256, P (UInt8.ofNat n)) (x : UInt8) : P x := by
  have := h x.toNat x.toNat_lt
  rwa [UInt8.ofNat_toNat] at this

omit [Platform] in
theorem timeB_twice (x : UInt8) : timeB (timeB x) = timeB x :=
  bytes_all (P := fun x => timeB (timeB x) = timeB x) (by decide +kernel) x
omit [Platform] in
theorem delayB_five (x : UInt8) : delayB (delayB (delayB (delayB (delayB x)))) = delayB (delayB (delayB (delayB x))) :=
  bytes_all (P := fun x => delayB (delayB (delayB (delayB (delayB x)))) = delayB (delayB (delayB (delayB x)))) (by decide +kernel) x
omit [Platform] in
theorem timeB_known (x : UInt8) : x.toNat % 64 ≠ 63 → (timeB x).toNat % 64 ≠ 63 :=
  bytes_all (P := fun x => x.toNat % 64 ≠ 63 → (timeB x).toNat % 64 ≠ 63) (by decide +kernel) x

/-- The optional part sent again, if it can be sent. -/
def Form.next (f : Form) (t : List UInt8) : List UInt8 :=
  if "transition_time" ∈ f.long.flatMap RI.keys then
    match t with
    | [x, y] => [timeB x, delayB y]
    | t => t
  else
    match t.getLast? with
    | some x => t.dropLast ++ [timeB x]
    | none => t

omit [Platform] in
theorem again_next {f : Form} {t t' : List UInt8} (h : f.again t = some t') :
    t' = f.next t ∧ t'.length = t.length ∧ f.again t' = some (f.next t') := by
  simp only [Form.again, Form.next] at h ⊢
  by_cases hk : "transition_time" ∈ f.long.flatMap RI.keys
  · simp only [if_pos hk] at h ⊢
    match t with
    | [x, y] =>
      simp only at h
      split_ifs at h with h63
      cases h
      refine ⟨rfl, rfl, ?_⟩
      have := timeB_known x h63
      simp only [timeB] at this
      simp only [if_neg this]
      rfl
    | [] => simp at h
    | [_] => simp at h
    | _ :: _ :: _ :: _ => simp at h
  · simp only [if_neg hk] at h ⊢
    rcases List.eq_nil_or_concat t with rfl | ⟨c, x, rfl⟩
    · simp at h
    · simp only [List.concat_eq_append, List.getLast?_concat, List.dropLast_concat] at h ⊢
      split_ifs at h with h63
      cases h
      refine ⟨rfl, by simp, ?_⟩
      simp only [List.getLast?_concat, List.dropLast_concat]
      rw [if_neg]
      · rfl
      · exact fun hh => timeB_known x (fun h => h63 ⟨hh.1, h⟩) hh.2

omit [Platform] in
theorem next_five (f : Form) (t : List UInt8) : f.next (f.next (f.next (f.next (f.next t)))) = f.next (f.next (f.next (f.next t))) := by
  simp only [Form.next]
  by_cases hk : "transition_time" ∈ f.long.flatMap RI.keys
  · simp only [if_pos hk]
    match t with
    | [x, y] => simp only [timeB_twice, delayB_five]
    | [] => rfl
    | [_] => rfl
    | _ :: _ :: _ :: _ => rfl
  · simp only [if_neg hk]
    rcases List.eq_nil_or_concat t with rfl | ⟨c, x, rfl⟩
    · rfl
    · simp only [List.concat_eq_append, List.getLast?_concat, List.dropLast_concat, timeB_twice]

omit [Platform] in
theorem valid_prefix : ∀ f ∈ forms, ∀ s s' : List UInt8, f.shortSize ≤ s.length → s'.take f.shortSize = s.take f.shortSize → f.valid s' = f.valid s := by
  have tk : ∀ {n m : Nat} {s s' : List UInt8}, n ≤ m → s'.take m = s.take m → s'.take n = s.take n := by
    intro n m s s' hn h
    have := congrArg (List.take n) h
    simpa [List.take_take, Nat.min_eq_left hn] using this
  intro f hf s s' _ h
  have hv : f.valid = always ∨ (f.valid = sceneNumberValid ∧ f.shortSize = 3) ∨ f.valid = sceneStatusValid ∧ f.shortSize = 3 := by
    simp only [forms, onoffForms, levelForms, lightnessForms, ctlForms, sceneForms, List.cons_append, List.nil_append, List.mem_cons,
      List.not_mem_nil, or_false] at hf
    rcases hf with rfl | rfl | rfl | rfl | rfl | rfl | rfl | rfl | rfl | rfl | rfl | rfl | rfl | rfl | rfl | rfl | rfl | rfl | rfl | rfl | rfl | rfl | rfl | rfl | rfl
    all_goals first | exact .inl rfl | exact .inr (.inl ⟨rfl, rfl⟩) | exact .inr (.inr ⟨rfl, rfl⟩)
  rcases hv with hv | ⟨hv, hn⟩ | ⟨hv, hn⟩
  · rw [hv]
  · rw [hn] at h
    rw [hv, sceneNumberValid, sceneNumberValid, tk (by decide) h]
  · rw [hn] at h
    rw [hv, sceneStatusValid, sceneStatusValid, tk (by decide) h]

omit [Platform] in
theorem forms_sizes : ∀ f ∈ forms, f.shortSize < f.longSize := by decide +kernel

/-- Receive a message and send it again. -/
def resend (L : Lib) (w : List UInt8) : R (List UInt8) := do
  let (v, _) ← accessParse registry L w
  let (b, _) ← accessBuild registry L v
  .ok b

/-- The same, over `n` hops. -/
def resends (L : Lib) : Nat → List UInt8 → R (List UInt8)
  | 0, w => .ok w
  | n + 1, w => do resends L n (← resend L w)

/-- The payload that is sent for the payload `s`. -/
def Form.sent (f : Form) (s : List UInt8) : List UInt8 :=
  if s.length < f.longSize then s.take f.shortSize
  else s.take f.shortSize ++ (f.again ((s.take f.longSize).drop f.shortSize)).getD []

omit [Platform] in
theorem sent_size {f : Form} (hf : f ∈ forms) {s : List UInt8} (hs : f.shortSize ≤ s.length) :
    f.shortSize ≤ (f.sent s).length ∧ (f.sent s).take f.shortSize = s.take f.shortSize := by
  have hts : (s.take f.shortSize).length = f.shortSize := by simp [hs]
  rw [Form.sent]
  split
  · exact ⟨by omega, by rw [List.take_take, Nat.min_self]⟩
  · exact ⟨by rw [List.length_append]; omega, by rw [List.take_append_of_le_length (by omega), List.take_take, Nat.min_self]⟩

theorem resend_of {f : Form} (hf : f ∈ forms) (L : Lib) {s : List UInt8} (hs : f.shortSize ≤ s.length) (hv : f.valid s = true) :
    resend L (wireOpcode f.op ++ s) = .ok (wireOpcode f.op ++ f.sent s) := by
  obtain ⟨cls, hT⟩ := C16_parse hf
  obtain ⟨t1, t2, -⟩ := hT L s
  have : ∃ v rest, accessParse registry L (wireOpcode f.op ++ s) = .ok (v, rest) := by
    by_cases hl : s.length < f.longSize
    · obtain ⟨d, hd, -⟩ := t2 hs hl hv; exact ⟨_, _, hd⟩
    · obtain ⟨d, hd, -⟩ := t1 (by omega) hv; exact ⟨_, _, hd⟩
  obtain ⟨v, rest, h⟩ := this
  have := C43_relay hf L h
  simp only [resend, h, ok_bind]
  cases hb : accessBuild registry L v with
  | error e => rw [hb] at this; cases this
  | ok r =>
    rw [hb] at this
    simp only [Except.map, Except.ok.injEq] at this
    rw [ok_bind, this]
    rfl

theorem resends_of {f : Form} (hf : f ∈ forms) (L : Lib) (n : Nat) {s : List UInt8} (hs : f.shortSize ≤ s.length) (hv : f.valid s = true) :
    resends L n (wireOpcode f.op ++ s) = .ok (wireOpcode f.op ++ f.sent^[n] s) := by
  induction n generalizing s with
  | zero => rfl
  | succ n ih =>
    obtain ⟨h1, h2⟩ := sent_size hf hs
    simp only [resends, resend_of hf L hs hv, ok_bind]
    rw [ih h1 (by rw [valid_prefix f hf s _ hs h2]; exact hv), Function.iterate_succ_apply]

omit [Platform] in
theorem sent_short {f : Form} (hf : f ∈ forms) {s : List UInt8} (h : s.length = f.shortSize) : f.sent s = s := by
  have := forms_sizes f hf
  rw [Form.sent, if_pos (by omega), ← h, List.take_length]

omit [Platform] in
theorem sent_long {f : Form} (hf : f ∈ forms) {h t t' : List UInt8} (hh : h.length = f.shortSize) (ht : h.length + t.length = f.longSize)
    (ha : f.again t = some t') : f.sent (h ++ t) = h ++ t' := by
  rw [Form.sent, if_neg (by rw [List.length_append]; omega), ← hh, ← ht, ← List.length_append, List.take_length, List.drop_left, List.take_left,
    ha, Option.getD_some]

omit [Platform] in
theorem sent_five {f : Form} (hf : f ∈ forms) {s : List UInt8} (hs : f.shortSize ≤ s.length) : f.sent^[5] s = f.sent^[4] s := by
  have hlt := forms_sizes f hf
  have hts : (s.take f.shortSize).length = f.shortSize := by simp [hs]
  have short : f.sent s = s.take f.shortSize → f.sent^[5] s = f.sent^[4] s := by
    intro h
    simp only [Function.iterate_succ_apply, Function.iterate_zero, id, h, sent_short hf hts]
  by_cases hl : s.length < f.longSize
  · exact short (by rw [Form.sent, if_pos hl])
  · cases hA : f.again ((s.take f.longSize).drop f.shortSize) with
    | none => exact short (by rw [Form.sent, if_neg hl, hA, Option.getD_none, List.append_nil])
    | some t1 =>
      have h0 : f.sent s = s.take f.shortSize ++ t1 := by rw [Form.sent, if_neg hl, hA, Option.getD_some]
      obtain ⟨g1, l1, a1⟩ := again_next hA
      obtain ⟨-, l2, a2⟩ := again_next a1
      obtain ⟨-, l3, a3⟩ := again_next a2
      obtain ⟨-, l4, a4⟩ := again_next a3
      have ht : (s.take f.shortSize).length + t1.length = f.longSize := by rw [l1, hts]; simp; omega
      simp only [Function.iterate_succ_apply, Function.iterate_zero, id, h0, sent_long hf hts ht a1, sent_long hf hts (l2 ▸ ht) a2,
        sent_long hf hts (l3 ▸ l2 ▸ ht) a3, sent_long hf hts (l4 ▸ l3 ▸ l2 ▸ ht) a4]
      rw [g1, next_five]

/-- **C43 (many hops).** A message that is accepted is accepted after any number of hops.  After four hops it does not change any more. -/
theorem C43_hops {f : Form} (hf : f ∈ forms) (L : Lib) {s rest : List UInt8} {v : Val}
    (h : accessParse registry L (wireOpcode f.op ++ s) = .ok (v, rest)) :
    ∃ w, ∀ n, (∃ x, resends L n (wireOpcode f.op ++ s) = .ok x) ∧ (4 ≤ n → resends L n (wireOpcode f.op ++ s) = .ok w) := by
  obtain ⟨cls, hT⟩ := C16_parse hf
  obtain ⟨-, -, t3⟩ := hT L s
  have hs : f.shortSize ≤ s.length ∧ f.valid s = true := by
    by_contra hn
    obtain ⟨e, he⟩ := t3 (by
      by_cases h1 : s.length < f.shortSize
      · exact .inl h1
      · exact .inr (by cases hv : f.valid s with | false => rfl | true => exact absurd ⟨by omega, hv⟩ hn))
    rw [h] at he; cases he
  refine ⟨wireOpcode f.op ++ f.sent^[4] s, fun n => ⟨⟨_, resends_of hf L n hs.1 hs.2⟩, fun hn => ?_⟩⟩
  rw [resends_of hf L n hs.1 hs.2]
  obtain ⟨m, rfl⟩ := Nat.exists_eq_add_of_le hn
  congr 2
  induction m with
  | zero => rfl
  | succ m ih =>
    rw [show 4 + (m + 1) = (m + 4) + 1 by omega, Function.iterate_succ_apply', show m + 4 = 4 + m by omega, ih (by omega)]
    exact (Function.iterate_succ_apply' f.sent 4 s).symm.trans (sent_five hf hs.1)

/-! ### Examples -/

/-- A Generic Level Set with a transition time of 5 steps of 1 s and a delay of 150 ms is sent again with 50 steps of 100 ms. -/
example (L : Lib) : ∃ v, accessParse registry L [0x82, 0x06, 0xFE, 0xFF, 7, 0x45, 30] = .ok (v, []) ∧
    (accessBuild registry L v).map Prod.fst = .ok [0x82, 0x06, 0xFE, 0xFF, 7, 50, 30] := by
  have hf : setForm 0x8206 "generic_level_set" [s16 "level", tid] 3 ∈ forms := by simp [forms, levelForms]
  obtain ⟨cls, hT⟩ := C16_parse hf
  obtain ⟨d, hd, -⟩ := (hT L [0xFE, 0xFF, 7, 0x45, 30]).1 (by decide) rfl
  exact ⟨_, hd, (C43_relay hf L hd).trans (by congr 1)⟩

/-- With the unknown transition time it is sent again without transition time and delay. -/
example (L : Lib) : ∃ v, accessParse registry L [0x82, 0x06, 0xFE, 0xFF, 7, 0x7F, 30] = .ok (v, []) ∧
    (accessBuild registry L v).map Prod.fst = .ok [0x82, 0x06, 0xFE, 0xFF, 7] := by
  have hf : setForm 0x8206 "generic_level_set" [s16 "level", tid] 3 ∈ forms := by simp [forms, levelForms]
  obtain ⟨cls, hT⟩ := C16_parse hf
  obtain ⟨d, hd, -⟩ := (hT L [0xFE, 0xFF, 7, 0x7F, 30]).1 (by decide) rfl
  exact ⟨_, hd, (C43_relay hf L hd).trans (by congr 1)⟩

/-- A Generic OnOff Status with the unknown remaining time is sent again as it is, a Scene Status is not. -/
example (L : Lib) : (∃ v, accessParse registry L [0x82, 0x04, 0, 1, 0x3F] = .ok (v, []) ∧
      (accessBuild registry L v).map Prod.fst = .ok [0x82, 0x04, 0, 1, 0x3F]) ∧
    ∃ v, accessParse registry L [0x5E, 0, 1, 0, 2, 0, 0x3F] = .ok (v, []) ∧ (accessBuild registry L v).map Prod.fst = .ok [0x5E, 0, 1, 0] := by
  constructor
  · have hf : (⟨0x8204, "generic_onoff_status", [u8 "present_onoff", u8 "target_onoff", remaining 63], [u8 "present_onoff"], 3, 1, fun _ => true⟩ : Form) ∈ forms := by
      simp [forms, onoffForms]
    obtain ⟨cls, hT⟩ := C16_parse hf
    obtain ⟨d, hd, -⟩ := (hT L [0, 1, 0x3F]).1 (by decide) rfl
    exact ⟨_, hd, (C43_relay hf L hd).trans (by congr 1)⟩
  · have hf : (⟨0x5E, "scene_status", [sceneStatusCode, u16 "current_scene", u16 "target_scene", remaining 62], [sceneStatusCode, u16 "current_scene"], 6, 3,
        sceneStatusValid⟩ : Form) ∈ forms := by simp [forms, sceneForms]
    obtain ⟨cls, hT⟩ := C16_parse hf
    obtain ⟨d, hd, -⟩ := (hT L [0, 1, 0, 2, 0, 0x3F]).1 (by decide) (by decide)
    exact ⟨_, hd, (C43_relay hf L hd).trans (by congr 1)⟩

/-- Four hops can be needed: a delay of 580 ms (116) loses 5 ms at each of them. -/
example : [116, 115, 114, 113, 112].map relayDelay = [115, 114, 113, 112, 112] := by decide

end BM.Props
