import Verif.Meets
/-!
# Combinators preserve `Meets`
-/
namespace BM
open F

/-! ### Lengths -/

/-- Every encoding has exactly `m` elements. -/
def LenEq {α} (G : Fmt α) (m : Nat) : Prop := ∀ ⦃u b v⦄, G u b v → b.length = m

/-- Every encoding has at least / at most `m` elements. -/
def LenGe {α} (G : Fmt α) (m : Nat) : Prop := ∀ ⦃u b v⦄, G u b v → m ≤ b.length
def LenLe {α} (G : Fmt α) (m : Nat) : Prop := ∀ ⦃u b v⦄, G u b v → b.length ≤ m

/-- Parsing consumes at least `m` elements. -/
def MinLen {α} (c : Con α) (m : Nat) : Prop :=
  ∀ ⦃L ctx s v rest⦄, c.parse L ctx s = .ok (v, rest) → rest.length + m ≤ s.length

theorem lenEq_uintWhere (n P) : LenEq (F.uintWhere n P) n := by rintro u b v ⟨k, -, -, hl, -⟩; exact hl
theorem lenEq_uint (n) : LenEq (F.uint n) n := lenEq_uintWhere n _
theorem lenEq_uintBE (n) : LenEq (F.uintBE n) n := by rintro u b v ⟨k, -, hl, -⟩; exact hl
theorem lenEq_sint (n) : LenEq (F.sint n) n := by rintro u b v ⟨k, -, hl, -⟩; exact hl
theorem lenEq_bitsU (n) : LenEq (F.bitsU n) n := by rintro u b v ⟨k, -, hl, -⟩; exact hl
theorem lenEq_bitsS (n) : LenEq (F.bitsS n) n := by rintro u b v ⟨k, -, hl, -⟩; exact hl
theorem lenEq_bit : LenEq F.bit 1 := by rintro u b v ⟨rfl, -⟩; rfl
theorem lenEq_byteFlag : LenEq F.byteFlag 1 := by rintro u b v ⟨rfl, -⟩; rfl
theorem lenEq_bytes (n) : LenEq (F.bytes n) n := by rintro u b v ⟨hl, -⟩; exact hl
theorem lenEq_enumOf {α} {G : Fmt α} {m E} (h : LenEq G m) : LenEq (F.enumOf G E) m := by
  rintro u b v ⟨k, w, -, hg, -⟩; exact h hg
theorem lenEq_packed (n G) : LenEq (F.packed n G) n := by rintro u b v ⟨hl, -⟩; exact hl
theorem lenEq_packedLE (n G) : LenEq (F.packedLE n G) n := by rintro u b v ⟨hl, -⟩; exact hl

def LenEqI {α} (r : RI α) (m : Nat) : Prop := ∀ ⦃du b dv⦄, r.rel du b dv → b.length = m

theorem lenEqI_fld {α} {k} {G : Fmt α} {m} (h : LenEq G m) : LenEqI (F.fld k G) m := by
  rintro du b dv ⟨u, v, -, hg, -⟩; exact h hg
theorem lenEqI_zeros {α} (z : α) (n) : LenEqI (F.zeros z n) n := by rintro du b dv ⟨rfl, -⟩; simp
theorem lenEqI_bitGroup (name n le rs) : LenEqI (F.bitGroup name n le rs) n := by
  rintro du b dv ⟨d, hl, -⟩; exact hl

inductive LenEqIs {α} : List (RI α) → Nat → Prop
  | nil : LenEqIs [] 0
  | cons {r rs m m'} : LenEqI r m → LenEqIs rs m' → LenEqIs (r :: rs) (m + m')

theorem lenEq_seqRel {α} {rs : List (RI α)} {m} (h : LenEqIs rs m) :
    ∀ {du b dv}, seqRel rs du b dv → b.length = m := by
  induction h with
  | nil => rintro du b dv ⟨rfl, -⟩; rfl
  | cons h1 _ ih =>
    rintro du b dv ⟨b1, b2, d1, d2, rfl, rfl, hr, hs⟩
    rw [List.length_append, h1 hr, ih hs]

theorem lenEqI_embed {α} {rs : List (RI α)} {m} (h : LenEqIs rs m) : LenEqI (F.embed rs) m :=
  fun _ _ _ hr => lenEq_seqRel h hr

theorem lenEq_record {α} {rs : List (RI α)} {m} (h : LenEqIs rs m) : LenEq (F.record rs) m := by
  rintro u b v ⟨du, dv, -, hs, -⟩; exact lenEq_seqRel h hs

theorem LenEq.cast {α} {G : Fmt α} {m m'} (h : LenEq G m) (e : m = m') : LenEq G m' := by
  rintro u b v hg; rw [← e]; exact h hg

/-! ### Adapters over numbers -/
section
variable {M : Mode} {e : Bool}

theorem validator_parse_ok {α} {c : Con α} {p : Val → R Bool} {L ctx s v rest}
    (h : (validator c p).parse L ctx s = .ok (v, rest)) :
    c.parse L ctx s = .ok (v, rest) ∧ p v = .ok true := by
  simp only [validator, adapter, bind_ok] at h
  obtain ⟨⟨v', r'⟩, h1, v'', ⟨ok, h2, h3⟩, h4⟩ := h
  split at h3
  · simp only [Except.ok.injEq] at h3
    subst h3
    simp only [Except.ok.injEq, Prod.mk.injEq] at h4
    obtain ⟨rfl, rfl⟩ := h4
    rename_i hok
    subst hok
    exact ⟨h1, h2⟩
  · simp at h3

theorem validator_parse {α} {c : Con α} {p : Val → R Bool} {L ctx s v rest}
    (h1 : c.parse L ctx s = .ok (v, rest)) (h2 : p v = .ok true) :
    (validator c p).parse L ctx s = .ok (v, rest) := by
  simp [validator, adapter, h1, h2]

theorem validator_build_ok {α} {c : Con α} {p : Val → R Bool} {L ctx u b r}
    (h : (validator c p).build L ctx u = .ok (b, r)) :
    p u = .ok true ∧ ∃ r', c.build L ctx u = .ok (b, r') := by
  simp only [validator, adapter, bind_ok] at h
  obtain ⟨u', ⟨ok, h1, h2⟩, ⟨b', r'⟩, h3, h4⟩ := h
  split at h2
  · simp only [Except.ok.injEq] at h2
    subst h2
    rename_i hok
    subst hok
    simp only [Except.ok.injEq, Prod.mk.injEq] at h4
    obtain ⟨rfl, rfl⟩ := h4
    exact ⟨h1, r', h3⟩
  · simp at h2

theorem validator_build {α} {c : Con α} {p : Val → R Bool} {L ctx u b r}
    (h1 : p u = .ok true) (h2 : c.build L ctx u = .ok (b, r)) : (validator c p).build L ctx u = .ok (b, u) := by
  simp [validator, adapter, h1, h2]

theorem lt_of_leNat {n k : Nat} {b : List UInt8} (hl : b.length = n) (hb : leNat b = k) : k < 256 ^ n := by
  subst hl; subst hb; exact leNat_lt b

/-- A validated unsigned integer. -/
theorem meets_uintWhere (n : Nat) (p : Val → R Bool) (P : Nat → Prop) [DecidablePred P]
    (hp : ∀ {u : Val} {k : Nat}, k < 256 ^ n → asInt u = some (k : Int) → p u = .ok (decide (P k))) :
    Meets M e (validator (uintLE n) p) (F.uintWhere n P) where
  enc := by
    rintro u b v ⟨k, hu, hP, hl, hb, rfl⟩ L ctx hT
    exact ⟨u, validator_build (by rw [hp (lt_of_leNat hl hb) hu]; simp [hP]) (uint_build hu hl hb L ctx)⟩
  dec := by
    rintro u b v ⟨k, hu, hP, hl, hb, rfl⟩ L ctx rest _
    refine validator_parse ((meets_uint (M := ⟨False, False, True, True⟩) (e := false) n).dec ⟨k, hu, trivial, hl, hb, rfl⟩ L ctx rest (by simp)) ?_
    rw [hp (k := k) (lt_of_leNat hl hb) rfl]; simp [hP]
  sound := by
    intro L ctx u b r hL h
    obtain ⟨h1, r', h2⟩ := validator_build_ok h
    obtain ⟨k, hu, rfl, hk, -⟩ := build_uint h2
    rw [hp hk hu] at h1
    refine ⟨_, k, hu, by simpa using h1, leBytes_length _ _, leNat_leBytes _ _ hk, rfl⟩
  refl := by rintro _ u b v ⟨k, hu, hP, hl, hb, rfl⟩; exact ⟨k, rfl, hP, hl, hb, rfl⟩
  inv := by
    intro _ L ctx s v rest h
    obtain ⟨h1, h2⟩ := validator_parse_ok h
    obtain ⟨b, k, hu, -, hl, hb, rfl⟩ := (meets_uint (M := ⟨False, False, True, True⟩) (e := false) n).inv trivial h1
    rw [hp (k := k) (lt_of_leNat hl hb) rfl] at h2
    exact ⟨b, k, rfl, by simpa using h2, hl, hb, rfl⟩
  exact := by
    intro _ L ctx s v rest h
    obtain ⟨h1, h2⟩ := validator_parse_ok h
    obtain ⟨b, hs, k, hu, -, hl, hb, rfl⟩ := (meets_uint (M := ⟨False, False, True, True⟩) (e := false) n).exact trivial h1
    rw [hp (k := k) (lt_of_leNat hl hb) rfl] at h2
    exact ⟨b, hs, k, rfl, by simpa using h2, hl, hb, rfl⟩
  nodiv := by
    intro L ctx s h
    simp only [validator, adapter, bind_err] at h
    rcases h with h | ⟨⟨v, r⟩, h1, ⟨h | ⟨ok, -, h⟩⟩ | ⟨_, -, h⟩⟩
    · exact (meets_uint (M := ⟨False, False, True, True⟩) (e := false) n).nodiv _ _ _ h
    · obtain ⟨b, k, hu, -, hl, hb, rfl⟩ := (meets_uint (M := ⟨False, False, True, True⟩) (e := false) n).inv trivial h1
      rw [hp (k := k) (lt_of_leNat hl hb) rfl] at h; simp at h
    · split at h <;> simp at h
    · simp at h

theorem has_iff (E : EnumDef) (k : Int) : E.has k = true ↔ ∃ m ∈ E.members, m.2 = k := by
  simp [EnumDef.has]

theorem lookupName_mem {ms : List (String × Int)} {s : String} {k : Int} (h : lookupName ms s = some k) :
    ∃ m ∈ ms, m.2 = k := by
  induction ms with
  | nil => simp [lookupName] at h
  | cons m ms ih =>
    obtain ⟨a, n⟩ := m
    simp only [lookupName] at h
    split at h
    · cases h; exact ⟨_, List.mem_cons_self .., rfl⟩
    · obtain ⟨m, hm, hk⟩ := ih h
      exact ⟨m, List.mem_cons_of_mem _ hm, hk⟩

theorem F.EnumMeans.has {E : EnumDef} {u : Val} {k : Int} (h : EnumMeans E u k) : E.has k = true := by
  rw [has_iff]
  rcases h with ⟨s, -, h⟩ | ⟨-, h⟩
  · exact lookupName_mem h
  · exact h

theorem enumMeans_iff {E : EnumDef} {u : Val} {k : Int} :
    EnumMeans E u k ↔ enumEncode E u = .ok (.enum E.cls k) := by
  unfold EnumMeans enumEncode
  split
  · rename_i s
    constructor
    · rintro (⟨s', hs, h⟩ | ⟨h, -⟩)
      · cases hs; rw [h]
      · simp [hashInt, asInt] at h
    · intro h
      split at h
      · rename_i n hn
        simp only [Except.ok.injEq, Val.enum.injEq, true_and] at h
        subst h
        exact Or.inl ⟨s, rfl, hn⟩
      · simp at h
  · rename_i hs
    constructor
    · rintro (⟨s', hs', h⟩ | ⟨h, hk⟩)
      · exact absurd hs' (hs s')
      · rw [h]; simp [(has_iff E k).2 hk]
    · intro h
      split at h
      · rename_i n hn
        split at h
        · rename_i hh
          simp only [Except.ok.injEq, Val.enum.injEq, true_and] at h
          subst h
          exact Or.inr ⟨hn, (has_iff E _).1 hh⟩
        · simp at h
      · simp at h

theorem enumEncode_ok {E : EnumDef} {u v : Val} (h : enumEncode E u = .ok v) : ∃ k, v = .enum E.cls k := by
  unfold enumEncode at h
  split at h
  · split at h
    · exact ⟨_, by cases h; rfl⟩
    · simp at h
  · split at h
    · split at h
      · exact ⟨_, by cases h; rfl⟩
      · simp at h
    · simp at h

theorem meets_enum {α} {c : Con α} {G : Fmt α} {E : EnumDef} (hc : Meets M e c G)
    (h1 : ∀ {k b w}, E.has k = true → G (.enum E.cls k) b w → hashInt w = some k)
    (h2 : ∀ {k b v}, E.has k = true → hashInt v = some k → G v b v → G (.enum E.cls k) b v) :
    Meets M e (enumAdapter c E) (F.enumOf G E) where
  enc := by
    rintro u b v ⟨k, w, hm, hg, rfl⟩ L ctx hT
    obtain ⟨r, hr⟩ := hc.enc hg L ctx hT
    exact ⟨u, by simp [enumAdapter, adapter, enumMeans_iff.1 hm, hr]⟩
  dec := by
    rintro u b v ⟨k, w, hm, hg, rfl⟩ L ctx rest hr
    simp only [enumAdapter, adapter, hc.dec hg L ctx rest hr, ok_bind, enumDecode, h1 hm.has hg, hm.has, if_true]
  sound := by
    intro L ctx u b r hL h
    simp only [enumAdapter, adapter, bind_ok] at h
    obtain ⟨u', h3, ⟨b', r'⟩, h4, h5⟩ := h
    simp only [Except.ok.injEq, Prod.mk.injEq] at h5
    obtain ⟨rfl, rfl⟩ := h5
    obtain ⟨k, rfl⟩ := enumEncode_ok h3
    obtain ⟨w, hw⟩ := hc.sound hL h4
    exact ⟨_, k, w, enumMeans_iff.2 h3, hw, rfl⟩
  refl := by
    rintro _ u b v ⟨k, w, hm, hg, rfl⟩
    exact ⟨k, w, Or.inr ⟨rfl, (has_iff E k).1 hm.has⟩, hg, rfl⟩
  inv := by
    intro hh0 L ctx s v rest h
    simp only [enumAdapter, adapter, bind_ok] at h
    obtain ⟨⟨v', r'⟩, h3, v'', h4, h5⟩ := h
    simp only [Except.ok.injEq, Prod.mk.injEq] at h5
    obtain ⟨rfl, rfl⟩ := h5
    unfold enumDecode at h4
    split at h4
    · rename_i k hk
      split at h4
      · rename_i hh
        cases h4
        obtain ⟨b, hb⟩ := hc.inv hh0 h3
        exact ⟨b, k, v', Or.inr ⟨rfl, (has_iff E k).1 hh⟩, h2 hh hk hb, rfl⟩
      · simp at h4
    · simp at h4
  exact := by
    intro hh0 L ctx s v rest h
    simp only [enumAdapter, adapter, bind_ok] at h
    obtain ⟨⟨v', r'⟩, h3, v'', h4, h5⟩ := h
    simp only [Except.ok.injEq, Prod.mk.injEq] at h5
    obtain ⟨rfl, rfl⟩ := h5
    unfold enumDecode at h4
    split at h4
    · rename_i k hk
      split at h4
      · rename_i hh
        cases h4
        obtain ⟨b, hs, hb⟩ := hc.exact hh0 h3
        exact ⟨b, hs, k, v', Or.inr ⟨rfl, (has_iff E k).1 hh⟩, h2 hh hk hb, rfl⟩
      · simp at h4
    · simp at h4
  nodiv := by
    intro L ctx s h
    simp only [enumAdapter, adapter, bind_err] at h
    rcases h with h | ⟨⟨v, r⟩, -, h | ⟨_, -, h⟩⟩
    · exact hc.nodiv _ _ _ h
    · unfold enumDecode at h
      split at h
      · split at h <;> simp at h
      · simp at h
    · simp at h

theorem meets_enum_uint (n : Nat) (E : EnumDef) : Meets M e (enumAdapter (uintLE n) E) (F.enumOf (F.uint n) E) := by
  refine meets_enum (meets_uint n) ?_ ?_
  · rintro k b w - ⟨j, hu, -, hl, hb, rfl⟩
    simp only [asInt, Option.some.injEq] at hu
    subst hu; rfl
  · rintro k b v - hk ⟨j, hu, -, hl, hb, rfl⟩
    simp only [hashInt, asInt, Option.some.injEq] at hk
    subst hk
    exact ⟨j, rfl, trivial, hl, hb, rfl⟩

theorem meets_enum_bits (n : Nat) (E : EnumDef) (hU : M.U) : Meets M e (enumAdapter (ubits n) E) (F.enumOf (F.bitsU n) E) := by
  refine meets_enum (meets_ubits n hU) ?_ ?_
  · rintro k b w - ⟨j, hu, hl, hb, rfl⟩
    simp only [asInt, Option.some.injEq] at hu
    subst hu; rfl
  · rintro k b v - hk ⟨j, hu, hl, hb, rfl⟩
    simp only [hashInt, asInt, Option.some.injEq] at hk
    subst hk
    exact ⟨j, rfl, hl, hb, rfl⟩

theorem meets_enum_bit (E : EnumDef) (hE : ∀ k, E.has k = true → k = 0 ∨ k = 1) :
    Meets M e (enumAdapter flagBit E) (F.enumOf F.bit E) := by
  refine meets_enum meets_flagBit ?_ ?_
  · rintro k b w hk ⟨-, rfl⟩
    rcases hE k hk with rfl | rfl <;> rfl
  · rintro k b v hk hv ⟨rfl, h⟩
    rw [h] at hv
    cases hb : truthy v <;> rw [hb] at hv h <;> subst h <;> simp [hashInt, asInt] at hv <;> subst hv <;> exact ⟨rfl, rfl⟩

/-! ### Records -/

structure MeetsI {α : Type} (M : Mode) (e : Bool) (it : Item α) (r : RI α) : Prop where
  enc : ∀ {du b dv}, r.rel du b dv → ∀ L ctx, (M.T → L.Strict) → ∃ ctx', it.build L du ctx = .ok (b, ctx')
  dec : ∀ {du b dv}, r.rel du b dv → ∀ L acc rest, (e = true → rest = []) →
    it.parse L acc (b ++ rest) = .ok (dmerge acc dv, rest)
  sound : ∀ {L du ctx b ctx'}, (M.U → L.Strict) → it.build L du ctx = .ok (b, ctx') → ∃ dv, r.rel du b dv
  refl : M.S → ∀ {du b dv}, r.rel du b dv → r.rel dv b dv
  inv : M.S → ∀ {L acc s acc' rest}, it.parse L acc s = .ok (acc', rest) →
    ∃ b dv, acc' = dmerge acc dv ∧ r.rel dv b dv
  exact : M.X → ∀ {L acc s acc' rest}, it.parse L acc s = .ok (acc', rest) →
    ∃ b dv, s = b ++ rest ∧ acc' = dmerge acc dv ∧ r.rel dv b dv
  nodiv : ∀ L acc s, it.parse L acc s ≠ .error .diverge
  keys : ∀ {du b dv}, r.rel du b dv → dkeys dv = r.keys
  loc : ∀ {du du' b dv}, (∀ k ∈ r.keys, dget du k = dget du' k) → r.rel du b dv → r.rel du' b dv

theorem MeetsI.end {α} {it : Item α} {r : RI α} (h : MeetsI M false it r) : MeetsI M e it r :=
  { h with dec := fun hg L acc rest _ => h.dec hg L acc rest (by simp) }

/-- A mandatory field (a member whose construct does not build from nothing). -/
theorem meetsI_field {α} {k : String} {c : Con α} {G : Fmt α} (hb : c.buildNone = false) (hc : Meets M e c G) :
    MeetsI M e (field k c) (F.fld k G) where
  enc := by
    rintro du b dv ⟨u, v, hu, hg, rfl⟩ L ctx hT
    obtain ⟨r, hr⟩ := hc.enc hg L (dset ctx k u) hT
    refine ⟨match (generalizing := false) r with | .none => dset ctx k u | r => dset (dset ctx k u) k r, ?_⟩
    have h1 : dgetE du k = .ok u := by simp [dgetE, hu]
    simp only [field, hb, Bool.false_eq_true, if_false, h1, ok_bind, hr]
    cases r <;> rfl
  dec := by
    rintro du b dv ⟨u, v, hu, hg, rfl⟩ L acc rest hr
    simp [field, hc.dec hg L acc rest hr, dmerge]
  sound := by
    intro L du ctx b ctx' hL h
    simp only [field, hb, bind_ok, Bool.false_eq_true, if_false] at h
    obtain ⟨u, h1, ⟨b', r⟩, h2, h3⟩ := h
    simp only [Except.ok.injEq, Prod.mk.injEq] at h3
    obtain ⟨rfl, -⟩ := h3
    obtain ⟨v, hv⟩ := hc.sound hL h2
    unfold dgetE at h1
    split at h1
    · rename_i w hw
      cases h1
      exact ⟨_, u, v, hw, hv, rfl⟩
    · simp at h1
  refl := by
    rintro hS du b dv ⟨u, v, hu, hg, rfl⟩
    exact ⟨v, v, by simp, hc.refl hS hg, rfl⟩
  inv := by
    intro hS L acc s acc' rest h
    simp only [field, bind_ok] at h
    obtain ⟨⟨v, r⟩, h1, h2⟩ := h
    simp only [Except.ok.injEq, Prod.mk.injEq] at h2
    obtain ⟨rfl, rfl⟩ := h2
    obtain ⟨b, hb⟩ := hc.inv hS h1
    exact ⟨b, [(k, v)], rfl, v, v, by simp, hb, rfl⟩
  exact := by
    intro hX L acc s acc' rest h
    simp only [field, bind_ok] at h
    obtain ⟨⟨v, r⟩, h1, h2⟩ := h
    simp only [Except.ok.injEq, Prod.mk.injEq] at h2
    obtain ⟨rfl, rfl⟩ := h2
    obtain ⟨b, hs, hb⟩ := hc.exact hX h1
    exact ⟨b, [(k, v)], hs, rfl, v, v, by simp, hb, rfl⟩
  nodiv := by
    intro L acc s h
    simp only [field, bind_err] at h
    rcases h with h | ⟨_, -, h⟩
    · exact hc.nodiv _ _ _ h
    · simp at h
  keys := by rintro du b dv ⟨u, v, hu, hg, rfl⟩; rfl
  loc := by
    rintro du du' b dv hk ⟨u, v, hu, hg, rfl⟩
    exact ⟨u, v, by rw [← hk k (by simp [F.fld]), hu], hg, rfl⟩

/-- Reserved elements: written as zeros, ignored when read (so not exact). -/
theorem meetsI_zeros {α} (z : α) (n : Nat) (hX : ¬ M.X) : MeetsI M e (anon (padding z n)) (F.zeros z n) where
  enc := by rintro du b dv ⟨rfl, rfl⟩ L ctx hT; exact ⟨_, rfl⟩
  dec := by
    rintro du b dv ⟨rfl, rfl⟩ L acc rest _
    simp [anon, padding, takeN_append, dmerge]
  sound := by
    intro L du ctx b ctx' _ h
    simp [anon, padding] at h
    exact ⟨[], h.1.symm, rfl⟩
  refl := by rintro _ du b dv h; exact h
  inv := by
    intro _ L acc s acc' rest h
    simp only [anon, padding, bind_ok] at h
    obtain ⟨⟨v, r⟩, ⟨⟨_, _⟩, -, -⟩, h2⟩ := h
    simp only [Except.ok.injEq, Prod.mk.injEq] at h2
    exact ⟨_, [], h2.1.symm, rfl, rfl⟩
  exact := fun h => absurd h hX
  nodiv := by
    intro L acc s h
    simp only [anon, padding, bind_err] at h
    rcases h with (h | ⟨_, -, h⟩) | ⟨_, -, h⟩
    · have := (takeN_err h).1; simp at this
    · simp at h
    · simp at h
  keys := by rintro du b dv ⟨-, rfl⟩; rfl
  loc := by rintro du du' b dv _ h; exact h

inductive MeetsIs {α : Type} (M : Mode) (e : Bool) : List (Item α) → List (RI α) → Prop
  | nil : MeetsIs M e [] []
  | last {it r} : MeetsI M e it r → MeetsIs M e [it] [r]
  | cons {it r its rs} : MeetsI M false it r → MeetsIs M e its rs → MeetsIs M e (it :: its) (r :: rs)

/-- Diagonal of `seqRel`: every part reads its own entries. -/
def seqDiag {α} : List (RI α) → List α → Dict → Prop
  | [], b, dv => b = [] ∧ dv = []
  | r :: rs, b, dv => ∃ b₁ b₂ d₁ d₂, b = b₁ ++ b₂ ∧ dv = d₁ ++ d₂ ∧ r.rel d₁ b₁ d₁ ∧ seqDiag rs b₂ d₂

section
variable {α : Type} {its : List (Item α)} {rs : List (RI α)}

theorem seqDiag_keys (h : MeetsIs M e its rs) : ∀ {b dv}, seqDiag rs b dv → dkeys dv = rs.flatMap RI.keys := by
  induction h with
  | nil => rintro b dv ⟨-, rfl⟩; rfl
  | last hi =>
    rintro b dv ⟨b1, b2, d1, d2, rfl, rfl, hr, rfl, rfl⟩
    simp [hi.keys hr]
  | cons hi _ ih =>
    rintro b dv ⟨b1, b2, d1, d2, rfl, rfl, hr, hs⟩
    simp [dkeys_append, hi.keys hr, ih hs]

theorem seqRel_keys (h : MeetsIs M e its rs) : ∀ {du b dv}, seqRel rs du b dv → dkeys dv = rs.flatMap RI.keys := by
  induction h with
  | nil => rintro du b dv ⟨-, rfl⟩; rfl
  | last hi =>
    rintro du b dv ⟨b1, b2, d1, d2, rfl, rfl, hr, rfl, rfl⟩
    simp [hi.keys hr]
  | cons hi _ ih =>
    rintro du b dv ⟨b1, b2, d1, d2, rfl, rfl, hr, hs⟩
    simp [dkeys_append, hi.keys hr, ih hs]

theorem seqRel_loc (h : MeetsIs M e its rs) :
    ∀ {du du' b dv}, (∀ k ∈ rs.flatMap RI.keys, dget du k = dget du' k) → seqRel rs du b dv → seqRel rs du' b dv := by
  induction h with
  | nil => rintro du du' b dv _ h; exact h
  | last hi =>
    rintro du du' b dv hk ⟨b1, b2, d1, d2, rfl, rfl, hr, h2⟩
    exact ⟨b1, b2, d1, d2, rfl, rfl, hi.loc (fun k hk' => hk k (by simp [hk'])) hr, h2⟩
  | cons hi _ ih =>
    rintro du du' b dv hk ⟨b1, b2, d1, d2, rfl, rfl, hr, h2⟩
    refine ⟨b1, b2, d1, d2, rfl, rfl, hi.loc (fun k hk' => hk k ?_) hr, ih (fun k hk' => hk k ?_) h2⟩
    · simp [hk']
    · simp only [List.flatMap_cons, List.mem_append]; exact Or.inr hk'

theorem seqRel_of_diag (h : MeetsIs M e its rs) :
    ∀ {du b dv}, (rs.flatMap RI.keys).Nodup → seqDiag rs b dv →
      (∀ k ∈ rs.flatMap RI.keys, dget du k = dget dv k) → seqRel rs du b dv := by
  induction h with
  | nil => rintro du b dv _ h _; exact h
  | last hi =>
    rintro du b dv hn ⟨b1, b2, d1, d2, rfl, rfl, hr, rfl, rfl⟩ hk
    refine ⟨b1, [], d1, [], rfl, rfl, hi.loc (fun k hk' => ?_) hr, rfl, rfl⟩
    rw [hk k (by simp [hk'])]; simp
  | cons hi hs ih =>
    rename_i r rs'
    rintro du b dv hn ⟨b1, b2, d1, d2, rfl, rfl, hr, h2⟩ hk
    simp only [List.flatMap_cons, List.nodup_append] at hn
    obtain ⟨hn1, hn2, hdis⟩ := hn
    refine ⟨b1, b2, d1, d2, rfl, rfl, hi.loc (fun k hk' => ?_) hr, ih hn2 h2 (fun k hk' => ?_)⟩
    · rw [hk k (by simp [hk']), dget_append_left]
      rw [hi.keys hr]; exact hk'
    · rw [hk k (by simp only [List.flatMap_cons, List.mem_append]; exact Or.inr hk'), dget_append_right]
      rw [hi.keys hr]
      intro hc
      exact hdis k hc k hk' rfl

theorem seqDiag_of_rel (h : MeetsIs M e its rs) (hS : M.S) : ∀ {du b dv}, seqRel rs du b dv → seqDiag rs b dv := by
  induction h with
  | nil => rintro du b dv h; exact h
  | last hi =>
    rintro du b dv ⟨b1, b2, d1, d2, rfl, rfl, hr, h2⟩
    exact ⟨b1, b2, d1, d2, rfl, rfl, hi.refl hS hr, h2⟩
  | cons hi _ ih =>
    rintro du b dv ⟨b1, b2, d1, d2, rfl, rfl, hr, h2⟩
    exact ⟨b1, b2, d1, d2, rfl, rfl, hi.refl hS hr, ih h2⟩

theorem items_enc (h : MeetsIs M e its rs) :
    ∀ {du b dv}, seqRel rs du b dv → ∀ L ctx, (M.T → L.Strict) → ∃ ctx', buildItems L du its ctx = .ok (b, ctx') := by
  induction h with
  | nil => rintro du b dv ⟨rfl, -⟩ L ctx hT; exact ⟨ctx, rfl⟩
  | last hi =>
    rintro du b dv ⟨b1, b2, d1, d2, rfl, rfl, hr, rfl, rfl⟩ L ctx hT
    obtain ⟨c1, h1⟩ := hi.enc hr L ctx hT
    exact ⟨c1, by simp [buildItems, h1]⟩
  | cons hi _ ih =>
    rintro du b dv ⟨b1, b2, d1, d2, rfl, rfl, hr, hs⟩ L ctx hT
    obtain ⟨c1, h1⟩ := hi.enc hr L ctx hT
    obtain ⟨c2, h2⟩ := ih hs L c1 hT
    exact ⟨c2, by simp [buildItems, h1, h2]⟩

theorem items_dec (h : MeetsIs M e its rs) :
    ∀ {du b dv}, seqRel rs du b dv → ∀ L acc rest, (e = true → rest = []) →
      parseItems L its acc (b ++ rest) = .ok (dmerge acc dv, rest) := by
  induction h with
  | nil => rintro du b dv ⟨rfl, rfl⟩ L acc rest _; rfl
  | last hi =>
    rintro du b dv ⟨b1, b2, d1, d2, rfl, rfl, hr, rfl, rfl⟩ L acc rest he
    simp [parseItems, hi.dec hr L acc rest he]
  | cons hi _ ih =>
    rintro du b dv ⟨b1, b2, d1, d2, rfl, rfl, hr, hs⟩ L acc rest he
    have := hi.dec hr L acc (b2 ++ rest) (by simp)
    rw [List.append_assoc, parseItems, this, dmerge_append]
    exact ih hs L _ rest he

theorem items_sound (h : MeetsIs M e its rs) :
    ∀ {L du ctx b ctx'}, (M.U → L.Strict) → buildItems L du its ctx = .ok (b, ctx') → ∃ dv, seqRel rs du b dv := by
  induction h with
  | nil =>
    intro L du ctx b ctx' _ h
    simp [buildItems] at h
    exact ⟨[], h.1, rfl⟩
  | last hi =>
    intro L du ctx b ctx' hL h
    simp only [buildItems, bind_ok] at h
    obtain ⟨⟨b1, c1⟩, h1, ⟨b2, c2⟩, h2, h3⟩ := h
    simp only [Except.ok.injEq, Prod.mk.injEq] at h2 h3
    obtain ⟨rfl, rfl⟩ := h2
    obtain ⟨rfl, rfl⟩ := h3
    obtain ⟨d1, hd1⟩ := hi.sound hL h1
    exact ⟨d1, b1, [], d1, [], by simp, by simp, hd1, rfl, rfl⟩
  | cons hi _ ih =>
    intro L du ctx b ctx' hL h
    simp only [buildItems, bind_ok] at h
    obtain ⟨⟨b1, c1⟩, h1, ⟨b2, c2⟩, h2, h3⟩ := h
    simp only [Except.ok.injEq, Prod.mk.injEq] at h3
    obtain ⟨rfl, rfl⟩ := h3
    obtain ⟨d1, hd1⟩ := hi.sound hL h1
    obtain ⟨d2, hd2⟩ := ih hL h2
    exact ⟨d1 ++ d2, b1, b2, d1, d2, rfl, rfl, hd1, hd2⟩

theorem items_inv (h : MeetsIs M e its rs) (hS : M.S) :
    ∀ {L acc s acc' rest}, parseItems L its acc s = .ok (acc', rest) →
      ∃ b dv, acc' = dmerge acc dv ∧ seqDiag rs b dv := by
  induction h with
  | nil =>
    intro L acc s acc' rest h
    simp [parseItems] at h
    exact ⟨[], [], by simp [dmerge, h.1], rfl, rfl⟩
  | last hi =>
    intro L acc s acc' rest h
    simp only [parseItems, bind_ok] at h
    obtain ⟨⟨a1, s1⟩, h1, h2⟩ := h
    simp only [Except.ok.injEq, Prod.mk.injEq] at h2
    obtain ⟨rfl, rfl⟩ := h2
    obtain ⟨b, dv, rfl, hr⟩ := hi.inv hS h1
    exact ⟨b, dv, rfl, b, [], dv, [], by simp, by simp, hr, rfl, rfl⟩
  | cons hi _ ih =>
    intro L acc s acc' rest h
    simp only [parseItems, bind_ok] at h
    obtain ⟨⟨a1, s1⟩, h1, h2⟩ := h
    obtain ⟨b1, d1, rfl, hr⟩ := hi.inv hS h1
    obtain ⟨b2, d2, rfl, hs⟩ := ih h2
    exact ⟨b1 ++ b2, d1 ++ d2, by rw [dmerge_append], b1, b2, d1, d2, rfl, rfl, hr, hs⟩

theorem items_exact (h : MeetsIs M e its rs) (hX : M.X) :
    ∀ {L acc s acc' rest}, parseItems L its acc s = .ok (acc', rest) →
      ∃ b dv, s = b ++ rest ∧ acc' = dmerge acc dv ∧ seqDiag rs b dv := by
  induction h with
  | nil =>
    intro L acc s acc' rest h
    simp [parseItems] at h
    exact ⟨[], [], by simp [h.2], by simp [dmerge, h.1], rfl, rfl⟩
  | last hi =>
    intro L acc s acc' rest h
    simp only [parseItems, bind_ok] at h
    obtain ⟨⟨a1, s1⟩, h1, h2⟩ := h
    simp only [Except.ok.injEq, Prod.mk.injEq] at h2
    obtain ⟨rfl, rfl⟩ := h2
    obtain ⟨b, dv, rfl, rfl, hr⟩ := hi.exact hX h1
    exact ⟨b, dv, rfl, rfl, b, [], dv, [], by simp, by simp, hr, rfl, rfl⟩
  | cons hi _ ih =>
    intro L acc s acc' rest h
    simp only [parseItems, bind_ok] at h
    obtain ⟨⟨a1, s1⟩, h1, h2⟩ := h
    obtain ⟨b1, d1, rfl, rfl, hr⟩ := hi.exact hX h1
    obtain ⟨b2, d2, rfl, rfl, hs⟩ := ih h2
    exact ⟨b1 ++ b2, d1 ++ d2, by simp, by rw [dmerge_append], b1, b2, d1, d2, rfl, rfl, hr, hs⟩

theorem items_nodiv (h : MeetsIs M e its rs) : ∀ L acc s, parseItems L its acc s ≠ .error .diverge := by
  induction h with
  | nil => intro L acc s h; simp [parseItems] at h
  | last hi =>
    intro L acc s h
    simp only [parseItems, bind_err] at h
    rcases h with h | ⟨_, _, h⟩
    · exact hi.nodiv _ _ _ h
    · simp at h
  | cons hi _ ih =>
    intro L acc s h
    simp only [parseItems, bind_err] at h
    rcases h with h | ⟨_, _, h⟩
    · exact hi.nodiv _ _ _ h
    · exact ih _ _ _ h

theorem meets_struct (h : MeetsIs M e its rs) (hn : (rs.flatMap RI.keys).Nodup) :
    Meets M e (struct its) (F.record rs) where
  enc := by
    rintro u b v ⟨du, dv, hu, hs, rfl⟩ L ctx hT
    obtain ⟨c, hc⟩ := items_enc h hs L du hT
    exact ⟨.dict c, by simp [struct, hu, hc]⟩
  dec := by
    rintro u b v ⟨du, dv, hu, hs, rfl⟩ L ctx rest he
    have hk := seqRel_keys h hs
    simp [struct, items_dec h hs L [] rest he, dmerge_nil_of_nodup dv (by rw [hk]; exact hn)]
  sound := by
    intro L ctx u b r hL hb
    simp only [struct, bind_ok] at hb
    obtain ⟨du, hu, ⟨b', c⟩, h1, h2⟩ := hb
    simp only [Except.ok.injEq, Prod.mk.injEq] at h2
    obtain ⟨rfl, -⟩ := h2
    obtain ⟨dv, hs⟩ := items_sound h hL h1
    exact ⟨_, du, dv, hu, hs, rfl⟩
  refl := by
    rintro hS u b v ⟨du, dv, hu, hs, rfl⟩
    exact ⟨dv, dv, rfl, seqRel_of_diag h hn (seqDiag_of_rel h hS hs) (fun _ _ => rfl), rfl⟩
  inv := by
    intro hS L ctx s v rest hp
    simp only [struct, bind_ok] at hp
    obtain ⟨⟨d, r⟩, h1, h2⟩ := hp
    simp only [Except.ok.injEq, Prod.mk.injEq] at h2
    obtain ⟨rfl, rfl⟩ := h2
    obtain ⟨b, dv, rfl, hd⟩ := items_inv h hS h1
    have hk := seqDiag_keys h hd
    rw [dmerge_nil_of_nodup dv (by rw [hk]; exact hn)]
    exact ⟨b, dv, dv, rfl, seqRel_of_diag h hn hd (fun _ _ => rfl), rfl⟩
  exact := by
    intro hX L ctx s v rest hp
    simp only [struct, bind_ok] at hp
    obtain ⟨⟨d, r⟩, h1, h2⟩ := hp
    simp only [Except.ok.injEq, Prod.mk.injEq] at h2
    obtain ⟨rfl, rfl⟩ := h2
    obtain ⟨b, dv, rfl, rfl, hd⟩ := items_exact h hX h1
    have hk := seqDiag_keys h hd
    rw [dmerge_nil_of_nodup dv (by rw [hk]; exact hn)]
    exact ⟨b, rfl, dv, dv, rfl, seqRel_of_diag h hn hd (fun _ _ => rfl), rfl⟩
  nodiv := by
    intro L ctx s hp
    simp only [struct, bind_err] at hp
    rcases hp with hp | ⟨_, _, hp⟩
    · exact items_nodiv h _ _ _ hp
    · simp at hp

theorem meetsI_embedded (h : MeetsIs M e its rs) (hn : (rs.flatMap RI.keys).Nodup) :
    MeetsI M e (embedded its) (F.embed rs) where
  enc := by
    intro du b dv hs L ctx hT
    obtain ⟨c, hc⟩ := items_enc h hs L du hT
    exact ⟨_, by simp [embedded, hc]; rfl⟩
  dec := by
    intro du b dv hs L acc rest he
    have hk := seqRel_keys h hs
    simp [embedded, items_dec h hs L [] rest he, dmerge_nil_of_nodup dv (by rw [hk]; exact hn)]
  sound := by
    intro L du ctx b ctx' hL hb
    simp only [embedded, bind_ok] at hb
    obtain ⟨⟨b', c⟩, h1, h2⟩ := hb
    simp only [Except.ok.injEq, Prod.mk.injEq] at h2
    obtain ⟨rfl, -⟩ := h2
    exact items_sound h hL h1
  refl := by
    intro hS du b dv hs
    exact seqRel_of_diag h hn (seqDiag_of_rel h hS hs) (fun _ _ => rfl)
  inv := by
    intro hS L acc s acc' rest hp
    simp only [embedded, bind_ok] at hp
    obtain ⟨⟨d, r⟩, h1, h2⟩ := hp
    simp only [Except.ok.injEq, Prod.mk.injEq] at h2
    obtain ⟨rfl, rfl⟩ := h2
    obtain ⟨b, dv, rfl, hd⟩ := items_inv h hS h1
    have hk := seqDiag_keys h hd
    rw [dmerge_nil_of_nodup dv (by rw [hk]; exact hn)]
    exact ⟨b, dv, rfl, seqRel_of_diag h hn hd (fun _ _ => rfl)⟩
  exact := by
    intro hX L acc s acc' rest hp
    simp only [embedded, bind_ok] at hp
    obtain ⟨⟨d, r⟩, h1, h2⟩ := hp
    simp only [Except.ok.injEq, Prod.mk.injEq] at h2
    obtain ⟨rfl, rfl⟩ := h2
    obtain ⟨b, dv, rfl, rfl, hd⟩ := items_exact h hX h1
    have hk := seqDiag_keys h hd
    rw [dmerge_nil_of_nodup dv (by rw [hk]; exact hn)]
    exact ⟨b, dv, rfl, rfl, seqRel_of_diag h hn hd (fun _ _ => rfl)⟩
  nodiv := by
    intro L acc s hp
    simp only [embedded, bind_err] at hp
    rcases hp with hp | ⟨_, _, hp⟩
    · exact items_nodiv h _ _ _ hp
    · simp at hp
  keys := fun hs => seqRel_keys h hs
  loc := fun hk hs => seqRel_loc h hk hs

end

/-! ### Bits inside bytes -/

theorem meets_bitwise {n : Nat} {c : Con Bool} {G : Fmt Bool} (hc : Meets M true c G) (hl : LenEq G (8 * n)) :
    Meets M e (bitwise n c) (F.packed n G) where
  enc := by
    rintro u b v ⟨hb, hg⟩ L ctx hT
    obtain ⟨r, hr⟩ := hc.enc hg L ctx hT
    exact ⟨r, by simp [bitwise, hr, bytesBits_length, hb, bitsBytes_bytesBits]⟩
  dec := by
    rintro u b v ⟨hb, hg⟩ L ctx rest _
    have := hc.dec hg L ctx [] (fun _ => rfl)
    rw [List.append_nil] at this
    simp [bitwise, takeN_append hb, this]
  sound := by
    intro L ctx u b r hL h
    simp only [bitwise, bind_ok] at h
    obtain ⟨⟨bs, r'⟩, h1, h2⟩ := h
    split at h2
    · rename_i hlen
      split at h2
      · rename_i b' hb'
        simp only [Except.ok.injEq, Prod.mk.injEq] at h2
        obtain ⟨rfl, rfl⟩ := h2
        obtain ⟨v, hv⟩ := hc.sound hL h1
        have := bytesBits_bitsBytes hb'
        refine ⟨v, ?_, by rw [this]; exact hv⟩
        have h8 := bytesBits_length b'
        rw [this, hlen] at h8; omega
      · simp at h2
    · simp at h2
  refl := by rintro hS u b v ⟨hb, hg⟩; exact ⟨hb, hc.refl hS hg⟩
  inv := by
    intro hS L ctx s v rest h
    simp only [bitwise, bind_ok] at h
    obtain ⟨⟨b, r⟩, h1, ⟨v', r'⟩, h2, h3⟩ := h
    simp only [Except.ok.injEq, Prod.mk.injEq] at h3
    obtain ⟨rfl, rfl⟩ := h3
    obtain ⟨bs, hbs⟩ := hc.inv hS h2
    obtain ⟨b', hb', hl'⟩ := bitsBytes_of_length (hl hbs)
    exact ⟨b', hl', by rw [bytesBits_bitsBytes hb']; exact hbs⟩
  exact := by
    intro hX L ctx s v rest h
    simp only [bitwise, bind_ok] at h
    obtain ⟨⟨b, r⟩, h1, ⟨v', r'⟩, h2, h3⟩ := h
    simp only [Except.ok.injEq, Prod.mk.injEq] at h3
    obtain ⟨rfl, rfl⟩ := h3
    obtain ⟨rfl, hb⟩ := takeN_ok h1
    obtain ⟨bs, hs, hbs⟩ := hc.exact hX h2
    have h8 := bytesBits_length b
    have hr' : r' = [] := by
      have := congrArg List.length hs
      rw [List.length_append, hl hbs, h8, hb] at this
      exact List.length_eq_zero_iff.1 (by omega)
    subst hr'
    rw [List.append_nil] at hs
    exact ⟨b, rfl, hb, by rw [hs]; exact hbs⟩
  nodiv := by
    intro L ctx s h
    simp only [bitwise, bind_err] at h
    rcases h with h | ⟨_, _, h | ⟨_, _, h⟩⟩
    · have := (takeN_err h).1; simp at this
    · exact hc.nodiv _ _ _ h
    · simp at h

theorem meets_reversed {n : Nat} {c : Con UInt8} {G : Fmt Bool} (hc : Meets M true c (F.packed n G)) :
    Meets M e (reversed n c) (F.packedLE n G) where
  enc := by
    rintro u b v ⟨hb, hg⟩ L ctx hT
    obtain ⟨r, hr⟩ := hc.enc (b := b.reverse) ⟨by simpa using hb, hg⟩ L ctx hT
    exact ⟨u, by simp [reversed, hr, hb]⟩
  dec := by
    rintro u b v ⟨hb, hg⟩ L ctx rest _
    have := hc.dec (b := b.reverse) ⟨by simpa using hb, hg⟩ L ctx [] (fun _ => rfl)
    rw [List.append_nil] at this
    simp [reversed, takeN_append hb, this]
  sound := by
    intro L ctx u b r hL h
    simp only [reversed, bind_ok] at h
    obtain ⟨⟨b', r'⟩, h1, h2⟩ := h
    split at h2
    · simp only [Except.ok.injEq, Prod.mk.injEq] at h2
      obtain ⟨rfl, rfl⟩ := h2
      obtain ⟨v, hl, hv⟩ := hc.sound hL h1
      exact ⟨v, by simpa using hl, by simpa using hv⟩
    · simp at h2
  refl := by
    rintro hS u b v ⟨hb, hg⟩
    exact ⟨hb, (hc.refl hS (b := b.reverse) ⟨by simpa using hb, hg⟩).2⟩
  inv := by
    intro hS L ctx s v rest h
    simp only [reversed, bind_ok] at h
    obtain ⟨⟨b, r⟩, h1, ⟨v', r'⟩, h2, h3⟩ := h
    simp only [Except.ok.injEq, Prod.mk.injEq] at h3
    obtain ⟨rfl, rfl⟩ := h3
    obtain ⟨b', hl, hb'⟩ := hc.inv hS h2
    exact ⟨b'.reverse, by simpa using hl, by simpa using hb'⟩
  exact := by
    intro hX L ctx s v rest h
    simp only [reversed, bind_ok] at h
    obtain ⟨⟨b, r⟩, h1, ⟨v', r'⟩, h2, h3⟩ := h
    simp only [Except.ok.injEq, Prod.mk.injEq] at h3
    obtain ⟨rfl, rfl⟩ := h3
    obtain ⟨rfl, hb⟩ := takeN_ok h1
    obtain ⟨b', hs, hl, hb'⟩ := hc.exact hX h2
    have hr' : r' = [] := by
      have := congrArg List.length hs
      rw [List.length_append, List.length_reverse, hb, hl] at this
      exact List.length_eq_zero_iff.1 (by omega)
    subst hr'
    rw [List.append_nil] at hs
    exact ⟨b, rfl, hb, by rw [hs]; exact hb'⟩
  nodiv := by
    intro L ctx s h
    simp only [reversed, bind_err] at h
    rcases h with h | ⟨_, _, h | ⟨_, _, h⟩⟩
    · have := (takeN_err h).1; simp at this
    · exact hc.nodiv _ _ _ h
    · simp at h

end
end BM
