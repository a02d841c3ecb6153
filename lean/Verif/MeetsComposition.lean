import Verif.MeetsPages
/-!
# Composition data
-/
namespace BM
open F Config

/-! ### Counts taken from the object -/

/-- `Rebuild(c, len_(this[ks]))`, with the list taken from the object. -/
def countItem (kn : String) (c : Con UInt8) (ks : String) : Item UInt8 where
  buildNone := true
  parse := (field kn c).parse
  build L obj ctx := do
    let u ← lenOf ks obj
    let (b, _) ← c.build L (dset ctx kn ((dget obj kn).getD .none)) u
    .ok (b, dset (dset ctx kn ((dget obj kn).getD .none)) kn u)

/-- The context and the object agree on `K`. -/
def AgreeOn (K : List String) (obj ctx : Dict) : Prop := ∀ k ∈ K, dget ctx k = dget obj k

/-- `its` and `its'` do the same in a context that agrees with the object on `K`. -/
inductive SameIs : List String → List (Item UInt8) → List (Item UInt8) → Prop
  | refl (K its) : SameIs K its its
  | cons {K it it' its its'} (K' : List String) : it.buildNone = it'.buildNone → it.parse = it'.parse →
      (∀ L obj ctx, AgreeOn K obj ctx → it.build L obj ctx = it'.build L obj ctx) →
      (∀ L obj ctx b ctx', AgreeOn K obj ctx → it'.build L obj ctx = .ok (b, ctx') → AgreeOn K' obj ctx') →
      SameIs K' its its' → SameIs K (it :: its) (it' :: its')

theorem SameIs.none {K its its'} (h : SameIs K its its') : its.all (·.buildNone) = its'.all (·.buildNone) := by
  induction h with
  | refl => rfl
  | cons _ h1 _ _ _ _ ih => simp only [List.all_cons, h1, ih]

theorem SameIs.parse {K its its'} (h : SameIs K its its') : ∀ L acc s, parseItems L its acc s = parseItems L its' acc s := by
  induction h with
  | refl => intros; rfl
  | cons _ _ h2 _ _ _ ih => intro L acc s; simp only [parseItems, h2, ih]

theorem SameIs.build {K its its'} (h : SameIs K its its') : ∀ L obj ctx, AgreeOn K obj ctx → buildItems L obj its ctx = buildItems L obj its' ctx := by
  induction h with
  | refl => intros; rfl
  | @cons K it it' its its' K' _ _ h3 h4 _ ih =>
    intro L obj ctx ha
    simp only [buildItems, h3 L obj ctx ha]
    cases hb : it'.build L obj ctx with
    | error => rfl
    | ok p => simp only [ok_bind]; rw [ih L obj p.2 (h4 L obj ctx p.1 p.2 ha hb)]

theorem SameIs.struct {K its its'} (h : SameIs K its its') : BM.struct its = BM.struct its' := by
  simp only [BM.struct, h.none, Con.mk.injEq, true_and]
  constructor
  · funext L ctx s; rw [h.parse]
  · funext L ctx u
    cases hd : asDict u with
    | error => rfl
    | ok d => simp only [ok_bind]; rw [h.build L d _ (fun _ _ => rfl)]

theorem field_other {k k' : String} {c : Con UInt8} {L obj ctx b ctx'} (hb : (field k c).build L obj ctx = .ok (b, ctx')) (hne : k ≠ k') :
    dget ctx' k' = dget ctx k' := by
  have : ∃ (u r : Val), ctx' = (match r with | .none => dset ctx k u | r => dset (dset ctx k u) k r) := by
    cases hbn : c.buildNone <;> simp only [field, hbn, if_true, Bool.false_eq_true, if_false, bind_ok] at hb
    · obtain ⟨u, hu, ⟨b1, r⟩, h1, h2⟩ := hb
      simp only [Except.ok.injEq, Prod.mk.injEq] at h2
      exact ⟨u, r, h2.2.symm⟩
    · obtain ⟨u, hu, ⟨b1, r⟩, h1, h2⟩ := hb
      simp only [Except.ok.injEq, Prod.mk.injEq] at h2
      exact ⟨u, r, h2.2.symm⟩
  obtain ⟨u, r, rfl⟩ := this
  split
  · rw [dget_dset_ne _ _ hne]
  · rw [dget_dset_ne _ _ hne, dget_dset_ne _ _ hne]

theorem SameIs.field {K its its'} {k : String} {c : Con UInt8} (hk : k ∉ K) (h : SameIs K its its') : SameIs K (field k c :: its) (field k c :: its') := by
  refine .cons K rfl rfl (fun _ _ _ _ => rfl) ?_ h
  intro L obj ctx b ctx' ha hb k' hk'
  have hne : k' ≠ k := by rintro rfl; exact hk hk'
  rw [field_other hb hne.symm]; exact ha k' hk'

/-- The same, for a field whose key is needed until now. -/
theorem SameIs.fieldLast {K its its'} {k : String} {c : Con UInt8} (h : SameIs (K.erase k) its its') (hK : K.Nodup) : SameIs K (BM.field k c :: its) (BM.field k c :: its') := by
  refine .cons (K.erase k) rfl rfl (fun _ _ _ _ => rfl) ?_ h
  intro L obj ctx b ctx' ha hb k' hk'
  have hne : k' ≠ k := by rintro rfl; exact hK.not_mem_erase hk'
  rw [field_other hb hne.symm]; exact ha k' (List.mem_of_mem_erase hk')

theorem lenOf_int {ks d v} (h : lenOf ks d = .ok v) : ∃ uv us, dget d ks = some uv ∧ iter uv = .ok us ∧ v = .int us.length := by
  simp only [lenOf, bind_ok] at h
  obtain ⟨uv, h1, h2⟩ := h
  refine ⟨uv, ?_⟩
  cases uv <;> simp only [Except.ok.injEq, reduceCtorEq] at h2 <;> exact ⟨_, dgetE_ok h1, rfl, by simp [← h2, String.length]⟩

theorem lenOf_eq {ks d uv us} (h : dget d ks = some uv) (hi : iter uv = .ok us) : lenOf ks d = .ok (.int us.length) := by
  simp only [lenOf, dgetE_eq h, ok_bind]
  cases uv <;> simp only [iter, Except.ok.injEq, reduceCtorEq] at hi <;> subst hi <;> simp [String.length]

theorem SameIs.count {K its its'} {kn ks : String} {c : Con UInt8} (hn : kn ∉ K) (hs : ks ∈ K) (h : SameIs K its its') :
    SameIs K (BM.field kn (rebuild c (lenOf ks)) :: its) (countItem kn c ks :: its') := by
  have hne : kn ≠ ks := by rintro rfl; exact hn hs
  refine .cons K rfl rfl ?_ ?_ h
  · intro L obj ctx ha
    have hl : ∀ x, lenOf ks (dset ctx kn x) = lenOf ks obj := by
      intro x
      simp only [lenOf, dgetE, dget_dset_ne _ _ hne, ha ks hs]
    simp only [BM.field, rebuild, countItem, if_true, ok_bind, hl]
    cases hv : lenOf ks obj with
    | error => rfl
    | ok v =>
      obtain ⟨_, us, -, -, rfl⟩ := lenOf_int hv
      simp only [ok_bind]
      cases c.build L (dset ctx kn ((dget obj kn).getD .none)) (.int us.length) <;> rfl
  · intro L obj ctx b ctx' ha hb
    simp only [countItem, bind_ok] at hb
    obtain ⟨u, hu, ⟨b1, r⟩, h1, h2⟩ := hb
    simp only [Except.ok.injEq, Prod.mk.injEq] at h2
    obtain ⟨-, rfl⟩ := h2
    intro k' hk'
    have hne' : kn ≠ k' := by rintro rfl; exact hn hk'
    rw [dget_dset_ne _ _ hne', dget_dset_ne _ _ hne']; exact ha k' hk'

/-! ### Lossless members -/

section
variable {M : Mode} {e : Bool}

theorem dmerge_nil_inj {a b : Dict} (ha : (dkeys a).Nodup) (hb : (dkeys b).Nodup) (h : dmerge [] a = dmerge [] b) : a = b := by
  rw [dmerge_nil_of_nodup _ ha, dmerge_nil_of_nodup _ hb] at h
  exact h

/-- Some library. -/
def anyLib : Lib := ⟨fun _ _ _ => .error .value, fun _ _ _ => .error .value, fun _ _ _ => ⟨_, rfl⟩, fun _ _ _ => ⟨_, rfl⟩⟩

theorem meetsI_exact {it : Item UInt8} {r : RI UInt8} (hk : r.keys.Nodup)
    (enc : ∀ {du b dv}, r.rel du b dv → ∀ L ctx, (M.T → L.Strict) → ∃ ctx', it.build L du ctx = .ok (b, ctx'))
    (dec : ∀ {du b dv}, r.rel du b dv → ∀ L acc rest, it.parse L acc (b ++ rest) = .ok (dmerge acc dv, rest))
    (sound : ∀ {L du ctx b ctx'}, (M.U → L.Strict) → it.build L du ctx = .ok (b, ctx') → ∃ dv, r.rel du b dv)
    (exact' : ∀ {L acc s acc' rest}, it.parse L acc s = .ok (acc', rest) → ∃ b dv, s = b ++ rest ∧ acc' = dmerge acc dv ∧ r.rel dv b dv)
    (nodiv : ∀ L acc s, it.parse L acc s ≠ .error .diverge)
    (keys : ∀ {du b dv}, r.rel du b dv → dkeys dv = r.keys)
    (loc : ∀ {du du' b dv}, (∀ k ∈ r.keys, dget du k = dget du' k) → r.rel du b dv → r.rel du' b dv) : MeetsI M e it r where
  enc := enc
  dec h L acc rest _ := dec h L acc rest
  sound := sound
  refl _ := by
    intro du b dv h
    have h1 := dec h anyLib [] []
    obtain ⟨b', dv', hb, hd, hr⟩ := exact' h1
    have e1 := dmerge_nil_inj (by rw [keys h]; exact hk) (by rw [keys hr]; exact hk) hd
    subst e1
    simp only [List.append_nil] at hb
    rw [hb]; exact hr
  inv _ := by
    intro L acc s acc' rest hp
    obtain ⟨b, dv, -, h1, h2⟩ := exact' hp
    exact ⟨b, dv, h1, h2⟩
  exact _ := exact'
  nodiv := nodiv
  keys := keys
  loc := loc

theorem meets_exact' {c : Con UInt8} {G : Fmt UInt8}
    (enc : ∀ {u b v}, G u b v → ∀ L ctx, (M.T → L.Strict) → ∃ r, c.build L ctx u = .ok (b, r))
    (dec : ∀ {u b v}, G u b v → ∀ L ctx rest, c.parse L ctx (b ++ rest) = .ok (v, rest))
    (sound : ∀ {L ctx u b r}, (M.U → L.Strict) → c.build L ctx u = .ok (b, r) → ∃ v, G u b v)
    (exact' : ∀ {L ctx s v rest}, c.parse L ctx s = .ok (v, rest) → ∃ b, s = b ++ rest ∧ G v b v)
    (nodiv : ∀ L ctx s, c.parse L ctx s ≠ .error .diverge) : Meets M e c G where
  enc := enc
  dec h L ctx rest _ := dec h L ctx rest
  sound := sound
  refl _ := by
    intro u b v h
    obtain ⟨b', hb, hg⟩ := exact' (dec h anyLib [] [])
    simp only [List.append_nil] at hb
    rw [hb]; exact hg
  inv _ := by
    intro L ctx s v rest hp
    obtain ⟨b, -, h⟩ := exact' hp
    exact ⟨b, h⟩
  exact _ := exact'
  nodiv := nodiv

/-! ### A list and its length -/

theorem countOf_int {k : String} {d : Dict} {n : Nat} (h : dget d k = some (.int n)) : countOf k d = .ok n := by
  simp only [countOf, dgetE_eq h, ok_bind, asInt, Int.natCast_nonneg, if_true, Int.toNat_natCast]

theorem countItem_ok {kn ks : String} {n : Nat} {L obj ctx b ctx'} (h : (countItem kn (uintLE n) ks).build L obj ctx = .ok (b, ctx')) :
    ∃ uv us, dget obj ks = some uv ∧ iter uv = .ok us ∧ us.length < 256 ^ n ∧ b = leBytes n us.length ∧ dget ctx' kn = some (.int us.length) := by
  simp only [countItem, bind_ok] at h
  obtain ⟨u, hu, ⟨b1, r⟩, h1, h2⟩ := h
  simp only [Except.ok.injEq, Prod.mk.injEq] at h2
  obtain ⟨rfl, rfl⟩ := h2
  obtain ⟨uv, us, h3, h4, rfl⟩ := lenOf_int hu
  obtain ⟨k, hk, rfl, hlt, -⟩ := build_uint h1
  simp only [asInt, Option.some.injEq] at hk
  have : k = us.length := by omega
  subst this
  exact ⟨uv, us, h3, h4, hlt, rfl, dget_dset_self _ _ _⟩

theorem countItem_build {kn ks : String} {n : Nat} {obj uv us} (h1 : dget obj ks = some uv) (h2 : iter uv = .ok us) (h3 : us.length < 256 ^ n) (L ctx) :
    ∃ ctx', (countItem kn (uintLE n) ks).build L obj ctx = .ok (leBytes n us.length, ctx') ∧ dget ctx' kn = some (.int us.length) ∧
      ∀ k, k ≠ kn → dget ctx' k = dget ctx k := by
  refine ⟨_, ?_, dget_dset_self (dset ctx kn ((dget obj kn).getD .none)) kn (.int us.length), ?_⟩
  · simp only [countItem, lenOf_eq h1 h2, ok_bind,
      uint_build (n := n) (u := .int us.length) (b := leBytes n us.length) (k := us.length) rfl (leBytes_length _ _) (leNat_leBytes _ _ h3)]
  · intro k hk
    rw [dget_dset_ne _ _ hk.symm, dget_dset_ne _ _ hk.symm]

theorem countItem_other {kn ks : String} {n : Nat} {L obj ctx b ctx'} (h : (countItem kn (uintLE n) ks).build L obj ctx = .ok (b, ctx')) :
    ∀ k, k ≠ kn → dget ctx' k = dget ctx k := by
  simp only [countItem, bind_ok] at h
  obtain ⟨u, hu, ⟨b1, r⟩, h1, h2⟩ := h
  simp only [Except.ok.injEq, Prod.mk.injEq] at h2
  obtain ⟨-, rfl⟩ := h2
  intro k hk
  rw [dget_dset_ne _ _ hk.symm, dget_dset_ne _ _ hk.symm]

/-- Building a list whose length is in the context. -/
theorem arrayField_build {kn ks : String} (hk : ks ≠ kn) {c : Con UInt8} {n : Nat} {L obj ctx} (hn : dget ctx kn = some (.int n)) {b ctx'} :
    (field ks (arrayC (countOf kn) c)).build L obj ctx = .ok (b, ctx') ↔
      ∃ uv us, dget obj ks = some uv ∧ iter uv = .ok us ∧ us.length = n ∧ buildMany (c.build L (dset ctx ks uv)) us = .ok b ∧
        ctx' = dset (dset ctx ks uv) ks (.list us) := by
  have hc : ∀ uv, countOf kn (dset ctx ks uv) = .ok n := fun uv => countOf_int (by rw [dget_dset_ne _ _ hk, hn])
  have hbn : (arrayC (countOf kn) c).buildNone = false := rfl
  simp only [field, hbn, Bool.false_eq_true, if_false, bind_ok]
  constructor
  · rintro ⟨uv, hu, ⟨b1, r⟩, h1, h2⟩
    simp only [arrayC, hc, ok_bind, bind_ok] at h1
    obtain ⟨us, h3, h4⟩ := h1
    split at h4
    · rename_i hl
      simp only [bind_ok] at h4
      obtain ⟨b2, h5, h6⟩ := h4
      cases h6
      cases h2
      exact ⟨uv, us, dgetE_ok hu, h3, hl, h5, rfl⟩
    · cases h4
  · rintro ⟨uv, us, hu, hi, hl, hb, rfl⟩
    exact ⟨uv, dgetE_eq hu, (b, .list us), by simp only [arrayC, hc, ok_bind, hi, if_pos hl, hb], rfl⟩

/-- Parsing one. -/
theorem arrayField_parse {kn ks : String} {c : Con UInt8} {n : Nat} {L acc} (hn : dget acc kn = some (.int n)) (s) :
    (field ks (arrayC (countOf kn) c)).parse L acc s = (do let (vs, rest) ← parseMany (c.parse L acc) n s; .ok (dset acc ks (.list vs), rest)) := by
  simp only [field, arrayC, countOf_int hn, ok_bind]
  cases parseMany (c.parse L acc) n s <;> rfl

theorem count_parse {kn : String} {n : Nat} {L acc s acc' rest} (h : (field kn (uintLE n)).parse L acc s = .ok (acc', rest)) :
    ∃ k : Nat, k < 256 ^ n ∧ s = leBytes n k ++ rest ∧ acc' = dset acc kn (.int k) := by
  simp only [field, bind_ok] at h
  obtain ⟨⟨v, r⟩, h1, h2⟩ := h
  cases h2
  obtain ⟨bl, hs, k, hk, -, hlen, hval, rfl⟩ := (meets_uint (M := lossless) (e := false) n).exact trivial h1
  have hk' := lt_of_leNat hlen hval
  refine ⟨k, hk', ?_, rfl⟩
  rw [hs, ← hval, ← hlen, leBytes_leNat]

theorem count_read {kn : String} {n k : Nat} (hk : k < 256 ^ n) (L acc rest) :
    (field kn (uintLE n)).parse L acc (leBytes n k ++ rest) = .ok (dset acc kn (.int k), rest) := by
  have h1 := (meets_uint (M := lossless) (e := false) n).dec (u := .int k) (b := leBytes n k) (v := .int k)
      ⟨k, rfl, trivial, leBytes_length _ _, leNat_leBytes _ _ hk, rfl⟩ L acc rest (by simp)
  simp only [field, h1, ok_bind]

theorem meetsI_counted {n : Nat} {kn ks : String} (hk : ks ≠ kn) {c : Con UInt8} {G : Fmt UInt8} (hX : M.X) (hc : Meets M false c G) :
    MeetsI M e (grouped [countItem kn (uintLE n) ks, field ks (arrayC (countOf kn) c)]) (counted n kn ks G) := by
  refine meetsI_exact (by simp [counted, hk.symm]) ?_ ?_ ?_ ?_ ?_ ?_ ?_
  · rintro du b dv ⟨uv, us, vs, p, h1, h2, h3, h4, rfl, rfl⟩ L ctx hT
    obtain ⟨ctx', hb, hn, -⟩ := countItem_build (kn := kn) h1 h2 h3 L ctx
    have := (arrayField_build hk (c := c) (n := us.length) (L := L) (obj := du) hn (b := p)).2 ⟨uv, us, h1, h2, rfl, many_enc hc h4 L _ hT, rfl⟩
    exact ⟨_, by simp only [grouped, buildItems, hb, this, ok_bind, List.append_nil]; rfl⟩
  · rintro du b dv ⟨uv, us, vs, p, h1, h2, h3, h4, rfl, rfl⟩ L acc rest
    have hp : (countItem kn (uintLE n) ks).parse = (field kn (uintLE n)).parse := rfl
    simp only [grouped, parseItems, hp, List.append_assoc, count_read h3, ok_bind,
      arrayField_parse (dget_dset_self acc kn (.int us.length)), many_dec hc h4, dmerge]
  · intro L du ctx b ctx' hL h
    simp only [grouped, buildItems, bind_ok] at h
    obtain ⟨⟨b1, c1⟩, h1, ⟨b2, c2⟩, ⟨⟨b3, c3⟩, h3, ⟨b4, c4⟩, h4, h5⟩, h6⟩ := h
    cases h4; cases h5; cases h6
    obtain ⟨uv, us, g1, g2, g3, rfl, g4⟩ := countItem_ok h1
    obtain ⟨uv', us', g5, g6, g7, g8, -⟩ := (arrayField_build hk g4).1 h3
    rw [g1] at g5; cases g5
    rw [g2] at g6; cases g6
    obtain ⟨vs, hv⟩ := many_sound hc hL g8
    exact ⟨_, uv, us, vs, b3, g1, g2, g3, hv, by simp, rfl⟩
  · intro L acc s acc' rest h
    simp only [grouped, parseItems, bind_ok] at h
    obtain ⟨⟨a1, s1⟩, h1, ⟨a2, s2⟩, h2, h3⟩ := h
    cases h3
    obtain ⟨k, hk', rfl, rfl⟩ := count_parse h1
    rw [arrayField_parse (dget_dset_self acc kn (.int k))] at h2
    simp only [bind_ok] at h2
    obtain ⟨⟨vs, r⟩, h4, h5⟩ := h2
    cases h5
    obtain ⟨rfl, b, rfl, hb⟩ := many_exact hc hX h4
    exact ⟨leBytes n vs.length ++ b, [(kn, .int vs.length), (ks, .list vs)], by simp, rfl, .list vs, vs, vs, b, by simp [dget, hk.symm], rfl, hk', hb, rfl, rfl⟩
  · intro L acc s h
    simp only [grouped, parseItems, bind_err] at h
    rcases h with h | ⟨⟨a1, s1⟩, h1, h | ⟨_, _, h⟩⟩
    · have : (field kn (uintLE n)).parse L acc s = .error .diverge := h
      simp only [field, bind_err] at this
      rcases this with h | ⟨_, _, h⟩
      · exact (meets_uint (M := lossless) (e := false) n).nodiv _ _ _ h
      · cases h
    · obtain ⟨k, hk', rfl, rfl⟩ := count_parse h1
      rw [arrayField_parse (dget_dset_self acc kn (.int k))] at h
      simp only [bind_err] at h
      rcases h with h | ⟨_, _, h⟩
      · exact many_nodiv hc _ _ h
      · cases h
    · cases h
  · rintro du b dv ⟨uv, us, vs, p, h1, h2, h3, h4, rfl, rfl⟩; rfl
  · rintro du du' b dv hl ⟨uv, us, vs, p, h1, h2, h3, h4, rfl, rfl⟩
    exact ⟨uv, us, vs, p, by rw [← hl ks (by simp [counted])]; exact h1, h2, h3, h4, rfl, rfl⟩

theorem count_nodiv {kn : String} {n : Nat} (L acc s) : (field kn (uintLE n)).parse L acc s ≠ .error .diverge := by
  intro this
  simp only [field, bind_err] at this
  rcases this with h | ⟨_, _, h⟩
  · exact (meets_uint (M := lossless) (e := false) n).nodiv _ _ _ h
  · cases h

theorem meetsI_counted2 {kn kn' ks ks' : String} (hk : [kn, kn', ks, ks'].Nodup) {c c' : Con UInt8} {G G' : Fmt UInt8} (hX : M.X)
    (hc : Meets M false c G) (hc' : Meets M false c' G') :
    MeetsI M e (grouped [countItem kn (uintLE 1) ks, countItem kn' (uintLE 1) ks', field ks (arrayC (countOf kn) c), field ks' (arrayC (countOf kn') c')])
      (counted2 kn kn' ks ks' G G') := by
  have hk0 := hk
  simp only [List.nodup_cons, List.mem_cons, List.not_mem_nil, or_false, not_or, not_false_eq_true, List.nodup_nil, and_true] at hk
  obtain ⟨⟨n1, n2, n3⟩, ⟨n4, n5⟩, n6⟩ := hk
  refine meetsI_exact hk0 ?_ ?_ ?_ ?_ ?_ ?_ ?_
  · rintro du b dv ⟨uv, us, vs, p, uv', us', vs', p', h1, h2, h3, h4, h1', h2', h3', h4', rfl, rfl⟩ L ctx hT
    obtain ⟨c1, hb1, hn1, -⟩ := countItem_build (kn := kn) (n := 1) h1 h2 h3 L ctx
    obtain ⟨c2, hb2, hn2, ho2⟩ := countItem_build (kn := kn') (n := 1) h1' h2' h3' L c1
    have g1 := (arrayField_build (Ne.symm n2) (c := c) (n := us.length) (L := L) (obj := du) (by rw [ho2 kn n1]; exact hn1) (b := p)).2
      ⟨uv, us, h1, h2, rfl, many_enc hc h4 L _ hT, rfl⟩
    have g2 := (arrayField_build (Ne.symm n5) (c := c') (n := us'.length) (L := L) (obj := du) (ctx := dset (dset c2 ks uv) ks (.list us))
      (by rw [dget_dset_ne _ _ (Ne.symm n4), dget_dset_ne _ _ (Ne.symm n4)]; exact hn2) (b := p')).2
      ⟨uv', us', h1', h2', rfl, many_enc hc' h4' L _ hT, rfl⟩
    exact ⟨_, by simp only [grouped, buildItems, hb1, hb2, g1, g2, ok_bind, List.append_nil, leBytes_one]; rfl⟩
  · rintro du b dv ⟨uv, us, vs, p, uv', us', vs', p', h1, h2, h3, h4, h1', h2', h3', h4', rfl, rfl⟩ L acc rest
    have hp : ∀ a b, (countItem a (uintLE 1) b).parse = (field a (uintLE 1)).parse := fun _ _ => rfl
    have r1 := count_read (kn := kn) (n := 1) h3 L acc (UInt8.ofNat us'.length :: (p ++ (p' ++ rest)))
    have r2 := count_read (kn := kn') (n := 1) h3' L (dset acc kn (.int us.length)) (p ++ (p' ++ rest))
    simp only [leBytes_one, List.cons_append, List.nil_append] at r1 r2
    simp only [grouped, parseItems, hp, List.append_assoc, List.cons_append, r1, r2, ok_bind]
    rw [arrayField_parse (n := us.length) (by rw [dget_dset_ne _ _ (Ne.symm n1), dget_dset_self]), many_dec hc h4]
    simp only [ok_bind]
    rw [arrayField_parse (n := us'.length) (by rw [dget_dset_ne _ _ (Ne.symm n4), dget_dset_self]), many_dec hc' h4']
    simp only [ok_bind, dmerge]
  · intro L du ctx b ctx' hL h
    simp only [grouped, buildItems, bind_ok] at h
    obtain ⟨⟨b1, c1⟩, h1, ⟨b2, c2⟩, ⟨⟨b3, c3⟩, h3, ⟨b4, c4⟩, ⟨⟨b5, c5⟩, h5, ⟨b6, c6⟩, ⟨⟨b7, c7⟩, h7, ⟨b8, c8⟩, h8, h9⟩, h10⟩, h11⟩, h12⟩ := h
    cases h8; cases h9; cases h10; cases h11; cases h12
    obtain ⟨uv, us, g1, g2, g3, rfl, g4⟩ := countItem_ok h1
    obtain ⟨uv', us', k1, k2, k3, rfl, k4⟩ := countItem_ok h3
    rw [← countItem_other h3 kn n1] at g4
    obtain ⟨_, _, g5, g6, g7, g8, rfl⟩ := (arrayField_build (Ne.symm n2) g4).1 h5
    rw [g1] at g5; cases g5
    rw [g2] at g6; cases g6
    obtain ⟨_, _, k5, k6, k7, k8, -⟩ := (arrayField_build (Ne.symm n5) (n := us'.length)
      (by rw [dget_dset_ne _ _ (Ne.symm n4), dget_dset_ne _ _ (Ne.symm n4)]; exact k4)).1 h7
    rw [k1] at k5; cases k5
    rw [k2] at k6; cases k6
    obtain ⟨vs, hv⟩ := many_sound hc hL g8
    obtain ⟨vs', hv'⟩ := many_sound hc' hL k8
    exact ⟨_, uv, us, vs, b5, uv', us', vs', b7, g1, g2, g3, hv, k1, k2, k3, hv', by simp [leBytes_one], rfl⟩
  · intro L acc s acc' rest h
    simp only [grouped, parseItems, bind_ok] at h
    obtain ⟨⟨a1, s1⟩, h1, ⟨a2, s2⟩, h2, ⟨a3, s3⟩, h3, ⟨a4, s4⟩, h4, h5⟩ := h
    cases h5
    obtain ⟨k, hk, rfl, rfl⟩ := count_parse h1
    obtain ⟨k', hk', rfl, rfl⟩ := count_parse h2
    rw [arrayField_parse (n := k) (by rw [dget_dset_ne _ _ (Ne.symm n1), dget_dset_self])] at h3
    simp only [bind_ok] at h3
    obtain ⟨⟨vs, r⟩, h6, h7⟩ := h3
    cases h7
    rw [arrayField_parse (n := k') (by rw [dget_dset_ne _ _ (Ne.symm n4), dget_dset_self])] at h4
    simp only [bind_ok] at h4
    obtain ⟨⟨vs', r'⟩, h8, h9⟩ := h4
    cases h9
    obtain ⟨rfl, b, rfl, hb⟩ := many_exact hc hX h6
    obtain ⟨rfl, b', rfl, hb'⟩ := many_exact hc' hX h8
    exact ⟨UInt8.ofNat vs.length :: UInt8.ofNat vs'.length :: (b ++ b'), [(kn, .int vs.length), (kn', .int vs'.length), (ks, .list vs), (ks', .list vs')],
      by simp [leBytes_one], rfl, .list vs, vs, vs, b, .list vs', vs', vs', b', by simp [dget, n2, n4], rfl, hk, hb,
      by simp [dget, n3, n5, n6], rfl, hk', hb', rfl, rfl⟩
  · intro L acc s h
    simp only [grouped, parseItems, bind_err] at h
    rcases h with h | ⟨⟨a1, s1⟩, h1, h | ⟨⟨a2, s2⟩, h2, h | ⟨⟨a3, s3⟩, h3, h | ⟨_, _, h⟩⟩⟩⟩
    · exact count_nodiv (kn := kn) _ _ _ h
    · exact count_nodiv (kn := kn') _ _ _ h
    · obtain ⟨k, hk, rfl, rfl⟩ := count_parse h1
      obtain ⟨k', hk', rfl, rfl⟩ := count_parse h2
      rw [arrayField_parse (n := k) (by rw [dget_dset_ne _ _ (Ne.symm n1), dget_dset_self])] at h
      simp only [bind_err] at h
      rcases h with h | ⟨_, _, h⟩
      · exact many_nodiv hc _ _ h
      · cases h
    · obtain ⟨k, hk, rfl, rfl⟩ := count_parse h1
      obtain ⟨k', hk', rfl, rfl⟩ := count_parse h2
      rw [arrayField_parse (n := k) (by rw [dget_dset_ne _ _ (Ne.symm n1), dget_dset_self])] at h3
      simp only [bind_ok] at h3
      obtain ⟨⟨vs, r⟩, h6, h7⟩ := h3
      cases h7
      rw [arrayField_parse (n := k') (by rw [dget_dset_ne _ _ (Ne.symm n4), dget_dset_self])] at h
      simp only [bind_err] at h
      rcases h with h | ⟨_, _, h⟩
      · exact many_nodiv hc' _ _ h
      · cases h
    · cases h
  · rintro du b dv ⟨uv, us, vs, p, uv', us', vs', p', h1, h2, h3, h4, h1', h2', h3', h4', rfl, rfl⟩; rfl
  · rintro du du' b dv hl ⟨uv, us, vs, p, uv', us', vs', p', h1, h2, h3, h4, h1', h2', h3', h4', rfl, rfl⟩
    exact ⟨uv, us, vs, p, uv', us', vs', p', by rw [← hl ks (by simp [counted2])]; exact h1, h2, h3, h4,
      by rw [← hl ks' (by simp [counted2])]; exact h1', h2', h3', h4', rfl, rfl⟩

theorem same_page0 : struct compositionDataPage0Element = struct [field "location" gattNamespaceDescriptor,
    grouped [countItem "sig_number" (uintLE 1) "sig_models", countItem "vendor_number" (uintLE 1) "vendor_models",
      field "sig_models" (arrayC (countOf "sig_number") (struct sigModelId)),
      field "vendor_models" (arrayC (countOf "vendor_number") (struct vendorModelId))]] := by
  rw [SameIs.struct (K := ["sig_models", "vendor_models"]) (.field (by decide) (.count (by decide) (by decide) (.count (by decide) (by decide) (.refl _ _))))]
  exact struct_ext (grouped_cons (grouped_append [_, _, _, _] []))

theorem meets_page0Element (hM : M.X) : Meets M e (struct compositionDataPage0Element) Spec.page0Element := by
  rw [same_page0]
  exact meets_struct (.cons (meetsI_field rfl (by meets)) (.last (meetsI_counted2 (by decide) hM (by meets) (by meets)))) (by decide)

theorem same_page2 : struct meshProfileEntry = struct [field "mesh_profile_identifier" (uintLE 2), field "version" version,
    grouped [countItem "num_element_offsets" (uintLE 1) "element_offset_list", field "element_offset_list" (arrayC (countOf "num_element_offsets") (uintLE 1))],
    grouped [countItem "additional_data_len" (uintLE 2) "additional_data", field "additional_data" (arrayC (countOf "additional_data_len") (uintLE 1))]] := by
  rw [SameIs.struct (K := ["element_offset_list", "additional_data"]) (.field (by decide) (.field (by decide) (.count (by decide) (by decide)
    (.fieldLast (.count (by decide) (by decide) (.refl _ _)) (by decide)))))]
  refine struct_ext (grouped_cons (grouped_cons ?_))
  refine (grouped_append [_, _] [_, _]).trans (grouped_cons ?_)
  exact grouped_append [_, _] []

theorem meets_profile (hM : M.X) : Meets M e (struct meshProfileEntry) (record [
    Spec.u16 "mesh_profile_identifier", fld "version" (record [Spec.u8 "version_x", Spec.u8 "version_y", Spec.u8 "version_z"]),
    counted 1 "num_element_offsets" "element_offset_list" (uint 1), counted 2 "additional_data_len" "additional_data" (uint 1)]) := by
  rw [same_page2]
  exact meets_struct (.cons (meetsI_field rfl (by meets)) (.cons (meetsI_field rfl (by meets)) (.cons (meetsI_counted (by decide) hM (by meets))
    (.last (meetsI_counted (by decide) hM (by meets)))))) (by decide)

/-! ### Model relations -/

theorem ubits_ok {n : Nat} {L ctx u b r} (hL : Lib.Strict L) (h : (ubits n).build L ctx u = .ok (b, r)) :
    ∃ k : Nat, asInt u = some (k : Int) ∧ k < 2 ^ n ∧ b = natBits n k ∧ r = u := by
  simp only [ubits] at h
  split at h
  · rename_i k hk
    split at h
    · rename_i hr
      cases h
      exact ⟨k.toNat, by rw [hk, Int.toNat_of_nonneg hr.1], hr.2, rfl, rfl⟩
    · obtain ⟨e, he⟩ := hL.bits n false k
      simp [he] at h
  · cases h

theorem ubits_eq {n k : Nat} {L ctx u} (h : asInt u = some (k : Int)) (hk : k < 2 ^ n) : (ubits n).build L ctx u = .ok (natBits n k, u) := by
  have hk' : (0 : Int) ≤ k ∧ (k : Int).toNat < 2 ^ n := ⟨by omega, by simpa using hk⟩
  simp only [ubits, h]
  rw [if_pos hk', Int.toNat_natCast]

theorem ubits_read {n k : Nat} (hk : k < 2 ^ n) (L ctx rest) : (ubits n).parse L ctx (natBits n k ++ rest) = .ok (.int k, rest) := by
  simp only [ubits, takeN_append (natBits_length n k), ok_bind, bitsNat_natBits n k hk]

theorem truthy_int {u : Val} {k : Nat} (h : asInt u = some (k : Int)) : truthy u = decide (k ≠ 0) := by
  cases u <;> simp only [asInt, reduceCtorEq, Option.some.injEq] at h
  · rename_i b; cases b <;> simp_all [truthy] <;> omega
  · subst h; simp [truthy]; by_cases hk : k = 0 <;> simp [hk]
  · subst h; simp [truthy]; by_cases hk : k = 0 <;> simp [hk]

theorem head_bits (x : UInt8) : bytesBits [x] = natBits 6 (x.toNat / 4) ++ (natBits 1 (x.toNat / 2 % 2) ++ (natBits 1 (x.toNat % 2) ++ [])) := by
  have hx := x.toNat_lt
  have h1 : natBits 2 (x.toNat / 2 % 2 * 2 + x.toNat % 2) = natBits 1 (x.toNat / 2 % 2) ++ natBits 1 (x.toNat % 2) :=
    natBits_add (n := 1) (m := 1) (by omega) (by omega)
  have h2 : natBits 8 (x.toNat / 4 * 4 + (x.toNat / 2 % 2 * 2 + x.toNat % 2)) = natBits 6 (x.toNat / 4) ++ natBits 2 (x.toNat / 2 % 2 * 2 + x.toNat % 2) :=
    natBits_add (n := 6) (m := 2) (by omega) (by omega)
  have h3 : x.toNat / 4 * 4 + (x.toNat / 2 % 2 * 2 + x.toNat % 2) = x.toNat := by omega
  rw [h3, h1] at h2
  rw [bytesBits_cons, h2]
  simp only [bytesBits, List.flatMap_nil, List.append_nil]

theorem format_has {f : Nat} (hf : f < 2) : E.ExtendedModelsItemFormat.has f = true := by
  have : f = 0 ∨ f = 1 := by omega
  rcases this with rfl | rfl <;> decide

theorem head_parse (L acc) (x : UInt8) (s : List UInt8) : (bitPart 1 modelRelationHead).parse L acc (x :: s) =
    .ok (dset (dset (dset acc "extended_items_count" (.int (x.toNat / 4 : Nat))) "format" (.enum "ExtendedModelsItemFormat" (x.toNat / 2 % 2 : Nat)))
      "corresponding_present" (.int (x.toNat % 2 : Nat)), s) := by
  have hx := x.toNat_lt
  have hf : ∀ L ctx rest, (enumAdapter (ubits 1) E.ExtendedModelsItemFormat).parse L ctx (natBits 1 (x.toNat / 2 % 2) ++ rest) =
      .ok (.enum "ExtendedModelsItemFormat" (x.toNat / 2 % 2 : Nat), rest) := by
    intro L ctx rest
    have := format_has (f := x.toNat / 2 % 2) (by omega)
    simp only [enumAdapter, adapter, ubits_read (n := 1) (k := x.toNat / 2 % 2) (by omega), ok_bind, enumDecode, asInt, hashInt, this, if_true]
    rfl
  have ht : takeN 1 (x :: s) = .ok ([x], s) := takeN_one x s
  simp only [bitPart, ht, ok_bind, modelRelationHead, parseItems, field, rebuild, head_bits,
    ubits_read (n := 6) (k := x.toNat / 4) (by omega), hf, ubits_read (n := 1) (k := x.toNat % 2) (by omega)]

theorem head_byte {n f p : Nat} (hn : n < 64) (hf : f < 2) (hp : p < 2) :
    bitsBytes (natBits 6 n ++ (natBits 1 f ++ (natBits 1 p ++ []))) = some [UInt8.ofNat (n * 4 + f * 2 + p)] := by
  have hx : (UInt8.ofNat (n * 4 + f * 2 + p)).toNat = n * 4 + f * 2 + p := by simp; omega
  have h := head_bits (UInt8.ofNat (n * 4 + f * 2 + p))
  rw [hx, show (n * 4 + f * 2 + p) / 4 = n by omega, show (n * 4 + f * 2 + p) / 2 % 2 = f by omega, show (n * 4 + f * 2 + p) % 2 = p by omega] at h
  rw [← h, bitsBytes_bytesBits]

/-- What the first byte needs of the object. -/
def HeadOf (d : Dict) (n f p : Nat) (uf up : Val) : Prop :=
  firstLen "extended_models_items" d = .ok (.int n) ∧ n < 64 ∧ dget d "format" = some uf ∧
    EnumMeans E.ExtendedModelsItemFormat uf f ∧ f < 2 ∧ dget d "corresponding_present" = some up ∧ asInt up = some (p : Int) ∧ p < 2

/-- The context after the first byte. -/
abbrev headCtx (d : Dict) (n : Nat) (uf up : Val) : Dict :=
  dset (dset (dset (dset (dset (dset d "extended_items_count" ((dget d "extended_items_count").getD .none)) "extended_items_count" (.int n))
    "format" uf) "format" uf) "corresponding_present" up) "corresponding_present" up

theorem firstLen_other {d : Dict} {x} : firstLen "extended_models_items" (dset d "extended_items_count" x) = firstLen "extended_models_items" d := by
  simp only [firstLen, dgetE, dget_dset_ne d x (show "extended_items_count" ≠ "extended_models_items" by decide)]

theorem F.EnumMeans.ne_none {E : EnumDef} {u k} (h : EnumMeans E u k) : u ≠ .none := by
  rintro rfl
  rcases h with ⟨s, h, -⟩ | ⟨h, -⟩
  · cases h
  · simp [hashInt, asInt] at h

theorem same_ctx {r : Val} (h : r ≠ .none) (c : Dict) (k : String) (u : Val) :
    (match r with | .none => dset c k u | r => dset (dset c k u) k r) = dset (dset c k u) k r := by
  cases r <;> first | exact absurd rfl h | rfl

theorem head_eq {L d n f p uf up} (h : HeadOf d n f p uf up) :
    (bitPart 1 modelRelationHead).build L d d = .ok ([UInt8.ofNat (n * 4 + f * 2 + p)], headCtx d n uf up) := by
  obtain ⟨h1, h2, h3, h4, h5, h6, h7, h8⟩ := h
  have e1 : (enumAdapter (ubits 1) E.ExtendedModelsItemFormat).buildNone = false := rfl
  have e2 : (ubits 1).buildNone = false := rfl
  have hen : ∀ c, (enumAdapter (ubits 1) E.ExtendedModelsItemFormat).build L c uf = .ok (natBits 1 f, uf) := by
    intro c
    simp only [enumAdapter, adapter, enumMeans_iff.1 h4, ok_bind, ubits_eq (n := 1) (k := f) (u := .enum E.ExtendedModelsItemFormat.cls f) rfl h5]
  have hup : up ≠ .none := by rintro rfl; simp [asInt] at h7
  have huf : uf ≠ .none := h4.ne_none
  simp only [bitPart, modelRelationHead, buildItems, field, rebuild, if_true, ok_bind, firstLen_other, h1,
    ubits_eq (n := 6) (k := n) (u := .int n) rfl h2, e1, e2, Bool.false_eq_true, if_false, dgetE_eq h3, hen, dgetE_eq h6,
    ubits_eq (n := 1) (k := p) h7 h8, same_ctx huf, same_ctx hup, head_byte h2 h5 h8]
  simp [natBits_length]

theorem head_ok {L d b ctx} (hL : Lib.Strict L) (h : (bitPart 1 modelRelationHead).build L d d = .ok (b, ctx)) :
    ∃ uf up, ∃ n f p : Nat, HeadOf d n f p uf up := by
  have e1 : (enumAdapter (ubits 1) E.ExtendedModelsItemFormat).buildNone = false := rfl
  have e2 : (ubits 1).buildNone = false := rfl
  simp only [bitPart, modelRelationHead, buildItems, field, rebuild, if_true, ok_bind, firstLen_other, e1, e2, Bool.false_eq_true, if_false, bind_ok] at h
  obtain ⟨⟨bs, c0⟩, ⟨⟨b1, c1⟩, ⟨⟨b2, r2⟩, ⟨u, hu, ⟨b3, r3⟩, h3, h4⟩, h5⟩, ⟨b6, c6⟩, ⟨⟨b7, c7⟩, ⟨uf, huf, ⟨b8, r8⟩, h8, h9⟩, ⟨b10, c10⟩,
    ⟨⟨b11, c11⟩, ⟨up, hup, ⟨b12, r12⟩, h12, h13⟩, h14⟩, h15⟩, h16⟩, h17⟩ := h
  have hn : ∃ n : Nat, u = .int n := by
    simp only [firstLen, bind_ok] at hu
    obtain ⟨v, -, hv⟩ := hu
    split at hv <;> first | (cases hv; done) | (cases hv; exact ⟨_, rfl⟩)
  obtain ⟨n, rfl⟩ := hn
  obtain ⟨n', hn', hlt, -, -⟩ := ubits_ok hL h3
  obtain ⟨p, hp, hp2, -, -⟩ := ubits_ok hL h12
  simp only [enumAdapter, adapter, bind_ok] at h8
  obtain ⟨w, hw, ⟨b20, r20⟩, h20, h21⟩ := h8
  obtain ⟨k, rfl⟩ := enumEncode_ok hw
  obtain ⟨f, hf, hf2, -, -⟩ := ubits_ok hL h20
  simp only [asInt, Option.some.injEq] at hf hn'
  subst hf
  have : n' = n := by omega
  subst this
  exact ⟨uf, up, n', f, p, hu, hlt, dgetE_ok huf, enumMeans_iff.2 hw, hf2, dgetE_ok hup, hp, hp2⟩

theorem firstLen_iff {d : Dict} {n : Nat} : firstLen "extended_models_items" d = .ok (.int n) ↔
    ∃ di v0 us0, dget d "extended_models_items" = some (.dict di) ∧ di.head?.map Prod.snd = some v0 ∧ iter v0 = .ok us0 ∧ us0.length = n := by
  constructor
  · intro h
    simp only [firstLen, bind_ok] at h
    obtain ⟨v, hv, h⟩ := h
    have hv := dgetE_ok hv
    split at h <;> simp only [Except.ok.injEq, Val.int.injEq, Nat.cast_inj, reduceCtorEq] at h
    all_goals exact ⟨_, _, _, hv, rfl, rfl, by simpa [String.length] using h⟩
  · rintro ⟨di, v0, us0, h1, h2, h3, rfl⟩
    cases di with
    | nil => simp at h2
    | cons x di =>
      obtain ⟨k0, v⟩ := x
      simp only [List.head?_cons, Option.map_some, Option.some.injEq] at h2
      subst h2
      simp only [firstLen, dgetE_eq h1, ok_bind]
      cases v <;> simp only [iter, Except.ok.injEq, reduceCtorEq] at h3 <;> subst h3 <;> simp [String.length]

/-- The items of a model relation. -/
def relItems (f : Nat) : Fmt UInt8 := if f = 0 then Spec.shortItem else Spec.longItem
/-- Their key. -/
def relKey (f : Nat) : String := if f = 0 then "short" else "long"
/-- The construct for one of them. -/
def relCon (f : Nat) : Con UInt8 := if f = 0 then extendedModelShortFormat else extendedModelLongFormat

theorem meets_rel (f : Nat) : Meets lossless false (relCon f) (relItems f) := by
  unfold relCon relItems
  split
  · meets
  · meets

theorem relFormat {f : Nat} (hf : f < 2) : ∃ name, lookupValue E.ExtendedModelsItemFormat.members f = some name ∧ lower name = relKey f ∧
    extendedItemsCon f = some (arrayC (countOf "extended_items_count") (relCon f)) := by
  have : f = 0 ∨ f = 1 := by omega
  rcases this with rfl | rfl
  · exact ⟨"SHORT", by decide, by decide, rfl⟩
  · exact ⟨"LONG", by decide, by decide, rfl⟩

theorem items_parse {L acc s} {f n : Nat} (hf : f < 2) (h1 : dget acc "format" = some (.enum "ExtendedModelsItemFormat" f))
    (h2 : dget acc "extended_items_count" = some (.int n)) :
    extendedModelsItems.parse L acc s = (do let (vs, rest) ← parseMany ((relCon f).parse L acc) n s; .ok (.dict [(relKey f, .list vs)], rest)) := by
  obtain ⟨name, g1, g2, g3⟩ := relFormat hf
  simp only [extendedModelsItems, dgetE_eq h1, ok_bind, g1, g3, g2, arrayC, countOf_int h2]
  cases parseMany ((relCon f).parse L acc) n s <;> rfl

theorem relFormat_none {n : Int} {name} (h : lookupValue E.ExtendedModelsItemFormat.members n = some name) : ∃ f : Nat, n = f ∧ f < 2 := by
  simp only [E.ExtendedModelsItemFormat, lookupValue] at h
  split at h
  · exact ⟨0, by omega, by omega⟩
  · split at h
    · exact ⟨1, by omega, by omega⟩
    · cases h

theorem items_ok {L ctx u b r} {n : Nat} {uf} (h1 : dget ctx "format" = some uf) (h2 : dget ctx "extended_items_count" = some (.int n))
    (h : extendedModelsItems.build L ctx u = .ok (b, r)) : ∃ f : Nat, hashInt uf = some (f : Int) ∧ f < 2 ∧ ∃ d ul us, u = .dict d ∧ dget d (relKey f) = some ul ∧
      iter ul = .ok us ∧ us.length = n ∧ buildMany ((relCon f).build L ctx) us = .ok b := by
  simp only [extendedModelsItems, dgetE_eq h1, ok_bind] at h
  split at h
  swap
  · cases h
  rename_i k hk
  split at h
  swap
  · cases h
  rename_i name c hn hc
  obtain ⟨f, rfl, hf⟩ := relFormat_none hn
  obtain ⟨name', g1, g2, g3⟩ := relFormat hf
  rw [hn] at g1; cases g1
  rw [hc] at g3; cases g3
  split at h
  swap
  · cases h
  rename_i d
  simp only [g2, bind_ok] at h
  obtain ⟨ul, hul, ⟨b1, r1⟩, h3, h4⟩ := h
  cases h4
  simp only [arrayC, countOf_int h2, ok_bind, bind_ok] at h3
  obtain ⟨us, hus, h3⟩ := h3
  split at h3
  swap
  · cases h3
  rename_i hl
  simp only [bind_ok] at h3
  obtain ⟨b2, h5, h6⟩ := h3
  cases h6
  exact ⟨f, hk, hf, d, ul, us, rfl, dgetE_ok hul, hus, hl, h5⟩

theorem items_eq {L ctx b d ul us} {f : Nat} {uf} (h1 : dget ctx "format" = some uf) (h2 : dget ctx "extended_items_count" = some (.int (us.length : Nat)))
    (hh : hashInt uf = some (f : Int)) (hf : f < 2) (h3 : dget d (relKey f) = some ul) (h4 : iter ul = .ok us)
    (h5 : buildMany ((relCon f).build L ctx) us = .ok b) : extendedModelsItems.build L ctx (.dict d) = .ok (b, .dict d) := by
  obtain ⟨name, g1, g2, g3⟩ := relFormat hf
  simp only [extendedModelsItems, dgetE_eq h1, ok_bind, hh, g1, g3, g2, dgetE_eq h3, arrayC, countOf_int h2, h4, if_true, h5]

theorem relationItem_iff {u b v} : Spec.relationItem u b v ↔
  ∃ du uf up ui di ul us vs p q, ∃ f present id : Nat, u = .dict du ∧ HeadOf du us.length f present uf up ∧ hashInt uf = some (f : Int) ∧
    dget du "corresponding_id" = some ui ∧
    (present = 0 ∧ q = [] ∧ id = 0 ∨ present = 1 ∧ asInt ui = some (id : Int) ∧ id < 256 ∧ q = [UInt8.ofNat id]) ∧
    dget du "extended_models_items" = some (.dict di) ∧ dget di (relKey f) = some ul ∧ iter ul = .ok us ∧
    manyRel (relItems f) us p vs ∧
    b = UInt8.ofNat (us.length * 4 + f * 2 + present) :: (q ++ p) ∧
    v = .dict [("extended_items_count", .int us.length), ("format", .enum "ExtendedModelsItemFormat" f), ("corresponding_present", .int present),
      ("corresponding_id", .int id), ("extended_models_items", .dict [(relKey f, .list vs)])] := by
  constructor
  · rintro ⟨du, uf, up, ui, di, v0, ul, us, vs, p, q, f, present, id, key, G, rfl, h1, h2, h3, h4, h5, h6, h7, h8, h9, h10, h11, ⟨h12, us0, h13, h14⟩, h15, h16, rfl, rfl⟩
    have hf : f < 2 ∧ key = relKey f ∧ G = relItems f := by
      rcases h3 with ⟨rfl, rfl, rfl⟩ | ⟨rfl, rfl, rfl⟩ <;> exact ⟨by decide, rfl, rfl⟩
    obtain ⟨hf, rfl, rfl⟩ := hf
    exact ⟨du, uf, up, ui, di, ul, us, vs, p, q, f, present, id, rfl, ⟨firstLen_iff.2 ⟨di, v0, us0, h9, h12, h13, h14⟩, h15, h1,
      .inr ⟨h2, (has_iff _ _).1 (format_has hf)⟩, hf, h4, h5, h6⟩, h2, h7, h8, h9, h10, h11, h16, rfl, rfl⟩
  · rintro ⟨du, uf, up, ui, di, ul, us, vs, p, q, f, present, id, rfl, ⟨g1, g2, g3, g4, g5, g6, g7, g8⟩, h2, h7, h8, h9, h10, h11, h16, rfl, rfl⟩
    obtain ⟨di', v0, us0, k1, k2, k3, k4⟩ := firstLen_iff.1 g1
    rw [h9] at k1; cases k1
    refine ⟨du, uf, up, ui, di, v0, ul, us, vs, p, q, f, present, id, relKey f, relItems f, rfl, g3, h2, ?_, g6, g7, g8, h7, h8, h9, h10, h11, ⟨k2, us0, k3, k4⟩, g2, h16, rfl, rfl⟩
    have : f = 0 ∨ f = 1 := by omega
    rcases this with rfl | rfl
    · exact .inl ⟨rfl, rfl, rfl⟩
    · exact .inr ⟨rfl, rfl, rfl⟩

/-- The corresponding group identifier. -/
abbrev relId : Con UInt8 := ifThenElseDefault
    (fun ctx => do let v ← dgetE ctx "corresponding_present"; .ok (truthy v)) (bitwise 1 (ubits 8)) (.int 0)

theorem relId_parse {L acc} {present : Nat} (h : dget acc "corresponding_present" = some (.int present)) (s) :
    relId.parse L acc s = if present = 0 then .ok (.int 0, s) else (bitwise 1 (ubits 8)).parse L acc s := by
  simp only [relId, ifThenElseDefault, dgetE_eq h, ok_bind, truthy_int (u := .int present) rfl]
  by_cases hp : present = 0 <;> simp [hp]

theorem relId_build {L ctx up u} {present : Nat} (h : dget ctx "corresponding_present" = some up) (hp : asInt up = some (present : Int)) :
    relId.build L ctx u = if present = 0 then .ok ([], u) else (bitwise 1 (ubits 8)).build L ctx u := by
  simp only [relId, ifThenElseDefault, dgetE_eq h, ok_bind, truthy_int hp]
  by_cases hp : present = 0 <;> simp [hp]

theorem byte_ok {L ctx u b r} (hL : Lib.Strict L) (h : (bitwise 1 (ubits 8)).build L ctx u = .ok (b, r)) :
    ∃ id : Nat, asInt u = some (id : Int) ∧ id < 256 ∧ b = [UInt8.ofNat id] := by
  simp only [bitwise, bind_ok] at h
  obtain ⟨⟨bs, r1⟩, h1, h2⟩ := h
  obtain ⟨k, h3, h4, rfl, -⟩ := ubits_ok hL h1
  have h5 : bitsBytes (natBits 8 k) = some [UInt8.ofNat k] := by
    have h6 : bytesBits [UInt8.ofNat k] = natBits 8 k := by
      rw [bytesBits_cons]
      have : (UInt8.ofNat k).toNat = k := by simp; omega
      rw [this]; simp [bytesBits]
    rw [← h6, bitsBytes_bytesBits]
  simp only [natBits_length, if_true, h5, Except.ok.injEq, Prod.mk.injEq] at h2
  exact ⟨k, h3, h4, h2.1.symm⟩

theorem byte_eq {L ctx u} {id : Nat} (h : asInt u = some (id : Int)) (hi : id < 256) : (bitwise 1 (ubits 8)).build L ctx u = .ok ([UInt8.ofNat id], u) := by
  have h5 : bitsBytes (natBits 8 id) = some [UInt8.ofNat id] := by
    have h6 : bytesBits [UInt8.ofNat id] = natBits 8 id := by
      rw [bytesBits_cons]
      have : (UInt8.ofNat id).toNat = id := by simp; omega
      rw [this]; simp [bytesBits]
    rw [← h6, bitsBytes_bytesBits]
  simp only [bitwise, ubits_eq (n := 8) h hi, ok_bind, natBits_length, if_true, h5]

theorem byte_parse (L ctx) (x : UInt8) (s) : (bitwise 1 (ubits 8)).parse L ctx (x :: s) = .ok (.int x.toNat, s) := by
  have hx := x.toNat_lt
  have := ubits_read (n := 8) (k := x.toNat) hx L ctx []
  simp only [List.append_nil] at this
  have hb : bytesBits [x] = natBits 8 x.toNat := by rw [bytesBits_cons]; simp [bytesBits]
  simp only [bitwise, takeN_one, ok_bind, hb, this]

theorem rel_parse {L ctx x s present f n} (hx : (x : UInt8).toNat = n * 4 + f * 2 + present) (hf : f < 2) (hp : present < 2) :
    (struct modelRelationItem).parse L ctx (x :: s) = (do
      let (id, s') ← relId.parse L [("extended_items_count", .int n), ("format", .enum "ExtendedModelsItemFormat" f), ("corresponding_present", .int present)] s
      let (vs, rest) ← parseMany ((relCon f).parse L [("extended_items_count", .int n), ("format", .enum "ExtendedModelsItemFormat" f),
        ("corresponding_present", .int present), ("corresponding_id", id)]) n s'
      .ok (.dict [("extended_items_count", .int n), ("format", .enum "ExtendedModelsItemFormat" f), ("corresponding_present", .int present),
        ("corresponding_id", id), ("extended_models_items", .dict [(relKey f, .list vs)])], rest)) := by
  have e1 : x.toNat / 4 = n := by omega
  have e2 : x.toNat / 2 % 2 = f := by omega
  have e3 : x.toNat % 2 = present := by omega
  simp only [struct, modelRelationItem, parseItems, head_parse, ok_bind, e1, e2, e3, field, dset, String.reduceEq, if_false]
  cases h1 : relId.parse L [("extended_items_count", .int n), ("format", .enum "ExtendedModelsItemFormat" f), ("corresponding_present", .int present)] s with
  | error e => rfl
  | ok p =>
    simp only [ok_bind]
    rw [items_parse (f := f) (n := n) hf (by simp [dget]) (by simp [dget])]
    cases parseMany ((relCon f).parse L [("extended_items_count", .int n), ("format", .enum "ExtendedModelsItemFormat" f),
        ("corresponding_present", .int present), ("corresponding_id", p.1)]) n p.2 with
    | error => rfl
    | ok q => rfl

theorem field_eq {k : String} {c : Con UInt8} {L obj ctx u b r} (hb : c.buildNone = false) (hu : dget obj k = some u)
    (h : c.build L (dset ctx k u) u = .ok (b, r)) : ∃ ctx', (field k c).build L obj ctx = .ok (b, ctx') ∧ ∀ k', k ≠ k' → dget ctx' k' = dget ctx k' := by
  have : (field k c).build L obj ctx = .ok (b, match r with | .none => dset ctx k u | r => dset (dset ctx k u) k r) := by
    simp only [field, hb, Bool.false_eq_true, if_false, dgetE_eq hu, ok_bind, h]
    cases r <;> rfl
  exact ⟨_, this, fun k' hk => field_other this hk⟩

theorem field_ok {k : String} {c : Con UInt8} {L obj ctx b ctx'} (hb : c.buildNone = false) (h : (field k c).build L obj ctx = .ok (b, ctx')) :
    ∃ u r, dget obj k = some u ∧ c.build L (dset ctx k u) u = .ok (b, r) := by
  simp only [field, hb, Bool.false_eq_true, if_false, bind_ok] at h
  obtain ⟨u, hu, ⟨b1, r⟩, h1, h2⟩ := h
  cases h2
  exact ⟨u, r, dgetE_ok hu, h1⟩

theorem headCtx_get {d n uf up} : dget (headCtx d n uf up) "extended_items_count" = some (.int n) ∧ dget (headCtx d n uf up) "format" = some uf ∧
    dget (headCtx d n uf up) "corresponding_present" = some up := by
  refine ⟨?_, ?_, ?_⟩ <;> simp [headCtx, dget_dset_ne, dget_dset_self]

theorem meets_relation : Meets lossless e (struct modelRelationItem) Spec.relationItem := by
  refine meets_exact' ?_ ?_ ?_ ?_ ?_
  · intro u b v hg L ctx hT
    obtain ⟨du, uf, up, ui, di, ul, us, vs, p, q, f, present, id, rfl, hd, hh, hui, hid, hdi, hul, hus, hm, rfl, rfl⟩ := relationItem_iff.1 hg
    have hd' := hd
    obtain ⟨g1, g2, g3, g4, g5, g6, g7, g8⟩ := hd'
    obtain ⟨k1, k2, k3⟩ := headCtx_get (d := du) (n := us.length) (uf := uf) (up := up)
    have hid' : ∃ r, relId.build L (dset (headCtx du us.length uf up) "corresponding_id" ui) ui = .ok (q, r) := by
      rw [relId_build (by rw [dget_dset_ne _ _ (by decide)]; exact k3) g7]
      rcases hid with ⟨rfl, rfl, rfl⟩ | ⟨rfl, hi, hi2, rfl⟩
      · exact ⟨_, rfl⟩
      · exact ⟨ui, by simp only [Nat.one_ne_zero, if_false, byte_eq hi hi2]⟩
    obtain ⟨r, hr⟩ := hid'
    obtain ⟨c1, hc1, ho⟩ := field_eq (c := relId) rfl hui hr
    have hit := items_eq (L := L) (ctx := dset c1 "extended_models_items" (.dict di)) (uf := uf) (us := us) (f := f) (b := p)
      (by rw [dget_dset_ne _ _ (by decide), ho _ (by decide)]; exact k2) (by rw [dget_dset_ne _ _ (by decide), ho _ (by decide)]; exact k1)
      hh g5 hul hus (many_enc (meets_rel f) hm L _ False.elim)
    obtain ⟨c2, hc2, -⟩ := field_eq (c := extendedModelsItems) rfl hdi hit
    exact ⟨_, by simp only [struct, modelRelationItem, asDict, ok_bind, buildItems, head_eq hd, hc1, hc2]; simp; rfl⟩
  · intro u b v hg L ctx rest
    obtain ⟨du, uf, up, ui, di, ul, us, vs, p, q, f, present, id, rfl, hd, hh, hui, hid, hdi, hul, hus, hm, rfl, rfl⟩ := relationItem_iff.1 hg
    obtain ⟨g1, g2, g3, g4, g5, g6, g7, g8⟩ := hd
    have hx : (UInt8.ofNat (us.length * 4 + f * 2 + present)).toNat = us.length * 4 + f * 2 + present := by simp; omega
    rw [List.cons_append, rel_parse hx g5 g8, relId_parse (present := present) (by simp [dget])]
    rcases hid with ⟨rfl, rfl, rfl⟩ | ⟨rfl, hi, hi2, rfl⟩
    · simp only [if_true, ok_bind, List.nil_append, many_dec (meets_rel f) hm]; rfl
    · have hx2 : (UInt8.ofNat id).toNat = id := by simp; omega
      simp only [Nat.one_ne_zero, if_false, List.cons_append, List.nil_append, byte_parse, hx2, ok_bind, many_dec (meets_rel f) hm]
  · intro L ctx u b r hL h
    have hL := hL trivial
    simp only [struct, modelRelationItem, bind_ok, buildItems] at h
    obtain ⟨d, hd, ⟨b1, c1⟩, ⟨⟨b2, c2⟩, h2, ⟨b3, c3⟩, ⟨⟨b4, c4⟩, h4, ⟨b5, c5⟩, ⟨⟨b6, c6⟩, h6, ⟨b7, c7⟩, h7, h8⟩, h9⟩, h10⟩, h11⟩ := h
    cases h7; cases h8; cases h9; cases h10; cases h11
    obtain ⟨uf, up, n, f, p, hh⟩ := head_ok hL h2
    rw [head_eq hh] at h2
    cases h2
    obtain ⟨k1, k2, k3⟩ := headCtx_get (d := d) (n := n) (uf := uf) (up := up)
    have ho := fun k' hk => field_other (k' := k') h4 hk
    obtain ⟨ui, r1, hui, hb4⟩ := field_ok (c := relId) rfl h4
    obtain ⟨ux, r2, hux, hb6⟩ := field_ok (c := extendedModelsItems) rfl h6
    obtain ⟨f', hf', hf2, di, ul, us, rfl, g1, g2, rfl, g4⟩ := items_ok (n := n) (uf := uf)
      (by rw [dget_dset_ne _ _ (by decide), ho _ (by decide)]; exact k2) (by rw [dget_dset_ne _ _ (by decide), ho _ (by decide)]; exact k1) hb6
    have hff : f' = f := by
      rcases hh.2.2.2.1 with ⟨s, rfl, -⟩ | ⟨hx, -⟩
      · simp [hashInt, asInt] at hf'
      · rw [hx] at hf'; simp at hf'; omega
    subst hff
    obtain ⟨vs, hv⟩ := many_sound (meets_rel f') (fun _ => hL) g4
    have hu : u = .dict d := by
      cases u <;> simp only [asDict, Except.ok.injEq, reduceCtorEq] at hd
      · subst hd; simp [dget] at hui
      · rw [hd]
    subst hu
    rw [relId_build (by rw [dget_dset_ne _ _ (by decide)]; exact k3) hh.2.2.2.2.2.2.1] at hb4
    have hid : ∃ id : Nat, p = 0 ∧ b4 = [] ∧ id = 0 ∨ p = 1 ∧ asInt ui = some (id : Int) ∧ id < 256 ∧ b4 = [UInt8.ofNat id] := by
      split at hb4
      · rename_i hp; cases hb4; exact ⟨0, .inl ⟨hp, rfl, rfl⟩⟩
      · obtain ⟨id, i1, i2, i3⟩ := byte_ok hL hb4
        have := hh.2.2.2.2.2.2.2
        exact ⟨id, .inr ⟨by omega, i1, i2, i3⟩⟩
    obtain ⟨id, hid⟩ := hid
    exact ⟨_, relationItem_iff.2 ⟨d, uf, up, ui, di, ul, us, vs, b6, b4, f', p, id, rfl, hh, hf', hui, hid, hux, g1, g2, hv, by simp, rfl⟩⟩
  · intro L ctx s v rest h
    cases s with
    | nil => simp [struct, modelRelationItem, parseItems, bitPart, takeN] at h
    | cons x s =>
      have hx : x.toNat = x.toNat / 4 * 4 + x.toNat / 2 % 2 * 2 + x.toNat % 2 := by omega
      have hlt := x.toNat_lt
      generalize hn : x.toNat / 4 = n at hx
      generalize hf : x.toNat / 2 % 2 = f at hx
      generalize hp : x.toNat % 2 = p at hx
      rw [rel_parse hx (by omega) (by omega)] at h
      simp only [bind_ok] at h
      obtain ⟨⟨id, s1⟩, h1, ⟨vs, s2⟩, h2, h3⟩ := h
      cases h3
      rw [relId_parse (present := p) (by simp [dget])] at h1
      obtain ⟨rfl, b, rfl, hb⟩ := many_exact (meets_rel f) trivial h2
      have hid : ∃ (i : Nat) (q : List UInt8), id = .int i ∧ s = q ++ (b ++ s2) ∧ (p = 0 ∧ q = [] ∧ i = 0 ∨ p = 1 ∧ i < 256 ∧ q = [UInt8.ofNat i]) := by
        split at h1
        · rename_i hp; cases h1; exact ⟨0, [], rfl, rfl, .inl ⟨hp, rfl, rfl⟩⟩
        · cases s with
          | nil => simp [bitwise, takeN] at h1
          | cons y s =>
            rw [byte_parse] at h1
            cases h1
            exact ⟨y.toNat, [y], rfl, rfl, .inr ⟨by omega, y.toNat_lt, by simp⟩⟩
      obtain ⟨i, q, rfl, rfl, hi⟩ := hid
      refine ⟨x :: (q ++ b), by simp, relationItem_iff.2 ⟨_, .enum "ExtendedModelsItemFormat" f, .int p, .int i, [(relKey f, .list vs)], .list vs, vs, vs, b, q, f, p, i, rfl,
        ⟨firstLen_iff.2 ⟨[(relKey f, .list vs)], .list vs, vs, by simp [dget], rfl, rfl, rfl⟩, by omega, by simp [dget],
          .inr ⟨rfl, (has_iff _ _).1 (format_has (by omega))⟩, by omega, by simp [dget], rfl, by omega⟩,
        rfl, by simp [dget], ?_, by simp [dget], by simp [dget], rfl, hb, ?_, rfl⟩⟩
      · rcases hi with ⟨h1, h2, h3⟩ | ⟨h1, h2, h3⟩
        · exact .inl ⟨h1, h2, h3⟩
        · exact .inr ⟨h1, rfl, h2, h3⟩
      · rw [← hx]; simp
  · intro L ctx s h
    cases s with
    | nil => simp [struct, modelRelationItem, parseItems, bitPart, takeN] at h
    | cons x s =>
      have hx : x.toNat = x.toNat / 4 * 4 + x.toNat / 2 % 2 * 2 + x.toNat % 2 := by omega
      rw [rel_parse hx (by omega) (by omega)] at h
      simp only [bind_err] at h
      rcases h with h | ⟨_, -, h | ⟨_, _, h⟩⟩
      · rw [relId_parse (present := x.toNat % 2) (by simp [dget])] at h
        split at h
        · cases h
        · cases s with
          | nil => simp [bitwise, takeN] at h
          | cons y s => rw [byte_parse] at h; cases h
      · exact many_nodiv (meets_rel _) _ _ h
      · cases h

theorem same_page1 : struct compositionDataPage1Element = struct [
    grouped [countItem "number_s" (uintLE 1) "sig_models", countItem "number_v" (uintLE 1) "vendor_models",
      field "sig_models" (arrayC (countOf "number_s") (struct modelRelationItem)),
      field "vendor_models" (arrayC (countOf "number_v") (struct modelRelationItem))]] := by
  rw [SameIs.struct (K := ["sig_models", "vendor_models"]) (.count (by decide) (by decide) (.count (by decide) (by decide) (.refl _ _)))]
  exact struct_ext (grouped_append [_, _, _, _] [])

theorem meets_page1Element : Meets lossless e (struct compositionDataPage1Element)
    (record [counted2 "number_s" "number_v" "sig_models" "vendor_models" Spec.relationItem Spec.relationItem]) := by
  rw [same_page1]
  exact meets_struct (.last (meetsI_counted2 (by decide) trivial meets_relation meets_relation)) (by decide)

theorem lenGe_counted2 {kn kn' ks ks' : String} {G G' : Fmt UInt8} : LenGe (record [counted2 kn kn' ks ks' G G']) 1 := by
  intro u b v h
  obtain ⟨d, dv, hd, ⟨b1, b2, d1, d2, rfl, rfl, ⟨uv, us, vs, p, uv', us', vs', p', h1, h2, h3, h4, h1', h2', h3', h4', rfl, rfl⟩, h5⟩, rfl⟩ := h
  simp

theorem lenGe_first {r : RI UInt8} {rs : List (RI UInt8)} (hr : ∀ {du b dv}, r.rel du b dv → 1 ≤ b.length) : LenGe (record (r :: rs)) 1 := by
  intro u b v h
  obtain ⟨d, dv, hd, ⟨b1, b2, d1, d2, rfl, rfl, h1, h5⟩, rfl⟩ := h
  have := hr h1
  simp; omega

theorem minLen_ofLossless {c : Con UInt8} {G : Fmt UInt8} {m : Nat} (h : Meets lossless false c G) (hl : LenGe G m) : MinLen c m :=
  minLen_exact (odd := fun _ => False) trivial h.but hl

theorem meets_page0 : Meets lossless true compositionDataPage0 Spec.page0 := by
  have hl : LenGe Spec.page0Element 1 := lenGe_first (by
    rintro du b dv ⟨u, v, hu, hg, rfl⟩
    obtain ⟨k, hm, hl, -⟩ := enumOf_uint_iff.1 hg
    omega)
  refine meets_struct (.cons (meetsI_field rfl (by meets)) (.cons (meetsI_field rfl (by meets)) (.cons (meetsI_field rfl (by meets))
    (.cons (meetsI_field rfl (by meets)) (.cons (meetsI_field rfl (by meets)) (.last (meetsI_field rfl ?_))))))) (by decide)
  exact meets_greedy (meets_page0Element trivial) hl (minLen_ofLossless (meets_page0Element trivial) hl)

theorem meets_page1 : Meets lossless true compositionDataPage1 Spec.page1 :=
  meets_struct (.last (meetsI_field rfl (meets_greedy meets_page1Element lenGe_counted2 (minLen_ofLossless meets_page1Element lenGe_counted2)))) (by decide)

theorem meets_page2 : Meets lossless true compositionDataPage2 Spec.page2 := by
  have hl : LenGe (record [
    Spec.u16 "mesh_profile_identifier", fld "version" (record [Spec.u8 "version_x", Spec.u8 "version_y", Spec.u8 "version_z"]),
    counted 1 "num_element_offsets" "element_offset_list" (uint 1), counted 2 "additional_data_len" "additional_data" (uint 1)]) 1 := lenGe_first (by
    rintro du b dv ⟨u, v, hu, ⟨k, hk, -, hl, -⟩, rfl⟩
    omega)
  exact meets_struct (.last (meetsI_field rfl (meets_greedy (meets_profile trivial) hl (minLen_ofLossless (meets_profile trivial) hl)))) (by decide)

theorem page_kinds : Kinds lossless true E.CompositionDataPage "page"
    [(0, compositionDataPage0), (1, compositionDataPage1), (2, compositionDataPage2), (255, greedyBytes)]
    [⟨0, "zero", Spec.page0⟩, ⟨1, "first", Spec.page1⟩, ⟨2, "second", Spec.page2⟩, ⟨255, "two_hundred_and_fifty_fifth", F.rest⟩] := by
  refine kinds_of (by with_unfolding_all exact (Eq.refl true)) ?_ (by with_unfolding_all exact (Eq.refl true))
  exact List.forall_iff_forall_mem.1 ⟨⟨_, rfl, meets_page0⟩, ⟨_, rfl, meets_page1⟩, ⟨_, rfl, meets_page2⟩, ⟨_, rfl, meets_greedyBytes trivial⟩⟩

theorem composition_lossless [Platform] : Covers lossless E.ConfigOpcode Tables.configCases Spec.compositionLossless := by
  unfold Spec.compositionLossless
  coversOne
  · exact meets_tagged page_kinds
  · exact covers_nil
end
end BM
