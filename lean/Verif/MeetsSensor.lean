import Verif.MeetsProperty
import Verif.MeetsGenerics
import Verif.SpecSensor
import Verif.Sensor
/-!
# Property and sensor messages meet their formats
-/
namespace BM
open F

/-! ### Identifiers -/
section
variable {M : Mode} {e : Bool}

theorem enumOf_uint_iff {n : Nat} {E : EnumDef} {u : Val} {b v} :
    enumOf (uint n) E u b v ↔ ∃ k : Nat, EnumMeans E u k ∧ b.length = n ∧ leNat b = k ∧ v = .enum E.cls k := by
  constructor
  · rintro ⟨k, w, hm, ⟨j, hu, -, hl, hb, rfl⟩, rfl⟩
    simp only [asInt, Option.some.injEq] at hu
    subst hu
    exact ⟨j, hm, hl, hb, rfl⟩
  · rintro ⟨k, hm, hl, hb, rfl⟩
    exact ⟨k, .int k, hm, ⟨k, rfl, trivial, hl, hb, rfl⟩, rfl⟩

theorem hashInt_of_asInt {u : Val} {k : Int} (h : asInt u = some k) : hashInt u = some k := by
  cases u <;> simp_all [hashInt, asInt]

/-- A number that is not a member cannot be written as a member. -/
theorem unencodable_enum {n : Nat} {E : EnumDef} {u : Val} {k : Int} (hu : hashInt u = some k) (hk : E.has k = false) :
    Unencodable (enumOf (uint n) E) u := by
  rintro ⟨b, v, h⟩
  obtain ⟨j, hm, -⟩ := enumOf_uint_iff.1 h
  have := hm.has
  rcases hm with ⟨s, rfl, -⟩ | ⟨h1, -⟩
  · simp [hashInt, asInt] at hu
  · rw [hu] at h1; cases h1; rw [hk] at this; cases this

theorem enum_encodable {n : Nat} {E : EnumDef} {u : Val} {b : List UInt8} {k : Nat} (hu : hashInt u = some (k : Int)) (hk : E.has k = true)
    (hl : b.length = n) (hb : leNat b = k) : enumOf (uint n) E u b (.enum E.cls k) :=
  enumOf_uint_iff.2 ⟨k, .inr ⟨hu, (has_iff E _).1 hk⟩, hl, hb, rfl⟩

/-- A construct that reads a block of exactly `n` elements and fails somehow on shorter input. -/
theorem meets_block {α} {M : Mode} {e : Bool} {c : Con α} {G : Fmt α} (n : Nat) (f : Lib → List α → R Val)
    (hp : ∀ L ctx s, n ≤ s.length → c.parse L ctx s = (do let v ← f L (s.take n); .ok (v, s.drop n)))
    (hp' : ∀ L ctx s, s.length < n → ∃ er, er ≠ .diverge ∧ c.parse L ctx s = .error er)
    (hlen : ∀ {u b v}, G u b v → b.length = n)
    (henc : ∀ {u b v}, G u b v → ∀ L ctx, (M.T → L.Strict) → ∃ r, c.build L ctx u = .ok (b, r))
    (hdec : ∀ {u b v}, G u b v → ∀ L, f L b = .ok v)
    (hsound : ∀ {L ctx u b r}, (M.U → L.Strict) → c.build L ctx u = .ok (b, r) → ∃ v, G u b v)
    (hrefl : M.S → ∀ {u b v}, G u b v → G v b v)
    (hinv : M.S → ∀ {L b v}, b.length = n → f L b = .ok v → ∃ b', G v b' v)
    (hexact : M.X → ∀ {L b v}, b.length = n → f L b = .ok v → G v b v)
    (hnd : ∀ L b, b.length = n → f L b ≠ .error .diverge) : Meets M e c G := by
  have hpo : ∀ {L ctx s v rest}, c.parse L ctx s = .ok (v, rest) → n ≤ s.length ∧ f L (s.take n) = .ok v ∧ rest = s.drop n := by
    intro L ctx s v rest h
    by_cases hl : n ≤ s.length
    · rw [hp L ctx s hl] at h
      simp only [bind_ok] at h
      obtain ⟨v', h1, h2⟩ := h
      cases h2
      exact ⟨hl, h1, rfl⟩
    · obtain ⟨er, -, h'⟩ := hp' L ctx s (by omega)
      rw [h'] at h; cases h
  refine ⟨henc, ?_, hsound, hrefl, ?_, ?_, ?_⟩
  · intro u b v h L ctx rest _
    have hl := hlen h
    rw [hp L ctx _ (by rw [List.length_append]; omega), ← hl, List.take_left, List.drop_left, hdec h]
    rfl
  · intro hS L ctx s v rest h
    obtain ⟨h1, h2, -⟩ := hpo h
    exact hinv hS (by rw [List.length_take]; omega) h2
  · intro hX L ctx s v rest h
    obtain ⟨h1, h2, rfl⟩ := hpo h
    exact ⟨s.take n, (List.take_append_drop n s).symm, hexact hX (by rw [List.length_take]; omega) h2⟩
  · intro L ctx s h
    by_cases hl : n ≤ s.length
    · rw [hp L ctx s hl] at h
      simp only [bind_err] at h
      rcases h with h | ⟨_, _, h⟩
      · exact hnd L (s.take n) (by rw [List.length_take]; omega) h
      · cases h
    · obtain ⟨er, hne, h'⟩ := hp' L ctx s (by omega)
      rw [h'] at h; cases h; exact hne rfl

theorem enumOrInt_parse (n : Nat) (E : EnumDef) (L ctx s) (hl : n ≤ s.length) :
    (select [enumAdapter (uintLE n) E, uintLE n]).parse L ctx s =
      (do let v ← (Except.ok (if E.has (leNat (s.take n)) then .enum E.cls (leNat (s.take n)) else .int (leNat (s.take n))) : R Val); .ok (v, s.drop n)) := by
  have : takeN n s = .ok (s.take n, s.drop n) := by unfold takeN; rw [if_pos hl]
  simp only [select, selectParse, enumAdapter, adapter, uintLE, this]
  cases hh : E.has (leNat (s.take n)) <;> simp [enumDecode, hashInt, asInt, hh]

theorem enumOrInt_short (n : Nat) (E : EnumDef) (L ctx s) (hl : s.length < n) :
    ∃ er, er ≠ .diverge ∧ (select [enumAdapter (uintLE n) E, uintLE n]).parse L ctx s = .error er := by
  refine ⟨.select, by decide, ?_⟩
  simp [select, selectParse, enumAdapter, adapter, uintLE, takeN_short hl]

/-- `Select(EnumAdapter(Int16ul, E), Int16ul)`. -/
theorem meets_enumOrInt (n : Nat) (E : EnumDef) :
    Meets M e (select [enumAdapter (uintLE n) E, uintLE n]) (orElse (enumOf (uint n) E) (uint n)) := by
  have hself : ∀ b : List UInt8, b.length = n → orElse (enumOf (uint n) E) (uint n)
      (if E.has (leNat b) then .enum E.cls (leNat b) else .int (leNat b)) b (if E.has (leNat b) then .enum E.cls (leNat b) else .int (leNat b)) := by
    intro b hl
    cases hh : E.has (leNat b)
    · exact .inr ⟨unencodable_enum rfl hh, leNat b, rfl, trivial, hl, rfl, rfl⟩
    · exact .inl (enum_encodable rfl hh hl rfl)
  have hval : ∀ {u b v}, orElse (enumOf (uint n) E) (uint n) u b v → b.length = n ∧ v = if E.has (leNat b) then .enum E.cls (leNat b) else .int (leNat b) := by
    rintro u b v (h | ⟨hn, k, hu, -, hl, hb, rfl⟩)
    · obtain ⟨k, hm, hl, hb, rfl⟩ := enumOf_uint_iff.1 h
      rw [hb, if_pos hm.has]; exact ⟨hl, rfl⟩
    · refine ⟨hl, ?_⟩
      cases hh : E.has (leNat b)
      · rw [hb]; rfl
      · exact absurd ⟨b, _, enum_encodable (hashInt_of_asInt hu) (hb ▸ hh) hl hb⟩ hn
  have hE : Meets ⟨False, False, True, True⟩ true (enumAdapter (uintLE n) E) (enumOf (uint n) E) := meets_enum_uint n E
  refine meets_block n (fun _ b => .ok (if E.has (leNat b) then .enum E.cls (leNat b) else .int (leNat b))) (enumOrInt_parse n E) (enumOrInt_short n E) ?_ ?_ ?_ ?_ ?_ ?_ ?_ ?_
  · intro u b v h; exact (hval h).1
  · rintro u b v (h | ⟨hn, k, hu, -, hl, hb, rfl⟩) L ctx hT
    · obtain ⟨r, hr⟩ := hE.enc h L ctx False.elim
      exact ⟨u, by simp [select, selectBuild, hr]⟩
    · refine ⟨u, ?_⟩
      cases hr : (enumAdapter (uintLE n) E).build L ctx u with
      | ok r => obtain ⟨b', r⟩ := r; obtain ⟨v, hv⟩ := hE.sound False.elim hr; exact absurd ⟨b', v, hv⟩ hn
      | error er => simp [select, selectBuild, hr, uint_build hu hl hb L ctx]
  · intro u b v h L; simp only [(hval h).2]
  · intro L ctx u b r hL h
    simp only [select, selectBuild] at h
    cases hr : (enumAdapter (uintLE n) E).build L ctx u with
    | ok r' =>
      obtain ⟨b', r'⟩ := r'
      rw [hr] at h
      cases h
      obtain ⟨v, hv⟩ := hE.sound False.elim hr
      exact ⟨v, .inl hv⟩
    | error er =>
      rw [hr] at h
      simp only at h
      cases hr' : (uintLE n).build L ctx u with
      | ok r' =>
        obtain ⟨b', r'⟩ := r'
        rw [hr'] at h
        cases h
        obtain ⟨k, hu, rfl, hk, -⟩ := build_uint hr'
        refine ⟨.int k, .inr ⟨?_, k, hu, trivial, leBytes_length _ _, leNat_leBytes _ _ hk, rfl⟩⟩
        rintro ⟨b', v, hv⟩
        obtain ⟨r, hr2⟩ := hE.enc hv L ctx False.elim
        rw [hr] at hr2; cases hr2
      | error er' => rw [hr'] at h; cases h
  · intro _ u b v h; obtain ⟨hl, rfl⟩ := hval h; exact hself b hl
  · rintro _ L b v hl h; cases h; exact ⟨b, hself b hl⟩
  · rintro _ L b v hl h; cases h; exact hself b hl
  · simp

theorem lenEq_enumOrInt (n : Nat) (E : EnumDef) : LenEq (orElse (enumOf (uint n) E) (uint n)) n := by
  rintro u b v (h | ⟨-, h⟩)
  · exact lenEq_enumOf (lenEq_uint n) h
  · exact lenEq_uint n h

theorem minLen_enumOrInt (n : Nat) (E : EnumDef) : MinLen (select [enumAdapter (uintLE n) E, uintLE n]) n := by
  intro L ctx s v rest h
  by_cases hl : n ≤ s.length
  · rw [enumOrInt_parse n E L ctx s hl] at h
    cases h
    rw [List.length_drop]; omega
  · obtain ⟨er, -, h'⟩ := enumOrInt_short n E L ctx s (by omega)
    rw [h'] at h; cases h

theorem meets_greedyIds (n : Nat) (hn : 0 < n) (E : EnumDef) : Meets M true (greedyRange (select [enumAdapter (uintLE n) E, uintLE n]))
    (listOf (orElse (enumOf (uint n) E) (uint n))) :=
  meets_greedy (meets_enumOrInt n E) ((lenEq_enumOrInt n E).ge hn) ((minLen_enumOrInt n E).le hn)

macro_rules | `(tactic| meets1) => `(tactic| with_reducible first
  | exact meets_enumOrInt _ _ | exact meets_greedyIds _ (by decide) _)
end

/-! ### Replacing an entry -/

theorem dpop_without {d : Dict} {k : String} (hn : (dkeys d).Nodup) : dpop d k = without k d := by
  induction d with
  | nil => rfl
  | cons x d ih =>
    obtain ⟨k', v⟩ := x
    simp only [dkeys, List.map_cons, List.nodup_cons] at hn
    by_cases h : k' = k
    · subst h
      have : without k' d = d := List.filter_eq_self.2 fun x hx => by
        simp only [ne_eq, decide_not, Bool.not_eq_eq_eq_not, Bool.not_true, decide_eq_false_iff_not]
        rintro rfl
        exact hn.1 (List.mem_map.2 ⟨x, hx, rfl⟩)
      simp only [dpop, if_true, without, List.filter_cons, ne_eq, not_true_eq_false, decide_false, Bool.false_eq_true, if_false]
      exact this.symm
    · simp only [dpop, h, if_false, without, List.filter_cons, ne_eq, not_false_eq_true, decide_true, if_true, List.cons.injEq, true_and]
      exact ih hn.2

theorem dget_without_ne {d : Dict} {k k' : String} (h : k' ≠ k) : dget (without k d) k' = dget d k' := by
  induction d with
  | nil => rfl
  | cons x d ih =>
    obtain ⟨k₁, v⟩ := x
    simp only [without, ne_eq, decide_not] at ih
    by_cases h1 : k₁ = k
    · subst h1; simp [without, dget, ih, Ne.symm h]
    · by_cases h2 : k₁ = k'
      · subst h2; simp [without, dget, h1]
      · simp [without, dget, h1, h2, ih]

theorem mem_dkeys_without {d : Dict} {k k' : String} : k' ∈ dkeys (without k d) ↔ k' ∈ dkeys d ∧ k' ≠ k := by
  simp only [dkeys, without, List.mem_map, List.mem_filter, ne_eq, decide_not, Bool.not_eq_eq_eq_not, Bool.not_true, decide_eq_false_iff_not]
  constructor
  · rintro ⟨x, ⟨h1, h2⟩, rfl⟩; exact ⟨⟨x, h1, rfl⟩, h2⟩
  · rintro ⟨⟨x, h1, rfl⟩, h2⟩; exact ⟨x, ⟨h1, h2⟩, rfl⟩

section
variable {dh : Dict} {ks : List String} {K name : String} {x y : Val}

/-- The dictionary built by the property mixins. -/
theorem mixin_dict (hks : dkeys dh = ks) (hn : ks.Nodup) (hname : name ∉ ks) (hK : K ≠ name) :
    dset (dset (dpop dh K) K x) name y = without K dh ++ [(K, x), (name, y)] := by
  subst hks
  rw [dpop_without hn, dset_of_not_mem _ K, dset_of_not_mem]
  · simp
  · simp only [dkeys_append, List.mem_append, mem_dkeys_without, not_or]
    exact ⟨fun h => hname h.1, by simpa [dkeys] using Ne.symm hK⟩
  · simp [mem_dkeys_without]

theorem mixin_get_key (dh x y) : dget (without K dh ++ [(K, x), (name, y)]) K = some x := by
  rw [dget_append_right (by simp [mem_dkeys_without]), dget_cons_self]

theorem mixin_get_name (hks : dkeys dh = ks) (hname : name ∉ ks) (hK : K ≠ name) :
    dget (without K dh ++ [(K, x), (name, y)]) name = some y := by
  subst hks
  rw [dget_append_right (by rw [mem_dkeys_without]; exact fun h => hname h.1), dget_cons, if_neg hK, dget_cons_self]

theorem mixin_get_hdr (hks : dkeys dh = ks) (hx : dget dh K = some x) : ∀ k ∈ ks, dget (without K dh ++ [(K, x), (name, y)]) k = dget dh k := by
  subst hks
  intro k hk
  by_cases h : k = K
  · subst h; rw [mixin_get_key, hx]
  · rw [dget_append_left (mem_dkeys_without.2 ⟨hk, h⟩), dget_without_ne h]
end

/-! ### Property values under the property's name -/

theorem call_ok {E : EnumDef} {x i} (h : E.call x = .ok i) : ∃ k, hashInt x = some k ∧ E.has k = true ∧ i = .enum E.cls k := by
  unfold EnumDef.call at h
  split at h
  · rename_i k hk
    split at h
    · rename_i hh; cases h; exact ⟨k, hk, hh, rfl⟩
    · cases h
  · cases h

theorem memberKey_ok {E : EnumDef} {k : Int} {name} (h : memberKey E (.enum E.cls k) = .ok name) :
    ∃ N, lookupValue E.members k = some N ∧ name = lower N := by
  simp only [memberKey, asInt] at h
  split at h
  · rename_i N hN; cases h; exact ⟨N, hN, rfl⟩
  · cases h

theorem dictGet_ok {D cls} {k : Int} {c} (h : dictGet D (.enum cls k) = .ok c) : findCase k D = some c := by
  simp only [dictGet, hashInt, asInt] at h
  split at h
  · rename_i c' hc; cases h; exact hc
  · cases h

theorem call_eq {E : EnumDef} {x} {k : Int} (h : hashInt x = some k) (hh : E.has k = true) : E.call x = .ok (.enum E.cls k) := by
  simp only [EnumDef.call, h, hh, if_true]

theorem memberKey_eq {E : EnumDef} {cls} {k : Int} {N} (h : lookupValue E.members k = some N) : memberKey E (.enum cls k) = .ok (lower N) := by
  simp only [memberKey, asInt, h]

theorem dictGet_eq {D cls} {k : Int} {c} (h : findCase k D = some c) : dictGet D (.enum cls k) = .ok c := by
  simp only [dictGet, hashInt, asInt, h]

theorem dgetE_eq {d : Dict} {k v} (h : dget d k = some v) : dgetE d k = .ok v := by simp only [dgetE, h]

theorem dgetE_ok {d : Dict} {k v} (h : dgetE d k = .ok v) : dget d k = some v := by
  unfold dgetE at h; split at h
  · rename_i hd; cases h; exact hd
  · cases h

/-- What is required of the header of a property message. -/
structure IdHeader (E : EnumDef) (K : String) (rs : List (RI UInt8)) : Prop where
  nodup : (rs.flatMap RI.keys).Nodup
  mem : K ∈ rs.flatMap RI.keys
  fwd : ∀ {du b dh}, seqRel rs du b dh → ∃ id i, dget du K = some id ∧ dget dh K = some i ∧ ∀ k, hashInt id = some k → hashInt i = some k
  known : ∀ {du b dh id}, seqRel rs du b dh → dget du K = some id → (∃ s, id = .str s) ∨ ∃ k, hashInt id = some k
  report : ∀ {du b dh i}, seqRel rs du b dh → dget dh K = some i → ∃ k, i = if E.has k then .enum E.cls k else .int k

theorem IdHeader.canon {E K rs} (h : IdHeader E K rs) {du b dh i k} (hs : seqRel rs du b dh) (hi : dget dh K = some i) (hk : hashInt i = some k)
    (hh : E.has k = true) : i = .enum E.cls k := by
  obtain ⟨k', rfl⟩ := h.report hs hi
  split at hk <;> cases hk
  · rw [if_pos hh]
  · rename_i h'; exact absurd hh h'

theorem lookupValue_has {E : EnumDef} {k : Int} {N} (h : lookupValue E.members k = some N) : E.has k = true := by
  rw [EnumDef.has]
  generalize E.members = ms at h
  induction ms with
  | nil => cases h
  | cons m ms ih =>
    obtain ⟨n, j⟩ := m
    simp only [lookupValue] at h
    simp only [List.any_cons, Bool.or_eq_true, beq_iff_eq]
    split at h
    · rename_i hj; exact .inl hj
    · exact .inr (ih h)

theorem meets_propertyMixin {M : Mode} {e : Bool} {E : EnumDef} {D : List (Int × Con UInt8)} {hdr : List (Item UInt8)} {rs : List (RI UInt8)}
    {P : List Spec.PropSpec} (hh : MeetsIs M false hdr rs) (hi : IdHeader E "property_id" rs) (hP : PropCovers M E D P)
    (hall : ∀ k c, findCase k D = some c → E.has k = true → ∃ p ∈ P, (p.id : Int) = k)
    (hname : ∀ p ∈ P, p.name ∉ rs.flatMap RI.keys) :
    MeetsBut (OddProperty P) M e (propertyMixin E D hdr) (propertyMsg E.cls P rs) := by
  have hne : ∀ p ∈ P, "property_id" ≠ p.name := fun p hp h => hname p hp (h ▸ hi.mem)
  have hparse : ∀ {L ctx s v rest}, (propertyMixin E D hdr).parse L ctx s = .ok (v, rest) → ∃ p N c d i s' vv, p ∈ P ∧
      lookupValue E.members p.id = some N ∧ lower N = p.name ∧ MeetsBut p.odd M false c p.fmt ∧
      parseItems L hdr [] s = .ok (d, s') ∧ dget d "property_id" = some i ∧ hashInt i = some (p.id : Int) ∧
      c.parse L ctx s' = .ok (vv, rest) ∧ v = .dict (dset (dset (dpop d "property_id") "property_id" (.enum E.cls p.id)) p.name vv) := by
    intro L ctx s v rest h
    simp only [propertyMixin, bind_ok] at h
    obtain ⟨⟨d, s'⟩, h1, i, h2, m, h3, name, h4, c, h5, ⟨vv, s''⟩, h6, h7⟩ := h
    obtain ⟨k, hk, hhas, rfl⟩ := call_ok h3
    obtain ⟨N, hN, rfl⟩ := memberKey_ok h4
    have hc := dictGet_ok h5
    obtain ⟨p, hp, rfl⟩ := hall k c hc hhas
    obtain ⟨N', hN', hl, c', hc', -, hm⟩ := hP p hp
    rw [hN] at hN'; cases hN'
    rw [hc] at hc'; cases hc'
    cases h7
    exact ⟨p, N, c, d, i, s', vv, hp, hN, hl, hm, h1, dgetE_ok h2, hk, h6, by rw [hl]⟩
  constructor
  · rintro u b v ⟨d, id, p, b₁, b₂, dh, vv, rfl, hid, hp, hnm, hs, hf, rfl, rfl⟩ L ctx hT
    obtain ⟨N, hN, hl, c, hc, -, hm⟩ := hP p hp
    obtain ⟨ctx', h1⟩ := items_enc hh hs L d hT
    obtain ⟨r, h2⟩ := hm.enc hf L ctx hT
    refine ⟨.dict d, ?_⟩
    simp only [propertyMixin, asDict, ok_bind, h1, dgetE_eq hid, call_eq hnm (lookupValue_has hN), memberKey_eq hN, dictGet_eq hc, hl, h2]
  · rintro u b v ⟨d, id, p, b₁, b₂, dh, vv, rfl, hid, hp, hnm, hs, hf, rfl, rfl⟩ L ctx rest hr
    obtain ⟨N, hN, hl, c, hc, -, hm⟩ := hP p hp
    have h1 := items_dec hh hs L [] (b₂ ++ rest) (by simp)
    have hks := seqRel_keys hh hs
    rw [dmerge_nil_of_nodup dh (hks ▸ hi.nodup)] at h1
    have h2 := hm.dec hf L ctx rest (by simp)
    obtain ⟨id', i, h3, h4, h5⟩ := hi.fwd hs
    rw [hid] at h3; cases h3
    have h6 := h5 _ hnm
    simp only [propertyMixin, List.append_assoc, h1, ok_bind, dgetE_eq h4, call_eq h6 (lookupValue_has hN), memberKey_eq hN,
      dictGet_eq hc, hl, h2, mixin_dict hks hi.nodup (hname p hp) (hne p hp)]
  · intro L ctx u b r hL ho h
    simp only [propertyMixin, bind_ok] at h
    obtain ⟨d, hd, ⟨b1, c1⟩, h1, id, h2, m, h3, name, h4, c, h5, ⟨b2, r2⟩, h6, h7⟩ := h
    obtain ⟨k, hk, hhas, rfl⟩ := call_ok h3
    obtain ⟨N, hN, rfl⟩ := memberKey_ok h4
    have hc := dictGet_ok h5
    obtain ⟨p, hp, rfl⟩ := hall k c hc hhas
    obtain ⟨N', hN', hl, c', hc', -, hm⟩ := hP p hp
    rw [hN] at hN'; cases hN'
    rw [hc] at hc'; cases hc'
    cases h7
    have hid := dgetE_ok h2
    have hu : u = .dict d := by
      cases u <;> simp [asDict] at hd
      · subst hd; simp at hid
      · subst hd; rfl
    subst hu
    obtain ⟨dh, hs⟩ := items_sound hh hL h1
    rw [hl] at h6
    obtain ⟨vv, hf⟩ := hm.sound hL (fun hodd => ho ⟨d, id, p, rfl, hid, hp, hk, hodd⟩) h6
    exact ⟨_, d, id, p, b1, b2, dh, vv, rfl, hid, hp, hk, hs, hf, rfl, rfl⟩
  · rintro hS u b v ⟨d, id, p, b₁, b₂, dh, vv, rfl, hid, hp, hnm, hs, hf, rfl, rfl⟩
    obtain ⟨N, hN, hl, c, hc, -, hm⟩ := hP p hp
    have hks := seqRel_keys hh hs
    obtain ⟨id', i, h3, h4, h5⟩ := hi.fwd hs
    rw [hid] at h3; cases h3
    obtain rfl := hi.canon hs h4 (h5 _ hnm) (lookupValue_has hN)
    refine ⟨_, .enum E.cls p.id, p, b₁, b₂, dh, vv, rfl, mixin_get_key _ _ _, hp, rfl, ?_, ?_, rfl, rfl⟩
    · exact seqRel_of_diag hh hi.nodup (seqDiag_of_rel hh hS hs) (mixin_get_hdr hks h4)
    · rw [mixin_get_name hks (hname p hp) (hne p hp)]; exact hm.refl hS hf
  · intro hS L ctx s v rest h
    obtain ⟨p, N, c, d, i, s', vv, hp, hN, hl, hm, h1, h2, h3, h4, rfl⟩ := hparse h
    obtain ⟨b₁, dh, rfl, hd⟩ := items_inv hh hS h1
    have hks := seqDiag_keys hh hd
    rw [dmerge_nil_of_nodup dh (hks ▸ hi.nodup)] at *
    have hs := seqRel_of_diag hh (du := dh) hi.nodup hd (fun _ _ => rfl)
    obtain rfl := hi.canon hs h2 h3 (lookupValue_has hN)
    obtain ⟨b₂, hf⟩ := hm.inv hS h4
    rw [mixin_dict hks hi.nodup (hname p hp) (hne p hp)]
    refine ⟨b₁ ++ b₂, _, .enum E.cls p.id, p, b₁, b₂, dh, vv, rfl, mixin_get_key _ _ _, hp, rfl, ?_, ?_, rfl, rfl⟩
    · exact seqRel_of_diag hh hi.nodup hd (mixin_get_hdr hks h2)
    · rw [mixin_get_name hks (hname p hp) (hne p hp)]; exact hf
  · intro hX L ctx s v rest h
    obtain ⟨p, N, c, d, i, s', vv, hp, hN, hl, hm, h1, h2, h3, h4, rfl⟩ := hparse h
    obtain ⟨b₁, dh, rfl, rfl, hd⟩ := items_exact hh hX h1
    have hks := seqDiag_keys hh hd
    rw [dmerge_nil_of_nodup dh (hks ▸ hi.nodup)] at *
    have hs := seqRel_of_diag hh (du := dh) hi.nodup hd (fun _ _ => rfl)
    obtain rfl := hi.canon hs h2 h3 (lookupValue_has hN)
    obtain ⟨b₂, rfl, hf⟩ := hm.exact hX h4
    rw [mixin_dict hks hi.nodup (hname p hp) (hne p hp)]
    refine ⟨b₁ ++ b₂, by simp, _, .enum E.cls p.id, p, b₁, b₂, dh, vv, rfl, mixin_get_key _ _ _, hp, rfl, ?_, ?_, rfl, rfl⟩
    · exact seqRel_of_diag hh hi.nodup hd (mixin_get_hdr hks h2)
    · rw [mixin_get_name hks (hname p hp) (hne p hp)]; exact hf
  · intro L ctx s h
    simp only [propertyMixin, bind_err] at h
    rcases h with h | ⟨⟨d, s'⟩, -, h | ⟨i, -, h | ⟨m, h3, h | ⟨name, h4, h | ⟨c, h5, h | ⟨_, -, h⟩⟩⟩⟩⟩⟩
    · exact items_nodiv hh _ _ _ h
    · unfold dgetE at h; split at h <;> cases h
    · unfold EnumDef.call at h; split at h
      · split at h <;> cases h
      · cases h
    · unfold memberKey at h; split at h
      · split at h <;> cases h
      · cases h
    · unfold dictGet at h; split at h
      · split at h <;> cases h
      · cases h
    · obtain ⟨k, hk, hhas, rfl⟩ := call_ok h3
      have hc := dictGet_ok h5
      obtain ⟨p, hp, rfl⟩ := hall k c hc hhas
      obtain ⟨N', hN', hl, c', hc', -, hm⟩ := hP p hp
      rw [hc] at hc'; cases hc'
      exact hm.nodiv _ _ _ h
    · cases h


/-! ### Settings -/
section
variable [Platform]

set_option maxRecDepth 100000 in
set_option maxHeartbeats 4000000 in
theorem properties_all : ∀ k, E.PropertyID.has k = true → ∃ p ∈ Spec.properties, (p.id : Int) = k := by
  have h : E.PropertyID.members.all (fun m => Spec.properties.any (fun p => (p.id : Int) == m.2)) = true := by
    with_unfolding_all exact (Eq.refl true)
  intro k hk
  obtain ⟨m, hm, rfl⟩ := (has_iff _ _).1 hk
  have := List.all_eq_true.1 h m hm
  obtain ⟨p, hp, h2⟩ := List.any_eq_true.1 this
  exact ⟨p, hp, by simpa using h2⟩

omit [Platform] in
theorem findCase_mem {α} {D : List (Int × Con α)} {k c} (h : findCase k D = some c) : k ∈ D.map Prod.fst := by
  induction D with
  | nil => cases h
  | cons x D ih =>
    obtain ⟨n, c'⟩ := x
    simp only [findCase] at h
    split at h
    · rename_i hn; simp [hn]
    · simp only [List.map_cons, List.mem_cons]; exact .inr (ih h)

set_option maxRecDepth 100000 in
theorem dict_all : ∀ k c, findCase k Property.propertyDict = some c → E.PropertyID.has k = true := by
  have h : (Property.propertyDict.map Prod.fst).all (fun k => E.PropertyID.has k) = true := by
    with_unfolding_all exact (Eq.refl true)
  intro k c hc
  exact List.all_eq_true.1 h k (findCase_mem hc)


omit [Platform] in
theorem listBytes_iff {us : List Val} {b : List UInt8} :
    Sensor.listBytes us = .ok b ↔ us.map asInt = b.map fun x => some (x.toNat : Int) := by
  induction us generalizing b with
  | nil => cases b <;> simp [Sensor.listBytes]
  | cons u us ih =>
    simp only [Sensor.listBytes]
    constructor
    · intro h
      split at h
      · rename_i n hn
        split at h
        · rename_i hr
          simp only [bind_ok] at h
          obtain ⟨bs, h1, h2⟩ := h
          cases h2
          rw [List.map_cons, List.map_cons, ih.1 h1, hn]
          congr 2
          rw [UInt8.toNat_ofNat_of_lt' (by change n.toNat < 256; omega)]; omega
        · cases h
      · cases h
    · intro h
      cases b with
      | nil => simp at h
      | cons x b =>
        simp only [List.map_cons, List.cons.injEq] at h
        rw [h.1, ih.2 h.2]
        have := x.toNat_lt
        simp only [ok_bind]
        rw [if_pos ⟨by omega, by omega⟩, Int.toNat_natCast, UInt8.ofNat_toNat]

omit [Platform] in
theorem pyBytes_iff {u : Val} {b : List UInt8} : Sensor.pyBytes u = .ok b ↔ Raw u b := by
  have hrep : ∀ (n : Int), (if 0 ≤ n then .ok (List.replicate n.toNat 0) else .error .value : R (List UInt8)) = .ok b ↔
      ∃ m : Nat, some n = some (m : Int) ∧ b = List.replicate m 0 := by
    intro n
    constructor
    · intro h
      split at h
      · rename_i hn; cases h; exact ⟨n.toNat, by congr 1; omega, rfl⟩
      · cases h
    · rintro ⟨m, h1, rfl⟩; cases h1; simp
  have hb : ∀ b' : List UInt8, (b'.map fun x => Val.int x.toNat).map asInt = b.map (fun x => some (x.toNat : Int)) ↔ b' = b := by
    intro b'
    rw [List.map_map]
    have : (asInt ∘ fun x : UInt8 => Val.int x.toNat) = fun x => some (x.toNat : Int) := rfl
    rw [this]
    constructor
    · intro h
      refine List.map_injective_iff.2 ?_ h
      intro x y hxy
      simp only [Option.some.injEq, Int.natCast_inj] at hxy
      exact UInt8.toNat_inj.1 hxy
    · rintro rfl; rfl
  cases u with
  | bytes b' =>
    simp only [Sensor.pyBytes, Raw, Except.ok.injEq, Val.bytes.injEq, asInt, iter, ne_eq, reduceCtorEq, not_false_eq_true, implies_true, true_and, false_and, exists_false, false_or]
    constructor
    · rintro rfl; exact .inl rfl
    · rintro (h | ⟨us, h1, h2⟩)
      · exact h
      · subst h1; exact (hb b').1 h2
  | str s => simp [Sensor.pyBytes, Raw, asInt]
  | int n => simp only [Sensor.pyBytes, asInt, hrep]; simp [Raw, asInt, iter]
  | bool n => simp only [Sensor.pyBytes, asInt, hrep]; simp [Raw, asInt, iter]
  | enum c n => simp only [Sensor.pyBytes, asInt, hrep]; simp [Raw, asInt, iter]
  | list l => simp [Sensor.pyBytes, asInt, iter, Raw, listBytes_iff]
  | set l => simp [Sensor.pyBytes, asInt, iter, Raw, listBytes_iff]
  | dict l => simp [Sensor.pyBytes, asInt, iter, Raw, listBytes_iff]
  | _ => simp [Sensor.pyBytes, asInt, iter, Raw]

omit [Platform] in
theorem raw_value (b : List UInt8) : Raw (rawValue b) b :=
  .inr (.inr ⟨(by intro s h; cases h), _, rfl, (by rw [List.map_map]; rfl)⟩)

theorem settingKey_known {p : Spec.PropSpec} (hp : p ∈ Spec.properties) {i : Val} (hi : hashInt i = some (p.id : Int)) :
    Sensor.settingKey i = (.enum E.PropertyID.cls p.id, p.name) := by
  obtain ⟨N, hN, hl, -⟩ := properties_cover p hp
  simp only [Sensor.settingKey, call_eq hi (lookupValue_has hN), memberKey_eq hN, hl]

omit [Platform] in
theorem settingKey_unknown {i : Val} {k : Int} (hi : hashInt i = some k) (hk : E.PropertyID.has k = false) :
    Sensor.settingKey i = (i, "sensor_setting_raw") := by
  simp only [Sensor.settingKey, EnumDef.call, hi, hk]; rfl

theorem not_has {k : Int} (h : ∀ p ∈ Spec.properties, (p.id : Int) ≠ k) : E.PropertyID.has k = false := by
  cases hh : E.PropertyID.has k
  · rfl
  · obtain ⟨p, hp, hpk⟩ := properties_all k hh
    exact absurd hpk (h p hp)

theorem dictGet_none {i : Val} {k : Int} (hi : hashInt i = some k) (hk : E.PropertyID.has k = false) :
    dictGet Property.propertyDict i = .error .key := by
  have : findCase k Property.propertyDict = none := by
    cases h : findCase k Property.propertyDict with
    | none => rfl
    | some c => rw [dict_all k c h] at hk; cases hk
  simp only [dictGet, hi, this]

/-- The entries read back for a setting. -/
theorem setting_dec {d id b dv} (h : setting Spec.properties d id b dv) : ∃ x name y, dv = [(F.settingKey, x), (name, y)] ∧
    (name = "sensor_setting_raw" ∨ ∃ p ∈ Spec.properties, name = p.name) ∧ (∃ k, x = if E.PropertyID.has k then .enum E.PropertyID.cls k else .int k) ∧
    ∀ {L ctx i kw}, hashInt i = hashInt id → (∀ k, hashInt i = some k → E.PropertyID.has k = false → i = .int k) →
      Sensor.parseSetting L ctx b i kw = .ok (.dict (dset (dset kw F.settingKey x) name y), []) := by
  rcases h with ⟨p, vv, hp, hn, hf, rfl⟩ | ⟨k, hk, hall, hr, rfl⟩
  · obtain ⟨N, hN, hl, c, hc, -, hm⟩ := properties_cover p hp
    refine ⟨_, _, _, rfl, .inr ⟨p, hp, rfl⟩, ⟨p.id, by rw [if_pos (lookupValue_has hN)]⟩, ?_⟩
    intro L ctx i kw hi _
    have h1 := hm.dec hf L ctx [] (by simp)
    rw [List.append_nil] at h1
    rw [Names] at hn
    rw [hn] at hi
    simp only [Sensor.parseSetting, settingKey_known hp hi, dictGet_eq hc, h1, ok_bind, F.settingKey]
  · refine ⟨_, _, _, rfl, .inl rfl, ⟨k, by rw [not_has hall]; rfl⟩, ?_⟩
    intro L ctx i kw hi hint
    rw [hk] at hi
    obtain rfl := hint k hi (not_has hall)
    simp only [Sensor.parseSetting, settingKey_unknown hi (not_has hall), dictGet_none hi (not_has hall), rawValue, F.settingKey]

theorem setting_enc {d id b dv} (h : setting Spec.properties d id b dv) (L ctx) : Sensor.buildSetting L ctx d id = .ok b := by
  rcases h with ⟨p, vv, hp, hn, hf, rfl⟩ | ⟨k, hk, hall, hr, rfl⟩
  · obtain ⟨N, hN, hl, c, hc, -, hm⟩ := properties_cover p hp
    obtain ⟨r, hr⟩ := hm.enc hf L ctx False.elim
    simp only [settingValue] at hr
    simp only [Sensor.buildSetting, settingKey_known hp hn, dictGet_eq hc, ok_bind, hr]
  · have h1 := pyBytes_iff.2 hr
    simp only [settingValue] at h1
    simp only [Sensor.buildSetting, settingKey_unknown hk (not_has hall), dictGet_none hk (not_has hall), error_bind, h1]

theorem setting_sound {L ctx d id b} (hL : L.Strict) (hid : ∃ k, hashInt id = some k) (ho : ¬ OddSetting Spec.properties d id)
    (h : Sensor.buildSetting L ctx d id = .ok b) : ∃ dv, setting Spec.properties d id b dv := by
  obtain ⟨k, hk⟩ := hid
  cases hh : E.PropertyID.has k
  · simp only [Sensor.buildSetting, settingKey_unknown hk hh, dictGet_none hk hh, error_bind] at h
    refine ⟨_, .inr ⟨k, hk, ?_, pyBytes_iff.1 h, rfl⟩⟩
    rintro p hp rfl
    obtain ⟨N, hN, -⟩ := properties_cover p hp
    rw [lookupValue_has hN] at hh; cases hh
  · obtain ⟨p, hp, rfl⟩ := properties_all k hh
    obtain ⟨N, hN, hl, c, hc, hkd, hm⟩ := properties_cover p hp
    simp only [Sensor.buildSetting, settingKey_known hp hk, dictGet_eq hc, ok_bind] at h
    split at h
    · rename_i b' r hb
      cases h
      obtain ⟨vv, hf⟩ := hm.sound (fun _ => hL) (fun hodd => ho ⟨p, hp, hk, .inr hodd⟩) hb
      exact ⟨_, .inl ⟨p, vv, hp, hk, hf, rfl⟩⟩
    · rename_i hb
      exfalso
      have hv : (((dget d p.name).or (dget d "sensor_setting_raw")).getD .none) = settingValue d p.name := rfl
      rw [hv] at h hb
      rcases hkd hb with h0 | ⟨d', h0⟩
      · rw [h0] at h; simp [Sensor.pyBytes, asInt, iter] at h
      · rw [h0] at h
        cases d' with
        | nil => exact ho ⟨p, hp, hk, .inl h0⟩
        | cons x d' => simp [Sensor.pyBytes, asInt, iter, Sensor.listBytes] at h
    · cases h

/-- A parsed setting means itself. -/
theorem setting_inv {L ctx s i kw v rest} {k : Int} (hi : i = if E.PropertyID.has k then .enum E.PropertyID.cls k else .int k)
    (h : Sensor.parseSetting L ctx s i kw = .ok (v, rest)) :
    ∃ name y, v = .dict (dset (dset kw F.settingKey i) name y) ∧ (name = "sensor_setting_raw" ∨ ∃ p ∈ Spec.properties, name = p.name) ∧
      ∃ b, ∀ d, dget d name = some y → setting Spec.properties d i b [(F.settingKey, i), (name, y)] := by
  cases hh : E.PropertyID.has k
  · rw [hh] at hi
    subst hi
    simp only [Sensor.parseSetting] at h
    rw [if_neg (by simp)] at h ⊢
    rw [settingKey_unknown (k := k) rfl hh] at h
    simp only at h
    rw [dictGet_none (k := k) rfl hh] at h
    cases h
    refine ⟨_, _, rfl, .inl rfl, s, ?_⟩
    intro d hd
    refine .inr ⟨k, rfl, ?_, ?_, rfl⟩
    · rintro p hp rfl
      obtain ⟨N, hN, -⟩ := properties_cover p hp
      rw [lookupValue_has hN] at hh; cases hh
    · simp only [settingValue, hd, Option.or, Option.getD]; exact raw_value s
  · rw [hh, if_pos rfl] at hi
    subst hi
    obtain ⟨p, hp, rfl⟩ := properties_all k hh
    obtain ⟨N, hN, hl, c, hc, hkd, hm⟩ := properties_cover p hp
    simp only [Sensor.parseSetting, settingKey_known hp (i := .enum _ _) rfl, dictGet_eq hc, bind_ok] at h
    obtain ⟨⟨vv, s'⟩, h1, h2⟩ := h
    cases h2
    obtain ⟨b, hf⟩ := hm.inv trivial h1
    refine ⟨_, _, rfl, .inr ⟨p, hp, rfl⟩, b, ?_⟩
    intro d hd
    refine .inl ⟨p, vv, hp, rfl, ?_, rfl⟩
    simp only [settingValue, hd, Option.or, Option.getD]; exact hf

omit [Platform] in
theorem dgetE_nodiv {d : Dict} {k} : dgetE d k ≠ .error .diverge := by
  unfold dgetE; split <;> simp

theorem parseSetting_nodiv {L ctx s i kw} : Sensor.parseSetting L ctx s i kw ≠ .error .diverge := by
  intro h
  unfold Sensor.parseSetting at h
  generalize Sensor.settingKey i = ik at h
  obtain ⟨i', name⟩ := ik
  simp only at h
  split at h
  · rename_i c hc
    unfold dictGet at hc
    split at hc
    · rename_i k hk
      split at hc
      · rename_i c' hf
        cases hc
        obtain ⟨p, hp, rfl⟩ := properties_all k (dict_all k c hf)
        obtain ⟨N, hN, hl, c', hc', -, hm⟩ := properties_cover p hp
        rw [hf] at hc'; cases hc'
        rcases bind_err.1 h with h | ⟨_, _, h⟩
        · exact hm.nodiv _ _ _ h
        · cases h
      · cases hc
    · cases hc
  · cases h

theorem meets_settingCon {hdr : List (Item UInt8)} {rs : List (RI UInt8)} (hh : MeetsIs stable false hdr rs)
    (hi : IdHeader E.PropertyID F.settingKey rs) (hraw : "sensor_setting_raw" ∉ rs.flatMap RI.keys)
    (hname : ∀ p ∈ Spec.properties, p.name ∉ rs.flatMap RI.keys) :
    MeetsBut (OddSettingMsg Spec.properties) stable true (Sensor.settingCon hdr) (settingMsg Spec.properties rs) := by
  have hnk : ∀ {name}, (name = "sensor_setting_raw" ∨ ∃ p ∈ Spec.properties, name = p.name) → name ∉ rs.flatMap RI.keys ∧ F.settingKey ≠ name := by
    intro name h
    have : name ∉ rs.flatMap RI.keys := by
      rcases h with rfl | ⟨p, hp, rfl⟩
      · exact hraw
      · exact hname p hp
    exact ⟨this, fun h => this (h ▸ hi.mem)⟩
  constructor
  · rintro u b v ⟨d, id, b₁, b₂, dh, dv, rfl, hid, hs, hset, rfl, rfl⟩ L ctx hT
    obtain ⟨ctx', h1⟩ := items_enc hh hs L d hT
    exact ⟨.dict d, by simp only [Sensor.settingCon, asDict, ok_bind, h1, dgetE_eq hid, setting_enc hset]⟩
  · rintro u b v ⟨d, id, b₁, b₂, dh, dv, rfl, hid, hs, hset, rfl, rfl⟩ L ctx rest hr
    obtain rfl := hr rfl
    have h1 := items_dec hh hs L [] b₂ (by simp)
    have hks := seqRel_keys hh hs
    rw [dmerge_nil_of_nodup dh (hks ▸ hi.nodup)] at h1
    obtain ⟨id', i, h3, h4, h5⟩ := hi.fwd hs
    rw [hid] at h3; cases h3
    obtain ⟨x, name, y, rfl, hn, -, hp⟩ := setting_dec hset
    have hii : hashInt i = hashInt id := by
      have : ∃ k, hashInt id = some k := by
        rcases hset with ⟨p, vv, -, h, -⟩ | ⟨k, h, -⟩ <;> exact ⟨_, h⟩
      obtain ⟨k, hk⟩ := this
      rw [hk, h5 k hk]
    have hint : ∀ k, hashInt i = some k → E.PropertyID.has k = false → i = .int k := by
      intro k hk hf
      obtain ⟨k', rfl⟩ := hi.report hs h4
      split at hk
      · rename_i ht; cases hk; rw [hf] at ht; cases ht
      · rename_i ht; cases hk; rw [if_neg ht]
    rw [List.append_nil]
    simp only [Sensor.settingCon, h1, ok_bind, dgetE_eq h4, hp hii hint]
    rw [mixin_dict hks hi.nodup (hnk hn).1 (hnk hn).2]
  · intro L ctx u b r hL ho h
    simp only [Sensor.settingCon, bind_ok] at h
    obtain ⟨d, hd, ⟨b1, c1⟩, h1, id, h2, b2, h3, h4⟩ := h
    cases h4
    have hid := dgetE_ok h2
    have hu : u = .dict d := by
      cases u <;> simp [asDict] at hd
      · subst hd; simp at hid
      · subst hd; rfl
    subst hu
    obtain ⟨dh, hs⟩ := items_sound hh hL h1
    have hk : ∃ k, hashInt id = some k := by
      rcases hi.known hs hid with h | h
      · exact absurd ⟨d, id, rfl, hid, .inl h⟩ ho
      · exact h
    obtain ⟨dv, hset⟩ := setting_sound (hL trivial) hk (fun hodd => ho ⟨d, id, rfl, hid, .inr hodd⟩) h3
    exact ⟨_, d, id, b1, b2, dh, dv, rfl, hid, hs, hset, rfl, rfl⟩
  · rintro hS u b v ⟨d, id, b₁, b₂, dh, dv, rfl, hid, hs, hset, rfl, rfl⟩
    have hks := seqRel_keys hh hs
    obtain ⟨id', i, h3, h4, h5⟩ := hi.fwd hs
    rw [hid] at h3; cases h3
    rcases hset with ⟨p, vv, hp, hn, hf, rfl⟩ | ⟨k, hk, hall, hr, rfl⟩
    · obtain ⟨N, hN, hl, c, hc, -, hm⟩ := properties_cover p hp
      obtain rfl := hi.canon hs h4 (h5 _ hn) (lookupValue_has hN)
      have hnn := hnk (name := p.name) (.inr ⟨p, hp, rfl⟩)
      refine ⟨_, .enum E.PropertyID.cls p.id, b₁, b₂, dh, _, rfl, mixin_get_key _ _ _,
        seqRel_of_diag hh hi.nodup (seqDiag_of_rel hh hS hs) (mixin_get_hdr hks h4), .inl ⟨p, vv, hp, rfl, ?_, rfl⟩, rfl, rfl⟩
      simp only [settingValue, mixin_get_name hks hnn.1 hnn.2, Option.or, Option.getD]; exact hm.refl hS hf
    · have hik := h5 k hk
      have : i = .int k := by
        obtain ⟨k', rfl⟩ := hi.report hs h4
        split at hik
        · rename_i ht; cases hik; rw [not_has hall] at ht; cases ht
        · rename_i ht; cases hik; rw [if_neg ht]
      subst this
      have hnn := hnk (name := "sensor_setting_raw") (.inl rfl)
      refine ⟨_, .int k, b₁, b₂, dh, _, rfl, mixin_get_key _ _ _,
        seqRel_of_diag hh hi.nodup (seqDiag_of_rel hh hS hs) (mixin_get_hdr hks h4), .inr ⟨k, rfl, hall, ?_, rfl⟩, rfl, rfl⟩
      simp only [settingValue, mixin_get_name hks hnn.1 hnn.2, Option.or, Option.getD]; exact raw_value b₂
  · intro hS L ctx s v rest h
    simp only [Sensor.settingCon, bind_ok] at h
    obtain ⟨⟨d, s'⟩, h1, i, h2, h3⟩ := h
    obtain ⟨b₁, dh, rfl, hd⟩ := items_inv hh hS h1
    have hks := seqDiag_keys hh hd
    rw [dmerge_nil_of_nodup dh (hks ▸ hi.nodup)] at *
    have hs := seqRel_of_diag hh (du := dh) hi.nodup hd (fun _ _ => rfl)
    have h2' := dgetE_ok h2
    obtain ⟨k, hk⟩ := hi.report hs h2'
    obtain ⟨name, y, rfl, hn, b₂, hset⟩ := setting_inv hk h3
    have hnn := hnk hn
    rw [mixin_dict hks hi.nodup hnn.1 hnn.2]
    refine ⟨b₁ ++ b₂, _, i, b₁, b₂, dh, _, rfl, mixin_get_key _ _ _, seqRel_of_diag hh hi.nodup hd (mixin_get_hdr hks h2'),
      hset _ (mixin_get_name hks hnn.1 hnn.2), rfl, rfl⟩
  · exact False.elim
  · intro L ctx s h
    simp only [Sensor.settingCon, bind_err] at h
    rcases h with h | ⟨⟨d, s'⟩, -, h | ⟨i, -, h⟩⟩
    · exact items_nodiv hh _ _ _ h
    · exact dgetE_nodiv h
    · exact parseSetting_nodiv h

end
end BM
