import Verif.SpecPages
import Verif.MeetsElt
import Verif.Tables
/-!
# Second debug model
-/
namespace BM
open F Config

section
variable {M : Mode} {e : Bool}

/-- What is required of the kinds of a tag. -/
structure Kinds (M : Mode) (e : Bool) (E : EnumDef) (kt : String) (cases : List (Int × Con UInt8)) (T : List Tagged) : Prop where
  each : ∀ t ∈ T, t.num < 256 ∧ t.key ≠ kt ∧ (∃ N, lookupValue E.members t.num = some N ∧ lower N = t.key) ∧ E.has t.num = true ∧
    ∃ c, findCase t.num cases = some c ∧ Meets M e c t.fmt
  all : ∀ k, E.has k = true → ∃ t ∈ T, (t.num : Int) = k

theorem kinds_of {E kt cases} {T : List Tagged} (h1 : T.all (fun t => decide (t.num < 256) && decide (t.key ≠ kt) &&
      decide ((lookupValue E.members t.num).map lower = some t.key) && E.has t.num) = true)
    (h2 : ∀ t ∈ T, ∃ c, findCase t.num cases = some c ∧ Meets M e c t.fmt)
    (h3 : E.members.all (fun m => T.any fun t => decide ((t.num : Int) = m.2)) = true) : Kinds M e E kt cases T where
  each t ht := by
    have := List.all_eq_true.1 h1 t ht
    simp only [Bool.and_eq_true, decide_eq_true_eq] at this
    obtain ⟨⟨⟨a, b⟩, c⟩, d⟩ := this
    refine ⟨a, b, ?_, d, h2 t ht⟩
    cases hN : lookupValue E.members t.num with
    | none => simp [hN] at c
    | some N => exact ⟨N, rfl, by simpa [hN] using c⟩
  all k hk := by
    obtain ⟨m, hm, rfl⟩ := (has_iff E k).1 hk
    have := List.all_eq_true.1 h3 m hm
    obtain ⟨t, ht, h⟩ := List.any_eq_true.1 this
    exact ⟨t, ht, by simpa using h⟩

theorem meets_tagged {E : EnumDef} {kt kp : String} {cases : List (Int × Con UInt8)} {T : List Tagged} (h : Kinds M e E kt cases T) :
    Meets M e (switchStruct kt (enumAdapter (uintLE 1) E) E kp cases) (F.tagged E.cls kt kp T) := by
  have hbyte : ∀ {t : Tagged}, t ∈ T → ∀ L ctx, (enumAdapter (uintLE 1) E).build L ctx (.enum E.cls t.num) = .ok ([UInt8.ofNat t.num], .enum E.cls t.num) := by
    intro t ht L ctx
    obtain ⟨hlt, -, -, hhas, -⟩ := h.each t ht
    obtain ⟨r1, hr1⟩ := (meets_enum_uint (M := lossless) (e := false) 1 E).enc
      (enum_encodable (u := .enum E.cls t.num) (b := [UInt8.ofNat t.num]) rfl hhas rfl (leNat_one hlt)) L ctx False.elim
    rw [hr1]
    simp only [enumAdapter, adapter, bind_ok] at hr1
    obtain ⟨w, -, ⟨b2, r2⟩, -, h3⟩ := hr1
    cases h3; rfl
  have hparse : ∀ {L ctx s v rest}, (switchStruct kt (enumAdapter (uintLE 1) E) E kp cases).parse L ctx s = .ok (v, rest) →
      ∃ t ∈ T, ∃ c s' w ctx', findCase t.num cases = some c ∧ Meets M e c t.fmt ∧ t.key ≠ kt ∧ s = UInt8.ofNat t.num :: s' ∧
        c.parse L ctx' s' = .ok (w, rest) ∧ v = .dict [(kt, .enum E.cls t.num), (t.key, w)] := by
    intro L ctx s v rest hp
    simp only [switchStruct, bind_ok] at hp
    obtain ⟨⟨k1, s1⟩, h1, hp⟩ := hp
    obtain ⟨bl, hs, hg⟩ := (meets_enum_uint (M := lossless) (e := false) 1 E).exact trivial h1
    obtain ⟨k, hm, hl, hkb, rfl⟩ := enumOf_uint_iff.1 hg
    obtain ⟨t, ht, htk⟩ := h.all k hm.has
    have htk' : t.num = k := by exact_mod_cast htk
    subst htk'
    obtain ⟨hlt, hne, ⟨N, hN, hkey⟩, -, c, hc, hmc⟩ := h.each t ht
    obtain ⟨x, rfl⟩ : ∃ x, bl = [x] := List.length_eq_one_iff.1 hl
    have hx : x = UInt8.ofNat t.num := by
      have : x.toNat = t.num := by simpa [leNat] using hkb
      rw [← this]; simp
    simp only [asInt, hN, bind_ok, caseOf_eq (key := .enum E.cls t.num) rfl hc] at hp
    obtain ⟨⟨w, r⟩, h2, h3⟩ := hp
    cases h3
    exact ⟨t, ht, c, s1, w, _, hc, hmc, hne, by rw [hs, hx]; rfl, h2, by rw [hkey]⟩
  have hsame : ∀ {t : Tagged}, t ∈ T → t.key ≠ kt → ∀ {b w}, t.fmt w b w → F.tagged E.cls kt kp T (.dict [(kt, .enum E.cls t.num), (t.key, w)])
      (UInt8.ofNat t.num :: b) (.dict [(kt, .enum E.cls t.num), (t.key, w)]) := by
    intro t ht hne b w hg
    exact ⟨_, .enum E.cls t.num, w, w, b, t, ht, rfl, by simp [dget], rfl, by simp [dget, Ne.symm hne], hg, rfl, rfl⟩
  refine ⟨?_, ?_, ?_, ?_, ?_, ?_, ?_⟩
  · rintro u b v ⟨d, ut, uv, vv, p, t, ht, rfl, hut, hh, huv, hg, rfl, rfl⟩ L ctx hT
    obtain ⟨hlt, hne, ⟨N, hN, hkey⟩, hhas, c, hc, hmc⟩ := h.each t ht
    obtain ⟨r2, hr2⟩ := hmc.enc hg L [(kt, .enum E.cls t.num), (kp, uv)] hT
    have hcall : E.call ut = .ok (.enum E.cls t.num) := by simp only [EnumDef.call, hh, hhas, if_true]
    refine ⟨.dict d, ?_⟩
    cases hk : dget d t.key with
    | some w =>
      have : w = uv := by simpa [hk] using huv
      subst this
      simp only [switchStruct, dgetE_eq hut, ok_bind, hcall, asInt, hN, hkey, hk, hbyte ht, caseOf_eq (key := .enum E.cls t.num) rfl hc, hr2]; rfl
    | none =>
      have : dget d kp = some uv := by simpa [hk] using huv
      simp only [switchStruct, dgetE_eq hut, ok_bind, hcall, asInt, hN, hkey, hk, dgetE_eq this, hbyte ht,
        caseOf_eq (key := .enum E.cls t.num) rfl hc, hr2]; rfl
  · rintro u b v ⟨d, ut, uv, vv, p, t, ht, rfl, hut, hh, huv, hg, rfl, rfl⟩ L ctx rest hr
    obtain ⟨hlt, hne, ⟨N, hN, hkey⟩, hhas, c, hc, hmc⟩ := h.each t ht
    have h1 := (meets_enum_uint (M := M) (e := false) 1 E).dec
      (enum_encodable (u := .enum E.cls t.num) (b := [UInt8.ofNat t.num]) rfl hhas rfl (leNat_one hlt)) L ctx (p ++ rest) (by simp)
    have h2 := hmc.dec hg L [(kt, .enum E.cls t.num)] rest hr
    simp only [List.cons_append, List.nil_append] at h1
    simp only [switchStruct, List.cons_append, h1, ok_bind, asInt, hN, caseOf_eq (key := .enum E.cls t.num) rfl hc, h2, hkey]
  · intro L ctx u b r hL hb
    cases u <;> simp only [switchStruct, bind_ok, reduceCtorEq] at hb
    rename_i d
    obtain ⟨ut, hut, k1, hk1, hb⟩ := hb
    simp only [EnumDef.call] at hk1
    split at hk1
    swap
    · cases hk1
    rename_i n hh
    split at hk1
    swap
    · cases hk1
    rename_i hhas
    cases hk1
    obtain ⟨t, ht, htk⟩ := h.all n hhas
    subst htk
    obtain ⟨hlt, hne, ⟨N, hN, hkey⟩, -, c, hc, hmc⟩ := h.each t ht
    simp only [asInt, hN, hkey, hbyte ht, caseOf_eq (key := .enum E.cls t.num) rfl hc] at hb
    have hb' : ∃ uv, (dget d t.key).or (dget d kp) = some uv ∧ ∃ b2 r2 ctx', c.build L ctx' uv = .ok (b2, r2) ∧ b = UInt8.ofNat t.num :: b2 := by
      cases hk : dget d t.key with
      | some w =>
        simp only [hk, bind_ok] at hb
        obtain ⟨_, h0, ⟨b1, r1⟩, h1, ⟨b2, r2⟩, h2, h3⟩ := hb
        cases h0; cases h1; cases h3
        exact ⟨w, rfl, b2, _, _, h2, rfl⟩
      | none =>
        simp only [hk, bind_ok] at hb
        obtain ⟨w, h0, ⟨b1, r1⟩, h1, ⟨b2, r2⟩, h2, h3⟩ := hb
        cases h1; cases h3
        exact ⟨w, by simpa using dgetE_ok h0, b2, _, _, h2, rfl⟩
    obtain ⟨uv, huv, b2, r2, ctx', h2, rfl⟩ := hb'
    obtain ⟨vv, hvv⟩ := hmc.sound hL h2
    exact ⟨_, d, ut, uv, vv, b2, t, ht, rfl, dgetE_ok hut, hh, huv, hvv, rfl, rfl⟩
  · rintro hS u b v ⟨d, ut, uv, vv, p, t, ht, rfl, hut, hh, huv, hg, rfl, rfl⟩
    obtain ⟨hlt, hne, -, -, c, hc, hmc⟩ := h.each t ht
    exact hsame ht hne (hmc.refl hS hg)
  · intro hS L ctx s v rest hp
    obtain ⟨t, ht, c, s', w, ctx', hc, hmc, hne, rfl, hcp, rfl⟩ := hparse hp
    obtain ⟨b, hb⟩ := hmc.inv hS hcp
    exact ⟨_, hsame ht hne hb⟩
  · intro hX L ctx s v rest hp
    obtain ⟨t, ht, c, s', w, ctx', hc, hmc, hne, rfl, hcp, rfl⟩ := hparse hp
    obtain ⟨b, hs', hb⟩ := hmc.exact hX hcp
    exact ⟨UInt8.ofNat t.num :: b, by rw [hs']; rfl, hsame ht hne hb⟩
  · intro L ctx s hp
    simp only [switchStruct, bind_err] at hp
    rcases hp with hp | ⟨⟨k1, s1⟩, h1, hp⟩
    · exact (meets_enum_uint (M := M) (e := false) 1 E).nodiv _ _ _ hp
    · obtain ⟨bl, hs, hg⟩ := (meets_enum_uint (M := lossless) (e := false) 1 E).exact trivial h1
      obtain ⟨k, hm, hl, hkb, rfl⟩ := enumOf_uint_iff.1 hg
      obtain ⟨t, ht, htk⟩ := h.all k hm.has
      have htk' : t.num = k := by exact_mod_cast htk
      subst htk'
      obtain ⟨hlt, hne, ⟨N, hN, hkey⟩, -, c, hc, hmc⟩ := h.each t ht
      simp only [asInt, hN, bind_err, caseOf_eq (key := .enum E.cls t.num) rfl hc] at hp
      rcases hp with hp | ⟨_, _, hp⟩
      · exact hmc.nodiv _ _ _ hp
      · cases hp

theorem lenGe_tagged {cls kt kp T} : LenGe (F.tagged cls kt kp T) 1 := by
  rintro u b v ⟨d, ut, uv, vv, p, t, ht, rfl, hut, hh, huv, hg, rfl, rfl⟩
  simp

theorem findCase_pair {α} {D : List (Int × Con α)} {k c} (h : findCase k D = some c) : (k, c) ∈ D := by
  induction D with
  | nil => cases h
  | cons x D ih =>
    obtain ⟨k', c'⟩ := x
    simp only [findCase] at h
    split at h
    · rename_i hk; cases h; subst hk; exact List.mem_cons_self
    · exact List.mem_cons_of_mem _ (ih h)

theorem minLen_switchStruct {kt kp E} {cases : List (Int × Con UInt8)} {kc : Con UInt8} (hk : MinLen kc 1)
    (hc : ∀ x ∈ cases, MinLen x.2 0) : MinLen (switchStruct kt kc E kp cases) 1 := by
  intro L ctx s v rest hp
  simp only [switchStruct, bind_ok] at hp
  obtain ⟨⟨k1, s1⟩, h1, hp⟩ := hp
  have h1' := hk h1
  split at hp
  · cases hp
  split at hp
  · cases hp
  simp only [bind_ok] at hp
  obtain ⟨⟨w, r⟩, h2, h3⟩ := hp
  cases h3
  have : MinLen (caseOf k1 cases passC) 0 := by
    simp only [caseOf]
    split
    · rename_i n _
      cases hf : findCase n cases with
      | none => intro L ctx s v rest h; cases h; simp
      | some c => exact hc _ (findCase_pair hf)
    · intro L ctx s v rest h; cases h; simp
  have h3 := this h2
  simp only at h1' h3 ⊢
  omega

theorem meets_pascalText : Meets M e pascalString F.pascalText := by
  have hread : ∀ {L ctx s v rest}, pascalString.parse L ctx s = .ok (v, rest) → ∃ b, s = b ++ rest ∧ F.pascalText v b v := by
    intro L ctx s v rest h
    simp only [pascalString, bind_ok] at h
    obtain ⟨⟨l, s1⟩, h1, ⟨b, s2⟩, h2, v', h3, h4⟩ := h
    cases h4
    obtain ⟨rfl, hl⟩ := takeN_ok h1
    obtain ⟨rfl, hb⟩ := takeN_ok h2
    obtain ⟨s', rfl, rfl⟩ := bytesStr_ok h3
    obtain ⟨x, rfl⟩ : ∃ x, l = [x] := List.length_eq_one_iff.1 hl
    have hx : (utf8 s').length = x.toNat := by simpa [leNat] using hb
    have := x.toNat_lt
    refine ⟨x :: utf8 s', by simp, s', rfl, by omega, ?_, rfl⟩
    rw [hx]; simp
  refine ⟨?_, ?_, ?_, ?_, ?_, ?_, ?_⟩
  · rintro u b v ⟨s, rfl, hl, rfl, rfl⟩ L ctx _
    exact ⟨_, by simp only [pascalString, strBytes, ok_bind, if_pos hl]; rfl⟩
  · rintro u b v ⟨s, rfl, hl, rfl, rfl⟩ L ctx rest _
    have h1 : takeN 1 (UInt8.ofNat (utf8 s).length :: (utf8 s ++ rest)) = .ok ([UInt8.ofNat (utf8 s).length], utf8 s ++ rest) :=
      takeN_append (b := [_]) rfl
    simp only [pascalString, List.cons_append, h1, ok_bind, leNat_one hl, takeN_append (b := utf8 s) (rest := rest) rfl, bytesStr_utf8]
  · intro L ctx u b r _ h
    simp only [pascalString, bind_ok] at h
    obtain ⟨b', h1, h2⟩ := h
    obtain ⟨s, rfl, rfl⟩ := strBytes_inv h1
    split at h2
    · rename_i hl
      cases h2
      exact ⟨_, s, rfl, hl, rfl, rfl⟩
    · cases h2
  · rintro _ u b v ⟨s, rfl, hl, rfl, rfl⟩; exact ⟨s, rfl, hl, rfl, rfl⟩
  · intro _ L ctx s v rest h
    obtain ⟨b, -, hb⟩ := hread h
    exact ⟨b, hb⟩
  · intro _ L ctx s v rest h; exact hread h
  · intro L ctx s h
    simp only [pascalString, bind_err] at h
    rcases h with h | ⟨⟨l, s1⟩, -, h | ⟨⟨b, s2⟩, -, h | ⟨_, _, h⟩⟩⟩
    · exact absurd (takeN_err h).1 (by decide)
    · exact absurd (takeN_err h).1 (by decide)
    · exact bytesStr_nodiv _ h
    · cases h

variable [Platform]
theorem meets_float (w : Nat) (hS : ¬ M.S) (hX : ¬ M.X) : Meets M e (DebugV2.floatLE w) (F.float w) where
  enc := by rintro u b v ⟨h, rfl⟩ L ctx _; exact ⟨u, by simp only [DebugV2.floatLE, h, ok_bind]⟩
  dec := by
    rintro u b v ⟨h, rfl⟩ L ctx rest _
    simp only [DebugV2.floatLE, takeN_append (b := b) (rest := rest) (Platform.packF_len _ _ _ h), ok_bind]
  sound := by
    intro L ctx u b r _ h
    simp only [DebugV2.floatLE, bind_ok] at h
    obtain ⟨b', h1, h2⟩ := h
    cases h2
    exact ⟨_, h1, rfl⟩
  refl h := absurd h hS
  inv h := absurd h hS
  exact h := absurd h hX
  nodiv := by
    intro L ctx s h
    simp only [DebugV2.floatLE, bind_err] at h
    rcases h with h | ⟨_, _, h⟩
    · exact absurd (takeN_err h).1 (by decide)
    · cases h

theorem debugV2_num : Spec.debugV2Values.all (fun t => decide (t.num < 256) && decide (t.key ≠ "data_type") &&
      decide ((lookupValue E.DebugV2DataTypes.members t.num).map lower = some t.key) && E.DebugV2DataTypes.has t.num) = true := by
  with_unfolding_all exact (Eq.refl true)

theorem debugV2_all : E.DebugV2DataTypes.members.all (fun m => Spec.debugV2Values.any fun t => decide ((t.num : Int) = m.2)) = true := by
  with_unfolding_all exact (Eq.refl true)

theorem debugV2_kinds : Kinds plain false E.DebugV2DataTypes "data_type" DebugV2.parameterCases Spec.debugV2Values := by
  refine kinds_of debugV2_num ?_ debugV2_all
  refine List.forall_iff_forall_mem.1 ⟨⟨_, rfl, by meets⟩, ⟨_, rfl, by meets⟩, ⟨_, rfl, by meets⟩, ⟨_, rfl, by meets⟩, ⟨_, rfl, by meets⟩,
    ⟨_, rfl, by meets⟩, ⟨_, rfl, by meets⟩, ⟨_, rfl, by meets⟩, ⟨_, rfl, meets_float 4 id id⟩, ⟨_, rfl, meets_float 8 id id⟩, ⟨_, rfl, by meets⟩,
    ⟨_, rfl, meets_pascalText⟩, ⟨_, rfl, meets_withCount 1 (by meets)⟩, ⟨_, rfl, by meets⟩⟩

theorem minLen_of {c : Con UInt8} {G : Fmt UInt8} (h : Meets lossless false c G) : MinLen c 0 :=
  minLen_exact (odd := fun _ => False) trivial h.but (fun _ _ _ _ => Nat.zero_le _)

theorem minLen_float (w : Nat) : MinLen (DebugV2.floatLE w) w :=
  minLen_fixed w (fun _ b => .ok (.fbits w (leNat b))) (fun _ _ _ => rfl)

theorem debugV2_min : ∀ x ∈ DebugV2.parameterCases, MinLen x.2 0 := by
  refine List.forall_iff_forall_mem.1 ⟨minLen_of (meets_uint 1), minLen_of (meets_uint 2), minLen_of (meets_uint 4), minLen_of (meets_uint 8),
    minLen_of (meets_sint 1 (by decide)), minLen_of (meets_sint 2 (by decide)), minLen_of (meets_sint 4 (by decide)), minLen_of (meets_sint 8 (by decide)),
    (minLen_float 4).le (by decide), (minLen_float 8).le (by decide), minLen_of (meets_uint 1), minLen_of meets_pascalText,
    minLen_of (meets_withCount 1 (meets_uint 1)), minLen_of (G := F.record []) (by meets)⟩

theorem debugV2_plain : Covers plain E.DebugV2Opcode Tables.debugV2Cases Spec.debugV2Plain := by
  unfold Spec.debugV2Plain
  coversOne
  · refine meets_struct (.cons (meetsI_field rfl (by meets)) (.cons (meetsI_field rfl (by meets)) (.cons (meetsI_field rfl (by meets))
      (.last (meetsI_field rfl ?_))))) (by keys)
    exact meets_greedy (meets_tagged debugV2_kinds) lenGe_tagged (minLen_switchStruct (minLen_enum (minLen_uint 1)) debugV2_min)
  · exact covers_nil
end
end BM
