import Verif.MeetsAddr
import Verif.MeetsDescriptor
import Verif.RRule
/-!
# Tagged values, sets, and messages with a short form
-/
namespace BM
open F Config

section
variable {M : Mode} {e : Bool}

/-! ### A tag and the value it selects -/

theorem caseOf_eq {α} {key : Val} {k : Int} {cases : List (Int × Con α)} {d c} (hk : hashInt key = some k) (hc : findCase k cases = some c) :
    caseOf key cases d = c := by
  simp only [caseOf, hk, hc, Option.getD_some]

/-- What is required of the cases of a tag. -/
structure TagCases (M : Mode) (e : Bool) (E : EnumDef) (cases : List (Int × Con UInt8)) (T : List (Nat × Fmt UInt8)) : Prop where
  each : ∀ t ∈ T, t.1 < 256 ∧ E.has t.1 = true ∧ ∃ c, findCase t.1 cases = some c ∧ Meets M e c t.2
  all : ∀ k, E.has k = true → ∃ t ∈ T, (t.1 : Int) = k

theorem tagCases_of {E cases} {T : List (Nat × Fmt UInt8)} (h1 : ∀ t ∈ T, t.1 < 256 ∧ E.has t.1 = true)
    (h2 : ∀ t ∈ T, ∃ c, findCase t.1 cases = some c ∧ Meets M e c t.2)
    (h3 : E.members.all (fun m => T.any fun t => decide ((t.1 : Int) = m.2)) = true) : TagCases M e E cases T where
  each t ht := ⟨(h1 t ht).1, (h1 t ht).2, h2 t ht⟩
  all k hk := by
    obtain ⟨m, hm, rfl⟩ := (has_iff E k).1 hk
    have := List.all_eq_true.1 h3 m hm
    obtain ⟨t, ht, h⟩ := List.any_eq_true.1 this
    exact ⟨t, ht, by simpa using h⟩

theorem meets_variant {E : EnumDef} {kt kp : String} (hk : kt ≠ kp) {cases : List (Int × Con UInt8)} {T : List (Nat × Fmt UInt8)}
    (h : TagCases M e E cases T) (hb : (switchC (this kt) cases).buildNone = false) :
    MeetsBut (fun u => ∃ d s, u = .dict d ∧ dget d kt = some (.str s)) M e
      (struct [field kt (enumAdapter (uintLE 1) E), field kp (switchC (this kt) cases)]) (F.variant E.cls kt kp T) := by
  have he : (enumAdapter (uintLE 1) E).buildNone = false := rfl
  -- parsing
  have hparse : ∀ {L ctx s v rest}, (struct [field kt (enumAdapter (uintLE 1) E), field kp (switchC (this kt) cases)]).parse L ctx s = .ok (v, rest) →
      ∃ t ∈ T, ∃ c s' w ctx', findCase t.1 cases = some c ∧ Meets M e c t.2 ∧ t.1 < 256 ∧ s = UInt8.ofNat t.1 :: s' ∧
        c.parse L ctx' s' = .ok (w, rest) ∧ v = .dict [(kt, .enum E.cls t.1), (kp, w)] := by
    intro L ctx s v rest hp
    simp only [struct, parseItems, field, bind_ok] at hp
    obtain ⟨⟨d0, r0⟩, ⟨⟨a1, s1⟩, ⟨⟨v1, r1⟩, h1, h1'⟩, ⟨a2, s2⟩, ⟨⟨v2, r2⟩, h2, h2'⟩, h3⟩, h4⟩ := hp
    cases h4; cases h3; cases h2'; cases h1'
    obtain ⟨bl, hs, hg⟩ := (meets_enum_uint (M := lossless) (e := false) 1 E).exact trivial h1
    obtain ⟨k, hm, hl, hkb, rfl⟩ := enumOf_uint_iff.1 hg
    obtain ⟨t, ht, htk⟩ := h.all k hm.has
    have htk' : t.1 = k := by exact_mod_cast htk
    subst htk'
    obtain ⟨hlt, -, c, hc, hmc⟩ := h.each t ht
    obtain ⟨x, rfl⟩ : ∃ x, bl = [x] := List.length_eq_one_iff.1 hl
    have hx : x = UInt8.ofNat t.1 := by
      have : x.toNat = t.1 := by simpa [leNat] using hkb
      rw [← this]; simp
    simp only [switchC, this, dgetE, dget_dset_self, ok_bind, caseOf_eq (key := .enum E.cls t.1) rfl hc] at h2
    refine ⟨t, ht, c, _, _, _, hc, hmc, hlt, by rw [hs, hx]; rfl, h2, ?_⟩
    simp [dset, hk]
  refine ⟨?_, ?_, ?_, ?_, ?_, ?_, ?_⟩
  · rintro u b v ⟨d, ut, uv, vv, p, t, ht, hd, hut, hh, huv, hg, rfl, rfl⟩ L ctx hT
    obtain ⟨hlt, hhas, c, hc, hmc⟩ := h.each t ht
    obtain ⟨r1, hr1⟩ := (meets_enum_uint (M := M) (e := false) 1 E).enc (enum_encodable (b := [UInt8.ofNat t.1]) hh hhas rfl (leNat_one hlt)) L (dset d kt ut) hT
    have hr1' : (enumAdapter (uintLE 1) E).build L (dset d kt ut) ut = .ok ([UInt8.ofNat t.1], ut) := by
      rw [hr1]
      simp only [enumAdapter, adapter, bind_ok] at hr1
      obtain ⟨w, -, ⟨b2, r2⟩, -, h3⟩ := hr1
      cases h3; rfl
    have hne : ut ≠ .none := by rintro rfl; simp [hashInt, asInt] at hh
    have hm : ∀ c : Dict, (match ut with | .none => dset c kt ut | r => dset (dset c kt ut) kt r) = dset (dset c kt ut) kt ut := by
      intro c; cases ut <;> first | exact absurd rfl hne | rfl
    obtain ⟨r2, hr2⟩ := hmc.enc hg L (dset (dset (dset d kt ut) kt ut) kp uv) hT
    simp only [struct, buildItems, field, he, hb, Bool.false_eq_true, if_false, hd, ok_bind, dgetE_eq hut, hr1', hm, dgetE_eq huv]
    simp only [switchC, this, dgetE, dget_dset_ne _ _ (Ne.symm hk), dget_dset_self, ok_bind, caseOf_eq hh hc, hr2]
    exact ⟨_, by simp; rfl⟩
  · rintro u b v ⟨d, ut, uv, vv, p, t, ht, hd, hut, hh, huv, hg, rfl, rfl⟩ L ctx rest hr
    obtain ⟨hlt, hhas, c, hc, hmc⟩ := h.each t ht
    have h1 := (meets_enum_uint (M := M) (e := false) 1 E).dec (enum_encodable (b := [UInt8.ofNat t.1]) hh hhas rfl (leNat_one hlt)) L [] (p ++ rest) (by simp)
    have h2 := hmc.dec hg L (dset [] kt (.enum E.cls t.1)) rest hr
    simp only [List.cons_append, List.nil_append] at h1
    simp only [struct, parseItems, field, List.cons_append, h1, ok_bind]
    simp only [switchC, this, dgetE, dget_dset_self, ok_bind, caseOf_eq (key := .enum E.cls t.1) rfl hc, h2]
    simp [dset, hk]
  · intro L ctx u b r hL ho hbd
    simp only [struct, bind_ok, buildItems, field, he, hb, Bool.false_eq_true, if_false] at hbd
    obtain ⟨d, hd, ⟨b1, c1⟩, ⟨⟨b2, c2⟩, ⟨ut, hut, ⟨b3, r3⟩, h3, h3'⟩, ⟨b4, c4⟩, ⟨⟨b5, c5⟩, ⟨uv, huv, ⟨b6, r6⟩, h6, h6'⟩, h7⟩, h8⟩, h9⟩ := hbd
    obtain ⟨⟨b8, c8⟩, h7, h7'⟩ := h7
    simp only [Except.ok.injEq, Prod.mk.injEq] at h3' h6' h7 h7' h8 h9
    obtain ⟨rfl, rfl⟩ := h3'; obtain ⟨rfl, rfl⟩ := h6'; obtain ⟨rfl, rfl⟩ := h7; obtain ⟨rfl, rfl⟩ := h7'; obtain ⟨rfl, rfl⟩ := h8
    obtain ⟨rfl, rfl⟩ := h9
    obtain ⟨w, hw⟩ := (meets_enum_uint (M := M) (e := false) 1 E).sound hL h3
    obtain ⟨k, hm, hl, hkb, rfl⟩ := enumOf_uint_iff.1 hw
    have hr3 : r3 = ut := by
      simp only [enumAdapter, adapter, bind_ok] at h3
      obtain ⟨w, -, ⟨b2, r2⟩, -, h3⟩ := h3
      cases h3; rfl
    subst hr3
    have hh : hashInt r3 = some (k : Int) := by
      rcases hm with ⟨s, rfl, -⟩ | ⟨h1, -⟩
      · refine absurd ⟨d, s, ?_, dgetE_ok hut⟩ ho
        cases u <;> simp only [asDict, Except.ok.injEq, reduceCtorEq] at hd
        · subst hd; simp [dgetE, dget] at hut
        · rw [hd]
      · exact h1
    have hne : r3 ≠ .none := by rintro rfl; simp [hashInt, asInt] at hh
    obtain ⟨t, ht, htk⟩ := h.all k hm.has
    have htk' : t.1 = k := by exact_mod_cast htk
    subst htk'
    obtain ⟨hlt, -, c, hc, hmc⟩ := h.each t ht
    have hget : ∀ c : Dict, dgetE (dset (dset c kt r3) kp uv) kt = .ok r3 := by
      intro c
      apply dgetE_eq
      rw [dget_dset_ne _ _ (Ne.symm hk), dget_dset_self]
    simp only [switchC, this, hget, ok_bind, caseOf_eq hh hc] at h6
    obtain ⟨vv, hvv⟩ := hmc.sound hL h6
    obtain ⟨x, rfl⟩ : ∃ x, b3 = [x] := List.length_eq_one_iff.1 hl
    have hx : x = UInt8.ofNat t.1 := by
      have : x.toNat = t.1 := by simpa [leNat] using hkb
      rw [← this]; simp
    exact ⟨_, d, r3, uv, vv, b6, t, ht, hd, dgetE_ok hut, hh, dgetE_ok huv, hvv, by simp [hx], rfl⟩
  · rintro hS u b v ⟨d, ut, uv, vv, p, t, ht, hd, hut, hh, huv, hg, rfl, rfl⟩
    obtain ⟨hlt, hhas, c, hc, hmc⟩ := h.each t ht
    exact ⟨_, .enum E.cls t.1, vv, vv, p, t, ht, rfl, by simp [dget], rfl, by simp [dget, hk], hmc.refl hS hg, rfl, rfl⟩
  · intro hS L ctx s v rest hp
    obtain ⟨t, ht, c, s', w, ctx', hc, hmc, hlt, rfl, hcp, rfl⟩ := hparse hp
    obtain ⟨b, hb⟩ := hmc.inv hS hcp
    exact ⟨_, _, .enum E.cls t.1, w, w, b, t, ht, rfl, by simp [dget], rfl, by simp [dget, hk], hb, rfl, rfl⟩
  · intro hX L ctx s v rest hp
    obtain ⟨t, ht, c, s', w, ctx', hc, hmc, hlt, rfl, hcp, rfl⟩ := hparse hp
    obtain ⟨b, hs', hb⟩ := hmc.exact hX hcp
    exact ⟨UInt8.ofNat t.1 :: b, by rw [hs']; rfl, _, .enum E.cls t.1, w, w, b, t, ht, rfl, by simp [dget], rfl, by simp [dget, hk], hb, rfl, rfl⟩
  · intro L ctx s hp
    simp only [struct, parseItems, field, bind_err] at hp
    rcases hp with (hp | ⟨⟨a1, s1⟩, h1, hp⟩) | ⟨_, _, hp⟩
    · rcases hp with hp | ⟨_, _, hp⟩
      · exact (meets_enum_uint (M := M) (e := false) 1 E).nodiv _ _ _ hp
      · cases hp
    · simp only [bind_ok] at h1
      obtain ⟨⟨v1, r1⟩, h1, h1'⟩ := h1
      cases h1'
      obtain ⟨bl, hs, hg⟩ := (meets_enum_uint (M := lossless) (e := false) 1 E).exact trivial h1
      obtain ⟨k, hm, hl, hkb, rfl⟩ := enumOf_uint_iff.1 hg
      obtain ⟨t, ht, htk⟩ := h.all k hm.has
      have htk' : t.1 = k := by exact_mod_cast htk
      subst htk'
      obtain ⟨hlt, -, c, hc, hmc⟩ := h.each t ht
      simp only [switchC, this, dgetE, dget_dset_self, ok_bind, caseOf_eq (key := .enum E.cls t.1) rfl hc] at hp
      rcases hp with (hp | ⟨_, _, hp⟩) | ⟨_, _, hp⟩
      · exact hmc.nodiv _ _ _ hp
      · cases hp
      · cases hp
    · cases hp

/-! ### Long and short forms -/

theorem meets_selectShort {α} {odd odd₂ : Val → Prop} {Short : Val → Prop} {c₁ c₂ : Con α} {G₁ G₂ : Fmt α} (h₁ : MeetsBut odd M true c₁ G₁)
    (h₂ : MeetsBut odd₂ M true c₂ G₂) (hT : ¬ M.T) (hshort : ∀ {u b v}, G₂ u b v → ∀ L ctx, ∃ er, c₁.parse L ctx b = .error er)
    (hnb : ∀ {u}, Short u → ∀ L ctx, ∃ er, c₁.build L ctx u = .error er) (hsh : ∀ {u b v}, G₂ u b v → Short v) :
    MeetsBut (fun u => (odd u ∨ ¬ Short u ∧ Unencodable G₁ u) ∨ odd₂ u) M true (select [c₁, c₂]) (fun u b v => G₁ u b v ∨ Short u ∧ G₂ u b v) where
  enc := by
    rintro u b v (hg | ⟨hn, hg⟩) L ctx hL
    · obtain ⟨r, hr⟩ := h₁.enc hg L ctx hL
      exact ⟨u, by simp [select, selectBuild, hr]⟩
    · obtain ⟨r, hr⟩ := h₂.enc hg L ctx hL
      obtain ⟨er, he⟩ := hnb hn L ctx
      exact ⟨u, by simp [select, selectBuild, hr, he]⟩
  dec := by
    rintro u b v (hg | ⟨-, hg⟩) L ctx rest he
    · simp [select, selectParse, h₁.dec hg L ctx rest he]
    · have hr := he rfl
      subst hr
      obtain ⟨er, her⟩ := hshort hg L ctx
      have hnd : er ≠ .diverge := by rintro rfl; exact h₁.nodiv L ctx b her
      have h2 := h₂.dec hg L ctx [] (fun _ => rfl)
      rw [List.append_nil] at h2 ⊢
      simp [select, selectParse, her, hnd, h2]
  sound := by
    intro L ctx u b r hL ho h
    simp only [not_or, not_and] at ho
    simp only [select, selectBuild] at h
    split at h
    · rename_i b' r' h1
      simp only [Except.ok.injEq, Prod.mk.injEq] at h
      obtain ⟨rfl, rfl⟩ := h
      obtain ⟨v, hv⟩ := h₁.sound hL ho.1.1 h1
      exact ⟨v, Or.inl hv⟩
    · rename_i er h1
      split at h
      · rename_i b' r' h2
        simp only [Except.ok.injEq, Prod.mk.injEq] at h
        obtain ⟨rfl, rfl⟩ := h
        obtain ⟨v, hv⟩ := h₂.sound hL ho.2 h2
        by_cases hs : Short u
        · exact ⟨v, Or.inr ⟨hs, hv⟩⟩
        · have : ∃ b v, G₁ u b v := Classical.byContradiction fun hn => ho.1.2 hs hn
          obtain ⟨b1, v1, hg⟩ := this
          obtain ⟨r1, hr1⟩ := h₁.enc hg L ctx (fun t => absurd t hT)
          rw [hr1] at h1; simp at h1
      · simp at h
  refl := by
    rintro s u b v (hg | ⟨-, hg⟩)
    · exact Or.inl (h₁.refl s hg)
    · exact Or.inr ⟨hsh hg, h₂.refl s hg⟩
  inv := by
    intro s L ctx st v rest h
    simp only [select, selectParse] at h
    split at h
    · rename_i r h1
      cases h
      obtain ⟨b, hb⟩ := h₁.inv s h1
      exact ⟨b, Or.inl hb⟩
    · split at h
      · simp at h
      · split at h
        · rename_i r h1
          cases h
          obtain ⟨b, hb⟩ := h₂.inv s h1
          exact ⟨b, Or.inr ⟨hsh hb, hb⟩⟩
        · split at h <;> simp at h
  exact := by
    intro x L ctx st v rest h
    simp only [select, selectParse] at h
    split at h
    · rename_i r h1
      cases h
      obtain ⟨b, hs, hb⟩ := h₁.exact x h1
      exact ⟨b, hs, Or.inl hb⟩
    · split at h
      · simp at h
      · split at h
        · rename_i r h1
          cases h
          obtain ⟨b, hs, hb⟩ := h₂.exact x h1
          exact ⟨b, hs, Or.inr ⟨hsh hb, hb⟩⟩
        · split at h <;> simp at h
  nodiv := by
    intro L ctx s h
    simp only [select, selectParse] at h
    split at h
    · simp at h
    · rename_i er h1
      split at h
      · rename_i hd
        subst hd
        exact h₁.nodiv _ _ _ h1
      · split at h
        · simp at h
        · rename_i er' h2
          split at h
          · rename_i hd
            subst hd
            exact h₂.nodiv _ _ _ h2
          · simp at h

theorem meets_longShortBut {odd odd₂ : Val → Prop} {its₁ its₂ its₂' : List (Item UInt8)} {rs₁ rs₂ : List (RI UInt8)} (k : String) {m₁ m₂ : Nat} {it : Item UInt8}
    (h₁ : MeetsBut odd M true (nameAdapter "optional" (struct its₁)) (named "optional" (record rs₁)))
    (m2 : MeetsBut odd₂ M true (nameAdapter "minimal" (struct its₂)) (named "minimal" (record rs₂))) (h₂ : MeetsIs M true its₂' rs₂) (hT : ¬ M.T)
    (hn₂ : ("_name" :: "optional" :: "minimal" :: rs₂.flatMap RI.keys).Nodup)
    (hm : it ∈ its₁) (hneed : BuildNeeds it k) (hk : k ∉ "_name" :: rs₂.flatMap RI.keys)
    (hmin : MinLenIs its₁ m₁) (hlen : LenEqIs rs₂ m₂) (hlt : m₂ < m₁) :
    MeetsBut (fun u => (odd u ∨ OddLong k rs₁ u) ∨ odd₂ u) M true (optionalMinimal its₁ its₂) (longShort k rs₁ rs₂) := by
  simp only [List.nodup_cons, List.mem_cons, not_or] at hn₂ hk
  refine meets_selectShort (Short := fun u => ∃ d, u = .dict d ∧ dget d "optional" = none ∧ dget d k = none) h₁ m2 hT ?_ ?_ ?_
  · have a : MinLen (nameAdapter "optional" (struct its₁)) m₁ := minLen_named (minLen_struct hmin)
    have b : LenLe (F.record rs₂) m₂ := LenEq.le (lenEq_record hlen) (Nat.le_refl _)
    have b' : LenLe (F.named "minimal" (F.record rs₂)) m₂ := lenLe_named b
    exact fun {_ _ _} hg => MinLen.short a b' hlt hg
  · rintro u ⟨d, rfl, h1, h2⟩ L ctx
    rcases hb : (nameAdapter "optional" (struct its₁)).build L ctx (.dict d) with er | ⟨b, r⟩
    · exact ⟨er, rfl⟩
    · simp only [nameAdapter, h1, Option.getD_none, struct, asDict, ok_bind, bind_ok] at hb
      obtain ⟨⟨b1, r1⟩, ⟨⟨b2, c2⟩, h3, -⟩, -⟩ := hb
      exact absurd h2 (buildNeeds_items hm hneed h3)
  · rintro u b v ⟨d, dv, rfl, hg, rfl⟩
    obtain ⟨d2, h2, hks⟩ := reports_record h₂ hg
    cases h2
    refine ⟨_, rfl, ?_, ?_⟩ <;> rw [dget_eq_none_iff] <;>
      simp only [dkeys, List.map_append, List.mem_append, List.map_cons, List.map_nil, List.mem_singleton, not_or]
    · exact ⟨by rw [show List.map Prod.fst dv = dkeys dv from rfl, hks]; exact hn₂.2.1.2, by decide⟩
    · exact ⟨by rw [show List.map Prod.fst dv = dkeys dv from rfl, hks]; exact hk.2, hk.1⟩

theorem meets_longShort {odd : Val → Prop} {its₁ its₂ : List (Item UInt8)} {rs₁ rs₂ : List (RI UInt8)} (k : String) {m₁ m₂ : Nat} {it : Item UInt8}
    (h₁ : MeetsBut odd M true (nameAdapter "optional" (struct its₁)) (named "optional" (record rs₁))) (h₂ : MeetsIs M true its₂ rs₂) (hT : ¬ M.T)
    (hn₂ : ("_name" :: "optional" :: "minimal" :: rs₂.flatMap RI.keys).Nodup)
    (hm : it ∈ its₁) (hneed : BuildNeeds it k) (hk : k ∉ "_name" :: rs₂.flatMap RI.keys)
    (hmin : MinLenIs its₁ m₁) (hlen : LenEqIs rs₂ m₂) (hlt : m₂ < m₁) :
    MeetsBut (fun u => odd u ∨ OddLong k rs₁ u) M true (optionalMinimal its₁ its₂) (longShort k rs₁ rs₂) := by
  have hn := hn₂
  simp only [List.nodup_cons, List.mem_cons, not_or] at hn₂
  have m2 := meets_named (name := "minimal") (meets_struct h₂ hn₂.2.2.2) (reports_record h₂) hn₂.1.2.2 hn₂.2.2.1 (Ne.symm hn₂.1.2.1)
    (record_loc h₂ hn₂.1.2.2)
  exact (meets_longShortBut k h₁ (m2.but (odd := fun _ => False)) h₂ hT hn hm hneed hk hmin hlen hlt).mono fun u h => h.resolve_right id

/-! ### Members with odd objects -/

/-- Two members that parse alike, and build alike unless the object is odd. -/
structure AgreesI {α} (odd : Dict → Prop) (it it' : Item α) : Prop where
  none : it.buildNone = it'.buildNone
  parse : it.parse = it'.parse
  build : ∀ {L obj ctx}, ¬ odd obj → it.build L obj ctx = it'.build L obj ctx
  fwd : ∀ {L obj ctx r}, it'.build L obj ctx = .ok r → it.build L obj ctx = .ok r

theorem AgreesI.rfl {α odd} {it : Item α} : AgreesI odd it it := ⟨.refl _, .refl _, fun _ => .refl _, id⟩

theorem agreesI_tame {α} {odd : Val → Prop} {k : String} {c : Con α} (hb : c.buildNone = false) :
    AgreesI (fun d => ∃ x, dget d k = some x ∧ odd x) (field k c) (field k (tame odd c)) where
  none := rfl
  parse := rfl
  build := by
    intro L obj ctx ho
    have hb' : (tame odd c).buildNone = false := hb
    simp only [field, hb, hb', Bool.false_eq_true, if_false]
    cases hg : dgetE obj k with
    | error => rfl
    | ok u =>
      have : ¬ odd u := fun h => ho ⟨u, dgetE_ok hg, h⟩
      simp only [ok_bind, tame, if_neg this]
  fwd := by
    intro L obj ctx r h
    have hb' : (tame odd c).buildNone = false := hb
    simp only [field, hb, hb', Bool.false_eq_true, if_false, bind_ok] at h ⊢
    obtain ⟨u, h1, br, h2, h3⟩ := h
    refine ⟨u, h1, br, ?_, h3⟩
    by_cases ho : odd u
    · simp [tame, ho] at h2
    · simpa only [tame, if_neg ho] using h2

inductive AgreesIs {α} (odd : Dict → Prop) : List (Item α) → List (Item α) → Prop
  | nil : AgreesIs odd [] []
  | cons {it it' its its'} : AgreesI odd it it' → AgreesIs odd its its' → AgreesIs odd (it :: its) (it' :: its')

theorem AgreesIs.none {α odd} {its its' : List (Item α)} (h : AgreesIs odd its its') : its.all (·.buildNone) = its'.all (·.buildNone) := by
  induction h with
  | nil => rfl
  | cons h _ ih => simp only [List.all_cons, h.none, ih]

theorem AgreesIs.parse {α odd} {its its' : List (Item α)} (h : AgreesIs odd its its') : ∀ L acc s, parseItems L its acc s = parseItems L its' acc s := by
  induction h with
  | nil => intro L acc s; rfl
  | cons h _ ih => intro L acc s; simp only [parseItems, h.parse, ih]

theorem AgreesIs.build {α odd} {its its' : List (Item α)} (h : AgreesIs odd its its') {L obj} (ho : ¬ odd obj) :
    ∀ ctx, buildItems L obj its ctx = buildItems L obj its' ctx := by
  induction h with
  | nil => intro ctx; rfl
  | cons h _ ih => intro ctx; simp only [buildItems, h.build ho, ih]

theorem AgreesIs.fwd {α odd} {its its' : List (Item α)} (h : AgreesIs odd its its') {L obj} :
    ∀ {ctx r}, buildItems L obj its' ctx = .ok r → buildItems L obj its ctx = .ok r := by
  induction h with
  | nil => intro ctx r h; exact h
  | cons h _ ih =>
    intro ctx r hb
    simp only [buildItems, bind_ok] at hb ⊢
    obtain ⟨a, h1, b, h2, h3⟩ := hb
    exact ⟨a, h.fwd h1, b, ih h2, h3⟩

theorem AgreesIs.struct {α odd} {its its' : List (Item α)} (h : AgreesIs odd its its') (h0 : ¬ odd []) :
    Agrees (fun u => ∃ d, u = .dict d ∧ odd d) (BM.struct its) (BM.struct its') where
  parse L ctx s := by simp only [BM.struct, h.parse]
  build := by
    intro L ctx u b r hb
    simp only [BM.struct, bind_ok] at hb ⊢
    obtain ⟨d, h1, a, h2, h3⟩ := hb
    cases h3
    exact ⟨_, d, h1, _, h.fwd h2, .refl _⟩
  back := by
    intro L ctx u b r ho hb
    simp only [BM.struct, bind_ok] at hb ⊢
    obtain ⟨d, h1, a, h2, h3⟩ := hb
    cases h3
    by_cases hd : odd d
    · exfalso
      cases u <;> simp only [asDict, Except.ok.injEq, reduceCtorEq] at h1
      · subst h1; exact absurd hd h0
      · subst h1; exact ho ⟨_, .refl _, hd⟩
    · exact ⟨_, d, h1, _, by rw [← h.build hd]; exact h2, .refl _⟩

end
end BM
