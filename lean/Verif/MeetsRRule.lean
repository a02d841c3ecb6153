import Verif.MeetsSilvair
import Verif.AccessLemmas
/-!
# The scheduler messages meet their formats
-/
namespace BM
open F Config

section
variable {M : Mode} {e : Bool}

/-! ### Sets -/

theorem insertInt_mem (x : Int) : ∀ {l : List Int} {j : Int}, j ∈ insertInt x l ↔ j = x ∨ j ∈ l := by
  intro l
  induction l with
  | nil => simp [insertInt]
  | cons y l ih =>
    intro j
    simp only [insertInt]
    split
    · simp
    · split
      · rename_i h; subst h; simp
      · simp only [List.mem_cons, ih]; tauto

theorem insertInt_pairwise (x : Int) : ∀ {l : List Int}, l.Pairwise (· < ·) → (insertInt x l).Pairwise (· < ·) := by
  intro l
  induction l with
  | nil => simp [insertInt]
  | cons y l ih =>
    intro h
    simp only [insertInt]
    split
    · rename_i hx
      refine .cons ?_ h
      intro j hj
      rcases List.mem_cons.1 hj with rfl | hj
      · exact hx
      · exact lt_trans hx (List.rel_of_pairwise_cons h hj)
    · split
      · exact h
      · rename_i h1 h2
        refine .cons ?_ (ih (List.Pairwise.of_cons h))
        intro j hj
        rcases (insertInt_mem x).1 hj with rfl | hj
        · omega
        · exact List.rel_of_pairwise_cons h hj

theorem sortedLt_unique {s t : List Int} (hs : s.Pairwise (· < ·)) (ht : t.Pairwise (· < ·)) (h : ∀ k, k ∈ s ↔ k ∈ t) : s = t := by
  have hp : s.Perm t := (List.perm_ext_iff_of_nodup (hs.imp (fun h => by omega)) (ht.imp (fun h => by omega))).2 h
  exact hp.eq_of_pairwise (fun a b _ _ h1 h2 => by omega) hs ht

theorem many_ints {c : Type} {G : Fmt c} (hint : ∀ {u b v}, G u b v → ∃ k, asInt v = some k) :
    ∀ {us b vs}, manyRel G us b vs → ∃ ks : List Int, vs.map asInt = ks.map some := by
  intro us
  induction us with
  | nil => rintro b vs ⟨rfl, rfl⟩; exact ⟨[], rfl⟩
  | cons u us ih =>
    rintro b vs ⟨b1, b2, v, vs', rfl, rfl, hg, hm⟩
    obtain ⟨ks, h⟩ := ih hm
    obtain ⟨k, hk⟩ := hint hg
    exact ⟨k :: ks, by simp [hk, h]⟩

theorem intSet_nodiv (vs) : intSet vs ≠ .error .diverge := by
  induction vs with
  | nil => simp [intSet]
  | cons v vs ih =>
    simp only [intSet]
    split
    · intro h
      simp only [bind_err] at h
      rcases h with h | ⟨_, _, h⟩
      · exact ih h
      · cases h
    · simp

theorem intSet_ok : ∀ {vs : List Val} {ks : List Int}, vs.map asInt = ks.map some →
    ∃ s, intSet vs = .ok s ∧ (∀ k, k ∈ s ↔ k ∈ ks) ∧ s.Pairwise (· < ·) := by
  intro vs
  induction vs with
  | nil =>
    intro ks h
    cases ks with
    | nil => exact ⟨[], rfl, fun _ => Iff.rfl, .nil⟩
    | cons => simp at h
  | cons v vs ih =>
    intro ks h
    cases ks with
    | nil => simp at h
    | cons k ks =>
      simp only [List.map_cons, List.cons.injEq] at h
      obtain ⟨s, h1, h2, h3⟩ := ih h.2
      refine ⟨insertInt k s, by simp only [intSet, h.1, h1, ok_bind], fun j => ?_, insertInt_pairwise k h3⟩
      rw [insertInt_mem, List.mem_cons, h2]

theorem meets_setOf {c : Con UInt8} {G : Fmt UInt8} (hc : Meets M false c G) (hge : LenGe G 1) (hmin : MinLen c 1) (hS : ¬ M.S) (hX : ¬ M.X)
    (hint : ∀ {u b v}, G u b v → ∃ k, asInt v = some k) : Meets M true (setAdapter (greedyRange c)) (setOf G) := by
  have h := meets_greedy hc hge hmin
  refine ⟨?_, ?_, ?_, fun x => absurd x hS, fun x => absurd x hS, fun x => absurd x hX, ?_⟩
  · rintro u b v ⟨us, vs, ks, s, hu, hm, -, -, -, rfl⟩ L ctx hT
    obtain ⟨r, hr⟩ := h.enc ⟨us, vs, hu, hm, rfl⟩ L ctx hT
    exact ⟨u, by simp only [setAdapter, adapter, ok_bind, hr]⟩
  · rintro u b v ⟨us, vs, ks, s, hu, hm, hk, hs, hp, rfl⟩ L ctx rest hr
    have hd := h.dec ⟨us, vs, hu, hm, rfl⟩ L ctx rest hr
    obtain ⟨s', h1, h2, h3⟩ := intSet_ok hk
    have : s' = s := sortedLt_unique h3 hp (fun k => by rw [h2, hs])
    simp only [setAdapter, adapter, hd, ok_bind, h1, this]
  · intro L ctx u b r hL hb
    simp only [setAdapter, adapter, ok_bind, bind_ok] at hb
    obtain ⟨⟨b1, r1⟩, h1, h2⟩ := hb
    cases h2
    obtain ⟨v, us, vs, hu, hm, rfl⟩ := h.sound hL h1
    obtain ⟨ks, hk⟩ := many_ints hint hm
    obtain ⟨s, h1, h2, h3⟩ := intSet_ok hk
    exact ⟨.set s, us, vs, ks, s, hu, hm, hk, h2, h3, rfl⟩
  · intro L ctx s hd
    simp only [setAdapter, adapter, bind_err] at hd
    rcases hd with hd | ⟨⟨v, rest⟩, h1, hd | ⟨_, _, hd⟩⟩
    · exact h.nodiv _ _ _ hd
    · simp only [greedyRange, bind_ok] at h1
      obtain ⟨⟨vs, r⟩, -, h2⟩ := h1
      cases h2
      simp only [bind_err] at hd
      rcases hd with hd | ⟨_, _, hd⟩
      · exact intSet_nodiv _ hd
      · cases hd
    · cases hd

/-! ### Rules -/

theorem meets_slots : Meets lossless e RRule.slots Spec.slot := by
  have h : Meets lossless false (prefixed (uintLE 1) greedyBytes) (withLength 1 rest) :=
    meets_withLength 1 (meets_greedyBytes trivial) (by
      intro _ L ctx s v rest h
      simp only [greedyBytes] at h; cases h; rfl) (fun _ h => absurd trivial h)
  have hs : Meets lossless false RRule.slots Spec.slot :=
    meets_struct (.cons (by meets) (.cons (by meets) (.last (meetsI_field rfl h)))) (by keys)
  exact hs.end

theorem meets_dateTime : Meets lossless e RRule.dateTime Spec.dateTime := by
  have : Meets lossless false RRule.dateTime Spec.dateTime := by meets
  exact this.end

theorem meets_day : Meets lossless e RRule.day (enumOf (sint 1) E.Days) := by
  refine meets_enum (meets_sint 1 (by decide)) ?_ ?_
  · rintro k b w - ⟨j, hu, hl, hb, rfl⟩
    simp only [asInt, Option.some.injEq] at hu
    subst hu; rfl
  · rintro k b v - hk ⟨j, hu, hl, hb, rfl⟩
    simp only [hashInt, asInt, Option.some.injEq] at hk
    subst hk
    exact ⟨j, rfl, hl, hb, rfl⟩

theorem rule_cases : TagCases lossless false E.RuleIDs RRule.ruleCases Spec.rules := by
  refine tagCases_of ?_ ?_ (by decide +kernel)
  · intro t ht
    have : ∀ x ∈ Spec.rules.map Prod.fst, x < 256 ∧ E.RuleIDs.has x = true := by decide +kernel
    exact this _ (List.mem_map_of_mem ht)
  · have h : List.Forall (fun t : Nat × Fmt UInt8 => ∃ c, findCase t.1 RRule.ruleCases = some c ∧ Meets lossless false c t.2) Spec.rules :=
      ⟨⟨_, rfl, meets_enum_uint _ _⟩, ⟨_, rfl, meets_dateTime⟩, ⟨_, rfl, meets_uint 2⟩, ⟨_, rfl, meets_uint 2⟩,
       ⟨_, rfl, meets_withCount 1 (meets_uint 1)⟩, ⟨_, rfl, meets_withCount 1 (meets_uint 1)⟩, ⟨_, rfl, meets_withCount 1 (meets_uint 1)⟩,
       ⟨_, rfl, meets_withCount 1 meets_day⟩, ⟨_, rfl, meets_withCount 1 (meets_sint 1 (by decide))⟩, ⟨_, rfl, meets_withCount 1 (meets_sint 2 (by decide))⟩,
       ⟨_, rfl, meets_withCount 1 (meets_sint 1 (by decide))⟩, ⟨_, rfl, meets_uint 2⟩, ⟨_, rfl, meets_withCount 1 (meets_sint 2 (by decide))⟩,
       ⟨_, rfl, meets_dateTime⟩, ⟨_, rfl, meets_withCount 1 meets_dateTime⟩, ⟨_, rfl, meets_withCount 1 meets_dateTime⟩⟩
    exact List.forall_iff_forall_mem.1 h

theorem meets_rule : MeetsBut Spec.NamedRule lossless false RRule.rules Spec.rule :=
  meets_variant (by decide) rule_cases rfl

theorem rule_len : LenGe Spec.rule 1 := by
  rintro u b v ⟨d, ut, uv, vv, p, t, ht, hd, hut, hh, huv, hg, rfl, rfl⟩
  simp

theorem minLen_exact {odd : Val → Prop} {M : Mode} (hX : M.X) {c : Con UInt8} {G : Fmt UInt8} {m : Nat} (h : MeetsBut odd M e c G) (hl : LenGe G m) : MinLen c m := by
  intro L ctx s v rest hp
  obtain ⟨b, rfl, hg⟩ := h.exact hX hp
  have := hl hg
  simp; omega

/-- A list of rules one of which is given by name. -/
def NamedList (u : Val) : Prop := ∃ us, iter u = .ok us ∧ ∃ x ∈ us, Spec.NamedRule x

theorem meets_ruleList : MeetsBut NamedList lossless true (greedyRange RRule.rules) (listOf Spec.rule) :=
  meets_greedyBut meets_rule id rule_len (minLen_exact trivial meets_rule rule_len)

theorem rule_not_named {u b v} (h : Spec.rule u b v) : ¬ Spec.NamedRule u := by
  obtain ⟨d, ut, uv, vv, p, t, ht, hd, hut, hh, huv, hg, rfl, rfl⟩ := h
  rintro ⟨d', s, rfl, hs⟩
  cases hd
  rw [hs] at hut; cases hut
  simp [hashInt, asInt] at hh

theorem many_not_named {us b vs} (h : manyRel Spec.rule us b vs) : ∀ x ∈ us, ¬ Spec.NamedRule x := by
  induction us generalizing b vs with
  | nil => simp
  | cons u us ih =>
    obtain ⟨b1, b2, v, vs', rfl, rfl, hg, hm⟩ := h
    intro x hx
    rcases List.mem_cons.1 hx with rfl | hx
    · exact rule_not_named hg
    · exact ih hm x hx

theorem list_not_named {u b v} (h : listOf Spec.rule u b v) : ¬ NamedList u := by
  obtain ⟨us, vs, hu, hm, rfl⟩ := h
  rintro ⟨us', hu', x, hx, hn⟩
  rw [hu] at hu'; cases hu'
  exact many_not_named hm x hx hn

theorem meets_schedule : MeetsBut Spec.NamedRules lossless true RRule.schedulerRegisterEntry Spec.schedule := by
  have h : Meets lossless true (struct [field "array_of_slots" (prefixedArray (uintLE 1) RRule.slots),
      field "rules" (tame NamedList (greedyRange RRule.rules))]) Spec.schedule :=
    meets_struct (.cons (meetsI_field rfl (meets_withCount 1 meets_slots)) (.last (meetsI_field rfl (meets_ruleList.tame list_not_named)))) (by keys)
  have a := AgreesIs.struct (.cons (AgreesI.rfl (it := field "array_of_slots" (prefixedArray (uintLE 1) RRule.slots)))
    (.cons (agreesI_tame (k := "rules") (odd := NamedList) (c := greedyRange RRule.rules) rfl) .nil)) (by simp [dget])
  refine (a.but h).mono ?_
  rintro u ⟨d, rfl, x, hx, us, hu, r, hr, hn⟩
  exact ⟨d, x, us, rfl, hx, hu, r, hr, hn⟩

theorem schedule_not_named {u b v} (h : Spec.schedule u b v) : ¬ Spec.NamedRules u := by
  obtain ⟨du, dv, hu, ⟨b1, b2, d1, d2, rfl, rfl, -, ⟨b3, b4, d3, d4, rfl, rfl, ⟨w, v, hw, hg, rfl⟩, -⟩⟩, rfl⟩ := h
  rintro ⟨d, x, us, rfl, hx, hu', r, hr, hn⟩
  cases hu
  rw [hx] at hw; cases hw
  exact list_not_named hg ⟨us, hu', r, hr, hn⟩

theorem schedule_len : LenGe Spec.schedule 1 := by
  rintro u b v ⟨du, dv, hu, ⟨b1, b2, d1, d2, rfl, rfl, ⟨w, v, hw, ⟨us, vs, p, -, -, -, rfl, rfl⟩, rfl⟩, -⟩, rfl⟩
  simp [leBytes_length]

theorem meets_entry : MeetsBut Spec.NamedEntry lossless true RRule.entrySet (record [Spec.u8 "entry_id", fld "scheduler_register_entry" Spec.schedule]) := by
  have h : Meets lossless true (struct [field "entry_id" (uintLE 1), field "scheduler_register_entry" (tame Spec.NamedRules RRule.schedulerRegisterEntry)])
      (record [Spec.u8 "entry_id", fld "scheduler_register_entry" Spec.schedule]) :=
    meets_struct (.cons (by meets) (.last (meetsI_field rfl (meets_schedule.tame schedule_not_named)))) (by keys)
  have a := AgreesIs.struct (.cons (AgreesI.rfl (it := field "entry_id" (uintLE 1)))
    (.cons (agreesI_tame (k := "scheduler_register_entry") (odd := Spec.NamedRules) (c := RRule.schedulerRegisterEntry) rfl) .nil)) (by simp [dget])
  refine (a.but h).mono ?_
  rintro u ⟨d, rfl, x, hx, hn⟩
  exact ⟨d, x, rfl, hx, hn⟩

theorem agrees_named {α} {odd : Val → Prop} {c c' : Con α} {name : String} (h : Agrees odd c c') :
    Agrees (fun u => ∃ d, u = .dict d ∧ odd ((dget d name).getD u)) (nameAdapter name c) (nameAdapter name c') where
  parse L ctx s := by simp only [nameAdapter, h.parse]
  build := by
    intro L ctx u b r hb
    cases u <;> simp only [nameAdapter, reduceCtorEq, bind_ok] at hb ⊢
    obtain ⟨⟨b1, r1⟩, h1, h2⟩ := hb
    obtain ⟨r', h3⟩ := h.build h1
    cases h2
    exact ⟨_, _, h3, rfl⟩
  back := by
    intro L ctx u b r ho hb
    cases u <;> simp only [nameAdapter, reduceCtorEq, bind_ok] at hb ⊢
    rename_i d
    obtain ⟨⟨b1, r1⟩, h1, h2⟩ := hb
    obtain ⟨r', h3⟩ := h.back (fun h => ho ⟨d, rfl, h⟩) h1
    cases h2
    exact ⟨_, _, h3, rfl⟩

theorem meets_entryStatus : MeetsBut (fun u => OddLong "scheduler_register_entry" Spec.entryLong u ∨
    ∃ d, u = .dict d ∧ Spec.NamedEntry ((dget d "optional").getD u)) lossless true RRule.entryStatus
      (longShort "scheduler_register_entry" Spec.entryLong Spec.entryShort) := by
  have i1 : MeetsIs lossless true [embedded RRule.entryStatusMinimal, field "scheduler_register_entry" (tame Spec.NamedRules RRule.schedulerRegisterEntry)] Spec.entryLong :=
    .cons (by meets) (.last (meetsI_field rfl (meets_schedule.tame schedule_not_named)))
  have i2 : MeetsIs lossless true RRule.entryStatusMinimal Spec.entryShort := by meets
  have a := AgreesIs.struct (.cons (AgreesI.rfl (it := embedded RRule.entryStatusMinimal))
    (.cons (agreesI_tame (k := "scheduler_register_entry") (odd := Spec.NamedRules) (c := RRule.schedulerRegisterEntry) rfl) .nil)) (by simp [dget])
  have m1 := meets_named (name := "optional") (meets_struct i1 (by keys)) (reports_record i1) (by decide) (by decide) (by decide) (record_loc i1 (by decide))
  have m1' := (agrees_named a).but m1
  refine (meets_longShort (it := field "scheduler_register_entry" RRule.schedulerRegisterEntry) (m₁ := 3) (m₂ := 2)
    "scheduler_register_entry" m1' i2 id (by keys) (by simp) (buildNeeds_field rfl) (by keys) ?_ (by lensc) (by decide)).mono ?_
  · exact .cons (m := 2) (minLenI_embedded (.cons (m := 1) (minLenI_field (minLen_uint 1)) (.cons (m := 1) (minLenI_field (minLen_enum (minLen_uint 1))) .nil)))
      (.cons (m := 1) (minLenI_field (minLen_exact trivial meets_schedule schedule_len)) .nil)
  · rintro u (⟨d, rfl, d', h1, x, hx, hn⟩ | h)
    · exact .inr ⟨d, rfl, d', x, h1, hx, hn⟩
    · exact .inl h

theorem meets_ruleSet : Meets plain true RRule.rulesListStatus (record [fld "rule_ids" (setOf (enumOf (uint 1) E.RuleIDs))]) := by
  refine meets_struct (.last (meetsI_field rfl (meets_setOf (meets_enum_uint 1 _) ?_ (minLen_enum (minLen_uint 1)) id id ?_))) (by keys)
  · exact (lenEq_enumOf (lenEq_uint 1)).ge (by decide)
  · rintro u b v ⟨k, w, -, -, rfl⟩; exact ⟨k, rfl⟩

theorem meets_entrySet : Meets plain true RRule.listStatus (record [fld "entry_ids" (setOf (uint 1))]) := by
  refine meets_struct (.last (meetsI_field rfl (meets_setOf (meets_uint 1) ?_ (minLen_uint 1) id id ?_))) (by keys)
  · exact (lenEq_uint 1).ge (by decide)
  · rintro u b v ⟨k, -, -, -, -, rfl⟩; exact ⟨k, rfl⟩

/-- Every sub-message of `tbl` has its number in the sub-opcode enumeration, its key is `payload`, and its payload construct meets its format. -/
def PlainSubCovers (M : Mode) (E : EnumDef) (cases : List (Int × Con UInt8)) (tbl : List MsgSpec) : Prop :=
  ∀ m ∈ tbl, ∃ s, m.sub = some s ∧ s.key = "payload" ∧ E.has s.num = true ∧ s.num < 256 ∧ ∃ c, findCase s.num cases = some c ∧ Carries M m c

theorem plainSubCovers_nil {M E cases} : PlainSubCovers M E cases [] := fun _ h => nomatch h
theorem plainSubCovers_cons {M E cases m tbl c s} (h0 : m.sub = some s)
    (h2 : s.key = "payload" ∧ E.has s.num = true ∧ s.num < 256)
    (h3 : findCase s.num cases = some c) (h4 : Carries M m c) (h : PlainSubCovers M E cases tbl) :
    PlainSubCovers M E cases (m :: tbl) := by
  intro x hx
  rcases List.mem_cons.1 hx with rfl | hx
  · exact ⟨s, h0, h2.1, h2.2.1, h2.2.2, c, h3, h4⟩
  · exact h x hx

theorem PlainSubCovers.served {M E cases tbl name} (h : PlainSubCovers M E cases tbl) (hb : (switchC (this "subopcode") cases).buildNone = false)
    {op : Nat} {EO : EnumDef} {reg : List Entry} (he : (EO, [((op : Int), plainSubMessage E cases)]) ∈ reg) (h1 : lookupValue EO.members op = some (upper name))
    (h2 : lower (upper name) = name) (h3 : name ≠ "opcode") (ht : ∀ m ∈ tbl, m.op = op ∧ m.name = name) :
    ∀ m ∈ tbl, Served M reg m := by
  intro m hm
  obtain ⟨s, h0, hs1, hs2, hs4, c, hs5, hs6⟩ := h m hm
  obtain ⟨rfl, rfl⟩ := ht m hm
  refine ⟨_, he, h1, h2, h3, plainSubMessage E cases, c, by simp [findCase], hs6, ?_⟩
  rw [h0]
  exact ⟨by rw [hs1]; decide, E, wraps_plainSubMessage hs2 hs1 hs4 (by rw [hs5]; rfl) hb⟩

macro "psub" t:term : tactic => `(tactic|
  refine plainSubCovers_cons rfl (by dsimp only; decide +kernel) (by rfl) (carries_var rfl $t) ?_)
macro "psubFix" : tactic => `(tactic|
  refine plainSubCovers_cons rfl (by dsimp only; decide +kernel) (by rfl) (carries_fix rfl (Meets.but (by meets)) (by dsimp only; lensc)) ?_)

section
variable [Platform]
theorem rrule_lossless : PlainSubCovers lossless E.RRuleSchedulerSubOpcode Tables.rRuleSchedulerSubMessageCases Spec.rruleLossless := by
  unfold Spec.rruleLossless
  psubFix; psubFix; psubFix; psubFix
  psubFix; psubFix; psubFix; psub meets_entry
  psubFix; psubFix; psub meets_entryStatus; psubFix; exact plainSubCovers_nil
theorem rrule_plain : PlainSubCovers plain E.RRuleSchedulerSubOpcode Tables.rRuleSchedulerSubMessageCases Spec.rrulePlain := by
  unfold Spec.rrulePlain
  psub (Meets.but meets_ruleSet); psub (Meets.but meets_entrySet); exact plainSubCovers_nil
end
end
end BM
