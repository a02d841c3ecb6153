import Verif.MeetsSensorMsg
/-!
# Sensor descriptors
-/
namespace BM
open F Spec

/-- Building needs key `k`. -/
def BuildNeeds {α} (it : Item α) (k : String) : Prop := ∀ {L obj ctx b ctx'}, it.build L obj ctx = .ok (b, ctx') → dget obj k ≠ none

theorem buildNeeds_field {α} {k : String} {c : Con α} (h : c.buildNone = false) : BuildNeeds (field k c) k := by
  intro L obj ctx b ctx' hb
  simp only [field, h, bind_ok, Bool.false_eq_true, if_false] at hb
  obtain ⟨u, hu, -⟩ := hb
  rw [dgetE_ok hu]; simp

theorem buildNeeds_items {α} {k : String} {its : List (Item α)} {it} (hm : it ∈ its) (h : BuildNeeds it k) {L obj} :
    ∀ {ctx b ctx'}, buildItems L obj its ctx = .ok (b, ctx') → dget obj k ≠ none := by
  induction its with
  | nil => cases hm
  | cons i its ih =>
    intro ctx b ctx' hb
    simp only [buildItems, bind_ok] at hb
    obtain ⟨⟨b1, c1⟩, h1, ⟨b2, c2⟩, h2, -⟩ := hb
    rcases List.mem_cons.1 hm with rfl | hm
    · exact h h1
    · exact ih hm h2

theorem buildNeeds_bits {k name : String} {n : Nat} {its : List (Item Bool)} {it} (hm : it ∈ its) (h : BuildNeeds it k) :
    BuildNeeds (embeddedBitStruct name n true its) k := by
  intro L obj ctx b ctx' hb
  simp only [embeddedBitStruct, reversed, bitwise, struct, asDict, if_true, bind_ok, ok_bind] at hb
  obtain ⟨⟨b1, c1⟩, ⟨⟨b2, c2⟩, ⟨⟨b3, c3⟩, ⟨⟨b4, c4⟩, h4, -⟩, -⟩, -⟩, -⟩ := hb
  exact buildNeeds_items hm h h4

theorem needs_descriptor {k : String} (hk : k ∈ descriptorKeys) {L d ctx b ctx'} (h : buildItems L d Sensor.descriptorOptional ctx = .ok (b, ctx')) :
    dget d k ≠ none := by
  simp only [descriptorKeys, List.mem_cons, List.not_mem_nil, or_false] at hk
  rcases hk with rfl | rfl | rfl | rfl | rfl
  · exact buildNeeds_items (.tail _ (.head _)) (buildNeeds_bits (.head _) (buildNeeds_field rfl)) h
  · exact buildNeeds_items (.tail _ (.head _)) (buildNeeds_bits (.tail _ (.head _)) (buildNeeds_field rfl)) h
  · exact buildNeeds_items (.tail _ (.tail _ (.head _))) (buildNeeds_field rfl) h
  · exact buildNeeds_items (.tail _ (.tail _ (.tail _ (.head _)))) (buildNeeds_field rfl) h
  · exact buildNeeds_items (.tail _ (.tail _ (.tail _ (.tail _ (.head _))))) (buildNeeds_field rfl) h

/-- A short descriptor is never written in the long format. -/
theorem short_not_long {u L ctx} (h : Short u) : ∃ er, (nameAdapter "optional" (struct Sensor.descriptorOptional)).build L ctx u = .error er := by
  obtain ⟨d, rfl, ho, k, hk, hd⟩ := h
  cases hb : (nameAdapter "optional" (struct Sensor.descriptorOptional)).build L ctx (.dict d) with
  | error er => exact ⟨er, rfl⟩
  | ok r =>
    obtain ⟨b, r⟩ := r
    simp only [nameAdapter, ho, Option.getD, struct, asDict, bind_ok, ok_bind] at hb
    obtain ⟨⟨b1, c1⟩, ⟨⟨b2, c2⟩, h1, -⟩, -⟩ := hb
    exact absurd hd (needs_descriptor hk h1)

section
variable {e : Bool}

theorem long_items : MeetsIs lossless false Sensor.descriptorOptional descriptorLong := by meets
theorem short_items : MeetsIs lossless false Sensor.descriptorMinimal descriptorShort := by meets
theorem meets_long : Meets lossless false (nameAdapter "optional" (struct Sensor.descriptorOptional)) (named "optional" (record descriptorLong)) :=
  meets_named (meets_struct long_items (by keys)) (reports_record long_items) (by keys) (by keys) (by decide) (record_loc long_items (by keys))
theorem meets_short : Meets lossless false (nameAdapter "minimal" (struct Sensor.descriptorMinimal)) (named "minimal" (record descriptorShort)) :=
  meets_named (meets_struct short_items (by keys)) (reports_record short_items) (by keys) (by keys) (by decide) (record_loc short_items (by keys))

theorem lenEq_named {α} {name : String} {G : Fmt α} {m} (h : LenEq G m) : LenEq (F.named name G) m := by
  rintro u b v ⟨d, dv, -, hg, -⟩; exact h hg

macro_rules | `(tactic| lens) => `(tactic| repeat' with_reducible first
  | exact lenEq_enumOrInt _ _
  | exact LenEqIs.nil | apply LenEqIs.cons
  | apply lenEqI_fld | apply lenEqI_embed | apply lenEqI_bitGroup | exact lenEqI_zeros _ _
  | exact lenEq_uintWhere _ _ | exact lenEq_uint _ | exact lenEq_sint _ | exact lenEq_uintBE _ | exact lenEq_bitsU _ | exact lenEq_bitsS _
  | exact lenEq_bit | exact lenEq_byteFlag | exact lenEq_bytes _ | apply lenEq_enumOf
  | exact lenEq_packed _ _ | exact lenEq_packedLE _ _ | apply lenEq_record)
macro_rules | `(tactic| mins) => `(tactic| repeat' with_reducible first
  | exact minLen_enumOrInt _ _
  | exact MinLenIs.nil | apply MinLenIs.cons
  | apply minLenI_field | apply minLenI_embedded | exact minLenI_bitGroup _ _ _ _
  | exact minLen_uint _ | exact minLen_sint _ | exact minLen_bytesInt _ | exact minLen_ubits _ | exact minLen_bytesN _ | exact minLen_flag
  | exact minLen_bitwise _ _ | exact minLen_reversed _ _ | apply minLen_enum | apply minLen_validator | apply minLen_struct)

theorem len_long : LenEq (named "optional" (record descriptorLong)) 8 := lenEq_named (lenEq_record (by lensc))
theorem len_short : LenEq (named "minimal" (record descriptorShort)) 2 := lenEq_named (lenEq_record (by lensc))

theorem min_long_items : MinLenIs Sensor.descriptorOptional (2 + 0 + (3 + (1 + (1 + (1 + 0))))) := by mins
theorem min_short_items : MinLenIs Sensor.descriptorMinimal (2 + 0) := by mins
theorem min_long : MinLen (nameAdapter "optional" (struct Sensor.descriptorOptional)) 8 := minLen_named (minLen_struct min_long_items)
theorem min_short : MinLen (nameAdapter "minimal" (struct Sensor.descriptorMinimal)) 2 := minLen_named (minLen_struct min_short_items)

theorem takeN_ge {α} {n : Nat} {s : List α} (h : n ≤ s.length) : ∃ b r, takeN n s = .ok (b, r) ∧ b.length = n ∧ r.length + n = s.length := by
  refine ⟨s.take n, s.drop n, by unfold takeN; rw [if_pos h], by rw [List.length_take]; omega, by rw [List.length_drop]; omega⟩

theorem uint_total {n : Nat} {L ctx s} (h : n ≤ s.length) : ∃ v r, (uintLE n).parse L ctx s = .ok (v, r) ∧ r.length + n = s.length := by
  obtain ⟨b, r, h1, -, h2⟩ := takeN_ge h
  exact ⟨.int (leNat b), r, by simp only [uintLE, h1, ok_bind], h2⟩

theorem field_total {α} {k : String} {c : Con α} {n : Nat} {L acc} {s : List α} (h : ∃ v r, c.parse L acc s = .ok (v, r) ∧ r.length + n = s.length) :
    ∃ d r, (field k c).parse L acc s = .ok (d, r) ∧ r.length + n = s.length := by
  obtain ⟨v, r, h1, h2⟩ := h
  exact ⟨dset acc k v, r, by simp only [field, h1, ok_bind], h2⟩

/-- Eight bytes can always be read as a long descriptor. -/
theorem long_total {L ctx} {s : List UInt8} (h : 8 ≤ s.length) :
    ∃ v rest, (nameAdapter "optional" (struct Sensor.descriptorOptional)).parse L ctx s = .ok (v, rest) := by
  have hid : ∃ v r, Sensor.propertyId.parse L [] s = .ok (v, r) ∧ r.length + 2 = s.length :=
    ⟨_, s.drop 2, enumOrInt_parse 2 _ L _ s (by omega), by rw [List.length_drop]; omega⟩
  obtain ⟨d1, s1, h1, l1⟩ := field_total (k := "sensor_property_id") hid
  obtain ⟨b, s2, h2, lb, l2⟩ := takeN_ge (n := 3) (s := s1) (by omega)
  have lbits : (bytesBits b.reverse).length = 24 := by rw [bytesBits_length, List.length_reverse, lb]
  obtain ⟨x1, y1, g1, -, m1⟩ := takeN_ge (n := 12) (s := bytesBits b.reverse) (by omega)
  obtain ⟨x2, y2, g2, -, m2⟩ := takeN_ge (n := 12) (s := y1) (by omega)
  have hb : ∀ acc, ∃ d, (Config.doubleKeyIndex "sensor_negative_tolerance" "sensor_positive_tolerance").parse L acc s1 = .ok (d, s2) := by
    intro acc
    have lr : (b.reverse).length = 3 := by rw [List.length_reverse, lb]
    have t3 : takeN 3 b.reverse = .ok (b.reverse, []) := by
      have := takeN_append (rest := []) lr
      rwa [List.append_nil] at this
    simp only [Config.doubleKeyIndex, embeddedBitStruct, if_true, reversed, bitwise, struct, parseItems, field, ubits, h2, t3, ok_bind, g1, g2]
    exact ⟨_, rfl⟩
  obtain ⟨d2, hb⟩ := hb (dmerge [] d1)
  obtain ⟨d3, s3, h3, l3⟩ := field_total (k := "sensor_sampling_funcion") (uint_total (n := 1) (L := L) (ctx := d2) (s := s2) (by omega))
  obtain ⟨d4, s4, h4, l4⟩ := field_total (k := "sensor_measurement_period") (uint_total (n := 1) (L := L) (ctx := d3) (s := s3) (by omega))
  obtain ⟨d5, s5, h5, l5⟩ := field_total (k := "sensor_update_interval") (uint_total (n := 1) (L := L) (ctx := d4) (s := s4) (by omega))
  simp only [nameAdapter, struct, Sensor.descriptorOptional, parseItems, embedded, h1, hb, h3, h4, h5, ok_bind]
  exact ⟨_, _, rfl⟩

theorem desc_enc {u b v} (h : descriptor u b v) (L ctx) : ∃ r, Sensor.descriptorStatusItem.build L ctx u = .ok (b, r) := by
  rcases h with h | ⟨hs, h⟩
  · obtain ⟨r, hr⟩ := meets_long.enc h L ctx False.elim
    exact ⟨u, by simp [Sensor.descriptorStatusItem, optionalMinimal, namedSelect, select, selectBuild, hr]⟩
  · obtain ⟨er, he⟩ := short_not_long (L := L) (ctx := ctx) hs
    obtain ⟨r, hr⟩ := meets_short.enc h L ctx False.elim
    exact ⟨u, by simp [Sensor.descriptorStatusItem, optionalMinimal, namedSelect, select, selectBuild, hr, he]⟩

theorem desc_parse {u b v} (h : descriptor u b v) (L ctx) {rest : List UInt8} (hr : b.length < 8 → (b ++ rest).length < 8) :
    Sensor.descriptorStatusItem.parse L ctx (b ++ rest) = .ok (v, rest) := by
  rcases h with h | ⟨hs, h⟩
  · have := meets_long.dec h L ctx rest (by simp)
    simp only [Sensor.descriptorStatusItem, optionalMinimal, namedSelect, List.map_cons, List.map_nil, select, selectParse, this]
  · have h2 := meets_short.dec h L ctx rest (by simp)
    have hl := len_short h
    have hlt := hr (by omega)
    cases hp : (nameAdapter "optional" (struct Sensor.descriptorOptional)).parse L ctx (b ++ rest) with
    | ok r => obtain ⟨v', r⟩ := r; have := min_long hp; omega
    | error er =>
      have hne : er ≠ .diverge := by rintro rfl; exact meets_long.nodiv _ _ _ hp
      simp only [Sensor.descriptorStatusItem, optionalMinimal, namedSelect, List.map_cons, List.map_nil, select, selectParse, hp, if_neg hne, h2]

theorem desc_exact {L ctx s v rest} (h : Sensor.descriptorStatusItem.parse L ctx s = .ok (v, rest)) :
    ∃ b, s = b ++ rest ∧ descriptor v b v ∧ (b.length < 8 → s.length < 8) := by
  simp only [Sensor.descriptorStatusItem, optionalMinimal, namedSelect, List.map_cons, List.map_nil, select, selectParse] at h
  cases hp : (nameAdapter "optional" (struct Sensor.descriptorOptional)).parse L ctx s with
  | ok r =>
    rw [hp] at h
    simp only [Except.ok.injEq] at h
    subst h
    obtain ⟨b, hs, hg⟩ := meets_long.exact trivial hp
    exact ⟨b, hs, .inl hg, fun hl => by have := len_long hg; omega⟩
  | error er =>
    have hne : er ≠ .diverge := by rintro rfl; exact meets_long.nodiv _ _ _ hp
    have hlen : s.length < 8 := by
      refine Decidable.byContradiction fun hc => ?_
      obtain ⟨v', r', h'⟩ := long_total (L := L) (ctx := ctx) (s := s) (by omega)
      rw [hp] at h'; cases h'
    rw [hp] at h
    simp only [if_neg hne] at h
    cases hq : (nameAdapter "minimal" (struct Sensor.descriptorMinimal)).parse L ctx s with
    | error er' =>
      rw [hq] at h; simp only at h
      split at h <;> cases h
    | ok r =>
      rw [hq] at h
      simp only [Except.ok.injEq] at h
      subst h
      obtain ⟨b, hs, hg⟩ := meets_short.exact trivial hq
      refine ⟨b, hs, .inr ⟨?_, hg⟩, fun _ => hlen⟩
      obtain ⟨d, dv, rfl, ⟨du, dv', -, hsr, hdv⟩, hv⟩ := hg
      cases hdv
      obtain ⟨b1, b2, d1, d2, -, rfl, ⟨u, w, -, -, rfl⟩, -, rfl⟩ := hsr
      cases hv
      exact ⟨_, rfl, by simp [dget], "sensor_positive_tolerance", by decide, by simp [dget]⟩

theorem desc_min : MinLen Sensor.descriptorStatusItem 2 := by
  intro L ctx s v rest h
  simp only [Sensor.descriptorStatusItem, optionalMinimal, namedSelect, List.map_cons, List.map_nil, select, selectParse] at h
  split at h
  · rename_i r hp
    cases h
    have := min_long hp; omega
  · split at h
    · cases h
    · split at h
      · rename_i r hp
        cases h
        have := min_short hp; omega
      · split at h <;> cases h

theorem desc_nodiv (L ctx s) : Sensor.descriptorStatusItem.parse L ctx s ≠ .error .diverge := by
  intro h
  simp only [Sensor.descriptorStatusItem, optionalMinimal, namedSelect, List.map_cons, List.map_nil, select, selectParse] at h
  split at h
  · cases h
  · rename_i er hp
    split at h
    · rename_i he; subst he; exact meets_long.nodiv _ _ _ hp
    · split at h
      · cases h
      · rename_i er hq
        split at h
        · rename_i he; subst he; exact meets_short.nodiv _ _ _ hq
        · cases h

theorem descs_refl : ∀ {us b vs}, descriptorsRel us b vs → descriptorsRel vs b vs := by
  intro us
  induction us with
  | nil => rintro b vs ⟨rfl, rfl⟩; exact ⟨rfl, rfl⟩
  | cons u us ih =>
    rintro b vs ⟨b1, b2, v, vs', rfl, rfl, hd, hl, hm⟩
    refine ⟨b1, b2, v, vs', rfl, rfl, ?_, hl, ih hm⟩
    rcases hd with h | ⟨hs, h⟩
    · exact .inl (meets_long.refl trivial h)
    · refine .inr ⟨?_, meets_short.refl trivial h⟩
      obtain ⟨d, dv, rfl, ⟨du, dv', -, hsr, hdv⟩, rfl⟩ := h
      cases hdv
      obtain ⟨b1, b2, d1, d2, -, rfl, ⟨u, w, -, -, rfl⟩, -, rfl⟩ := hsr
      exact ⟨_, rfl, by simp [dget], "sensor_positive_tolerance", by decide, by simp [dget]⟩

theorem descs_enc {L ctx} : ∀ {us b vs}, descriptorsRel us b vs → buildMany (Sensor.descriptorStatusItem.build L ctx) us = .ok b := by
  intro us
  induction us with
  | nil => rintro b vs ⟨rfl, rfl⟩; rfl
  | cons u us ih =>
    rintro b vs ⟨b1, b2, v, vs', rfl, rfl, hd, hl, hm⟩
    obtain ⟨r, hr⟩ := desc_enc hd L ctx
    simp only [buildMany, hr, ok_bind, ih hm]

theorem descs_dec {L ctx} : ∀ {us b vs}, descriptorsRel us b vs → ∀ fuel, b.length ≤ fuel →
    greedyLoop (Sensor.descriptorStatusItem.parse L ctx) fuel b = .ok (vs, []) := by
  intro us
  induction us with
  | nil =>
    rintro b vs ⟨rfl, rfl⟩ fuel _
    obtain ⟨er, her⟩ := (desc_min.le (by decide : 1 ≤ 2)).stop L ctx
    have hne : er ≠ .diverge := by rintro rfl; exact desc_nodiv _ _ _ her
    unfold greedyLoop
    simp [her, hne]
  | cons u us ih =>
    rintro b vs ⟨b1, b2, v, vs', rfl, rfl, hd, hl, hm⟩ fuel hf
    have h1 := desc_parse hd L ctx (rest := b2) hl
    have h2 := desc_min h1
    rw [List.length_append] at hf h2
    obtain ⟨f, rfl⟩ : ∃ f, fuel = f + 1 := ⟨fuel - 1, by omega⟩
    unfold greedyLoop
    have hlt : b2.length < (b1 ++ b2).length := by rw [List.length_append]; omega
    simp only [h1, hlt, if_true, ih hm f (by omega), ok_bind]

theorem descs_exact {L ctx} : ∀ fuel {s vs rest}, greedyLoop (Sensor.descriptorStatusItem.parse L ctx) fuel s = .ok (vs, rest) →
    ∃ b, s = b ++ rest ∧ descriptorsRel vs b vs := by
  intro fuel
  induction fuel with
  | zero =>
    intro s vs rest h
    unfold greedyLoop at h
    split at h
    · split at h
      · cases h
      · cases h; exact ⟨[], rfl, rfl, rfl⟩
    · split at h <;> cases h
  | succ f ih =>
    intro s vs rest h
    unfold greedyLoop at h
    split at h
    · split at h
      · cases h
      · cases h; exact ⟨[], rfl, rfl, rfl⟩
    · rename_i v s1 h1
      split at h
      · simp only [bind_ok] at h
        obtain ⟨⟨vs', r⟩, h2, h3⟩ := h
        cases h3
        obtain ⟨b1, rfl, hb1, hl⟩ := desc_exact h1
        obtain ⟨b2, rfl, hb2⟩ := ih h2
        refine ⟨b1 ++ b2, by simp, b1, b2, v, vs', rfl, rfl, hb1, ?_, hb2⟩
        intro h8
        have := hl h8
        simp only [List.length_append] at this ⊢
        omega
      · cases h

theorem descs_many {L ctx} (hL : L.Strict) : ∀ {us b}, (∀ x ∈ us, Short x ∨ ¬ Unencodable (named "optional" (record descriptorLong)) x) →
    buildMany (Sensor.descriptorStatusItem.build L ctx) us = .ok b → ∃ vs, manyRel descriptor us b vs := by
  intro us
  induction us with
  | nil => intro b _ h; cases h; exact ⟨[], rfl, rfl⟩
  | cons u us ih =>
    intro b ho h
    simp only [buildMany, bind_ok] at h
    obtain ⟨⟨b1, r⟩, h1, b2, h2, h3⟩ := h
    cases h3
    obtain ⟨vs, hvs⟩ := ih (fun x hx => ho x (List.mem_cons_of_mem _ hx)) h2
    have : ∃ v, descriptor u b1 v := by
      simp only [Sensor.descriptorStatusItem, optionalMinimal, namedSelect, List.map_cons, List.map_nil, select, selectBuild] at h1
      split at h1
      · rename_i b' r' hb
        cases h1
        obtain ⟨v, hv⟩ := meets_long.sound (fun _ => hL) hb
        exact ⟨v, .inl hv⟩
      · rename_i er he
        split at h1
        · rename_i b' r' hb
          cases h1
          obtain ⟨v, hv⟩ := meets_short.sound (fun _ => hL) hb
          rcases ho u List.mem_cons_self with hs | hs
          · exact ⟨v, .inr ⟨hs, hv⟩⟩
          · exfalso
            refine hs ?_
            rintro ⟨b'', v'', hg⟩
            obtain ⟨r, hr⟩ := meets_long.enc hg L ctx False.elim
            rw [he] at hr; cases hr
        · cases h1
    obtain ⟨v, hv⟩ := this
    exact ⟨v :: vs, b1, b2, v, vs, rfl, rfl, hv, hvs⟩

theorem descs_of_many : ∀ {us b vs}, manyRel descriptor us b vs →
    (∀ us₁ x us₂ b vs, us = us₁ ++ x :: us₂ → Short x → manyRel descriptor (x :: us₂) b vs → b.length < 8) → descriptorsRel us b vs := by
  intro us
  induction us with
  | nil => rintro b vs h _; exact h
  | cons u us ih =>
    intro b vs h ho
    have h' := h
    obtain ⟨b1, b2, v, vs', rfl, rfl, hd, hm⟩ := h
    refine ⟨b1, b2, v, vs', rfl, rfl, hd, ?_, ih hm ?_⟩
    · intro hl
      rcases hd with hd | ⟨hs, -⟩
      · have := len_long hd; omega
      · exact ho [] u us _ _ rfl hs h'
    · intro us₁ x us₂ b vs he hs hm'
      exact ho (u :: us₁) x us₂ b vs (by rw [he]; rfl) hs hm'

theorem meets_descriptors : MeetsBut OddDescriptors lossless true Sensor.descriptorStatus descriptors where
  enc := by
    rintro u b v ⟨us, vs, hu, hr, rfl⟩ L ctx _
    exact ⟨.list us, by simp only [Sensor.descriptorStatus, greedyRange, hu, ok_bind, descs_enc hr]⟩
  dec := by
    rintro u b v ⟨us, vs, hu, hr, rfl⟩ L ctx rest he
    obtain rfl := he rfl
    rw [List.append_nil]
    simp only [Sensor.descriptorStatus, greedyRange, descs_dec hr _ (Nat.le_refl _), ok_bind]
  sound := by
    intro L ctx u b r hL ho h
    simp only [Sensor.descriptorStatus, greedyRange, bind_ok] at h
    obtain ⟨us, hu, b', hb, h3⟩ := h
    cases h3
    obtain ⟨vs, hvs⟩ := descs_many (hL trivial) (fun x hx => by
      by_cases hs : Short x
      · exact .inl hs
      · exact .inr fun hn => ho ⟨us, hu, .inl ⟨x, hx, hs, hn⟩⟩) hb
    exact ⟨.list vs, us, vs, hu, descs_of_many hvs (fun us₁ x us₂ b vs he hs hm => by
      refine Decidable.byContradiction fun hc => ho ⟨us, hu, .inr ⟨us₁, x, us₂, b, vs, he, hs, hm, by omega⟩⟩), rfl⟩
  refl := by
    rintro _ u b v ⟨us, vs, hu, hr, rfl⟩
    exact ⟨vs, vs, rfl, descs_refl hr, rfl⟩
  inv := by
    intro _ L ctx s v rest h
    simp only [Sensor.descriptorStatus, greedyRange, bind_ok] at h
    obtain ⟨⟨vs, r⟩, h1, h2⟩ := h
    cases h2
    obtain ⟨b, -, hb⟩ := descs_exact _ h1
    exact ⟨b, vs, vs, rfl, hb, rfl⟩
  exact := by
    intro _ L ctx s v rest h
    simp only [Sensor.descriptorStatus, greedyRange, bind_ok] at h
    obtain ⟨⟨vs, r⟩, h1, h2⟩ := h
    cases h2
    obtain ⟨b, hs, hb⟩ := descs_exact _ h1
    exact ⟨b, hs, vs, vs, rfl, hb, rfl⟩
  nodiv := by
    intro L ctx s h
    simp only [Sensor.descriptorStatus, greedyRange, bind_err] at h
    rcases h with h | ⟨_, _, h⟩
    · exact greedy_nodiv desc_nodiv (desc_min.le (by decide)) _ _ (Nat.le_refl _) h
    · cases h

theorem meets_sensorGet : Meets lossless true Sensor.get sensorGet :=
  meets_optMin (M := lossless) "property_id" (by meets) (by meets) (by keys) (by keys) (by needs) (by keys) (by mins) (by lens) (by decide)

end

section
variable [Platform]

macro "coversBut" t:term : tactic => `(tactic|
  refine covers_consBut rfl (by rfl) (by dsimp only; decide +kernel) (by rfl) $t ?_)
macro "coversOne" : tactic => `(tactic|
  refine covers_cons rfl (by rfl) (by dsimp only; decide +kernel) (by rfl) ?_ ?_)

theorem property_lossless : Covers lossless E.GenericPropertyOpcode Tables.genericPropertyCases Spec.propertyLossless := by
  unfold Spec.propertyLossless; covers

theorem property_stable : Covers stable E.GenericPropertyOpcode Tables.genericPropertyCases Spec.propertyStable := by
  unfold Spec.propertyStable
  coversBut meets_userProperty; coversBut meets_userProperty; coversBut meets_propertyAccess; coversBut meets_propertyAccess
  coversBut meets_propertyAccess; coversBut meets_propertyAccess; coversBut meets_propertyAccess; exact covers_nil

theorem sensor_lossless : Covers lossless E.SensorOpcode Tables.sensorCases Spec.sensorLossless := by
  unfold Spec.sensorLossless
  refine covers_cons rfl (by rfl) (by dsimp only; decide +kernel) (by rfl) meets_sensorGet ?_
  coversBut meets_descriptors
  refine covers_cons rfl (by rfl) (by dsimp only; decide +kernel) (by rfl) meets_sensorGet ?_
  exact covers_nil

theorem sensor_plain : Covers plain E.SensorOpcode Tables.sensorCases Spec.sensorPlain := by
  unfold Spec.sensorPlain
  coversBut meets_sensorStatus; exact covers_nil

theorem sensorSetup_lossless : Covers lossless E.SensorSetupOpcode Tables.sensorSetupCases Spec.sensorSetupLossless := by
  unfold Spec.sensorSetupLossless; covers

theorem sensorSetup_stable : Covers stable E.SensorSetupOpcode Tables.sensorSetupCases Spec.sensorSetupStable := by
  unfold Spec.sensorSetupStable
  coversBut meets_settingSet; coversBut meets_settingSet; coversBut meets_settingStatus; exact covers_nil

end
end BM
