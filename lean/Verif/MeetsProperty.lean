import Verif.SpecProperty
import Verif.MeetsGenerics
import Verif.Sensor
import Mathlib.Tactic.IntervalCases
/-!
# Device properties meet their formats
-/
namespace BM
open F Spec

/-! ### Agreement of constructs -/

/-- `c` parses like `c'`, builds what `c'` builds, and builds nothing more except from `odd` objects. -/
structure Agrees {α} (odd : Val → Prop) (c c' : Con α) : Prop where
  parse : ∀ L ctx s, c.parse L ctx s = c'.parse L ctx s
  build : ∀ {L ctx u b r}, c'.build L ctx u = .ok (b, r) → ∃ r', c.build L ctx u = .ok (b, r')
  back : ∀ {L ctx u b r}, ¬ odd u → c.build L ctx u = .ok (b, r) → ∃ r', c'.build L ctx u = .ok (b, r')

theorem Agrees.but {α} {odd : Val → Prop} {c c' : Con α} {M e} {G : Fmt α} (h : Agrees odd c c') (hm : Meets M e c' G) :
    MeetsBut odd M e c G where
  enc := fun hg L ctx hT => by
    obtain ⟨r, hr⟩ := hm.enc hg L ctx hT
    exact h.build hr
  dec := fun hg L ctx rest he => by rw [h.parse]; exact hm.dec hg L ctx rest he
  sound := fun hL ho hb => by
    obtain ⟨r', hr⟩ := h.back ho hb
    exact hm.sound hL hr
  refl := hm.refl
  inv := fun hS L ctx s v rest hp => by rw [h.parse] at hp; exact hm.inv hS hp
  exact := fun hX L ctx s v rest hp => by rw [h.parse] at hp; exact hm.exact hX hp
  nodiv := fun L ctx s => by rw [h.parse]; exact hm.nodiv L ctx s

section
variable {M : Mode} {e : Bool}

/-! ### Counts -/

theorem count64 : CountOK 0 (.f (fdiv 1 64)) (1 / 64) false := by
  have : fdiv 1 64 = 1 / 64 := by decide +kernel
  rw [this]
  exact .exact (by norm_num) (by norm_num) (by decide +kernel)
theorem count65535 : CountOK 0 (.f (fdiv 1 65535)) (rnd (1 / 65535)) false := by
  have : fdiv 1 65535 = rnd (1 / 65535) := rfl
  rw [this]
  exact .exact (by decide +kernel) (by decide +kernel) (by decide +kernel)
theorem countHalf : CountOK 1 (.f (rnd (1 / 2))) (1 / 2) false := .decimal (k := 5) (by decide) (by norm_num) (by norm_num) (by norm_num) (by norm_num)
theorem countTenth : CountOK 1 (.f (rnd (1 / 10))) (1 / 10) false := .decimal (k := 1) (by decide) (by norm_num) (by norm_num) (by norm_num) (by norm_num)
theorem countCenti : CountOK 2 (.f (rnd (1 / 100))) (1 / 100) false := .decimal (k := 1) (by decide) (by norm_num) (by norm_num) (by norm_num) (by norm_num)
theorem countMilli : CountOK 3 (.f (rnd (1 / 1000))) (1 / 1000) false := .decimal (k := 1) (by decide) (by norm_num) (by norm_num) (by norm_num) (by norm_num)
theorem countE4 : CountOK 4 (.f (rnd (1 / 10000))) (1 / 10000) false := .decimal (k := 1) (by decide) (by norm_num) (by norm_num) (by norm_num) (by norm_num)
theorem countE5 : CountOK 5 (.f (rnd (1 / 100000))) (1 / 100000) false := .decimal (k := 1) (by decide) (by norm_num) (by norm_num) (by norm_num) (by norm_num)
theorem countI1 : CountOK 1 (.i 1) 1 true := by
  have := CountOK.whole (d := 1) (R := 1) (by decide) (by decide)
  norm_num at this; exact this
theorem countI1000 : CountOK 1 (.i 1000) 1000 true := by
  have := CountOK.whole (d := 1) (R := 1000) (by decide) (by decide)
  norm_num at this; exact this

macro "countok" : tactic => `(tactic| with_reducible first
  | exact countOne | exact count64 | exact count65535 | exact countHalf | exact countTenth | exact countCenti | exact countMilli
  | exact countE4 | exact countE5 | exact countI1 | exact countI1000)

variable {n d : Nat} {res : Res} {q : Rat} {wh : Bool}

theorem meets_cnt (hn : n ≤ 4) (h : CountOK d res q wh) :
    Meets M e (defaultCount (uintLE n) n d res true) (count (uint n) (some ((256 ^ n : Nat) - 1)) q wh) :=
  meets_count (meets_uint n) (intFmt_uint hn) n h true
theorem meets_cntAll (hn : n ≤ 4) (h : CountOK d res q wh) :
    Meets M e (defaultCount (uintLE n) n d res false) (count (uint n) none q wh) :=
  meets_count (meets_uint n) (intFmt_uint hn) n h false
theorem meets_bcnt (hU : M.U) (hn : n ≤ 4) (h : CountOK d res q wh) :
    Meets M e (defaultCount (bytesIntLE n) n d res true) (count (uint n) (some ((256 ^ n : Nat) - 1)) q wh) :=
  meets_count (meets_bytesInt n hU) (intFmt_uint hn) n h true
theorem meets_bcntAll (hU : M.U) (hn : n ≤ 4) (h : CountOK d res q wh) :
    Meets M e (defaultCount (bytesIntLE n) n d res false) (count (uint n) none q wh) :=
  meets_count (meets_bytesInt n hU) (intFmt_uint hn) n h false
theorem meets_scnt (h0 : 0 < n) (hn : n ≤ 4) (h : CountOK d res q wh) :
    Meets M e (defaultCount (sintLE n) n d res true) (count (sint n) (some ((256 ^ n : Nat) - 1)) q wh) :=
  meets_count (meets_sint n h0) (intFmt_sint h0 hn) n h true
theorem meets_scntAll (h0 : 0 < n) (hn : n ≤ 4) (h : CountOK d res q wh) :
    Meets M e (defaultCount (sintLE n) n d res false) (count (sint n) none q wh) :=
  meets_count (meets_sint n h0) (intFmt_sint h0 hn) n h false

macro_rules | `(tactic| meets1) => `(tactic| with_reducible first
  | exact meets_cnt (by decide) (by countok) | exact meets_cntAll (by decide) (by countok)
  | exact meets_bcnt trivial (by decide) (by countok) | exact meets_bcntAll trivial (by decide) (by countok)
  | exact meets_scnt (by decide) (by decide) (by countok) | exact meets_scntAll (by decide) (by decide) (by countok))

/-! ### Strings -/

theorem strBytes_ok {u b} (h : strBytes u = .ok b) : ∃ s, u = .str s ∧ b = utf8 s := by
  cases u <;> simp [strBytes] at h
  exact ⟨_, rfl, h.symm⟩

theorem decodeBytes_ok {u w} (h : Property.decodeBytes u = .ok w) {b} (hb : strBytes w = .ok b) : ∃ s, StrMeans u s ∧ b = utf8 s := by
  obtain ⟨s, rfl, rfl⟩ := strBytes_ok hb
  refine ⟨s, ?_, rfl⟩
  cases u <;> simp only [Property.decodeBytes, Except.ok.injEq] at h <;> try cases h
  · exact .inl rfl
  · right
    simp only [bytesStr, bind_ok, Except.ok.injEq, Val.str.injEq] at h
    obtain ⟨a, h1, rfl⟩ := h
    rw [utf8_of_decode h1]

theorem decodeBytes_means {u s} (h : StrMeans u s) : Property.decodeBytes u = .ok (.str s) := by
  rcases h with rfl | rfl
  · rfl
  · simp [Property.decodeBytes, bytesStr, utf8Decode_utf8]

theorem rstrip0_utf8_pad (s : String) (k : Nat) : bytesStr (rstrip0 (utf8 s ++ List.replicate k 0)) = .ok (.str (rstripNul s)) := by
  rw [rstrip0_append_zeros]; simp [bytesStr, utf8Decode_rstrip]

theorem rstripNul_idem (s : String) : rstripNul (rstripNul s) = rstripNul s :=
  utf8_inj (by rw [utf8_rstripNul, utf8_rstripNul, rstrip0_idem])

theorem rstripNul_pad {n : Nat} (s : String) (h : (utf8 s).length ≤ n) :
    (utf8 (rstripNul s)).length ≤ n ∧
    utf8 s ++ List.replicate (n - (utf8 s).length) 0 = utf8 (rstripNul s) ++ List.replicate (n - (utf8 (rstripNul s)).length) 0 := by
  rw [utf8_rstripNul]
  obtain ⟨h1, h2⟩ := rstrip0_pad (utf8 s)
  refine ⟨by omega, ?_⟩
  conv => lhs; rw [← h1]
  rw [List.append_assoc, List.replicate_append_replicate, List.length_append, List.length_replicate]
  congr 2; omega

theorem meets_fixedString (n : Nat) : Meets M e (Property.fixedString n) (F.fixedString n) := by
  have key : ∀ {b : List UInt8} {v}, b.length = n → bytesStr (rstrip0 b) = .ok v → F.fixedString n v b v := by
    intro b v hl h
    simp only [bytesStr, bind_ok, Except.ok.injEq] at h
    obtain ⟨s, h1, rfl⟩ := h
    have h2 := utf8_of_decode h1
    obtain ⟨h3, h4⟩ := rstrip0_pad b
    refine ⟨s, .inl rfl, by rw [h2]; omega, by rw [h2, ← hl, h3], ?_⟩
    congr 1
    exact (utf8_inj (by rw [utf8_rstripNul, h2, rstrip0_idem])).symm
  refine meets_fixed n (fun _ b => bytesStr (rstrip0 b)) ?_ ?_ ?_ ?_ ?_ ?_ ?_ ?_ ?_
  · intro L ctx s
    simp only [Property.fixedString, adapter, paddedString]
    cases takeN n s with
    | error => rfl
    | ok p => obtain ⟨b, r⟩ := p; simp only [ok_bind]; cases bytesStr (rstrip0 b) <;> rfl
  · rintro u b v ⟨s, -, hl, rfl, -⟩; simp; omega
  · rintro u b v ⟨s, hs, hl, rfl, -⟩ L ctx hT
    exact ⟨u, by simp [Property.fixedString, adapter, decodeBytes_means hs, paddedString, strBytes, hl]⟩
  · rintro u b v ⟨s, hs, hl, rfl, rfl⟩ L; exact rstrip0_utf8_pad _ _
  · intro L ctx u b r hL h
    simp only [Property.fixedString, adapter, paddedString, bind_ok] at h
    obtain ⟨w, hw, ⟨b', r'⟩, ⟨b0, hb0, hb⟩, h⟩ := h
    simp only [Except.ok.injEq, Prod.mk.injEq] at h
    obtain ⟨rfl, rfl⟩ := h
    obtain ⟨s, hs, rfl⟩ := decodeBytes_ok hw hb0
    split at hb
    · rename_i hl
      simp only [Except.ok.injEq, Prod.mk.injEq] at hb
      exact ⟨_, s, hs, hl, hb.1.symm, rfl⟩
    · cases hb
  · rintro _ u b v ⟨s, hs, hl, rfl, rfl⟩
    obtain ⟨h1, h2⟩ := rstripNul_pad s hl
    exact ⟨rstripNul s, .inl rfl, h1, h2, by rw [rstripNul_idem]⟩
  · intro _ L b v hl h; exact ⟨b, key hl h⟩
  · intro _ L b v hl h; exact key hl h
  · intro L b _ h
    simp only [bytesStr, bind_err] at h
    rcases h with h | ⟨_, _, h⟩
    · unfold utf8Decode at h; split at h <;> simp at h
    · cases h

theorem lenEq_fixedString (n : Nat) : LenEq (F.fixedString n) n := by
  rintro u b v ⟨s, -, hl, rfl, -⟩; simp; omega

/-! ### Dates -/

theorem yearDay_le {y m d : Int} (h3 : 1 ≤ m) (h4 : m ≤ 12) (h6 : d ≤ Property.daysInMonth y m) :
    Property.daysBeforeMonth y m + d ≤ if Property.isLeap y = true then 366 else 365 := by
  by_cases hy : Property.isLeap y = true
  · simp only [Property.daysBeforeMonth, Property.daysInMonth, hy] at h6 ⊢
    interval_cases m <;> norm_num at h6 ⊢ <;> omega
  · simp only [Property.daysBeforeMonth, Property.daysInMonth, hy] at h6 ⊢
    interval_cases m <;> norm_num at h6 ⊢ <;> omega

theorem pyDate_le {y m d : Val} {n : Int} (h : Property.pyDate y m d = .ok n) : n ≤ 2932896 := by
  unfold Property.pyDate at h
  split at h
  · rename_i y m d _ _ _
    split at h
    · rename_i hr
      simp only [Except.ok.injEq] at h
      subst h
      obtain ⟨h1, h2, h3, h4, h5, h6⟩ := hr
      have hd := yearDay_le h3 h4 h6
      have hl : Property.isLeap y = true → y % 4 = 0 := by
        unfold Property.isLeap; simp; intro h _; exact h
      unfold Property.dayNumber
      by_cases hy : Property.isLeap y = true
      · have := hl hy
        rw [if_pos hy] at hd
        omega
      · rw [if_neg hy] at hd
        omega
    · cases h
  · cases h

open Classical in
/-- Dates, without the integers that cannot be read back. -/
noncomputable def dateG : Con UInt8 where
  parse := Property.dateC.parse
  build L ctx u := if OddDay u then .error .overflow else Property.dateC.build L ctx u

theorem dateEncode_means {u n} (h : DateMeans u n) : ∃ w, Property.dateEncode u = .ok w ∧ asInt w = some (n : Int) := by
  rcases h with rfl | h | ⟨rfl, rfl⟩ | ⟨d, y, m, dd, rfl, h1, h2, h3, h4⟩
  · exact ⟨_, rfl, rfl⟩
  · refine ⟨u, ?_, h⟩
    cases u <;> simp_all [asInt, Property.dateEncode]
  · exact ⟨_, rfl, rfl⟩
  · exact ⟨.int n, by simp [Property.dateEncode, dgetE, h1, h2, h3, h4], rfl⟩

theorem dateEncode_ok {u w} {n : Nat} (h : Property.dateEncode u = .ok w) (hw : asInt w = some (n : Int)) (ho : ¬ OddDay u) :
    DateMeans u n ∧ (n : Int) ≤ 2932896 := by
  have hint : asInt u = some (n : Int) → DateMeans u n ∧ (n : Int) ≤ 2932896 := by
    intro hu
    refine ⟨.inr (.inl hu), ?_⟩
    by_contra hlt
    exact ho ⟨n, .inl hu, by unfold Property.lastDay; omega⟩
  cases u <;> simp only [Property.dateEncode, Except.ok.injEq] at h
  case none =>
    subst h
    simp only [asInt, Option.some.injEq] at hw
    have : n = 0 := by omega
    subst this
    exact ⟨.inr (.inr (.inl ⟨rfl, rfl⟩)), by decide⟩
  case dict d =>
    simp only [bind_ok] at h
    obtain ⟨y, hy, m, hm, dd, hdd, k, hk, h⟩ := h
    simp only [Except.ok.injEq] at h
    subst h
    simp only [asInt, Option.some.injEq] at hw
    subst hw
    have get : ∀ {k x}, dgetE d k = .ok x → dget d k = some x := by
      intro k x h; unfold dgetE at h; split at h
      · rename_i v hv; cases h; exact hv
      · cases h
    exact ⟨.inr (.inr (.inr ⟨d, y, m, dd, rfl, get hy, get hm, get hdd, hk⟩)), pyDate_le hk⟩
  case date k =>
    subst h
    simp only [asInt, Option.some.injEq] at hw
    subst hw
    refine ⟨.inl rfl, ?_⟩
    by_contra hlt
    exact ho ⟨n, .inr rfl, by unfold Property.lastDay; omega⟩
  all_goals (try cases h)
  all_goals exact hint hw

theorem dateDecode_nat {n : Nat} : Property.dateDecode (.int n) = if (n : Int) ≤ 2932896 then .ok (.date n) else .error .overflow := by
  simp [Property.dateDecode, asInt, Property.lastDay]

theorem meets_dateG (hU : M.U) : Meets M e dateG F.date := by
  have key : ∀ {b : List UInt8} {v}, b.length = 3 → Property.dateDecode (.int (leNat b)) = .ok v → F.date v b v := by
    intro b v hl h
    rw [dateDecode_nat] at h
    split at h
    · rename_i hn; cases h; exact ⟨leNat b, .inl rfl, hn, hl, rfl, rfl⟩
    · cases h
  refine meets_fixed 3 (fun _ b => Property.dateDecode (.int (leNat b))) ?_ ?_ ?_ ?_ ?_ ?_ ?_ ?_ ?_
  · intro L ctx s
    simp only [dateG, Property.dateC, adapter, bytesIntLE]
    cases takeN 3 s <;> rfl
  · rintro u b v ⟨n, -, -, hl, -⟩; exact hl
  · rintro u b v ⟨n, hd, hn, hl, hb, rfl⟩ L ctx hT
    obtain ⟨w, hw, hi⟩ := dateEncode_means hd
    have ho : ¬ OddDay u := by
      rintro ⟨k, hk | rfl, hlt⟩
      · rcases hd with rfl | h | ⟨rfl, rfl⟩ | ⟨d, y, m, dd, rfl, -⟩
        · simp [asInt] at hk
        · rw [h] at hk; cases hk; unfold Property.lastDay at hlt; omega
        · simp [asInt] at hk
        · simp [asInt] at hk
      · rcases hd with h | h | ⟨h, -⟩ | ⟨d, y, m, dd, h, -⟩
        · cases h; unfold Property.lastDay at hlt; omega
        · simp [asInt] at h
        · cases h
        · cases h
    have hb3 : (bytesIntLE 3).build L ctx w = .ok (b, w) := by
      have hlt := leNat_lt b
      rw [hl, hb] at hlt
      have hlt' : n < 16777216 := by simpa using hlt
      simp only [bytesIntLE, hi]
      rw [if_pos ⟨by omega, by simpa using hlt⟩, ← hb, ← hl]
      simp [leBytes_leNat]
    exact ⟨u, by simp [dateG, if_neg ho, Property.dateC, adapter, hw, hb3]⟩
  · rintro u b v ⟨n, hd, hn, hl, hb, rfl⟩ L
    simp only [hb]; rw [dateDecode_nat, if_pos hn]
  · intro L ctx u b r hL h
    simp only [dateG] at h
    split at h
    · cases h
    · rename_i ho
      simp only [Property.dateC, adapter, bind_ok] at h
      obtain ⟨w, hw, ⟨b', r'⟩, hb, h⟩ := h
      simp only [Except.ok.injEq, Prod.mk.injEq] at h
      obtain ⟨rfl, rfl⟩ := h
      obtain ⟨v, k, hk, -, hl, hb, rfl⟩ := (meets_bytesInt (M := ⟨False, True, True, True⟩) (e := false) 3 trivial).sound (fun _ => hL hU) hb
      obtain ⟨h1, h2⟩ := dateEncode_ok hw hk ho
      exact ⟨_, k, h1, h2, hl, hb, rfl⟩
  · rintro _ u b v ⟨n, hd, hn, hl, hb, rfl⟩; exact ⟨n, .inl rfl, hn, hl, hb, rfl⟩
  · intro _ L b v hl h; exact ⟨b, key hl h⟩
  · intro _ L b v hl h; exact key hl h
  · intro L b _ h
    rw [dateDecode_nat] at h
    split at h <;> simp at h

theorem lenEq_date : LenEq F.date 3 := by rintro u b v ⟨n, -, -, hl, -⟩; exact hl

theorem field1_build {α} {k : String} {c : Con α} (hn : c.buildNone = false) {L ctx u b} :
    (∃ r, (struct [field k c]).build L ctx u = .ok (b, r)) ↔
      ∃ d w r, asDict u = .ok d ∧ dget d k = some w ∧ c.build L (dset d k w) w = .ok (b, r) := by
  constructor
  · rintro ⟨r, h⟩
    simp only [struct, buildItems, field, hn, Bool.false_eq_true, if_false, bind_ok] at h
    obtain ⟨d, hd, ⟨b', c'⟩, ⟨⟨b1, c1⟩, ⟨w, hw, ⟨b2, r2⟩, h2, h3⟩, ⟨b4, c4⟩, h4, h5⟩, h6⟩ := h
    simp only [Except.ok.injEq, Prod.mk.injEq] at h3 h4 h5 h6
    obtain ⟨rfl, rfl⟩ := h3
    obtain ⟨rfl, rfl⟩ := h4
    obtain ⟨rfl, rfl⟩ := h5
    obtain ⟨rfl, rfl⟩ := h6
    simp only [dgetE] at hw
    split at hw
    · rename_i x hx; cases hw; exact ⟨d, w, r2, hd, hx, by simpa using h2⟩
    · cases hw
  · rintro ⟨d, w, r, hd, hw, hb⟩
    simp [struct, buildItems, field, hn, hd, dgetE, hw, hb]

theorem meets_dateUTC (hU : M.U) : MeetsBut OddDate M e (struct Property.dateUTC) Spec.dateUTC := by
  have hG : Meets M e (struct [field "date" dateG]) Spec.dateUTC :=
    meets_struct (MeetsIs.last (meetsI_field rfl (meets_dateG hU))) (by keys)
  refine Agrees.but (c' := struct [field "date" dateG]) ⟨fun _ _ _ => rfl, ?_, ?_⟩ hG
  · intro L ctx u b r h
    obtain ⟨d, w, r, hd, hw, hb⟩ := (field1_build rfl).1 ⟨r, h⟩
    refine (field1_build rfl).2 ⟨d, w, r, hd, hw, ?_⟩
    simp only [dateG] at hb
    split at hb
    · cases hb
    · exact hb
  · intro L ctx u b r ho h
    obtain ⟨d, w, r, hd, hw, hb⟩ := (field1_build rfl).1 ⟨r, h⟩
    refine (field1_build rfl).2 ⟨d, w, r, hd, hw, ?_⟩
    simp only [dateG]
    rw [if_neg]
    · exact hb
    · intro hod
      refine ho ⟨d, w, ?_, hw, hod⟩
      cases u <;> simp [asDict] at hd
      · subst hd; simp at hw
      · rw [hd]

/-! ### Exponential times -/

theorem pow11_pos (k : Int) : (0 : Rat) < (11 / 10 : Rat) ^ k := zpow_pos (by norm_num) _

theorem pow11_ge {k : Int} (h : -63 ≤ k) : (24 / 10000 : Rat) ≤ (11 / 10 : Rat) ^ k := by
  refine le_trans ?_ (zpow_le_zpow_right₀ (by norm_num) h)
  norm_num

/-- Four decimals keep an exponential time within 2.5 % of its exact value. -/
theorem round4_near {k : Int} (h : -63 ≤ k) {x : Rat} (h1 : (11 / 10 : Rat) ^ k * (1 - 1 / 2 ^ 40) ≤ x)
    (h2 : x ≤ (11 / 10 : Rat) ^ k * (1 + 1 / 2 ^ 40)) :
    (11 / 10 : Rat) ^ k * (39 / 40) ≤ roundN x 4 ∧ roundN x 4 ≤ (11 / 10 : Rat) ^ k * (41 / 40) := by
  have hp := pow11_ge h
  generalize (11 / 10 : Rat) ^ k = p at *
  unfold roundN
  have e1 := rhe_err (x * (10 ^ 4 : Nat))
  generalize (rhe (x * (10 ^ 4 : Nat)) : Rat) = y at *
  have e1' := abs_le.1 e1
  have hy : |y / (10 ^ 4 : Nat)| ≤ 2 * p := by
    rw [abs_le]
    norm_num at e1' h1 h2 ⊢
    constructor <;> linarith [e1'.1, e1'.2]
  have a1 := rnd_le (by linarith) hy
  have a2 := le_rnd (by linarith) hy
  norm_num at e1' h1 h2 a1 a2 ⊢
  constructor <;> linarith [e1'.1, e1'.2]

variable [Platform]

theorem expValue_exists {n : Nat} (hn : n < 256) : ∃ v, ExpValue n v := by
  by_cases h : n = 0
  · exact ⟨_, .inl ⟨h, rfl⟩⟩
  · obtain ⟨x, hx, -⟩ := Platform.pow11 ((n : Int) - 64) (by omega) (by omega)
    exact ⟨_, .inr ⟨h, x, hx, rfl⟩⟩

theorem expValue_decode {n : Nat} {v} (h : ExpValue n v) : Property.timeExpDecode (.int n) = .ok v := by
  rcases h with ⟨rfl, rfl⟩ | ⟨h, x, hx, rfl⟩
  · rfl
  · simp [Property.timeExpDecode, asInt, h, hx]

theorem expValue_self {n : Nat} (hn : n < 256) {v} (h : ExpValue n v) : F.timeExp v [UInt8.ofNat n] v := by
  refine ⟨n, hn, rfl, h, ?_⟩
  rcases h with ⟨rfl, rfl⟩ | ⟨h, x, hx, rfl⟩
  · exact .inl ⟨rfl, rfl⟩
  · right
    obtain ⟨x', hx', h1, h2⟩ := Platform.pow11 ((n : Int) - 64) (by omega) (by omega)
    rw [hx] at hx'; cases hx'
    obtain ⟨h3, h4⟩ := round4_near (by omega) h1 h2
    obtain ⟨l, hl, h5, h6⟩ := Platform.log11 _ _ (by omega) (by omega) h3 h4
    have hpos : 0 < roundN x 4 := lt_of_lt_of_le (by have := pow11_pos ((n : Int) - 64); positivity) h3
    refine ⟨by simp [truthy, hpos.ne'], roundN x 4, l, rfl, hl, ?_⟩
    rw [rhe_near (n := (n : Int) - 64)]
    · omega
    · rw [abs_lt]; constructor <;> linarith

theorem meets_timeExp : Meets M e Property.timeExp F.timeExp := by
  refine meets_adapter_uint 1 _ _ _ ?_ ?_ ?_ ?_ ?_ ?_ ?_ ?_
  · rintro u b v ⟨n, -, rfl, -⟩; rfl
  · rintro u b v ⟨n, hn, rfl, -, ⟨ht, rfl⟩ | ⟨ht, q, l, hq, hl, hr⟩⟩ L hT
    · exact ⟨.int 0, by simp [Property.timeExpEncode, ht], rfl⟩
    · refine ⟨.int (rhe l + 64), ?_, by rw [leNat_one hn, hr]; rfl⟩
      unfold Property.timeExpEncode
      rw [if_neg (by simp [ht])]
      split
      · simp [asNum, asInt] at hq
      · simp [hq, hl]
  · rintro u b v ⟨n, hn, rfl, hv, -⟩ L
    rw [leNat_one hn]; exact expValue_decode hv
  · intro L u w k hL hw hk hlt
    obtain ⟨v, hv⟩ := expValue_exists (n := k) (by simpa using hlt)
    refine ⟨v, k, by simpa using hlt, one_byte (by simpa using hlt), hv, ?_⟩
    unfold Property.timeExpEncode at hw
    split at hw
    · rename_i ht
      cases hw
      simp only [asInt, Option.some.injEq] at hk
      exact .inl ⟨ht, by omega⟩
    · rename_i ht
      right
      refine ⟨by simpa using ht, ?_⟩
      split at hw
      · cases hw
      · split at hw
        · rename_i q hq
          simp only [bind_ok] at hw
          obtain ⟨l, hl, hw⟩ := hw
          cases hw
          simp only [asInt, Option.some.injEq] at hk
          exact ⟨q, l, hq, hl, hk⟩
        · cases hw
  · rintro _ u b v ⟨n, hn, rfl, hv, -⟩; exact expValue_self hn hv
  · intro _ L b v hl h
    obtain ⟨w, hw⟩ := expValue_exists (n := leNat b) (by have := leNat_lt b; rw [hl] at this; simpa using this)
    rw [expValue_decode hw] at h; cases h
    exact ⟨_, expValue_self (by have := leNat_lt b; rw [hl] at this; simpa using this) hw⟩
  · intro _ L b v hl h
    have hlt : leNat b < 256 := by have := leNat_lt b; rw [hl] at this; simpa using this
    obtain ⟨w, hw⟩ := expValue_exists hlt
    rw [expValue_decode hw] at h; cases h
    have := expValue_self hlt hw
    rwa [← one_byte hlt, ← hl, leBytes_leNat] at this
  · intro L b hl h
    obtain ⟨w, hw⟩ := expValue_exists (n := leNat b) (by have := leNat_lt b; rw [hl] at this; simpa using this)
    rw [expValue_decode hw] at h; cases h

theorem lenEq_timeExp : LenEq F.timeExp 1 := by rintro u b v ⟨n, -, rfl, -⟩; rfl

macro_rules | `(tactic| meets1) => `(tactic| with_reducible first
  | exact meets_timeExp | exact meets_fixedString _)

/-! ### The table of properties -/

/-- Building raises `KeyError` only for dictionaries (or `None`). -/
def KeyDict (c : Con UInt8) : Prop := ∀ ⦃L ctx u⦄, c.build L ctx u = .error .key → u = .none ∨ ∃ d, u = .dict d

theorem keyDict_struct (its) : KeyDict (struct its) := by
  intro L ctx u h
  cases u <;> first | exact .inl rfl | exact .inr ⟨_, rfl⟩ | (simp [struct, asDict] at h)

theorem keyDict_fixedString (n) : KeyDict (Property.fixedString n) := by
  intro L ctx u h
  simp only [Property.fixedString, adapter, paddedString, bind_err] at h
  rcases h with h | ⟨w, -, ⟨h | ⟨b, -, h⟩⟩ | ⟨_, _, h⟩⟩
  · cases u <;> simp [Property.decodeBytes] at h
    simp only [bytesStr, bind_err] at h
    rcases h with h | ⟨_, _, h⟩
    · unfold utf8Decode at h; split at h <;> simp at h
    · cases h
  · cases w <;> simp [strBytes] at h
  · split at h <;> simp at h
  · cases h

/-- Every property of `P` is a member of `E` named like its key, and its construct in `D` meets its format. -/
def PropCovers (M : Mode) (E : EnumDef) (D : List (Int × Con UInt8)) (P : List PropSpec) : Prop :=
  ∀ p ∈ P, ∃ N, lookupValue E.members p.id = some N ∧ lower N = p.name ∧ ∃ c, findCase p.id D = some c ∧ KeyDict c ∧
    MeetsBut p.odd M false c p.fmt

theorem propCovers_nil {M E D} : PropCovers M E D [] := fun _ h => nomatch h
theorem propCovers_cons {M E D} {p : PropSpec} {P N c} (h1 : lookupValue E.members p.id = some N) (h2 : lower N = p.name)
    (h3 : findCase p.id D = some c) (hk : KeyDict c) (h4 : Meets M false c p.fmt) (h : PropCovers M E D P) : PropCovers M E D (p :: P) := by
  intro x hx
  rcases List.mem_cons.1 hx with rfl | hx
  · exact ⟨N, h1, h2, c, h3, hk, h4.but⟩
  · exact h x hx
theorem propCovers_consBut {M E D} {p : PropSpec} {P N c} (h1 : lookupValue E.members p.id = some N) (h2 : lower N = p.name)
    (h3 : findCase p.id D = some c) (hk : KeyDict c) (h4 : MeetsBut p.odd M false c p.fmt) (h : PropCovers M E D P) : PropCovers M E D (p :: P) := by
  intro x hx
  rcases List.mem_cons.1 hx with rfl | hx
  · exact ⟨N, h1, h2, c, h3, hk, h4⟩
  · exact h x hx

macro "keydict" : tactic => `(tactic| with_reducible first | exact keyDict_struct _ | exact keyDict_fixedString _)

/-- Succeeds on `PropCovers` goals only. -/
macro "guard_props" : tactic => `(tactic| with_reducible (refine id (α := PropCovers _ _ _ _) ?_))

macro "propcovers" : tactic => `(tactic| repeat' first
  | exact propCovers_nil
  | refine propCovers_cons (by rfl) (by dsimp only; decide +kernel) (by rfl) (by keydict) ?_ ?_
  | (guard_props; dsimp only)
  | meets1)

theorem PropCovers.weaken {M M' : Mode} {E D P} (h : PropCovers M E D P) (ht : M.T → M'.T) (hu : M.U → M'.U)
    (hs : M'.S → M.S) (hx : M'.X → M.X) : PropCovers M' E D P := by
  intro p hp
  obtain ⟨N, h1, h2, c, h3, hk, h4⟩ := h p hp
  exact ⟨N, h1, h2, c, h3, hk, h4.weaken ht hu hs hx⟩

set_option maxHeartbeats 4000000 in
theorem otherProperties_cover : PropCovers lossless E.PropertyID Property.propertyDict Spec.otherProperties := by
  unfold Spec.otherProperties; propcovers

theorem dateProperties_cover : PropCovers lossless E.PropertyID Property.propertyDict Spec.dateProperties := by
  unfold Spec.dateProperties
  refine propCovers_consBut (by rfl) (by dsimp only; decide +kernel) (by rfl) (by keydict) (meets_dateUTC trivial) ?_
  refine propCovers_consBut (by rfl) (by dsimp only; decide +kernel) (by rfl) (by keydict) (meets_dateUTC trivial) ?_
  exact propCovers_nil

theorem exactProperties_cover : PropCovers lossless E.PropertyID Property.propertyDict Spec.exactProperties :=
  fun p hp => (List.mem_append.1 hp).elim (dateProperties_cover p) (otherProperties_cover p)

theorem flagProperties_cover : PropCovers stable E.PropertyID Property.propertyDict Spec.flagProperties := by
  unfold Spec.flagProperties; propcovers

theorem properties_cover : PropCovers stable E.PropertyID Property.propertyDict Spec.properties :=
  fun p hp => (List.mem_append.1 hp).elim (PropCovers.weaken (M' := stable) exactProperties_cover id id (fun _ => trivial) (fun _ => trivial) p) (flagProperties_cover p)

end
end BM
