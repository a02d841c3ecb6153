import Verif.MeetsLeaf
import Verif.Generics
/-!
# Floating-point fields meet their formats
-/
namespace BM
open F
section
variable {M : Mode} {e : Bool}

/-! ### Transition times -/

theorem ttBits_fmt {r k : Nat} (hr : r < 4) (hk : k < 64) {ur uk : Val} {d : Dict} (h1 : dget d "resolution" = some ur)
    (h2 : dget d "steps" = some uk) (hur : asInt ur = some (r : Int)) (huk : asInt uk = some (k : Int)) :
    F.packed 1 (F.record [F.fld "resolution" (F.bitsU 2), F.fld "steps" (F.bitsU 6)]) (.dict d) [UInt8.ofNat (64 * r + k)]
      (.dict [("resolution", .int r), ("steps", .int k)]) := by
  refine ⟨rfl, d, _, rfl, ⟨natBits 2 r, natBits 6 k, [("resolution", .int r)], [("steps", .int k)], ?_, rfl, 
    ⟨ur, _, h1, ⟨r, hur, natBits_length _ _, bitsNat_natBits _ _ hr, rfl⟩, rfl⟩,
    natBits 6 k, [], [("steps", .int k)], [], by simp, rfl, ⟨uk, _, h2, ⟨k, huk, natBits_length _ _, bitsNat_natBits _ _ hk, rfl⟩, rfl⟩, rfl, rfl⟩, rfl⟩
  rw [← natBits_add hr hk]
  simp only [bytesBits, List.flatMap_cons, List.flatMap_nil, List.append_nil]
  congr 1
  simp; omega

theorem meets_ttBits (hU : M.U) : Meets M e transitionTimeBits
    (F.packed 1 (F.record [F.fld "resolution" (F.bitsU 2), F.fld "steps" (F.bitsU 6)])) := by
  refine meets_bitwise (meets_struct (.cons (meetsI_field rfl (meets_ubits 2 hU)) (.last (meetsI_field rfl (meets_ubits 6 hU)))) (by decide)) ?_
  exact (lenEq_record (.cons (lenEqI_fld (lenEq_bitsU 2)) (.cons (lenEqI_fld (lenEq_bitsU 6)) .nil))).cast rfl

theorem rhe_ge_of_trunc {q : Rat} {k max : Nat} (h : ftrunc q = (k : Int)) (hm : rhe q ≤ (max : Int)) : k ≤ max := by
  unfold ftrunc at h
  split at h
  · have h1 : (q.floor : Rat) ≤ q := Rat.floor_le _
    have h2 := rhe_mono h1
    rw [rhe_int] at h2
    omega
  · rename_i h0
    have h2 : (0 : Int) ≤ (-q).floor := by
      rw [rfloor_eq]; apply Int.floor_nonneg.2; linarith
    omega

/-- The loop of `TransitionTimeAdapter._encode` picks the first resolution that reaches the time. -/
theorem ttLoop_ok {max : Nat} {q : Rat} {w : Val} (h : ttEncodeLoop max q ttResolutions = .ok w) :
    ∃ r, r < 4 ∧ q ≤ fmul (ttStep r) 63 ∧ (∀ r' < r, fmul (ttStep r') 63 < q) ∧ rhe (fdiv q (ttStep r)) ≤ max ∧
      w = .dict [("steps", .int (ftrunc (fdiv q (ttStep r)))), ("resolution", .int (r : Nat))] := by
  have key : ∀ r : Nat, (if rhe (fdiv q (ttStep r)) ≤ (max : Int) then
      (.ok (.dict [("steps", .int (ftrunc (fdiv q (ttStep r)))), ("resolution", .int (r : Nat))]) : R Val)
      else .error .assertion) = .ok w → rhe (fdiv q (ttStep r)) ≤ (max : Int) ∧ 
      w = .dict [("steps", .int (ftrunc (fdiv q (ttStep r)))), ("resolution", .int (r : Nat))] := by
    intro r h
    split at h
    · rename_i hle; cases h; exact ⟨hle, rfl⟩
    · cases h
  unfold ttResolutions at h
  unfold ttEncodeLoop at h
  split at h
  · rename_i h0
    exact ⟨0, by omega, h0, by omega, key 0 h⟩
  · rename_i h0
    unfold ttEncodeLoop at h
    split at h
    · rename_i h1
      refine ⟨1, by omega, h1, ?_, key 1 h⟩
      intro r' hr'
      obtain rfl : r' = 0 := by omega
      exact not_le.1 h0
    · rename_i h1
      unfold ttEncodeLoop at h
      split at h
      · rename_i h2
        refine ⟨2, by omega, h2, ?_, key 2 h⟩
        intro r' hr'
        obtain rfl | rfl : r' = 0 ∨ r' = 1 := by omega
        · exact not_le.1 h0
        · exact not_le.1 h1
      · rename_i h2
        unfold ttEncodeLoop at h
        split at h
        · rename_i h3
          refine ⟨3, by omega, h3, ?_, key 3 h⟩
          intro r' hr'
          obtain rfl | rfl | rfl : r' = 0 ∨ r' = 1 ∨ r' = 2 := by omega
          · exact not_le.1 h0
          · exact not_le.1 h1
          · exact not_le.1 h2
        · unfold ttEncodeLoop at h; cases h

theorem ttLoop_eq {max r : Nat} {q : Rat} (hr : r < 4) (h1 : q ≤ fmul (ttStep r) 63) (h2 : ∀ r' < r, fmul (ttStep r') 63 < q)
    (h3 : rhe (fdiv q (ttStep r)) ≤ max) : ttEncodeLoop max q ttResolutions =
      .ok (.dict [("steps", .int (ftrunc (fdiv q (ttStep r)))), ("resolution", .int (r : Nat))]) := by
  have h0 : ∀ r' < r, ¬ q ≤ fmul (ttStep r') 63 := fun r' h => not_le.2 (h2 r' h)
  unfold ttResolutions
  obtain rfl | rfl | rfl | rfl : r = 0 ∨ r = 1 ∨ r = 2 ∨ r = 3 := by omega
  · unfold ttEncodeLoop
    rw [if_pos (by exact h1)]
    simp only
    rw [if_pos (by exact h3)]; rfl
  · unfold ttEncodeLoop
    rw [if_neg (by exact h0 0 (by omega))]
    unfold ttEncodeLoop
    rw [if_pos (by exact h1)]
    simp only
    rw [if_pos (by exact h3)]; rfl
  · unfold ttEncodeLoop
    rw [if_neg (by exact h0 0 (by omega))]
    unfold ttEncodeLoop
    rw [if_neg (by exact h0 1 (by omega))]
    unfold ttEncodeLoop
    rw [if_pos (by exact h1)]
    simp only
    rw [if_pos (by exact h3)]; rfl
  · unfold ttEncodeLoop
    rw [if_neg (by exact h0 0 (by omega))]
    unfold ttEncodeLoop
    rw [if_neg (by exact h0 1 (by omega))]
    unfold ttEncodeLoop
    rw [if_neg (by exact h0 2 (by omega))]
    unfold ttEncodeLoop
    rw [if_pos (by exact h1)]
    simp only
    rw [if_pos (by exact h3)]; rfl

theorem ttEncode_num {max : Nat} {u : Val} {q : Rat} (h : asNum u = some q) : ttEncode max u = ttEncodeLoop max q ttResolutions := by
  unfold ttEncode
  split
  · simp [asNum, asInt] at h
  · rw [h]

theorem ttDecode_eq {r k : Nat} (hr : r < 4) :
    ttDecode (.dict [("resolution", .int r), ("steps", .int k)]) = .ok (ttValue r k) := by
  obtain rfl | rfl | rfl | rfl : r = 0 ∨ r = 1 ∨ r = 2 ∨ r = 3 := by omega
  all_goals simp [ttDecode, dgetE, dget, asInt, ttValue, ttStep]
  all_goals rfl

/-- The bits of any byte. -/
theorem ttBits_parse (x : UInt8) (L ctx rest) : transitionTimeBits.parse L ctx ([x] ++ rest) =
      .ok (.dict [("resolution", .int ((x.toNat / 64 : Nat) : Int)), ("steps", .int ((x.toNat % 64 : Nat) : Int))], rest) := by
  have hr : Meets ⟨False, True, True, True⟩ false transitionTimeBits _ := meets_ttBits trivial
  have hlt := x.toNat_lt
  have := hr.dec (ttBits_fmt (r := x.toNat / 64) (k := x.toNat % 64) (by omega) (by omega)
      (d := [("resolution", .int ((x.toNat / 64 : Nat) : Int)), ("steps", .int ((x.toNat % 64 : Nat) : Int))]) rfl rfl rfl rfl) L ctx rest (by simp)
  rw [show UInt8.ofNat (64 * (x.toNat / 64) + x.toNat % 64) = x by rw [Nat.div_add_mod]; simp] at this
  exact this

theorem meets_transitionTime (unk : Bool) (hS : ¬ M.S) (hX : ¬ M.X) :
    Meets M e (BM.transitionTime unk) (F.transitionTime (if unk then 63 else 62)) := by
  have hr : Meets ⟨False, True, True, True⟩ false transitionTimeBits _ := meets_ttBits trivial
  generalize hm : (if unk = true then 63 else 62 : Nat) = max
  have hmax : max ≤ 63 := by subst hm; split <;> omega
  refine meets_fixed 1 (fun _ b => .ok (ttValue (leNat b / 64) (leNat b % 64))) ?_ ?_ ?_ ?_ ?_ (fun h => absurd h hS) (fun h => absurd h hS)
    (fun h => absurd h hX) ?_
  · intro L ctx s
    cases s with
    | nil => rfl
    | cons x s =>
      have := ttBits_parse x L ctx s
      rw [List.singleton_append] at this
      have hlt := x.toNat_lt
      simp only [BM.transitionTime, adapter, this, ok_bind, takeN, List.length_cons, Nat.le_add_left, if_true]
      rw [ttDecode_eq (by omega)]
      simp [leNat]
  · rintro u b v ⟨q, r, k, -, -, -, -, -, -, rfl, -⟩; rfl
  · rintro u b v ⟨q, r, k, hu, hr4, h1, h2, h3, h4, rfl, rfl⟩ L ctx hT
    have hk := rhe_ge_of_trunc h4 h3
    obtain ⟨r', hb⟩ := hr.enc (ttBits_fmt (d := [("steps", .int k), ("resolution", .int r)]) hr4 (by omega : k < 64) rfl rfl rfl rfl) L ctx (by simp)
    exact ⟨u, by simp only [BM.transitionTime, adapter, ttEncode_num hu, hm, ttLoop_eq hr4 h1 h2 h3, h4, ok_bind, hb]⟩
  · rintro u b v ⟨q, r, k, hu, hr4, h1, h2, h3, h4, rfl, rfl⟩ L
    have hk := rhe_ge_of_trunc h4 h3
    have e1 : (64 * r + k) % 256 = 64 * r + k := by omega
    have e2 : (64 * r + k) / 64 = r := by omega
    have e3 : (64 * r + k) % 64 = k := by omega
    simp [leNat, e1, e2, e3]
  · intro L ctx u b r _ h
    simp only [BM.transitionTime, adapter, bind_ok] at h
    obtain ⟨w, hw, ⟨b', r'⟩, hb, h⟩ := h
    simp only [Except.ok.injEq, Prod.mk.injEq] at h
    obtain ⟨rfl, rfl⟩ := h
    have : ∃ q, asNum u = some q := by
      unfold ttEncode at hw
      split at hw
      · cases hw
      · split at hw
        · rename_i q hq; exact ⟨q, hq⟩
        · cases hw
    obtain ⟨q, hq⟩ := this
    rw [ttEncode_num hq, hm] at hw
    obtain ⟨r, hr4, h1, h2, h3, rfl⟩ := ttLoop_ok hw
    have : ∃ c : Nat, asInt (.int (ftrunc (fdiv q (ttStep r)))) = some (c : Int) := by
      simp only [transitionTimeBits, bitwise, struct, asDict, buildItems, bind_ok, ok_bind] at hb
      obtain ⟨⟨bs, r1⟩, ⟨⟨bs2, ctx2⟩, ⟨⟨b5, c5⟩, -, ⟨b3, c3⟩, ⟨⟨b6, c6⟩, h6, -⟩, -⟩, -⟩, -⟩ := hb
      obtain ⟨w, ctx1, r7, hw, h7⟩ := field_build_ok rfl h6
      cases hw
      exact ubits_build_nat h7
    obtain ⟨k, hk⟩ := this
    simp only [asInt, Option.some.injEq] at hk
    have hk64 := rhe_ge_of_trunc hk h3
    rw [hk] at hb
    obtain ⟨r2, hb2⟩ := hr.enc (ttBits_fmt (d := [("steps", .int k), ("resolution", .int r)]) hr4 (by omega : k < 64) rfl rfl rfl rfl) L ctx (by simp)
    rw [hb2] at hb
    simp only [Except.ok.injEq, Prod.mk.injEq] at hb
    obtain ⟨rfl, -⟩ := hb
    exact ⟨_, q, r, k, hq, hr4, h1, h2, h3, hk, rfl, rfl⟩
  · intro L b _ h; simp at h

theorem lenEq_transitionTime (max) : LenEq (F.transitionTime max) 1 := by
  rintro u b v ⟨q, r, k, -, -, -, -, -, -, rfl, -⟩; rfl

/-! ### Delays -/

theorem ftrunc_int (k : Int) : ftrunc (k : Rat) = k := by
  unfold ftrunc
  split
  · rw [rfloor_eq]; exact Int.floor_intCast k
  · rw [rfloor_eq, ← Int.cast_neg, Int.floor_intCast]; omega

theorem ftrunc_abs {q : Rat} {n : Nat} (h : ftrunc q = (n : Int)) : |q| < n + 1 := by
  unfold ftrunc at h
  rw [rfloor_eq, rfloor_eq] at h
  split at h
  · rename_i h0
    have := Int.lt_floor_add_one q
    rw [h] at this
    rw [abs_of_nonneg h0]; exact_mod_cast this
  · rename_i h0
    have := Int.lt_floor_add_one (-q)
    rw [show ⌊-q⌋ = -(n : Int) by omega] at this
    push_cast at this
    rw [abs_of_neg (not_le.1 h0)]
    have : (0 : Rat) ≤ n := by positivity
    linarith

theorem fmul_int_200 {k : Int} (h : |fmul (k : Rat) 200| < 512 ∨ |k| < 1024) : fmul (k : Rat) 200 = ((k * 200 : Int) : Rat) := by
  have hk : |k| < 1024 := by
    rcases h with h | h
    · unfold fmul at h
      have he := rnd_err ((k : Rat) * 200)
      have h1 : |(k : Rat) * 200| < 1024 := by
        have h2 := abs_sub_abs_le_abs_sub ((k : Rat) * 200) (rnd ((k : Rat) * 200))
        rw [abs_sub_comm] at h2
        have h3 : |(k : Rat) * 200| / 2 ^ 53 ≤ |(k : Rat) * 200| / 2 := by
          apply div_le_div_of_nonneg_left (abs_nonneg _) (by norm_num) (by norm_num)
        linarith
      rw [abs_mul] at h1
      norm_num at h1
      have h4 : |(k : Rat)| < 1024 := by have := abs_nonneg (k : Rat); linarith
      exact_mod_cast h4
    · exact h
  have hs' : |k * 200| < 2 ^ 53 := by rw [abs_mul]; norm_num; linarith
  unfold fmul; rw [← rnd_int _ hs']; push_cast; rfl

theorem asInt_none_num {u : Val} {q : Rat} (h : asInt u = none) (hq : asNum u = some q) : u = .flt q := by
  cases u <;> simp_all [asNum, asInt]

theorem delayEncode_eq {u : Val} {q : Rat} {n : Nat} (hu : asNum u = some q) (h : ftrunc (fmul q 200) = (n : Int)) (hn : n < 256) :
    delayEncode u = .ok (.int n) := by
  unfold delayEncode
  cases hk : asInt u with
  | some k =>
    rw [asNum_of_asInt hk] at hu
    cases hu
    have h1 := ftrunc_abs h
    have h2 : (n : Rat) < 256 := by exact_mod_cast hn
    rw [fmul_int_200 (.inl (by linarith)), ftrunc_int] at h
    simp [h]
  | none =>
    obtain rfl := asInt_none_num hk hu
    simp [h]

theorem delayEncode_ok {u w : Val} {n : Nat} (h : delayEncode u = .ok w) (hw : asInt w = some (n : Int)) (hn : n < 256) :
    ∃ q, asNum u = some q ∧ ftrunc (fmul q 200) = (n : Int) := by
  unfold delayEncode at h
  split at h
  · rename_i k hk
    cases h
    simp only [asInt, Option.some.injEq] at hw
    refine ⟨k, asNum_of_asInt hk, ?_⟩
    rw [fmul_int_200 (.inr (by rw [abs_lt]; omega)), ftrunc_int, hw]
  · split at h
    · cases h
      simp only [asInt, Option.some.injEq] at hw
      exact ⟨_, rfl, hw⟩
    · cases h
    · cases h

theorem lenEq_delay : LenEq F.delay 1 := by
  rintro u b v ⟨q, n, -, -, -, rfl, -⟩; rfl

theorem meets_delay (hS : ¬ M.S) (hX : ¬ M.X) : Meets M e BM.delay F.delay := by
  refine meets_adapter_uint 1 _ _ _ lenEq_delay ?_ ?_ ?_ (fun h => absurd h hS) (fun h => absurd h hS) (fun h => absurd h hX) ?_
  · rintro u b v ⟨q, n, hu, h, hn, rfl, rfl⟩ L _
    exact ⟨_, delayEncode_eq hu h hn, by rw [leNat_one hn]; rfl⟩
  · rintro u b v ⟨q, n, hu, h, hn, rfl, rfl⟩ L
    rw [leNat_one hn]; rfl
  · intro L u w k _ h hw hk
    obtain ⟨q, hq, ht⟩ := delayEncode_ok h hw (by simpa using hk)
    exact ⟨_, q, k, hq, ht, by simpa using hk, one_byte (by simpa using hk), rfl⟩
  · intro L b _ h; simp [delayDecode, asInt] at h

/-! ### Scaled counts -/

/-- Relative error of a product of roundings. -/
theorem rnd_rel (q : Rat) : ∃ d : Rat, |d| ≤ 1 / 2 ^ 53 ∧ rnd q = q * (1 + d) := by
  by_cases h : q = 0
  · exact ⟨0, by norm_num, by simp [h, rnd]⟩
  · refine ⟨rnd q / q - 1, ?_, by field_simp; ring⟩
    have h1 := rnd_err q
    have h2 : rnd q / q - 1 = (rnd q - q) / q := by field_simp
    rw [h2, abs_div, div_le_iff₀ (abs_pos.2 h)]
    linarith [h1]

/-- A quotient of two nearby multiples rounds to the count. -/
theorem count_back {n : Int} (hn : |n| < 2 ^ 33) {res : Rat} (hres : 0 < res) :
    rhe (fdiv (rnd (n * res)) (rnd res)) = n := by
  obtain ⟨d1, hd1, h1⟩ := rnd_rel (n * res)
  obtain ⟨d2, hd2, h2⟩ := rnd_rel res
  unfold fdiv
  obtain ⟨d3, hd3, h3⟩ := rnd_rel (rnd (n * res) / rnd res)
  rw [h3, h1, h2]
  have hd2' := abs_le.1 hd2
  have hpos : 0 < 1 + d2 := by norm_num at hd2'; linarith [hd2'.1]
  have e1 : (n * res * (1 + d1) / (res * (1 + d2))) * (1 + d3) = n * ((1 + d1) * (1 + d3) / (1 + d2)) := by
    have := hres.ne'; have := hpos.ne'; field_simp
  rw [e1]
  apply rhe_near
  have e2 : (n : Rat) * ((1 + d1) * (1 + d3) / (1 + d2)) - n = n * ((d1 + d3 + d1 * d3 - d2) / (1 + d2)) := by
    have := hpos.ne'; field_simp; ring
  rw [e2, abs_mul, abs_div, abs_of_pos hpos]
  have hnum : |d1 + d3 + d1 * d3 - d2| ≤ 4 / 2 ^ 53 := by
    have h13 : |d1 * d3| ≤ 1 / 2 ^ 53 := by
      rw [abs_mul]
      calc |d1| * |d3| ≤ 1 / 2 ^ 53 * 1 := mul_le_mul hd1 (le_trans hd3 (by norm_num)) (abs_nonneg _) (by norm_num)
        _ = 1 / 2 ^ 53 := by ring
    have a1 := abs_le.1 hd1
    have a3 := abs_le.1 hd3
    have a13 := abs_le.1 h13
    rw [abs_le]
    constructor <;> linarith [a1.1, a1.2, a3.1, a3.2, a13.1, a13.2, hd2'.1, hd2'.2]
  have hden : (1 : Rat) / 2 ≤ 1 + d2 := by norm_num at hd2'; linarith [hd2'.1]
  have hn' : |(n : Rat)| < 2 ^ 33 := by exact_mod_cast hn
  have hq : |d1 + d3 + d1 * d3 - d2| / (1 + d2) ≤ 8 / 2 ^ 53 := by
    rw [div_le_iff₀ hpos]
    calc |d1 + d3 + d1 * d3 - d2| ≤ 4 / 2 ^ 53 := hnum
      _ = 8 / 2 ^ 53 * (1 / 2) := by norm_num
      _ ≤ 8 / 2 ^ 53 * (1 + d2) := mul_le_mul_of_nonneg_left hden (by norm_num)
  calc |(n : Rat)| * (|d1 + d3 + d1 * d3 - d2| / (1 + d2)) ≤ 2 ^ 33 * (8 / 2 ^ 53) :=
        mul_le_mul hn'.le hq (div_nonneg (abs_nonneg _) hpos.le) (by norm_num)
    _ < 1 / 2 := by norm_num

/-- Decimal rounding of the float product recovers the exact decimal. -/
theorem count_round {n : Int} (hn : |n| < 2 ^ 33) {res : Rat} {d k : Nat} (hk : res * (10 ^ d : Nat) = k) (hk16 : k ≤ 2 ^ 10) :
    roundN (fmul n (rnd res)) d = rnd (n * res) := by
  obtain ⟨d2, hd2, h2⟩ := rnd_rel res
  unfold fmul roundN
  obtain ⟨d3, hd3, h3⟩ := rnd_rel (n * rnd res)
  have hp : ((10 ^ d : Nat) : Rat) ≠ 0 := by positivity
  have hx : rhe (rnd (n * rnd res) * (10 ^ d : Nat)) = n * k := by
    apply rhe_near
    rw [h3, h2]
    have e1 : (n : Rat) * (res * (1 + d2)) * (1 + d3) * (10 ^ d : Nat) - ((n * k : Int) : Rat) = n * k * (d2 + d3 + d2 * d3) := by
      push_cast at hk ⊢
      rw [← hk]; ring
    rw [e1, abs_mul, abs_mul]
    have h23 : |d2 * d3| ≤ 1 / 2 ^ 53 := by
      rw [abs_mul]
      calc |d2| * |d3| ≤ 1 / 2 ^ 53 * 1 := mul_le_mul hd2 (le_trans hd3 (by norm_num)) (abs_nonneg _) (by norm_num)
        _ = 1 / 2 ^ 53 := by ring
    have hs : |d2 + d3 + d2 * d3| ≤ 3 / 2 ^ 53 := by
      have a1 := abs_le.1 hd2
      have a3 := abs_le.1 hd3
      have a13 := abs_le.1 h23
      rw [abs_le]
      constructor <;> linarith [a1.1, a1.2, a3.1, a3.2, a13.1, a13.2]
    have hn' : |(n : Rat)| ≤ 2 ^ 33 := by exact_mod_cast hn.le
    have hk' : |(k : Rat)| ≤ 2 ^ 10 := by rw [abs_of_nonneg (by positivity)]; exact_mod_cast hk16
    calc |(n : Rat)| * |(k : Rat)| * |d2 + d3 + d2 * d3| ≤ 2 ^ 33 * 2 ^ 10 * (3 / 2 ^ 53) :=
          mul_le_mul (mul_le_mul hn' hk' (abs_nonneg _) (by norm_num)) hs (abs_nonneg _) (by norm_num)
      _ < 1 / 2 := by norm_num
  rw [hx]
  congr 1
  push_cast at hk ⊢
  rw [← hk]; field_simp

/-- The resolutions in use: how the float literal relates to the exact number it stands for. -/
inductive CountOK : (rounding : Nat) → Res → Rat → Bool → Prop
  | exact {r : Rat} : 0 < r → r ≤ 2 ^ 20 → rnd r = r → CountOK 0 (.f r) r false
  | decimal {d k : Nat} {q : Rat} : 0 < d → 0 < q → q ≤ 2 ^ 20 → q * (10 ^ d : Nat) = k → k ≤ 2 ^ 10 → CountOK d (.f (rnd q)) q false
  | whole {d R : Nat} : 0 < R → R ≤ 2 ^ 20 → CountOK d (.i R) R true

/-- The value read back for count `n`. -/
def countValue (q : Rat) (whole : Bool) (n : Int) : Val := if whole then .int (n * q.num) else .flt (rnd (n * q))

theorem CountOK.pos {d res q wh} (h : CountOK d res q wh) : 0 < q ∧ q ≤ 2 ^ 20 := by
  cases h with
  | exact h1 h2 _ => exact ⟨h1, h2⟩
  | decimal _ h1 h2 _ => exact ⟨h1, h2⟩
  | whole h1 h2 => exact ⟨by exact_mod_cast h1, by exact_mod_cast h2⟩

theorem rnd_nat {R : Nat} (h : R ≤ 2 ^ 20) : rnd (R : Rat) = R := by
  have := rnd_int (R : Int) (by rw [abs_of_nonneg (by omega)]; omega)
  exact_mod_cast this

theorem CountOK.val {d res q wh} (h : CountOK d res q wh) : res.val = rnd q := by
  cases h with
  | exact _ _ h3 => exact h3.symm
  | decimal => rfl
  | whole h1 h2 => exact (rnd_nat h2).symm

theorem CountOK.dec {d res q wh w unk} (h : CountOK d res q wh) {n : Int} (hn : |n| < 2 ^ 33)
    (hu : ¬ (unk = true ∧ n = (256 ^ w : Nat) - 1)) : countDecode w d res unk (.int n) = .ok (countValue q wh n) := by
  unfold countDecode
  simp only [asInt, if_neg hu]
  cases h with
  | exact _ _ h3 => simp [countValue, fmul]
  | decimal h0 _ _ hk hk' => simp only [if_neg (by omega : ¬ d = 0), count_round hn hk hk', countValue]; rfl
  | whole => simp [countValue]

theorem CountOK.num {d res q wh} (h : CountOK d res q wh) {n : Int} (hn : |n| < 2 ^ 33) :
    ∃ x, asNum (countValue q wh n) = some x ∧ x ≠ floatMax ∧ rhe (fdiv x (rnd q)) = n := by
  have hq := h.pos
  have hn' : |(n : Rat)| ≤ 2 ^ 33 := by exact_mod_cast hn.le
  have hbig : (2 : Rat) ^ 60 < floatMax := by decide +kernel
  have hbound : |(n : Rat) * q| ≤ 2 ^ 53 := by
    rw [abs_mul, abs_of_pos hq.1]
    calc |(n : Rat)| * q ≤ 2 ^ 33 * 2 ^ 20 := mul_le_mul hn' hq.2 hq.1.le (by norm_num)
      _ = 2 ^ 53 := by norm_num
  cases h with
  | exact h1 h2 h3 =>
    refine ⟨_, rfl, ?_, count_back hn h1⟩
    have h5 := rnd_le (by norm_num) hbound
    have h6 := (abs_le.1 hbound).2
    intro hh
    rw [hh] at h5
    norm_num at h5 h6 hbig; linarith
  | decimal h0 h1 h2 =>
    refine ⟨_, rfl, ?_, count_back hn h1⟩
    have h5 := rnd_le (by norm_num) hbound
    have h6 := (abs_le.1 hbound).2
    intro hh
    rw [hh] at h5
    norm_num at h5 h6 hbig; linarith
  | @whole d R h1 h2 =>
    have e : countValue (R : Rat) true n = .int (n * R) := by simp [countValue]
    refine ⟨((n * R : Int) : Rat), by rw [e]; rfl, ?_, ?_⟩
    · have := (abs_le.1 hbound).2
      push_cast
      intro hh; rw [hh] at this; norm_num at this hbig; linarith
    · rw [rnd_nat h2]
      unfold fdiv
      have hR : (R : Rat) ≠ 0 := by positivity
      have : ((n * R : Int) : Rat) / R = n := by push_cast; field_simp
      rw [this, rnd_int n (lt_trans hn (by norm_num)), rhe_int]

/-- A format carrying a bounded integer. -/
def IntFmt (G : Fmt UInt8) : Prop := ∀ ⦃u b w⦄, G u b w → ∃ n : Int, asInt u = some n ∧ w = .int n ∧ |n| < 2 ^ 33 ∧ G (.int n) b (.int n)

theorem intFmt_uint {n : Nat} (hn : n ≤ 4) : IntFmt (F.uint n) := by
  rintro u b w ⟨k, hu, hP, hl, hb, rfl⟩
  refine ⟨k, hu, rfl, ?_, k, rfl, hP, hl, hb, rfl⟩
  have h1 := leNat_lt b
  rw [hl, hb] at h1
  have h2 : (256 : Nat) ^ n ≤ 256 ^ 4 := Nat.pow_le_pow_right (by norm_num) hn
  rw [abs_of_nonneg (by omega)]
  norm_num at h2 ⊢; omega

theorem intFmt_sint {n : Nat} (h0 : 0 < n) (hn : n ≤ 4) : IntFmt (F.sint n) := by
  rintro u b w ⟨k, hu, hl, hb, rfl⟩
  refine ⟨k, hu, rfl, ?_, k, rfl, hl, hb, rfl⟩
  have h1 := sint_range h0 hl
  rw [hb] at h1
  have h2 : (256 : Nat) ^ n ≤ 256 ^ 4 := Nat.pow_le_pow_right (by norm_num) hn
  rw [abs_lt]
  norm_num at h2 ⊢; omega

/-- The reserved "unknown" count of a field of `w` bytes. -/
abbrev unkOf (w : Nat) (unknown : Bool) : Option Int := if unknown then some ((256 ^ w : Nat) - 1) else none

theorem lenEq_count {G : Fmt UInt8} {m} (h : LenEq G m) {unk q wh} : LenEq (F.count G unk q wh) m := by
  rintro u b v ⟨n, q, w, -, -, hg, -⟩; exact h hg

theorem countEncode_num {w : Nat} {res : Res} {unk : Bool} {u : Val} {q : Rat} (h : asNum u = some q) :
    countEncode w res unk u = if unk = true ∧ q = floatMax then .ok (.int ((256 ^ w : Nat) - 1)) else .ok (.int (rhe (fdiv q res.val))) := by
  unfold countEncode
  split
  · simp [asNum, asInt] at h
  · rw [h]

theorem meets_count {c : Con UInt8} {G : Fmt UInt8} (hc : Meets M e c G) (hG : IntFmt G) (w : Nat) {d : Nat} {res : Res} {q : Rat}
    {wh : Bool} (hok : CountOK d res q wh) (unk : Bool) :
    Meets M e (defaultCount c w d res unk) (F.count G (unkOf w unk) q wh) := by
  have hunk : ∀ n : Int, unkOf w unk = some n ↔ (unk = true ∧ n = (256 ^ w : Nat) - 1) := by
    intro n; unfold unkOf; cases unk <;> simp [eq_comm]
  have hsome : (unkOf w unk).isSome = unk := by unfold unkOf; cases unk <;> rfl
  have hdec : ∀ n : Int, |n| < 2 ^ 33 → countDecode w d res unk (.int n) =
      .ok (if unkOf w unk = some n then .flt floatMax else if wh then .int (n * q.num) else .flt (rnd (n * q))) := by
    intro n hn
    by_cases h : unk = true ∧ n = (256 ^ w : Nat) - 1
    · rw [if_pos ((hunk n).2 h)]
      unfold countDecode; simp only [asInt, if_pos h]
    · rw [if_neg (fun hh => h ((hunk n).1 hh)), hok.dec hn h]; rfl
  have hself : ∀ (n : Int) (b : List UInt8), |n| < 2 ^ 33 → G (.int n) b (.int n) →
      let v := if unkOf w unk = some n then .flt floatMax else if wh then .int (n * q.num) else .flt (rnd (n * q))
      F.count G (unkOf w unk) q wh v b v := by
    intro n b hn hg
    by_cases h : unkOf w unk = some n
    · simp only [if_pos h]
      exact ⟨n, floatMax, .int n, rfl, .inl ⟨h, rfl⟩, hg, by simp [h]⟩
    · simp only [if_neg h]
      obtain ⟨x, hx, hm, hr⟩ := hok.num hn
      exact ⟨n, x, .int n, hx, .inr ⟨fun hh => hm hh.2, hr⟩, hg, by simp [h]⟩
  have henc : ∀ {u b v}, F.count G (unkOf w unk) q wh u b v → ∃ n, countEncode w res unk u = .ok (.int n) ∧ |n| < 2 ^ 33 ∧
      G (.int n) b (.int n) ∧ v = if unkOf w unk = some n then .flt floatMax else if wh then .int (n * q.num) else .flt (rnd (n * q)) := by
    rintro u b v ⟨n, x, w', hx, hcase, hg, rfl⟩
    obtain ⟨m, hm, rfl, hlt, hg'⟩ := hG hg
    simp only [asInt, Option.some.injEq] at hm
    subst hm
    refine ⟨n, ?_, hlt, hg', rfl⟩
    rw [countEncode_num hx]
    rcases hcase with ⟨h1, h2⟩ | ⟨h1, h2⟩
    · have := (hunk n).1 h1
      rw [if_pos ⟨this.1, h2⟩, this.2]
    · rw [hsome] at h1
      rw [if_neg h1, hok.val, h2]
  constructor
  · intro u b v h L ctx hT
    obtain ⟨n, h1, h2, h3, rfl⟩ := henc h
    obtain ⟨r, hb⟩ := hc.enc h3 L ctx hT
    exact ⟨u, by simp [defaultCount, adapter, h1, hb]⟩
  · intro u b v h L ctx rest hr
    obtain ⟨n, h1, h2, h3, rfl⟩ := henc h
    simp only [defaultCount, adapter, hc.dec h3 L ctx rest hr, ok_bind, hdec n h2]
  · intro L ctx u b r hU h
    simp only [defaultCount, adapter, bind_ok] at h
    obtain ⟨x, hx, ⟨b', r'⟩, hb, h⟩ := h
    simp only [Except.ok.injEq, Prod.mk.injEq] at h
    obtain ⟨rfl, rfl⟩ := h
    have : ∃ y, asNum u = some y := by
      unfold countEncode at hx
      split at hx
      · cases hx
      · split at hx
        · rename_i y hy; exact ⟨y, hy⟩
        · cases hx
    obtain ⟨y, hy⟩ := this
    obtain ⟨w', hg⟩ := hc.sound hU hb
    rw [countEncode_num hy] at hx
    split at hx
    · rename_i hc'
      cases hx
      exact ⟨_, _, y, w', hy, .inl ⟨(hunk _).2 ⟨hc'.1, rfl⟩, hc'.2⟩, hg, rfl⟩
    · rename_i hc'
      cases hx
      rw [hok.val] at hg
      exact ⟨_, _, y, w', hy, .inr ⟨by rw [hsome]; exact hc', rfl⟩, hg, rfl⟩
  · intro _ u b v h
    obtain ⟨n, h1, h2, h3, rfl⟩ := henc h
    exact hself n b h2 h3
  · intro hS L ctx s v rest h
    simp only [defaultCount, adapter, bind_ok] at h
    obtain ⟨⟨v0, r0⟩, h0, v', h1, h2⟩ := h
    simp only [Except.ok.injEq, Prod.mk.injEq] at h2
    obtain ⟨rfl, rfl⟩ := h2
    obtain ⟨b, hb⟩ := hc.inv hS h0
    obtain ⟨n, -, rfl, hn, hg⟩ := hG hb
    rw [hdec n hn] at h1
    cases h1
    exact ⟨b, hself n b hn hg⟩
  · intro hX L ctx s v rest h
    simp only [defaultCount, adapter, bind_ok] at h
    obtain ⟨⟨v0, r0⟩, h0, v', h1, h2⟩ := h
    simp only [Except.ok.injEq, Prod.mk.injEq] at h2
    obtain ⟨rfl, rfl⟩ := h2
    obtain ⟨b, hsb, hb⟩ := hc.exact hX h0
    obtain ⟨n, -, rfl, hn, hg⟩ := hG hb
    rw [hdec n hn] at h1
    cases h1
    exact ⟨b, hsb, hself n b hn hg⟩
  · intro L ctx s h
    simp only [defaultCount, adapter, bind_err] at h
    rcases h with h | ⟨⟨v0, r0⟩, -, h | ⟨_, _, h⟩⟩
    · exact hc.nodiv _ _ _ h
    · unfold countDecode at h
      split at h
      · split at h
        · cases h
        · split at h <;> cases h
      · cases h
    · cases h

end
end BM
