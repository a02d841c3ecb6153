import Verif.MeetsGenerics
import Verif.Witness
import Mathlib.Tactic.Linarith
import Mathlib.Tactic.NormNum
import Mathlib.Tactic.FieldSimp
import Mathlib.Tactic.IntervalCases
/-!
# Transition times, delays and logarithmic fields (C14, C15, C18)
-/
namespace BM.Props
open F

/-! ## C14 -/

/-- Length of one step in seconds at each of the four resolutions. -/
def stepSeconds : Nat → Rat
  | 0 => 1 / 10
  | 1 => 1
  | 2 => 10
  | _ => 600

/-- Tolerance for binary64 rounding: one nanosecond. -/
abbrev nano : Rat := 1 / 10 ^ 9

theorem meets_tt (unk : Bool) : Meets ⟨False, False, False, False⟩ false (BM.transitionTime unk) (F.transitionTime (if unk then 63 else 62)) :=
  meets_transitionTime unk (fun h => h) (fun h => h)

theorem tt_parse (unk : Bool) (L : Lib) (ctx : Dict) (x : UInt8) (rest : List UInt8) :
    (BM.transitionTime unk).parse L ctx (x :: rest) = .ok (ttValue (x.toNat / 64) (x.toNat % 64), rest) := by
  have := ttBits_parse x L ctx rest
  rw [List.singleton_append] at this
  have hlt := x.toNat_lt
  simp only [BM.transitionTime, adapter, this, ok_bind]
  rw [ttDecode_eq (by omega)]
  rfl

/-- **C14 (decode).** Every byte decodes: the high two bits select the resolution, the low six bits count its steps. -/
theorem C14_decode (unk : Bool) (L : Lib) (ctx : Dict) (x : UInt8) (rest : List UInt8) :
    ∃ v q, (BM.transitionTime unk).parse L ctx (x :: rest) = .ok (v, rest) ∧ asNum v = some q ∧
      |q - (x.toNat % 64 : Nat) * stepSeconds (x.toNat / 64)| ≤ nano ∧ (64 ≤ x.toNat → q = (x.toNat % 64 : Nat) * stepSeconds (x.toNat / 64)) := by
  have key : ∀ x < 256, ∃ q, asNum (ttValue (x / 64) (x % 64)) = some q ∧ (q - (x % 64 : Nat) * stepSeconds (x / 64) ≤ nano ∧
      -nano ≤ q - (x % 64 : Nat) * stepSeconds (x / 64)) ∧ (64 ≤ x → q = (x % 64 : Nat) * stepSeconds (x / 64)) := by
    have : ∀ x < 256, ((asNum (ttValue (x / 64) (x % 64))).map fun q => decide (q - (x % 64 : Nat) * stepSeconds (x / 64) ≤ nano ∧
      -nano ≤ q - (x % 64 : Nat) * stepSeconds (x / 64) ∧ (64 ≤ x → q = (x % 64 : Nat) * stepSeconds (x / 64)))) = some true := by decide +kernel
    intro x hx
    have := this x hx
    rw [Option.map_eq_some_iff] at this
    obtain ⟨q, h1, h2⟩ := this
    rw [decide_eq_true_eq] at h2
    exact ⟨q, h1, ⟨h2.1, h2.2.1⟩, h2.2.2⟩
  obtain ⟨q, h1, h2, h3⟩ := key x.toNat x.toNat_lt
  exact ⟨_, q, tt_parse _ _ _ _ _, h1, abs_le.2 ⟨h2.2, h2.1⟩, h3⟩

theorem ttStep_near : ∀ r < 4, stepSeconds r ≤ ttStep r ∧ ttStep r ≤ stepSeconds r + 1 / 10 ^ 16 ∧
    63 * stepSeconds r - nano < fmul (ttStep r) 63 ∧ fmul (ttStep r) 63 < 63 * stepSeconds r + nano := by decide +kernel

theorem reach3 : fmul (ttStep 3) 63 = 37800 := by decide +kernel

theorem step_pos (r : Nat) : 1 / 10 ≤ stepSeconds r ∧ stepSeconds r ≤ 600 := by
  unfold stepSeconds; split <;> norm_num

theorem ftrunc_bounds {x : Rat} {k : Nat} (h : ftrunc x = (k : Int)) : x < k + 1 ∧ (k : Rat) - 1 < x ∧ (0 ≤ x → (k : Rat) ≤ x) := by
  unfold ftrunc at h
  rw [rfloor_eq, rfloor_eq] at h
  split at h
  · have h1 := Int.floor_le x
    have h2 := Int.lt_floor_add_one x
    rw [h] at h1 h2
    push_cast at h1 h2
    exact ⟨h2, by linarith, fun _ => h1⟩
  · rename_i h0
    have h0 : x < 0 := not_le.1 h0
    have h2 := Int.lt_floor_add_one (-x)
    have h3 : 0 ≤ ⌊-x⌋ := Int.floor_nonneg.2 (by linarith)
    have : k = 0 := by omega
    subst this
    have h4 : ⌊-x⌋ = 0 := by omega
    rw [h4] at h2
    push_cast at h2 ⊢
    exact ⟨by linarith, by linarith, fun h => by linarith⟩

theorem fdiv_near {q s : Rat} (_ : 0 < s) {B : Rat} (h : |q / s| ≤ B) : |fdiv q s - q / s| ≤ B / 2 ^ 53 := by
  unfold fdiv
  refine (rnd_err _).trans ?_
  gcongr

theorem rnd_bound {q B : Rat} (h : |rnd q| ≤ B) : |q| ≤ 2 * B := by
  have h1 := rnd_err q
  have h2 := abs_sub_abs_le_abs_sub q (rnd q)
  rw [abs_sub_comm] at h2
  have : |q| / 2 ^ 53 ≤ |q| / 2 := by gcongr; norm_num
  linarith

/-- The quotient and the exact request, related through the computed step. -/
theorem tt_close {q : Rat} {r k : Nat} (hr : r < 4) (hk : k ≤ 63) (h : ftrunc (fdiv q (ttStep r)) = (k : Int)) :
    |q - fdiv q (ttStep r) * stepSeconds r| ≤ nano / 2 := by
  obtain ⟨s1, s2, -, -⟩ := ttStep_near r hr
  have sp := step_pos r
  have hs : 0 < ttStep r := by linarith
  obtain ⟨a1, a2, -⟩ := ftrunc_bounds h
  have hkq : (k : Rat) ≤ 63 := by exact_mod_cast hk
  have hk0 : (0 : Rat) ≤ k := by positivity
  have hx : |fdiv q (ttStep r)| ≤ 64 := by rw [abs_le]; constructor <;> linarith
  have ht : |q / ttStep r| ≤ 128 := by have := rnd_bound hx; linarith
  have hd := fdiv_near hs ht
  set t := q / ttStep r with htdef
  have hq : q = t * ttStep r := by rw [htdef]; field_simp
  set x := fdiv q (ttStep r) with hxdef
  rw [show q - x * stepSeconds r = (t - x) * stepSeconds r + t * (ttStep r - stepSeconds r) by rw [hq]; ring]
  refine (abs_add_le _ _).trans ?_
  rw [abs_mul, abs_mul, abs_sub_comm t x, abs_of_nonneg (show 0 ≤ stepSeconds r by linarith), abs_of_nonneg (show 0 ≤ ttStep r - stepSeconds r by linarith)]
  have e1 : |x - t| * stepSeconds r ≤ 128 / 2 ^ 53 * 600 := by
    refine mul_le_mul hd sp.2 (by linarith) (by positivity)
  have e2 : |t| * (ttStep r - stepSeconds r) ≤ 128 * (1 / 10 ^ 16) := by
    refine mul_le_mul ht (by linarith) (by linarith) (by positivity)
  refine (add_le_add e1 e2).trans ?_
  norm_num

/-- **C14 (encode).** What is emitted is one byte at the finest resolution that reaches the requested time with 63 steps; the
time it stands for is less than one step from the request (and not above it, for a non-negative request), up to float rounding;
63 steps ("unknown") are only emitted where allowed. -/
theorem C14_encode {unk : Bool} {L : Lib} {ctx : Dict} {u r : Val} {b : List UInt8}
    (h : (BM.transitionTime unk).build L ctx u = .ok (b, r)) :
    ∃ q R K, asNum u = some q ∧ R < 4 ∧ K ≤ (if unk then 63 else 62) ∧ b = [UInt8.ofNat (64 * R + K)] ∧
      q < 63 * stepSeconds R + nano ∧ (∀ R' < R, 63 * stepSeconds R' - nano < q) ∧
      |q - K * stepSeconds R| < stepSeconds R + nano ∧ (0 ≤ q → K * stepSeconds R ≤ q + nano) := by
  obtain ⟨v, q, R, K, hu, hR, h1, h2, h3, h4, rfl, -⟩ := (meets_tt unk).sound False.elim h
  have hK := rhe_ge_of_trunc h4 h3
  have hK63 : K ≤ 63 := by split at hK <;> omega
  obtain ⟨s1, s2, s3, s4⟩ := ttStep_near R hR
  have sp := step_pos R
  obtain ⟨c1, c2⟩ := abs_le.1 (tt_close hR hK63 h4)
  obtain ⟨a1, a2, a3⟩ := ftrunc_bounds h4
  refine ⟨q, R, K, hu, hR, hK, rfl, by linarith, ?_, ?_, ?_⟩
  · intro R' h'
    have := h2 R' h'
    have := (ttStep_near R' (by omega)).2.2.1
    linarith
  · have m1 := mul_lt_mul_of_pos_right a1 (by linarith : 0 < stepSeconds R)
    have m2 := mul_lt_mul_of_pos_right a2 (by linarith : 0 < stepSeconds R)
    have hn : (0 : Rat) < nano := by norm_num
    generalize nano = n at *
    rw [abs_lt]; constructor <;> nlinarith
  · intro hq
    have hx : 0 ≤ fdiv q (ttStep R) ∨ K = 0 := by
      by_cases hx : 0 ≤ fdiv q (ttStep R)
      · exact .inl hx
      · right
        unfold ftrunc at h4
        rw [if_neg hx] at h4
        have : 0 ≤ (-fdiv q (ttStep R)).floor := by rw [rfloor_eq]; exact Int.floor_nonneg.2 (by linarith)
        omega
    have hn : (0 : Rat) < nano := by norm_num
    rcases hx with hx | rfl
    · have := mul_le_mul_of_nonneg_right (a3 hx) (by linarith : 0 ≤ stepSeconds R)
      generalize nano = n at *
      linarith
    · simp; linarith

theorem rhe_ge {x : Rat} {n : Int} (h : (n : Rat) - 1 / 2 < x) : n ≤ rhe x := by
  have h1 := (abs_le.1 (rhe_err x)).1
  have : (n : Rat) - 1 < rhe x := by linarith
  have : n - 1 < rhe x := by exact_mod_cast this
  omega
theorem rhe_le {x : Rat} {n : Int} (h : x < (n : Rat) + 1 / 2) : rhe x ≤ n := by
  have h1 := (abs_le.1 (rhe_err x)).2
  have : (rhe x : Rat) < n + 1 := by linarith
  have : rhe x < n + 1 := by exact_mod_cast this
  omega

/-- **C14 (accepted).** A non-negative time up to 63 steps of 10 minutes is accepted when "unknown" is allowed; otherwise it must
stay below 62.5 steps of the finest resolution that reaches it. -/
theorem C14_accept (unk : Bool) (L : Lib) (ctx : Dict) {u : Val} {q : Rat} {R : Nat} (hu : asNum u = some q) (h0 : 0 ≤ q) (hR : R < 4)
    (hlo : ∀ R' < R, 63 * stepSeconds R' + nano ≤ q) (hhi : q ≤ (if unk then 63 else 125 / 2) * stepSeconds R - nano) :
    ∃ b r, (BM.transitionTime unk).build L ctx u = .ok (b, r) := by
  obtain ⟨s1, s2, s3, s4⟩ := ttStep_near R hR
  have sp := step_pos R
  have hs : 0 < ttStep R := by linarith
  have hn : (0 : Rat) < nano := by norm_num
  have hq63 : q ≤ 63 * stepSeconds R - nano := by
    refine hhi.trans ?_
    have : (if unk then 63 else 125 / 2 : Rat) ≤ 63 := by split <;> norm_num
    have := mul_le_mul_of_nonneg_right this (show 0 ≤ stepSeconds R by linarith)
    linarith
  have ht0 : 0 ≤ q / ttStep R := by positivity
  have hle : q / ttStep R ≤ (q / stepSeconds R) := by gcongr; linarith
  have hst : q / stepSeconds R ≤ (if unk then 63 else 125 / 2) - nano / stepSeconds R := by
    rw [div_le_iff₀ (by linarith), sub_mul, div_mul_cancel₀ _ (by linarith)]; exact hhi
  have hnn : nano / 600 ≤ nano / stepSeconds R := div_le_div_of_nonneg_left hn.le (by linarith) sp.2
  have h64 : |q / ttStep R| ≤ 63 := by
    rw [abs_of_nonneg ht0]
    have : (if unk then 63 else 125 / 2 : Rat) ≤ 63 := by split <;> norm_num
    linarith
  have hd := abs_le.1 (fdiv_near hs h64)
  have hx : fdiv q (ttStep R) < (if unk then 63 else 125 / 2) := by
    have : (63 : Rat) / 2 ^ 53 < nano / 600 := by norm_num
    linarith
  have hrhe : rhe (fdiv q (ttStep R)) ≤ ((if unk then 63 else 62 : Nat) : Int) := by
    refine rhe_le ?_
    refine hx.trans_le ?_
    cases unk <;> norm_num
  obtain ⟨k, hk⟩ : ∃ k : Nat, ftrunc (fdiv q (ttStep R)) = k := by
    refine ⟨(ftrunc (fdiv q (ttStep R))).toNat, ?_⟩
    have : 0 ≤ ftrunc (fdiv q (ttStep R)) := by
      unfold ftrunc
      have h0 : 0 ≤ fdiv q (ttStep R) := by
        by_cases hz : q = 0
        · subst hz; simp [fdiv, rnd]
        · unfold fdiv
          have := (abs_le.1 (rnd_err (q / ttStep R))).1
          have : |q / ttStep R| / 2 ^ 53 ≤ q / ttStep R := by
            rw [abs_of_nonneg ht0]; exact div_le_self ht0 (by norm_num)
          linarith
      rw [if_pos h0, rfloor_eq]
      exact Int.floor_nonneg.2 h0
    omega
  obtain ⟨r, hr⟩ := (meets_tt unk).enc (u := u) ⟨q, R, k, hu, hR, by linarith, fun R' h' => by
    have := (ttStep_near R' (by omega)).2.2.2; have := hlo R' h'; linarith, hrhe, hk, rfl, rfl⟩ L ctx False.elim
  exact ⟨_, r, hr⟩

/-- **C14 (rejected).** More than 63 steps of 10 minutes; and, unless "unknown" is allowed, the last half step of each
resolution. -/
theorem C14_reject {unk : Bool} {L : Lib} {ctx : Dict} {u : Val} {q : Rat} (hu : asNum u = some q)
    (h : 37800 < q ∨ (unk = false ∧ ∃ R < 4, 125 / 2 * stepSeconds R + nano ≤ q ∧ q ≤ 63 * stepSeconds R - nano)) :
    ∃ e, (BM.transitionTime unk).build L ctx u = .error e := by
  cases hb : (BM.transitionTime unk).build L ctx u with
  | error e => exact ⟨e, rfl⟩
  | ok br =>
    exfalso
    obtain ⟨b, r⟩ := br
    obtain ⟨v, q', R, K, hu', hR, h1, h2, h3, h4, -⟩ := (meets_tt unk).sound False.elim hb
    rw [hu] at hu'; cases hu'
    have hle : q ≤ 37800 := by
      rw [← reach3]
      refine h1.trans ?_
      have : ∀ r < 4, fmul (ttStep r) 63 ≤ fmul (ttStep 3) 63 := by decide +kernel
      exact this R hR
    rcases h with h | ⟨rfl, R', hR', h5, h6⟩
    · linarith
    · have sp := step_pos R
      have hK := rhe_ge_of_trunc h4 h3
      have hn : (0 : Rat) < nano := by norm_num
      have hRR : R = R' := by
        have hgap : ∀ r < 4, ∀ r' < 4, r < r' → fmul (ttStep r) 63 < 125 / 2 * stepSeconds r' := by decide +kernel
        by_contra hne
        rcases Nat.lt_or_gt_of_ne hne with hlt | hgt
        · have := hgap R hR R' hR' hlt; linarith
        · have := h2 R' hgt; have := (ttStep_near R' hR').2.2.1; linarith
      subst hRR
      have hc := (abs_le.1 (tt_close hR (by simp at hK; omega) h4)).2
      have : (62 : Rat) + 1 / 2 < fdiv q (ttStep R) := by
        have : (125 / 2 : Rat) * stepSeconds R < fdiv q (ttStep R) * stepSeconds R := by linarith
        have := lt_of_mul_lt_mul_right this (by linarith)
        linarith
      have := rhe_ge (n := 63) (x := fdiv q (ttStep R)) (by push_cast; linarith)
      simp at h3; omega

/-- What the byte becomes when its value is encoded again. -/
def ttAgain (max x : Nat) : Option Nat :=
  match asNum (ttValue (x / 64) (x % 64)) with
  | some q =>
    match ttEncodeLoop max q ttResolutions with
    | .ok (.dict [("steps", .int k), ("resolution", .int r)]) => if 0 ≤ k ∧ k < 64 ∧ 0 ≤ r ∧ r < 4 then some (64 * r.toNat + k.toNat) else none
    | _ => none
  | none => none

theorem build_of_again {max x y : Nat} {unk : Bool} (hmax : max = if unk then 63 else 62) (h : ttAgain max x = some y) (L : Lib) (ctx : Dict) :
    ∃ r, (BM.transitionTime unk).build L ctx (ttValue (x / 64) (x % 64)) = .ok ([UInt8.ofNat y], r) := by
  unfold ttAgain at h
  split at h
  · rename_i q hq
    split at h
    · rename_i k r he
      obtain ⟨hk, hk4, hr, hr4, rfl⟩ : 0 ≤ k ∧ k < 64 ∧ 0 ≤ r ∧ r < 4 ∧ 64 * r.toNat + k.toNat = y := by
        split at h
        · rename_i hh; obtain ⟨h1, h2, h3, h4⟩ := hh; exact ⟨h1, h2, h3, h4, by simpa using h⟩
        · simp at h
      obtain ⟨k, rfl⟩ := Int.eq_ofNat_of_zero_le hk
      obtain ⟨r, rfl⟩ := Int.eq_ofNat_of_zero_le hr
      have hM : Meets ⟨False, True, True, True⟩ false transitionTimeBits _ := meets_ttBits trivial
      obtain ⟨r', hb⟩ := hM.enc (ttBits_fmt (d := [("steps", .int k), ("resolution", .int r)]) (by omega : r < 4) (by omega : k < 64) rfl rfl rfl rfl) L ctx (by simp)
      refine ⟨ttValue (x / 64) (x % 64), ?_⟩
      simp only [BM.transitionTime, adapter, ttEncode_num hq, ← hmax, he, ok_bind, hb]
      rfl
    · simp at h
  · simp at h

/-- **C14 (re-encoding).** Where "unknown" is allowed, every byte except 43 steps of 100 ms re-encodes to a byte of the same
value; that one becomes 42 steps. -/
theorem C14_again (L L' : Lib) (ctx ctx' : Dict) (x : UInt8) {v : Val} {rest : List UInt8}
    (h : (BM.transitionTime true).parse L ctx (x :: rest) = .ok (v, rest)) :
    ∃ y r w, (BM.transitionTime true).build L ctx v = .ok ([y], r) ∧
      (BM.transitionTime true).parse L' ctx' [y] = .ok (w, []) ∧
      (x ≠ 43 → asNum w = asNum v) ∧ (x = 43 → y = 42) ∧ (x ≠ 43 → x.toNat < 64 ∨ 7 ≤ x.toNat % 64 → y = x) := by
  have key : ∀ x < 256, ∃ y, ttAgain 63 x = some y ∧ y < 256 ∧
      (x ≠ 43 → asNum (ttValue (y / 64) (y % 64)) = asNum (ttValue (x / 64) (x % 64))) ∧ (x = 43 → y = 42) ∧
      (x ≠ 43 → x < 64 ∨ 7 ≤ x % 64 → y = x) := by
    have : ∀ x < 256, ((ttAgain 63 x).map fun y => decide (y < 256 ∧
      (x ≠ 43 → asNum (ttValue (y / 64) (y % 64)) = asNum (ttValue (x / 64) (x % 64))) ∧ (x = 43 → y = 42) ∧
      (x ≠ 43 → x < 64 ∨ 7 ≤ x % 64 → y = x))) = some true := by decide +kernel
    intro x hx
    have := this x hx
    rw [Option.map_eq_some_iff] at this
    obtain ⟨y, h1, h2⟩ := this
    rw [decide_eq_true_eq] at h2
    exact ⟨y, h1, h2⟩
  rw [tt_parse] at h
  cases h
  obtain ⟨y, h1, h2, h3, h4, h5⟩ := key x.toNat x.toNat_lt
  obtain ⟨r, hr⟩ := build_of_again (unk := true) (by rfl) h1 L ctx
  refine ⟨_, r, _, hr, tt_parse _ _ _ _ _, ?_, ?_, ?_⟩
  · intro hx
    have : (UInt8.ofNat y).toNat = y := by simpa using h2
    rw [this]; exact h3 (fun e => hx (by apply UInt8.toNat_inj.1; rw [e]; rfl))
  · rintro rfl; rw [h4 rfl]; rfl
  · intro e1 e2; rw [h5 (fun e => e1 (by apply UInt8.toNat_inj.1; rw [e]; rfl)) e2]; simp

/-- **C14 (re-encoding, "unknown" not allowed).** The same, except that 63 steps are accepted when received but cannot be
encoded. -/
theorem C14_again_strict (L : Lib) (ctx : Dict) (x : UInt8) {v : Val} {rest : List UInt8}
    (h : (BM.transitionTime false).parse L ctx (x :: rest) = .ok (v, rest)) :
    (x.toNat % 64 ≠ 63 → ∃ y r, (BM.transitionTime false).build L ctx v = .ok ([y], r) ∧ (x = 43 → y = 42) ∧
      ∀ w, x ≠ 43 → (BM.transitionTime false).parse L ctx [y] = .ok (w, []) → asNum w = asNum v) ∧
    (x.toNat % 64 = 63 → ∃ e, (BM.transitionTime false).build L ctx v = .error e) := by
  have key : ∀ x < 256, x % 64 ≠ 63 → ∃ y, ttAgain 62 x = some y ∧ y < 256 ∧
      (x ≠ 43 → asNum (ttValue (y / 64) (y % 64)) = asNum (ttValue (x / 64) (x % 64))) ∧ (x = 43 → y = 42) := by
    have : ∀ x < 256, x % 64 ≠ 63 → ((ttAgain 62 x).map fun y => decide (y < 256 ∧
      (x ≠ 43 → asNum (ttValue (y / 64) (y % 64)) = asNum (ttValue (x / 64) (x % 64))) ∧ (x = 43 → y = 42))) = some true := by decide +kernel
    intro x hx hx'
    have := this x hx hx'
    rw [Option.map_eq_some_iff] at this
    obtain ⟨y, h1, h2⟩ := this
    rw [decide_eq_true_eq] at h2
    exact ⟨y, h1, h2⟩
  have bad : ∀ x < 256, x % 64 = 63 → ((asNum (ttValue (x / 64) (x % 64))).map fun q =>
      (ttEncodeLoop 62 q ttResolutions).toOption.isNone) = some true := by decide +kernel
  rw [tt_parse] at h
  cases h
  constructor
  · intro hx
    obtain ⟨y, h1, h2, h3, h4⟩ := key x.toNat x.toNat_lt hx
    obtain ⟨r, hr⟩ := build_of_again (unk := false) (by rfl) h1 L ctx
    refine ⟨_, r, hr, ?_, ?_⟩
    · rintro rfl; rw [h4 rfl]; rfl
    · intro w hx' hw
      rw [tt_parse] at hw; cases hw
      have : (UInt8.ofNat y).toNat = y := by simpa using h2
      rw [this]; exact h3 (fun e => hx' (by apply UInt8.toNat_inj.1; rw [e]; rfl))
  · intro hx
    have := bad x.toNat x.toNat_lt hx
    rw [Option.map_eq_some_iff] at this
    obtain ⟨q, h1, h2⟩ := this
    cases he : ttEncodeLoop 62 q ttResolutions with
    | ok w => rw [he] at h2; simp [Except.toOption] at h2
    | error e =>
      refine ⟨e, ?_⟩
      have he' : ttEncode (if false = true then 63 else 62) (ttValue (x.toNat / 64) (x.toNat % 64)) = .error e := by
        rw [ttEncode_num h1]; exact he
      simp only [BM.transitionTime, adapter]
      rw [he']; rfl

example : asNum (.flt (5 / 2)) = some (5 / 2) ∧ (0 : Rat) ≤ 5 / 2 ∧ (5 / 2 : Rat) ≤ (if false then 63 else 125 / 2) * stepSeconds 0 - nano :=
  ⟨rfl, by norm_num, by norm_num [stepSeconds]⟩
/-- 2.5 s is sent as 25 steps of 100 ms. -/
example : ∃ r, (BM.transitionTime false).build strictLib [] (.flt (5 / 2)) = .ok ([25], r) := ⟨.flt (5 / 2), by with_unfolding_all rfl⟩

/-! ## C15 -/

theorem meets_dly : Meets ⟨False, False, False, False⟩ false BM.delay F.delay := meets_delay (fun h => h) (fun h => h)

theorem delay_parse (L : Lib) (ctx : Dict) (x : UInt8) (rest : List UInt8) :
    BM.delay.parse L ctx (x :: rest) = .ok (.flt (rnd (x.toNat * (5 / 1000) : Rat)), rest) := by
  have hlt := x.toNat_lt
  have h : takeN 1 (x :: rest) = .ok ([x], rest) := by simp [takeN]
  simp only [BM.delay, adapter, uintLE, h, ok_bind, delayDecode, asInt, fdiv]
  simp only [leNat]
  rw [show (((x.toNat + 256 * 0 : Nat) : Int) : Rat) / 200 = x.toNat * (5 / 1000) by push_cast; ring]

/-- **C15 (decode).** Byte `n` decodes to the float nearest to `n` times 5 ms. -/
theorem C15_decode (L : Lib) (ctx : Dict) (x : UInt8) (rest : List UInt8) :
    BM.delay.parse L ctx (x :: rest) = .ok (.flt (rnd (x.toNat * (5 / 1000) : Rat)), rest) := delay_parse L ctx x rest

/-- The bytes whose decoded delay re-encodes one too low, because `int` truncates a product just below the integer. -/
def delayExceptions : List Nat := [29, 57, 58, 113, 114, 115, 116, 201, 203, 205, 207, 226, 228, 230, 232, 251, 253, 255]

/-- **C15 (re-encoding).** A decoded delay re-encodes to the same byte, except for 18 bytes where it re-encodes to the byte
below. -/
theorem C15_again (L L' : Lib) (ctx ctx' : Dict) (x : UInt8) {v : Val} {rest : List UInt8} (h : BM.delay.parse L ctx (x :: rest) = .ok (v, rest)) :
    ∃ r, BM.delay.build L' ctx' v = .ok ([if x.toNat ∈ delayExceptions then x - 1 else x], r) := by
  have key : ∀ n < 256, ftrunc (fmul (rnd ((n : Nat) * (5 / 1000) : Rat)) 200) = ((if n ∈ delayExceptions then n - 1 else n : Nat) : Int) := by decide +kernel
  rw [delay_parse] at h
  cases h
  have hlt := x.toNat_lt
  have hk := key x.toNat hlt
  have hm : (if x.toNat ∈ delayExceptions then x.toNat - 1 else x.toNat : Nat) < 256 := by split <;> omega
  obtain ⟨r, hr⟩ := meets_dly.enc (u := .flt (rnd (x.toNat * (5 / 1000) : Rat))) ⟨_, _, rfl, hk, hm, rfl, rfl⟩ L' ctx' False.elim
  refine ⟨r, ?_⟩
  rw [hr]
  congr 3
  split
  · rename_i hx
    have h0 : 1 ≤ x.toNat := by
      have : ∀ n ∈ delayExceptions, 1 ≤ n := by decide
      exact this _ hx
    apply UInt8.toNat_inj.1
    rw [UInt8.toNat_sub_of_le _ _ (by rw [UInt8.le_iff_toNat_le]; exact h0)]
    simp only [UInt8.toNat_ofNat']
    have : (1 : UInt8).toNat = 1 := rfl
    rw [this]; omega
  · simp

theorem fmul_near {q : Rat} {B : Rat} (h : |q * 200| ≤ B) : |fmul q 200 - q * 200| ≤ B / 2 ^ 53 := by
  unfold fmul
  refine (rnd_err _).trans ?_
  gcongr

/-- **C15 (encode).** The byte emitted is within 5 ms of the requested delay, and not above it if that is not negative (up to
float rounding). -/
theorem C15_encode {L : Lib} {ctx : Dict} {u r : Val} {b : List UInt8} (h : BM.delay.build L ctx u = .ok (b, r)) :
    ∃ q n, asNum u = some q ∧ n < 256 ∧ b = [UInt8.ofNat n] ∧ |q - n * (5 / 1000)| < 5 / 1000 + nano ∧ (0 ≤ q → n * (5 / 1000) ≤ q + nano) := by
  obtain ⟨v, q, n, hu, h1, h2, rfl, -⟩ := meets_dly.sound False.elim h
  refine ⟨q, n, hu, h2, rfl, ?_⟩
  obtain ⟨a1, a2, a3⟩ := ftrunc_bounds h1
  have hn : (n : Rat) ≤ 255 := by exact_mod_cast (by omega : n ≤ 255)
  have hn0 : (0 : Rat) ≤ n := by positivity
  have hx : |fmul q 200| ≤ 256 := by rw [abs_le]; constructor <;> linarith
  obtain ⟨d1, d2⟩ := abs_le.1 (fmul_near (rnd_bound hx))
  have : (2 * 256 : Rat) / 2 ^ 53 < nano := by norm_num
  constructor
  · rw [abs_lt]; constructor <;> linarith
  · intro hq
    by_cases hz : 0 ≤ fmul q 200
    · have := a3 hz; linarith
    · have : n = 0 := by
        unfold ftrunc at h1
        rw [if_neg hz] at h1
        have : 0 ≤ (-fmul q 200).floor := by rw [rfloor_eq]; exact Int.floor_nonneg.2 (by linarith)
        omega
      subst this
      simp; linarith

/-- **C15 (range).** Delays from 0 to below 256 units of 5 ms are accepted, others are rejected (up to float rounding at the two
ends). -/
theorem C15_range (L : Lib) (ctx : Dict) {u : Val} {q : Rat} (hu : asNum u = some q) :
    (0 ≤ q ∧ q ≤ 256 * (5 / 1000) - nano → ∃ b r, BM.delay.build L ctx u = .ok (b, r)) ∧
    (q ≤ -(5 / 1000) - nano ∨ 256 * (5 / 1000) + nano ≤ q → ∃ e, BM.delay.build L ctx u = .error e) := by
  constructor
  · rintro ⟨h0, h1⟩
    have hB : |q * 200| ≤ 256 := by rw [abs_le]; constructor <;> linarith [show (0 : Rat) < nano by norm_num]
    obtain ⟨d1, d2⟩ := abs_le.1 (fmul_near hB)
    have hx0 : 0 ≤ fmul q 200 := by
      unfold fmul
      have := (abs_le.1 (rnd_err (q * 200))).1
      have : |q * 200| / 2 ^ 53 ≤ q * 200 := by
        rw [abs_of_nonneg (by linarith)]; exact div_le_self (by linarith) (by norm_num)
      linarith
    have hlt : fmul q 200 < 256 := by
      have : (256 : Rat) / 2 ^ 53 < 200 * nano := by norm_num
      linarith
    obtain ⟨n, hn⟩ : ∃ n : Nat, ftrunc (fmul q 200) = n := by
      refine ⟨(ftrunc (fmul q 200)).toNat, ?_⟩
      have : 0 ≤ ftrunc (fmul q 200) := by
        unfold ftrunc
        rw [if_pos hx0, rfloor_eq]
        exact Int.floor_nonneg.2 hx0
      omega
    have hn256 : n < 256 := by
      have := (ftrunc_bounds hn).2.2 hx0
      have : (n : Rat) < 256 := by linarith
      exact_mod_cast this
    obtain ⟨r, hr⟩ := meets_dly.enc (u := u) ⟨q, n, hu, hn, hn256, rfl, rfl⟩ L ctx False.elim
    exact ⟨_, r, hr⟩
  · intro h
    cases hb : BM.delay.build L ctx u with
    | error e => exact ⟨e, rfl⟩
    | ok br =>
      exfalso
      obtain ⟨b, r⟩ := br
      obtain ⟨q', n, hu', hn, -, h1, h2⟩ := C15_encode hb
      rw [hu] at hu'; cases hu'
      obtain ⟨c1, c2⟩ := abs_lt.1 h1
      have hn' : (n : Rat) ≤ 255 := by exact_mod_cast (by omega : n ≤ 255)
      have hn0 : (0 : Rat) ≤ n := by positivity
      rcases h with h | h <;> linarith

example : ∃ r, BM.delay.build strictLib [] (.flt (1 / 4)) = .ok ([50], r) := ⟨.flt (1 / 4), by with_unfolding_all rfl⟩

/-! ## C18 -/

/-- **C18 (decode).** -/
theorem C18_decode [Platform] (max : Nat) (inf : Bool) (L : Lib) (ctx : Dict) (x : UInt8) (rest : List UInt8) :
    (logAdapter max inf).parse L ctx (x :: rest) =
      if x = 0 then .ok (.int 0, rest)
      else if x = 255 ∧ inf = true then .ok (.inf, rest)
      else if x.toNat ≤ max then .ok (.int ((2 ^ (x.toNat - 1) : Nat) : Int), rest)
      else .error .validation := by
  have h : takeN 1 (x :: rest) = .ok ([x], rest) := by simp [takeN]
  have e0 : (x.toNat : Int) = 0 ↔ x = 0 := by
    rw [← UInt8.toNat_inj]; simp
  have e255 : (x.toNat : Int) = 255 ↔ x = 255 := by
    rw [← UInt8.toNat_inj, show (255 : UInt8).toNat = 255 by rfl]; omega
  simp only [logAdapter, adapter, uintLE, h, ok_bind, logDecode, asInt, leNat, Nat.mul_zero, Nat.add_zero, e0, e255]
  split
  · rfl
  · split
    · rfl
    · rename_i h0 _
      have : x.toNat ≠ 0 := fun h => h0 (e0.1 (by exact_mod_cast h))
      by_cases hm : x.toNat ≤ max
      · rw [if_neg (by omega), if_pos hm]
        simp only [ok_bind]
        rw [show ((x.toNat : Int) - 1).toNat = x.toNat - 1 by omega]; push_cast; rfl
      · rw [if_pos (by omega), if_neg hm]; rfl

/-- The value the encoder computes for an integer of known logarithm. -/
theorem log_value [Platform] {v k : Nat} (hk : k < 17) (h1 : 2 ^ k ≤ v) (h2 : v < 2 ^ (k + 1)) :
    ∃ l, Platform.mlog (v : Rat) 2 = .ok l ∧ ftrunc (fadd l 1) = ((k + 1 : Nat) : Int) ∧
      (v = 2 ^ k → fadd l 1 = ((k + 1 : Nat) : Rat)) ∧ (v ≠ 2 ^ k → ((k + 1 : Nat) : Rat) < fadd l 1) ∧ fadd l 1 < ((k + 2 : Nat) : Rat) := by
  have hkq : (k : Rat) ≤ 16 := by exact_mod_cast (by omega : k ≤ 16)
  have hk0 : (0 : Rat) ≤ k := by positivity
  by_cases he : v = 2 ^ k
  · subst he
    have hr : fadd (k : Rat) 1 = ((k + 1 : Nat) : Rat) := by
      unfold fadd
      have := rnd_int ((k + 1 : Nat) : Int) (by rw [abs_of_nonneg (by omega)]; omega)
      push_cast at this ⊢; exact this
    refine ⟨k, Platform.log_pow k (by omega), ?_, fun _ => hr, fun h => absurd rfl h, ?_⟩
    · rw [hr]; exact ftrunc_int ((k + 1 : Nat) : Int)
    · rw [hr]; push_cast; linarith
  · obtain ⟨l, hl, h3, h4⟩ := Platform.log_between k v hk (by omega) h2
    have hB : |l + 1| ≤ 18 := by
      rw [abs_le]
      have : (0 : Rat) < 1 / 2 ^ 20 := by norm_num
      constructor <;> linarith
    have hd : |fadd l 1 - (l + 1)| ≤ 18 / 2 ^ 53 := by
      unfold fadd
      refine (rnd_err _).trans ?_
      gcongr
    obtain ⟨d1, d2⟩ := abs_le.1 hd
    have : (18 : Rat) / 2 ^ 53 < 1 / 2 ^ 20 := by norm_num
    have lo : ((k + 1 : Nat) : Rat) < fadd l 1 := by push_cast; linarith
    have hi : fadd l 1 < ((k + 2 : Nat) : Rat) := by push_cast; linarith
    refine ⟨l, hl, ?_, fun h => absurd h he, fun _ => lo, hi⟩
    exact ftrunc_eq (by omega) (by push_cast at lo ⊢; linarith) (by push_cast at hi ⊢; linarith)

/-- **C18 (encode).** A positive integer up to `2^(max-1)` is written as the position of its highest set bit. -/
theorem C18_encode [Platform] {max : Nat} (hmax : max ≤ 17) (inf : Bool) (L : Lib) (ctx : Dict) {u : Val} {v : Nat} (hu : asInt u = some (v : Int))
    (h0 : 0 < v) (hv : v ≤ 2 ^ (max - 1)) (hm0 : 0 < max) :
    ∃ r, (logAdapter max inf).build L ctx u = .ok ([UInt8.ofNat (v.log2 + 1)], r) := by
  have hl1 := Nat.log2_self_le (by omega : v ≠ 0)
  have hl2 := Nat.lt_log2_self (n := v)
  have hlog : v.log2 ≤ max - 1 := by
    have := (Nat.log2_lt (by omega : v ≠ 0)).2 (lt_of_le_of_lt hv (Nat.pow_lt_pow_right (by norm_num) (Nat.lt_succ_self _)))
    omega
  obtain ⟨l, h1, h2, h3, h4, h5⟩ := log_value (by omega) hl1 hl2
  have hle : ¬ ((max : Rat) < fadd l 1) := by
    rw [not_lt]
    by_cases he : v = 2 ^ v.log2
    · rw [h3 he]; exact_mod_cast (by omega : v.log2 + 1 ≤ max)
    · have : v.log2 < max - 1 := by
        have hlt : 2 ^ v.log2 < 2 ^ (max - 1) := by omega
        exact (Nat.pow_lt_pow_iff_right (by norm_num)).1 hlt
      refine h5.le.trans ?_
      exact_mod_cast (by omega : v.log2 + 2 ≤ max)
  have hq : asNum u = some (v : Rat) := by rw [asNum_of_asInt hu]; simp
  have hne : ¬ (v : Rat) = 0 := by exact_mod_cast (by omega : v ≠ 0)
  have henc : logEncode max inf u = .ok (.int ((v.log2 + 1 : Nat) : Int)) := by
    unfold logEncode
    split
    · simp [asInt] at hu
    · rw [hq]; simp only [if_neg hne, h1, ok_bind, if_neg hle, h2]
  refine ⟨u, ?_⟩
  have hlt : v.log2 + 1 < 256 := by omega
  have := uint_build (n := 1) (u := .int ((v.log2 + 1 : Nat) : Int)) (b := [UInt8.ofNat (v.log2 + 1)]) (k := v.log2 + 1) rfl rfl (leNat_one hlt) L ctx
  simp only [logAdapter, adapter, henc, ok_bind, this]

/-- **C18 (too large).** A larger integer is rejected. -/
theorem C18_too_large [Platform] {max : Nat} (hmax : max ≤ 17) (hm0 : 0 < max) (inf : Bool) (L : Lib) (ctx : Dict) {u : Val} {v : Nat}
    (hu : asInt u = some (v : Int)) (hv : 2 ^ (max - 1) < v) : (logAdapter max inf).build L ctx u = .error .validation := by
  have h0 : 0 < v := Nat.lt_of_le_of_lt (Nat.zero_le _) hv
  have hq : asNum u = some (v : Rat) := by rw [asNum_of_asInt hu]; simp
  have hne : ¬ (v : Rat) = 0 := by exact_mod_cast (by omega : v ≠ 0)
  have key : ∃ l, Platform.mlog (v : Rat) 2 = .ok l ∧ (max : Rat) < fadd l 1 := by
    have hl1 := Nat.log2_self_le (by omega : v ≠ 0)
    have hl2 := Nat.lt_log2_self (n := v)
    by_cases hb : v < 2 ^ 17
    · have hlog : v.log2 < 17 := (Nat.log2_lt (by omega)).2 hb
      obtain ⟨l, h1, h2, h3, h4, h5⟩ := log_value hlog hl1 hl2
      refine ⟨l, h1, ?_⟩
      have hge : max - 1 ≤ v.log2 := (Nat.le_log2 (by omega)).2 hv.le
      by_cases he : v = 2 ^ v.log2
      · rw [h3 he]
        have : max - 1 ≠ v.log2 := by intro h; rw [h] at hv; omega
        exact_mod_cast (by omega : max < v.log2 + 1)
      · refine lt_of_le_of_lt ?_ (h4 he)
        exact_mod_cast (by omega : max ≤ v.log2 + 1)
    · obtain ⟨l, h1, h2⟩ := Platform.log_large v (by omega)
      refine ⟨l, h1, ?_⟩
      have hm : (max : Rat) ≤ 17 := by exact_mod_cast hmax
      unfold fadd
      have he := (abs_le.1 (rnd_err (l + 1))).1
      rw [abs_of_nonneg (by linarith)] at he
      have : (l + 1) / 2 ^ 53 ≤ (l + 1) / 36 := by gcongr; norm_num
      linarith
  obtain ⟨l, h1, h2⟩ := key
  have henc : logEncode max inf u = .error .validation := by
    unfold logEncode
    split
    · simp [asInt] at hu
    · rw [hq]; simp only [if_neg hne, h1, ok_bind, if_pos h2]
  simp only [logAdapter, adapter, henc]; rfl

/-- **C18 (zero and infinity).** -/
theorem C18_special [Platform] (max : Nat) (inf : Bool) (L : Lib) (ctx : Dict) :
    (∀ u, asNum u = some 0 → ∃ r, (logAdapter max inf).build L ctx u = .ok ([0], r)) ∧
    (inf = true → ∃ r, (logAdapter max inf).build L ctx .inf = .ok ([255], r)) ∧
    (inf = false → (logAdapter max inf).build L ctx .inf = .error .validation) := by
  refine ⟨?_, ?_, ?_⟩
  · intro u hu
    have henc : logEncode max inf u = .ok (.int 0) := by
      unfold logEncode
      split
      · simp [asNum, asInt] at hu
      · rw [hu]; simp only [if_true]
    exact ⟨u, by simp only [logAdapter, adapter, henc, ok_bind]; rfl⟩
  · rintro rfl; exact ⟨.inf, rfl⟩
  · rintro rfl; rfl

/-- **C18 (round trip).** What is read back is the greatest power of two not above the integer written. -/
theorem C18_roundtrip [Platform] {max : Nat} (hmax : max ≤ 17) (hm0 : 0 < max) (inf : Bool) (L : Lib) (ctx : Dict) {u : Val} {v : Nat}
    (hu : asInt u = some (v : Int)) (h0 : 0 < v) (hv : v ≤ 2 ^ (max - 1)) :
    ∃ b r p, (logAdapter max inf).build L ctx u = .ok (b, r) ∧ (logAdapter max inf).parse L ctx b = .ok (.int ((2 ^ p : Nat) : Int), []) ∧
      2 ^ p ≤ v ∧ v < 2 ^ (p + 1) := by
  obtain ⟨r, hr⟩ := C18_encode hmax inf L ctx hu h0 hv hm0
  have hlog : v.log2 ≤ max - 1 := by
    have := (Nat.log2_lt (by omega : v ≠ 0)).2 (lt_of_le_of_lt hv (Nat.pow_lt_pow_right (by norm_num) (Nat.lt_succ_self _)))
    omega
  refine ⟨_, r, v.log2, hr, ?_, Nat.log2_self_le (by omega), Nat.lt_log2_self⟩
  have e : (UInt8.ofNat (v.log2 + 1)).toNat = v.log2 + 1 := by rw [UInt8.toNat_ofNat']; omega
  rw [C18_decode, if_neg, if_neg, if_pos]
  · rw [e]; simp
  · rw [e]; omega
  · rintro ⟨h, -⟩; have := congrArg UInt8.toNat h; rw [e, show (255 : UInt8).toNat = 255 by rfl] at this; omega
  · intro h; have := congrArg UInt8.toNat h; rw [e] at this; simp at this

example : letI := somePlatform
    ∃ r, (logAdapter 17 true).build strictLib [] (.int 1000) = .ok ([10], r) :=
  letI := somePlatform
  C18_encode (max := 17) (by decide) true strictLib [] (u := .int 1000) (v := 1000) rfl (by decide) (by decide) (by decide)

end BM.Props
