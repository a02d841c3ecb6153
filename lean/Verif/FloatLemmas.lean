import Verif.Float
import Mathlib.Data.Rat.Floor
import Mathlib.Algebra.Order.Field.Basic
import Mathlib.Tactic.Linarith
import Mathlib.Tactic.Ring
import Mathlib.Tactic.FieldSimp
import Mathlib.Tactic.Positivity
import Mathlib.Tactic.NormNum
/-!
# Error analysis of the float model
-/
namespace BM

theorem rfloor_eq (q : Rat) : q.floor = ⌊q⌋ := rfl

/-- Rounding to an integer is off by at most one half. -/
theorem rhe_err (q : Rat) : |(rhe q : Rat) - q| ≤ 1 / 2 := by
  have h1 := Int.floor_le q
  have h2 := Int.lt_floor_add_one q
  unfold rhe
  rw [rfloor_eq]
  simp only
  split
  · rw [abs_le]; constructor <;> linarith
  · split
    · push_cast; rw [abs_le]; constructor <;> linarith
    · split
      · rw [abs_le]; constructor <;> linarith
      · push_cast; rw [abs_le]; constructor <;> linarith

theorem rhe_int (n : Int) : rhe (n : Rat) = n := by
  have := rhe_err (n : Rat)
  rw [abs_le] at this
  have h1 : ((rhe (n : Rat) : Int) : Rat) < (n : Rat) + 1 := by linarith
  have h2 : (n : Rat) - 1 < ((rhe (n : Rat) : Int) : Rat) := by linarith
  have h3 : rhe (n : Rat) < n + 1 := by exact_mod_cast h1
  have h4 : n - 1 < rhe (n : Rat) := by exact_mod_cast h2
  omega

theorem rhe_near {q : Rat} {n : Int} (h : |q - n| < 1 / 2) : rhe q = n := by
  have := rhe_err q
  rw [abs_le] at this
  rw [abs_lt] at h
  have h1 : ((rhe q : Int) : Rat) < (n : Rat) + 1 := by linarith
  have h2 : (n : Rat) - 1 < ((rhe q : Int) : Rat) := by linarith
  have h3 : rhe q < n + 1 := by exact_mod_cast h1
  have h4 : n - 1 < rhe q := by exact_mod_cast h2
  omega

theorem rhe_mono {p q : Rat} (h : p ≤ q) : rhe p ≤ rhe q := by
  by_contra hc
  push Not at hc
  have e1 := rhe_err p
  have e2 := rhe_err q
  rw [abs_le] at e1 e2
  have h1 : ((rhe q : Int) : Rat) + 1 ≤ (rhe p : Rat) := by exact_mod_cast hc
  have hpq : p = q := by linarith
  subst hpq
  omega

theorem pow2_eq (e : Int) : pow2 e = (2 : ℚ) ^ e := by
  unfold pow2
  split
  · rename_i h
    obtain ⟨n, rfl⟩ := Int.eq_ofNat_of_zero_le h
    simp
  · rename_i h
    obtain ⟨n, hn⟩ := Int.eq_ofNat_of_zero_le (a := -e) (by omega)
    have : e = -(n : Int) := by omega
    subst this
    simp

theorem pow2_pos (e : Int) : 0 < pow2 e := by rw [pow2_eq]; exact zpow_pos (by norm_num) _

theorem pow2_add (a b : Int) : pow2 (a + b) = pow2 a * pow2 b := by
  simp only [pow2_eq]; exact zpow_add₀ (by norm_num) a b

theorem ilog2_spec {q : Rat} (hq : q ≠ 0) : pow2 (ilog2 q) ≤ |q| ∧ |q| < pow2 (ilog2 q + 1) := by
  have hif : (if q < 0 then -q else q) = |q| := by
    split
    · rename_i h; rw [abs_of_neg h]
    · rename_i h; rw [abs_of_nonneg (by linarith)]
  have hn : q.num.natAbs ≠ 0 := by simpa using hq
  have hd : q.den ≠ 0 := q.den_nz
  have a1 := Nat.log2_self_le hn
  have a2 := Nat.lt_log2_self (n := q.num.natAbs)
  have b1 := Nat.log2_self_le hd
  have b2 := Nat.lt_log2_self (n := q.den)
  have habs : |q| = (q.num.natAbs : ℚ) / (q.den : ℚ) := by
    conv_lhs => rw [← Rat.num_div_den q]
    rw [abs_div]
    congr 1
    · rw [Nat.cast_natAbs]; simp
    · simp
  have hdpos : (0 : ℚ) < q.den := by exact_mod_cast Nat.pos_of_ne_zero hd
  set i := q.num.natAbs.log2 with hi
  set j := q.den.log2 with hj
  have A1 : ((2 : ℚ) ^ i) ≤ q.num.natAbs := by exact_mod_cast a1
  have A2 : (q.num.natAbs : ℚ) < 2 ^ (i + 1) := by exact_mod_cast a2
  have B1 : ((2 : ℚ) ^ j) ≤ q.den := by exact_mod_cast b1
  have B2 : (q.den : ℚ) < 2 ^ (j + 1) := by exact_mod_cast b2
  have p1 : ∀ n : Nat, pow2 (n : Int) = 2 ^ n := by intro n; rw [pow2_eq]; simp
  have hlow : pow2 ((i : Int) - j - 1) ≤ |q| := by
    have : pow2 ((i : Int) - j - 1) * pow2 ((j : Int) + 1) = pow2 i := by rw [← pow2_add]; congr 1; omega
    rw [habs, le_div_iff₀ hdpos]
    have e : pow2 ((j : Int) + 1) = 2 ^ (j + 1) := by rw [← p1]; rfl
    rw [e, p1] at this
    have := mul_le_mul_of_nonneg_left B2.le (pow2_pos ((i : Int) - j - 1)).le
    linarith
  have hhigh : |q| < pow2 ((i : Int) - j + 1) := by
    have : pow2 ((i : Int) - j + 1) * pow2 (j : Int) = pow2 ((i : Int) + 1) := by rw [← pow2_add]; congr 1; omega
    rw [habs, div_lt_iff₀ hdpos]
    have e : pow2 ((i : Int) + 1) = 2 ^ (i + 1) := by rw [← p1]; rfl
    rw [e, p1] at this
    have := mul_le_mul_of_nonneg_left B1 (pow2_pos ((i : Int) - j + 1)).le
    linarith
  unfold ilog2
  simp only [hif, ← hi, ← hj]
  split
  · rename_i h; exact ⟨h, hhigh⟩
  · rename_i h
    refine ⟨hlow, ?_⟩
    push Not at h
    have : (i : Int) - j - 1 + 1 = (i : Int) - j := by omega
    rw [this]; exact h

/-- Relative error of rounding to binary64: at most 2^-53. -/
theorem rnd_err (q : Rat) : |rnd q - q| ≤ |q| / 2 ^ 53 := by
  unfold rnd
  split
  · rename_i h; simp [h]
  · rename_i h
    obtain ⟨h1, -⟩ := ilog2_spec h
    set e := ilog2 q
    have hs := pow2_pos (52 - e)
    have := rhe_err (q * pow2 (52 - e))
    simp only
    have e1 : (rhe (q * pow2 (52 - e)) : ℚ) / pow2 (52 - e) - q
        = ((rhe (q * pow2 (52 - e)) : ℚ) - q * pow2 (52 - e)) / pow2 (52 - e) := by field_simp
    rw [e1, abs_div, abs_of_pos hs, div_le_iff₀ hs]
    have e2 : pow2 e * pow2 (52 - e) = 2 ^ 52 := by
      rw [← pow2_add]; have : e + (52 - e) = 52 := by omega
      rw [this, pow2_eq]; norm_num
    have e3 : |q| * pow2 (52 - e) ≥ 2 ^ 52 := by
      rw [← e2]; exact mul_le_mul_of_nonneg_right h1 hs.le
    have : |q| / 2 ^ 53 * pow2 (52 - e) = |q| * pow2 (52 - e) / 2 ^ 53 := by ring
    rw [this]
    have : (2 : ℚ) ^ 52 / 2 ^ 53 = 1 / 2 := by norm_num
    have : |q| * pow2 (52 - e) / 2 ^ 53 ≥ 2 ^ 52 / 2 ^ 53 := by
      apply div_le_div_of_nonneg_right e3; norm_num
    linarith

theorem pow2_lt {a b : Int} (h : pow2 a < pow2 b) : a < b := by
  simp only [pow2_eq] at h
  exact (zpow_lt_zpow_iff_right₀ (by norm_num)).1 h

/-- Integers below 2^53 are representable. -/
theorem rnd_int (n : Int) (h : |n| < 2 ^ 53) : rnd (n : Rat) = n := by
  unfold rnd
  split
  · rename_i h0; rw [h0]
  · rename_i h0
    obtain ⟨h1, -⟩ := ilog2_spec h0
    set e := ilog2 (n : Rat)
    have he : e < 53 := by
      apply pow2_lt
      refine lt_of_le_of_lt h1 ?_
      have : pow2 53 = ((2 ^ 53 : Int) : ℚ) := by rw [pow2_eq]; norm_num
      rw [this]
      exact_mod_cast h
    obtain ⟨m, hm⟩ := Int.eq_ofNat_of_zero_le (a := 52 - e) (by omega)
    have : pow2 (52 - e) = ((2 ^ m : Int) : ℚ) := by rw [hm, pow2_eq]; simp
    simp only [this]
    rw [← Int.cast_mul, rhe_int]
    push_cast
    field_simp

theorem rnd_le {q c : Rat} (hc : 0 ≤ c) (h : |q| ≤ c) : rnd q ≤ q + c / 2 ^ 53 := by
  have := rnd_err q
  have h2 : |q| / 2 ^ 53 ≤ c / 2 ^ 53 := by apply div_le_div_of_nonneg_right h; norm_num
  rw [abs_le] at this
  linarith

theorem le_rnd {q c : Rat} (hc : 0 ≤ c) (h : |q| ≤ c) : q - c / 2 ^ 53 ≤ rnd q := by
  have := rnd_err q
  have h2 : |q| / 2 ^ 53 ≤ c / 2 ^ 53 := by apply div_le_div_of_nonneg_right h; norm_num
  rw [abs_le] at this
  linarith

theorem ftrunc_eq {q : Rat} {n : Int} (hn : 0 ≤ n) (h1 : (n : Rat) ≤ q) (h2 : q < n + 1) : ftrunc q = n := by
  have : (0 : Rat) ≤ n := by exact_mod_cast hn
  unfold ftrunc
  rw [if_pos (le_trans this h1), rfloor_eq]
  exact Int.floor_eq_iff.2 ⟨h1, h2⟩

end BM
