import Verif.Case
import Mathlib.Tactic.Ring
import Mathlib.Tactic.SplitIfs
/-!
# The calendar: day numbers and dates
-/
namespace BM.Case
open Property

/-- Days before the first of January, from 0001-01-01. -/
def daysBeforeYear (y : Int) : Int := (y - 1) * 365 + (y - 1) / 4 - (y - 1) / 100 + (y - 1) / 400

theorem leap_iff (y : Int) : isLeap y = true ↔ y % 4 = 0 ∧ (y % 100 ≠ 0 ∨ y % 400 = 0) := by
  simp [isLeap]

theorem year_length (y : Int) : daysBeforeYear (y + 1) = daysBeforeYear y + 365 + (if isLeap y then 1 else 0) := by
  unfold daysBeforeYear
  split
  · rename_i h
    rw [leap_iff] at h
    omega
  · rename_i h
    rw [leap_iff] at h
    omega

theorem year_found (n : Int) : daysBeforeYear (yearOf n) ≤ n ∧ n < daysBeforeYear (yearOf n + 1) := by
  unfold yearOf
  simp only
  have h1 := Int.emod_add_mul_ediv n 146097
  have h2 := Int.emod_nonneg n (by decide : (146097 : Int) ≠ 0)
  have h3 := Int.emod_lt_of_pos n (by decide : (0 : Int) < 146097)
  generalize n / 146097 = a at *
  generalize n % 146097 = m at *
  have h4 := Int.emod_add_mul_ediv m 36524
  have h5 := Int.emod_nonneg m (by decide : (36524 : Int) ≠ 0)
  have h6 := Int.emod_lt_of_pos m (by decide : (0 : Int) < 36524)
  generalize m / 36524 = b at *
  generalize m % 36524 = m2 at *
  have h7 := Int.emod_add_mul_ediv m2 1461
  have h8 := Int.emod_nonneg m2 (by decide : (1461 : Int) ≠ 0)
  have h9 := Int.emod_lt_of_pos m2 (by decide : (0 : Int) < 1461)
  generalize m2 / 1461 = c at *
  generalize m2 % 1461 = m3 at *
  have h10 := Int.emod_add_mul_ediv m3 365
  have h11 := Int.emod_nonneg m3 (by decide : (365 : Int) ≠ 0)
  have h12 := Int.emod_lt_of_pos m3 (by decide : (0 : Int) < 365)
  generalize m3 / 365 = d at *
  generalize m3 % 365 = m4 at *
  have hb : 0 ≤ b ∧ b ≤ 4 := by omega
  have hc : 0 ≤ c ∧ c ≤ 24 := by omega
  have hd : 0 ≤ d ∧ d ≤ 4 := by omega
  split_ifs with h
  · by_cases hb4 : b = 4
    · have hc0 : c = 0 := by omega
      have hd0 : d = 0 := by omega
      subst hb4 hc0 hd0
      unfold daysBeforeYear
      have e1 : (a * 400 + 4 * 100 + 0 * 4 + 0 - 1) / 4 = a * 100 + 99 := by omega
      have e2 : (a * 400 + 4 * 100 + 0 * 4 + 0 - 1) / 100 = a * 4 + 3 := by omega
      have e3 : (a * 400 + 4 * 100 + 0 * 4 + 0 - 1) / 400 = a := by omega
      have e4 : (a * 400 + 4 * 100 + 0 * 4 + 0 + 1 - 1) / 4 = a * 100 + 100 := by omega
      have e5 : (a * 400 + 4 * 100 + 0 * 4 + 0 + 1 - 1) / 100 = a * 4 + 4 := by omega
      have e6 : (a * 400 + 4 * 100 + 0 * 4 + 0 + 1 - 1) / 400 = a + 1 := by omega
      rw [e1, e2, e3, e4, e5, e6]
      constructor <;> omega
    · have hd4 : d = 4 := by omega
      subst hd4
      have hc' : c ≤ 23 := by omega
      unfold daysBeforeYear
      have e1 : (a * 400 + b * 100 + c * 4 + 4 - 1) / 4 = a * 100 + b * 25 + c := by omega
      have e2 : (a * 400 + b * 100 + c * 4 + 4 - 1) / 100 = a * 4 + b := by omega
      have e3 : (a * 400 + b * 100 + c * 4 + 4 - 1) / 400 = a := by omega
      have e4 : (a * 400 + b * 100 + c * 4 + 4 + 1 - 1) / 4 = a * 100 + b * 25 + c + 1 := by omega
      have e5 : (a * 400 + b * 100 + c * 4 + 4 + 1 - 1) / 100 = a * 4 + b := by omega
      have e6 : (a * 400 + b * 100 + c * 4 + 4 + 1 - 1) / 400 = a := by omega
      rw [e1, e2, e3, e4, e5, e6]
      constructor <;> omega
  · push Not at h
    have e1 : (a * 400 + b * 100 + c * 4 + d + 1 - 1) / 4 = a * 100 + b * 25 + c := by omega
    have e2 : (a * 400 + b * 100 + c * 4 + d + 1 - 1) / 100 = a * 4 + b := by omega
    have e3 : (a * 400 + b * 100 + c * 4 + d + 1 - 1) / 400 = a := by omega
    have hy : daysBeforeYear (a * 400 + b * 100 + c * 4 + d + 1) = n - m4 := by
      unfold daysBeforeYear
      rw [e1, e2, e3]
      omega
    rw [year_length (a * 400 + b * 100 + c * 4 + d + 1), hy]
    split <;> constructor <;> omega

theorem year_mono {y z : Int} (h : y ≤ z) : daysBeforeYear y ≤ daysBeforeYear z := by
  unfold daysBeforeYear; omega

theorem year_unique {n y : Int} (h1 : daysBeforeYear y ≤ n) (h2 : n < daysBeforeYear (y + 1)) : yearOf n = y := by
  obtain ⟨h3, h4⟩ := year_found n
  rcases lt_trichotomy (yearOf n) y with h | h | h
  · have := year_mono (y := yearOf n + 1) (z := y) (by omega); omega
  · exact h
  · have := year_mono (y := y + 1) (z := yearOf n) (by omega); omega

/-- The months of a leap year and of a common year, with the numbers of days before them and in them. -/
def monthTable : Bool → List (Int × Int × Int)
  | false => [(1, 0, 31), (2, 31, 28), (3, 59, 31), (4, 90, 30), (5, 120, 31), (6, 151, 30), (7, 181, 31), (8, 212, 31), (9, 243, 30), (10, 273, 31),
      (11, 304, 30), (12, 334, 31)]
  | true => [(1, 0, 31), (2, 31, 29), (3, 60, 31), (4, 91, 30), (5, 121, 31), (6, 152, 30), (7, 182, 31), (8, 213, 31), (9, 244, 30), (10, 274, 31),
      (11, 305, 30), (12, 335, 31)]

theorem month_table {y : Int} : ∀ r ∈ monthTable (isLeap y), daysBeforeMonth y r.1 = r.2.1 ∧ daysInMonth y r.1 = r.2.2 := by
  unfold daysBeforeMonth daysInMonth
  cases isLeap y <;> decide

theorem month_mem {m : Int} (h1 : 1 ≤ m) (h2 : m ≤ 12) (l : Bool) : ∃ r ∈ monthTable l, r.1 = m := by
  have : m = 1 ∨ m = 2 ∨ m = 3 ∨ m = 4 ∨ m = 5 ∨ m = 6 ∨ m = 7 ∨ m = 8 ∨ m = 9 ∨ m = 10 ∨ m = 11 ∨ m = 12 := by omega
  rcases this with rfl | rfl | rfl | rfl | rfl | rfl | rfl | rfl | rfl | rfl | rfl | rfl <;> cases l <;> decide

theorem month_at {y k : Int} {r : Int × Int × Int} (hr : r ∈ monthTable (isLeap y)) (h1 : r.2.1 ≤ k) (h2 : k < r.2.1 + r.2.2) : monthOf y k = r.1 := by
  unfold monthOf
  revert hr
  cases isLeap y <;> simp only [monthTable, List.mem_cons, List.not_mem_nil, or_false] <;>
    (rintro (rfl | rfl | rfl | rfl | rfl | rfl | rfl | rfl | rfl | rfl | rfl | rfl) <;> simp only [Bool.false_eq_true, if_false, if_true] at h1 h2 ⊢ <;>
      repeat (first | rw [if_pos (by omega)] | rw [if_neg (by omega)]))

theorem month_cover {k : Int} (l : Bool) (h0 : 0 ≤ k) (h1 : k < 365 + (if l then 1 else 0)) : ∃ r ∈ monthTable l, r.2.1 ≤ k ∧ k < r.2.1 + r.2.2 := by
  cases l <;> simp only [monthTable, List.mem_cons, List.not_mem_nil, or_false, exists_eq_or_imp, exists_eq_left, Bool.false_eq_true, if_false, if_true] at * <;> omega

theorem month_end (l : Bool) : ∀ r ∈ monthTable l, 1 ≤ r.1 ∧ r.1 ≤ 12 ∧ 0 ≤ r.2.1 ∧ r.2.1 + r.2.2 ≤ 365 + (if l then 1 else 0) := by
  cases l <;> decide

theorem month_found {y k : Int} (h0 : 0 ≤ k) (h1 : k < 365 + (if isLeap y then 1 else 0)) :
    1 ≤ monthOf y k ∧ monthOf y k ≤ 12 ∧ daysBeforeMonth y (monthOf y k) ≤ k ∧ k < daysBeforeMonth y (monthOf y k) + daysInMonth y (monthOf y k) := by
  obtain ⟨r, hr, h2, h3⟩ := month_cover _ h0 h1
  have := month_table r hr
  have he := month_end _ r hr
  rw [month_at hr h2 h3, this.1, this.2]
  exact ⟨he.1, he.2.1, h2, h3⟩

theorem month_unique {y m d : Int} (h1 : 1 ≤ m) (h2 : m ≤ 12) (h3 : 1 ≤ d) (h4 : d ≤ daysInMonth y m) : monthOf y (daysBeforeMonth y m + d - 1) = m := by
  obtain ⟨r, hr, rfl⟩ := month_mem h1 h2 (isLeap y)
  have := month_table r hr
  rw [this.2] at h4
  rw [this.1]
  exact month_at hr (by omega) (by omega)

/-- `civil` gives the date of a day. -/
theorem civil_date (days : Int) : ∃ y m d, civil days = (y, m, d) ∧ 1 ≤ m ∧ m ≤ 12 ∧ 1 ≤ d ∧ d ≤ daysInMonth y m ∧ dayNumber y m d = days ∧
    (-719162 ≤ days → days ≤ lastDay → 1 ≤ y ∧ y ≤ 9999) := by
  obtain ⟨h1, h2⟩ := year_found (days + 719162)
  rw [year_length] at h2
  generalize hy : yearOf (days + 719162) = y at *
  have hd1 : dayNumber y 1 1 = daysBeforeYear y - 719162 := by unfold dayNumber daysBeforeYear; rw [show daysBeforeMonth y 1 = 0 from by simp [daysBeforeMonth]]; omega
  have hk : days - dayNumber y 1 1 = days + 719162 - daysBeforeYear y := by omega
  obtain ⟨h3, h4, h5, h6⟩ := month_found (y := y) (k := days - dayNumber y 1 1) (by omega) (by omega)
  refine ⟨y, monthOf y (days - dayNumber y 1 1), days - dayNumber y 1 1 - daysBeforeMonth y (monthOf y (days - dayNumber y 1 1)) + 1,
    by unfold civil; simp only [hy], h3, h4, by omega, by omega, ?_, ?_⟩
  · have : ∀ m d, dayNumber y m d = daysBeforeYear y - 719162 + daysBeforeMonth y m + d - 1 := by
      intro m d; unfold dayNumber daysBeforeYear; omega
    rw [this]; omega
  · intro ha hb
    unfold lastDay at hb
    constructor
    · by_contra hc
      have := year_mono (y := y) (z := 0) (by omega)
      have h0 := year_length y
      have := year_mono (y := y + 1) (z := 1) (by omega)
      have h1' : daysBeforeYear 1 = 0 := rfl
      omega
    · by_contra hc
      have := year_mono (y := 10000) (z := y) (by omega)
      have h1' : daysBeforeYear 10000 = 3652059 := rfl
      omega

/-- Every date is found from its day. -/
theorem civil_dayNumber {y m d : Int} (h1 : 1 ≤ m) (h2 : m ≤ 12) (h3 : 1 ≤ d) (h4 : d ≤ daysInMonth y m) : civil (dayNumber y m d) = (y, m, d) := by
  have hn : dayNumber y m d = daysBeforeYear y - 719162 + (daysBeforeMonth y m + d - 1) := by unfold dayNumber daysBeforeYear; omega
  have hk : 0 ≤ daysBeforeMonth y m + d - 1 ∧ daysBeforeMonth y m + d - 1 < 365 + (if isLeap y then 1 else 0) := by
    obtain ⟨r, hr, rfl⟩ := month_mem h1 h2 (isLeap y)
    have := month_table r hr
    have he := month_end _ r hr
    rw [this.2] at h4
    rw [this.1]
    omega
  have hy : yearOf (dayNumber y m d + 719162) = y := year_unique (by omega) (by rw [year_length]; omega)
  have hd1 : dayNumber y 1 1 = daysBeforeYear y - 719162 := by unfold dayNumber daysBeforeYear; rw [show daysBeforeMonth y 1 = 0 from by simp [daysBeforeMonth]]; omega
  have hkk : dayNumber y m d - dayNumber y 1 1 = daysBeforeMonth y m + d - 1 := by omega
  unfold civil
  simp only [hy, hkk, month_unique h1 h2 h3 h4, Prod.mk.injEq, true_and]
  omega

end BM.Case
