import Verif.Calendar
import Verif.Time
import Verif.Meets
/-!
# Dates (C40)

The specification counts days: `nextDay` is the Gregorian calendar, and a date is written as the number of days since 1 January 1970.
-/
namespace BM.Props
open Property Case

/-- The number of days of a month of a year, Gregorian calendar. -/
def monthDays (y m : Nat) : Nat :=
  [31, if (4 ∣ y ∧ ¬100 ∣ y) ∨ 400 ∣ y then 29 else 28, 31, 30, 31, 30, 31, 31, 30, 31, 30, 31].getD (m - 1) 0

/-- The next day. -/
def nextDay : Nat × Nat × Nat → Nat × Nat × Nat
  | (y, m, d) => if d < monthDays y m then (y, m, d + 1) else if m < 12 then (y, m + 1, 1) else (y + 1, 1, 1)

/-- A date of the calendar of `datetime` (years 1 to 9999). -/
def IsDate : Nat × Nat × Nat → Prop
  | (y, m, d) => 1 ≤ y ∧ y ≤ 9999 ∧ 1 ≤ m ∧ m ≤ 12 ∧ 1 ≤ d ∧ d ≤ monthDays y m

/-- The dictionary form of a date. -/
def dateDict : Nat × Nat × Nat → Val
  | (y, m, d) => .dict [("year", .int y), ("month", .int m), ("day", .int d)]

theorem leap_nat (y : Nat) : isLeap (y : Int) = decide ((4 ∣ y ∧ ¬100 ∣ y) ∨ 400 ∣ y) := by
  rw [Bool.eq_iff_iff, leap_iff]
  simp only [decide_eq_true_eq]
  omega

theorem monthDays_eq {m : Nat} (y : Nat) (h1 : 1 ≤ m) (h2 : m ≤ 12) : ((monthDays y m : Nat) : Int) = daysInMonth y m := by
  have hm : m = 1 ∨ m = 2 ∨ m = 3 ∨ m = 4 ∨ m = 5 ∨ m = 6 ∨ m = 7 ∨ m = 8 ∨ m = 9 ∨ m = 10 ∨ m = 11 ∨ m = 12 := by omega
  unfold monthDays daysInMonth
  rw [leap_nat]
  by_cases hl : (4 ∣ y ∧ ¬100 ∣ y) ∨ 400 ∣ y
  all_goals
    simp only [hl, if_true, if_false, decide_true, decide_false]
    rcases hm with rfl | rfl | rfl | rfl | rfl | rfl | rfl | rfl | rfl | rfl | rfl | rfl <;> decide

theorem month_succ {y m : Int} (h1 : 1 ≤ m) (h2 : m < 12) : daysBeforeMonth y (m + 1) = daysBeforeMonth y m + daysInMonth y m := by
  have hm : m = 1 ∨ m = 2 ∨ m = 3 ∨ m = 4 ∨ m = 5 ∨ m = 6 ∨ m = 7 ∨ m = 8 ∨ m = 9 ∨ m = 10 ∨ m = 11 := by omega
  unfold daysBeforeMonth daysInMonth
  cases isLeap y <;> rcases hm with rfl | rfl | rfl | rfl | rfl | rfl | rfl | rfl | rfl | rfl | rfl <;> decide

theorem month_last (y : Int) : daysBeforeMonth y 12 + daysInMonth y 12 = 365 + (if isLeap y then 1 else 0) := by
  unfold daysBeforeMonth daysInMonth
  cases isLeap y <;> decide

theorem next_number {y m d : Nat} (h3 : 1 ≤ m) (h4 : m ≤ 12) (h5 : 1 ≤ d) (h6 : d ≤ monthDays y m) :
    let n := nextDay (y, m, d)
    dayNumber n.1 n.2.1 n.2.2 = dayNumber y m d + 1 ∧ 1 ≤ n.2.1 ∧ n.2.1 ≤ 12 ∧ 1 ≤ n.2.2 ∧ n.2.2 ≤ monthDays n.1 n.2.1 ∧ y ≤ n.1 := by
  have pos : ∀ (y m : Nat), 1 ≤ m → m ≤ 12 → 1 ≤ monthDays y m := by
    intro y m h1 h2
    have := monthDays_eq y h1 h2
    unfold daysInMonth at this
    split at this
    · split at this <;> omega
    · split at this <;> omega
  have hd := monthDays_eq y h3 h4
  simp only [nextDay]
  split
  · rename_i hlt
    refine ⟨?_, h3, h4, by dsimp only; omega, hlt, Nat.le_refl _⟩
    simp only [dayNumber]
    push_cast
    omega
  · rename_i hlt
    have hdm : (d : Int) = daysInMonth y m := by omega
    split
    · rename_i hm
      refine ⟨?_, by dsimp only; omega, by dsimp only; omega, Nat.le_refl _, pos y (m + 1) (by omega) (by omega), Nat.le_refl _⟩
      have := month_succ (y := y) (m := m) (by omega) (by omega)
      simp only [dayNumber]
      push_cast
      rw [this, hdm]
      omega
    · have hm : m = 12 := by omega
      subst hm
      refine ⟨?_, Nat.le_refl _, by dsimp only; omega, Nat.le_refl _, pos (y + 1) 1 (by omega) (by omega), by dsimp only; omega⟩
      have h1 := year_length y
      have h2 := month_last y
      simp only [daysBeforeYear] at h1
      have h0 : daysBeforeMonth ((y : Int) + 1) 1 = 0 := by simp [daysBeforeMonth]
      simp only [dayNumber]
      push_cast
      rw [h0, hdm]
      push_cast at h1 h2 ⊢
      omega

theorem before_nonneg (y m : Int) : 0 ≤ daysBeforeMonth y m := by
  unfold daysBeforeMonth
  refine Int.add_nonneg ?_ ?_
  · split_ifs <;> decide
  · split_ifs <;> decide

/-- **C40 (the epoch).** -/
theorem C40_epoch : dateEncode (dateDict (1970, 1, 1)) = .ok (.int 0) := rfl

/-- **C40 (valid dates).** The dictionary form of a date is accepted exactly for the dates of the calendar. -/
theorem C40_valid (p : Nat × Nat × Nat) : (∃ n, dateEncode (dateDict p) = .ok (.int n)) ↔ IsDate p := by
  obtain ⟨y, m, d⟩ := p
  have hd : dateEncode (dateDict (y, m, d)) =
      if (1 : Int) ≤ y ∧ (y : Int) ≤ 9999 ∧ (1 : Int) ≤ m ∧ (m : Int) ≤ 12 ∧ (1 : Int) ≤ d ∧ (d : Int) ≤ daysInMonth y m then
        .ok (.int (dayNumber y m d)) else .error .value := by
    simp only [dateEncode, dateDict, dgetE, dget_cons_self, ok_bind, pyDate, asInt]
    simp only [dget, if_true, ok_bind, show ¬"year" = "month" by decide, show ¬"year" = "day" by decide, show ¬"month" = "day" by decide, if_false]
    split <;> rfl
  rw [hd]
  simp only [IsDate]
  constructor
  · rintro ⟨n, h⟩
    split at h
    · rename_i hc
      have := monthDays_eq y (m := m) (by omega) (by omega)
      omega
    · cases h
  · rintro ⟨h1, h2, h3, h4, h5, h6⟩
    have := monthDays_eq y h3 h4
    exact ⟨_, if_pos (by omega)⟩

theorem encode_date {y m d : Nat} (h : IsDate (y, m, d)) : dateEncode (dateDict (y, m, d)) = .ok (.int (dayNumber y m d)) := by
  obtain ⟨h1, h2, h3, h4, h5, h6⟩ := h
  have hm := monthDays_eq y h3 h4
  simp only [dateEncode, dateDict, dgetE, dget_cons_self, ok_bind, pyDate, asInt]
  simp only [dget, if_true, ok_bind, show ¬"year" = "month" by decide, show ¬"year" = "day" by decide, show ¬"month" = "day" by decide, if_false]
  rw [if_pos (by omega)]
  rfl

/-- **C40 (successors).** The day after a date has the next number. -/
theorem C40_next {p : Nat × Nat × Nat} (h : IsDate p) (h' : IsDate (nextDay p)) {n : Int} (hn : dateEncode (dateDict p) = .ok (.int n)) :
    dateEncode (dateDict (nextDay p)) = .ok (.int (n + 1)) := by
  obtain ⟨y, m, d⟩ := p
  rw [encode_date h] at hn
  injection hn with hn
  injection hn with hn
  subst hn
  obtain ⟨-, -, h3, h4, h5, h6⟩ := h
  have := (next_number h3 h4 h5 h6).1
  rw [← this]
  exact encode_date h'

/-- The number of days from 1970-01-01 to 9999-12-31. -/
theorem C40_last : dateEncode (dateDict (9999, 12, 31)) = .ok (.int 2932896) := rfl

/-- **C40 (counting days).** `n` days after 1 January 1970, up to the end of 9999, is a date that is written as the number `n`; the number is read as that date. -/
theorem C40_count {n : Nat} (hn : n ≤ 2932896) : IsDate (nextDay^[n] (1970, 1, 1)) ∧
    dateEncode (dateDict (nextDay^[n] (1970, 1, 1))) = .ok (.int n) ∧ dateDecode (.int n) = .ok (.date n) := by
  have key : ∀ k : Nat, let p := nextDay^[k] (1970, 1, 1)
      dayNumber p.1 p.2.1 p.2.2 = k ∧ 1 ≤ p.2.1 ∧ p.2.1 ≤ 12 ∧ 1 ≤ p.2.2 ∧ p.2.2 ≤ monthDays p.1 p.2.1 ∧ 1970 ≤ p.1 := by
    intro k
    induction k with
    | zero => exact ⟨by decide, by decide, by decide, by decide, by decide, by decide⟩
    | succ k ih =>
      rw [Function.iterate_succ_apply']
      generalize nextDay^[k] (1970, 1, 1) = p at ih
      obtain ⟨y, m, d⟩ := p
      obtain ⟨h1, h2, h3, h4, h5, h6⟩ := ih
      have := next_number h2 h3 h4 h5
      dsimp only at this h1 h6 ⊢
      exact ⟨by rw [this.1, h1]; push_cast; rfl, this.2.1, this.2.2.1, this.2.2.2.1, this.2.2.2.2.1, by omega⟩
  have hk := key n
  generalize nextDay^[n] (1970, 1, 1) = p at hk
  obtain ⟨y, m, d⟩ := p
  dsimp only at hk
  obtain ⟨h1, h2, h3, h4, h5, h6⟩ := hk
  have hy : y ≤ 9999 := by
    by_contra hc
    have h7 := year_mono (y := 10000) (z := y) (by omega)
    have h8 : daysBeforeYear 10000 = 3652059 := by decide
    have h9 := before_nonneg y m
    have h10 : dayNumber y m d = daysBeforeYear y + daysBeforeMonth y m + d - 719163 := rfl
    rw [h10] at h1
    rw [h8] at h7
    generalize daysBeforeYear y = A at h1 h7
    generalize daysBeforeMonth y m = B at h1 h9
    clear h10 h8 hc key
    omega
  have hd : IsDate (y, m, d) := ⟨by omega, hy, h2, h3, h4, h5⟩
  refine ⟨hd, ?_, ?_⟩
  · rw [encode_date hd, h1]
  · have hl : (n : Int) ≤ lastDay := by simp only [lastDay]; omega
    simp only [dateDecode, asInt, hl, if_true]

-- leap days
example : IsDate (2000, 2, 29) ∧ IsDate (2024, 2, 29) ∧ ¬IsDate (2100, 2, 29) ∧ ¬IsDate (2023, 2, 29) := by
  simp only [IsDate]; decide
example : nextDay (2023, 12, 31) = (2024, 1, 1) ∧ nextDay (2024, 2, 28) = (2024, 2, 29) ∧ nextDay (2100, 2, 28) = (2100, 3, 1) := by decide


/-- The dictionary form of an instant: a date, a time of day and an offset from UTC in minutes. -/
def instantDict (p : Nat × Nat × Nat) (h mi s u : Nat) (z : Int) : Val :=
  .dict [("year", .int p.1), ("month", .int p.2.1), ("day", .int p.2.2), ("hour", .int h), ("minute", .int mi), ("second", .int s),
    ("microsecond", .int u), ("time_zone_offset", .int z)]

/-- **C40 (instants).** The dictionary form of an instant in the `date` of time messages denotes, in microseconds, the days before the date, the time of
day, less the offset; it is refused when a member is out of range. -/
theorem C40_instant {p : Nat × Nat × Nat} {n : Int} (hp : dateEncode (dateDict p) = .ok (.int n)) {h mi s u : Nat} {z : Int}
    (hh : h < 24) (hmi : mi < 60) (hs : s < 60) (hu : u < 1000000) (hz1 : -1440 < z) (hz2 : z < 1440) :
    Time.dateOf (instantDict p h mi s u z) =
      .ok ((((n * 24 + h) * 60 + mi) * 60 + s) * 1000000 + u - z * 60000000, z * 60000000) := by
  obtain ⟨y, m, d⟩ := p
  have hv : IsDate (y, m, d) := (C40_valid _).1 ⟨n, hp⟩
  rw [encode_date hv] at hp
  injection hp with hp
  injection hp with hp
  subst hp
  obtain ⟨h1, h2, h3, h4, h5, h6⟩ := hv
  have hm := monthDays_eq y h3 h4
  have hd : pyDate (.int y) (.int m) (.int d) = .ok (dayNumber y m d) := by
    simp only [pyDate, asInt]
    rw [if_pos (by omega)]
  have ht : timedeltaOf (60 * us) (.int z) = .ok (z * 60000000) := by
    simp only [timedeltaOf, asInt, pyTimedelta, us]
    rw [if_pos (by omega)]
    congr 1
  generalize hD : ([("year", .int y), ("month", .int m), ("day", .int d), ("hour", .int h), ("minute", .int mi), ("second", .int s),
    ("microsecond", .int u), ("time_zone_offset", .int z)] : Dict) = D
  have g1 : dgetE D "time_zone_offset" = .ok (.int z) := by subst hD; rfl
  have g2 : dgetE D "year" = .ok (.int y) := by subst hD; rfl
  have g3 : dgetE D "month" = .ok (.int m) := by subst hD; rfl
  have g4 : dgetE D "day" = .ok (.int d) := by subst hD; rfl
  have g5 : intField D "hour" 0 23 = .ok h := by
    have : dgetE D "hour" = .ok (.int h) := by subst hD; rfl
    simp only [intField, this, ok_bind, asInt]; rw [if_pos (by omega)]
  have g6 : intField D "minute" 0 59 = .ok mi := by
    have : dgetE D "minute" = .ok (.int mi) := by subst hD; rfl
    simp only [intField, this, ok_bind, asInt]; rw [if_pos (by omega)]
  have g7 : intField D "second" 0 59 = .ok s := by
    have : dgetE D "second" = .ok (.int s) := by subst hD; rfl
    simp only [intField, this, ok_bind, asInt]; rw [if_pos (by omega)]
  have g8 : intField D "microsecond" 0 999999 = .ok u := by
    have : dgetE D "microsecond" = .ok (.int u) := by subst hD; rfl
    simp only [intField, this, ok_bind, asInt]; rw [if_pos (by omega)]
  simp only [instantDict, hD, Time.dateOf, Time.dictDate, g1, g2, g3, g4, g5, g6, g7, g8, ht, hd, ok_bind, us]
  rw [if_pos (by omega)]
  congr 2
  ring

/-- **C40 (refused instants).** -/
theorem C40_refused {p : Nat × Nat × Nat} {h mi s u : Nat} {z : Int}
    (hr : ¬IsDate p ∨ 24 ≤ h ∨ 60 ≤ mi ∨ 60 ≤ s ∨ 1000000 ≤ u ∨ z ≤ -1440 ∨ 1440 ≤ z) :
    ∃ e, Time.dateOf (instantDict p h mi s u z) = .error e := by
  cases hx : Time.dateOf (instantDict p h mi s u z) with
  | error e => exact ⟨e, rfl⟩
  | ok r =>
    exfalso
    obtain ⟨y, m, d⟩ := p
    generalize hD : ([("year", .int y), ("month", .int m), ("day", .int d), ("hour", .int h), ("minute", .int mi), ("second", .int s),
      ("microsecond", .int u), ("time_zone_offset", .int z)] : Dict) = D at *
    have g1 : dgetE D "time_zone_offset" = .ok (.int z) := by subst hD; rfl
    have g2 : dgetE D "year" = .ok (.int y) := by subst hD; rfl
    have g3 : dgetE D "month" = .ok (.int m) := by subst hD; rfl
    have g4 : dgetE D "day" = .ok (.int d) := by subst hD; rfl
    have i5 : dgetE D "hour" = .ok (.int h) := by subst hD; rfl
    have i6 : dgetE D "minute" = .ok (.int mi) := by subst hD; rfl
    have i7 : dgetE D "second" = .ok (.int s) := by subst hD; rfl
    have i8 : dgetE D "microsecond" = .ok (.int u) := by subst hD; rfl
    simp only [instantDict, hD, Time.dateOf, Time.dictDate, g1, g2, g3, g4, intField, i5, i6, i7, i8, ok_bind, asInt] at hx
    obtain ⟨off, ho, hx⟩ := bind_ok.1 hx
    obtain ⟨h', e5, hx⟩ := bind_ok.1 hx
    obtain ⟨mi', e6, hx⟩ := bind_ok.1 hx
    obtain ⟨s', e7, hx⟩ := bind_ok.1 hx
    obtain ⟨u', e8, hx⟩ := bind_ok.1 hx
    split at e5
    swap; · cases e5
    split at e6
    swap; · cases e6
    split at e7
    swap; · cases e7
    split at e8
    swap; · cases e8
    split at hx
    swap; · cases hx
    obtain ⟨days, hd, -⟩ := bind_ok.1 hx
    simp only [timedeltaOf, asInt, pyTimedelta, us] at ho
    split at ho
    swap; · cases ho
    injection ho with ho
    have hv : IsDate (y, m, d) := by
      refine (C40_valid _).1 ⟨days, ?_⟩
      simp only [dateEncode, dateDict, dgetE, dget_cons_self, ok_bind]
      simp only [dget, if_true, ok_bind, show ¬"year" = "month" by decide, show ¬"year" = "day" by decide, show ¬"month" = "day" by decide, if_false]
      rw [hd]
      rfl
    rename_i c5 c6 c7 c8 c9 c10
    simp only [us] at c9
    rcases hr with hr | hr | hr | hr | hr | hr | hr
    · exact hr hv
    all_goals omega

end BM.Props
