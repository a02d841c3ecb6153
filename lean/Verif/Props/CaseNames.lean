import Verif.Props.CaseDict
import Verif.FieldNames
import Verif.Registry
import Verif.MeetsTime
/-!
# The names of the package survive the conversion (C30)
-/
namespace BM.Props
open Case

theorem roundtrip_chars (s : List Char) : snakecase (camelcase (String.ofList s)) = String.ofList (snakeChars (camelChars s)) := by
  simp [snakecase, camelcase]

theorem lower_ofList (s : List Char) : lower (String.ofList s) = String.ofList (s.map Char.toLower) := by simp [lower]

set_option maxRecDepth 100000 in
theorem opcode_chars : (nameChars.all fun s => snakeChars (camelChars (s.map Char.toLower)) == s.map Char.toLower) = true := by decide +kernel

/-- **C30 (message names).** The name of every registered message — the key under which its payload is found — survives the conversion to
camel case and back. -/
theorem C30_opcodes {E : EnumDef} (hE : E ∈ Tables.opcodeEnums) {N : String} {n : Int} (hN : (N, n) ∈ E.members) :
    snakecase (camelcase (lower N)) = lower N := by
  have hm : N ∈ Tables.opcodeEnums.flatMap (fun E => E.members.map Prod.fst) :=
    List.mem_flatMap.2 ⟨E, hE, List.mem_map.2 ⟨(N, n), hN, rfl⟩⟩
  rw [nameChars_eq] at hm
  obtain ⟨s, hs, rfl⟩ := List.mem_map.1 hm
  have := List.all_eq_true.1 opcode_chars s hs
  rw [lower_ofList, roundtrip_chars, eq_of_beq this]

set_option maxRecDepth 100000 in
theorem field_chars : (fieldChars.all fun s => (snakeChars (camelChars s) == s) ==
    !(s == "GATT_proxy".toList || s == "app key indices".toList || s == "_rfu".toList)) = true := by decide +kernel

/-- **C30 (field names).** The name of every field of the package survives the conversion to camel case and back, except `GATT_proxy`
(config.py), `app key indices` (config.py) and the private `_rfu` (debug.py). -/
theorem C30_fields {k : String} (hk : k ∈ fieldNames) :
    snakecase (camelcase k) = k ↔ k ≠ "GATT_proxy" ∧ k ≠ "app key indices" ∧ k ≠ "_rfu" := by
  obtain ⟨s, hs, rfl⟩ := List.mem_map.1 hk
  have h := List.all_eq_true.1 field_chars s hs
  have e : ∀ t : String, (String.ofList s = t ↔ s = t.toList) := by
    intro t
    constructor
    · rintro rfl; simp
    · rintro rfl; simp
  rw [roundtrip_chars, String.ofList_inj, ne_eq, ne_eq, ne_eq, e, e, e]
  have h := eq_of_beq h
  rw [Bool.eq_iff_iff] at h
  simp only [beq_iff_eq, Bool.not_eq_true', Bool.or_eq_false_iff, beq_eq_false_iff_ne, and_assoc] at h
  exact h

example : "GATT_proxy" ∈ fieldNames ∧ snakecase (camelcase "GATT_proxy") = "gatt_proxy" ∧
    snakecase (camelcase "app key indices") = "app_key_indices" := by decide +kernel
/-- Names that do not survive: a digit at the start of a word, or two single letters in a row. -/
example : snakecase (camelcase "bit_3d") = "bit3_d" ∧ snakecase (camelcase "x_a_b") = "x_ab" := by decide +kernel

/-! ### Dates -/

/-- **C30 (dates).** The dictionary into which a `date` is converted denotes the same date when it is given back. -/
theorem C30_date (n : Int) (h1 : -719162 ≤ n) (h2 : n ≤ 2932896) :
    toSnakecaseDict (toCamelcaseDict (.date n)) = toCamelcaseDict (.date n) ∧
    Property.dateEncode (toCamelcaseDict (.date n)) = .ok (.int n) := by
  refine ⟨by simp only [toSnakecaseDict, toCamelcaseDict, toCase, snake_date]; rfl, ?_⟩
  obtain ⟨y, m, d, hc, a1, a2, a3, a4, a5, a6⟩ := civil_date n
  obtain ⟨a6, a7⟩ := a6 h1 h2
  simp only [toCamelcaseDict, toCase, dateDict, hc, Property.dateEncode]
  simp [dgetE, dget, Property.pyDate, asInt, a1, a2, a3, a4, a5, a6, a7]

example : toCamelcaseDict (.date 11016) = .dict [("year", .int 2000), ("month", .int 2), ("day", .int 29)] ∧
    Property.dateEncode (toCamelcaseDict (.date 11016)) = .ok (.int 11016) := ⟨by rfl, (C30_date 11016 (by decide) (by decide)).2⟩

/-- The offset in minutes is exact. -/
theorem minutes_exact {k : Int} (h : |k| < 1440) : fdiv (totalSeconds (k * 60000000)) 60 = (k : Rat) := by
  rw [abs_lt] at h
  have e1 : (((k * 60000000 : Int) : Rat)) / 1000000 = ((k * 60 : Int) : Rat) := by push_cast; ring
  have e2 : ((k * 60 : Int) : Rat) / 60 = (k : Rat) := by push_cast; ring
  rw [totalSeconds, e1, rnd_int _ (by rw [abs_lt]; omega), fdiv, e2, rnd_int _ (by rw [abs_lt]; omega)]

theorem minutes_back {k : Int} (h : |k| < 1440) : timedeltaOf (60 * us) (.flt (k : Rat)) = .ok (k * 60000000) := by
  rw [abs_lt] at h
  unfold timedeltaOf
  simp only
  have e : ((ftrunc (k : Rat) * (60 * us) : Int) : Rat) + fmul ((k : Rat) - ftrunc (k : Rat)) ((60 * us : Int) : Rat) = ((k * 60000000 : Int) : Rat) := by
    rw [ftrunc_int, sub_self, fmul, zero_mul, show rnd 0 = ((0 : Int) : Rat) from by simpa using rnd_int 0 (by decide)]
    simp [us]
  rw [e, rhe_int, pyTimedelta, if_pos]
  constructor <;> usomega

theorem dict_date {y mo d h mi sec u days k : Int} (hp : Property.pyDate (.int y) (.int mo) (.int d) = .ok days) (h1 : 0 ≤ h ∧ h ≤ 23)
    (h2 : 0 ≤ mi ∧ mi ≤ 59) (h3 : 0 ≤ sec ∧ sec ≤ 59) (h4 : 0 ≤ u ∧ u ≤ 999999) (hk : |k| < 1440) :
    Time.dateOf (.dict [("year", .int y), ("month", .int mo), ("day", .int d), ("hour", .int h), ("minute", .int mi),
      ("second", .int sec), ("microsecond", .int u), ("time_zone_offset", .flt (k : Rat))]) =
    .ok ((days * 86400 + h * 3600 + mi * 60 + sec) * 1000000 + u - k * 60000000, k * 60000000) := by
  have hk' := abs_lt.1 hk
  have hb := minutes_back hk
  have hr : -86400 * us < k * 60000000 ∧ k * 60000000 < 86400 * us := by constructor <;> usomega
  generalize hD : ([("year", .int y), ("month", .int mo), ("day", .int d), ("hour", .int h), ("minute", .int mi),
      ("second", .int sec), ("microsecond", .int u), ("time_zone_offset", .flt (k : Rat))] : Dict) = D
  have g1 : dgetE D "year" = .ok (.int y) := by subst hD; rfl
  have g2 : dgetE D "month" = .ok (.int mo) := by subst hD; rfl
  have g3 : dgetE D "day" = .ok (.int d) := by subst hD; rfl
  have g4 : dgetE D "hour" = .ok (.int h) := by subst hD; rfl
  have g5 : dgetE D "minute" = .ok (.int mi) := by subst hD; rfl
  have g6 : dgetE D "second" = .ok (.int sec) := by subst hD; rfl
  have g7 : dgetE D "microsecond" = .ok (.int u) := by subst hD; rfl
  have g8 : dgetE D "time_zone_offset" = .ok (.flt k) := by subst hD; rfl
  rw [Time.dateOf, Time.dictDate, g8, ok_bind, hb, ok_bind, g1, ok_bind, g2, ok_bind, g3, ok_bind]
  simp only [intField, g4, g5, g6, g7, ok_bind, asInt]
  rw [if_pos h1, ok_bind, if_pos h2, ok_bind, if_pos h3, ok_bind, if_pos h4, ok_bind, if_pos hr, hp, ok_bind]

theorem day_parts (u : Int) : (u / 86400000000 * 86400 + u % 86400000000 / 3600000000 * 3600 + u % 86400000000 / 60000000 % 60 * 60 +
    u % 86400000000 / 1000000 % 60) * 1000000 + u % 86400000000 % 1000000 = u := by omega

/-- **C30 (times).** The dictionary into which an aware `datetime` (with an offset of whole minutes) is converted denotes, after conversion of
the keys, the same instant with the same offset. -/
theorem C30_datetime {m k : Int} (hk : |k| < 1440) (h1 : -719162 ≤ (m + k * 60000000) / 86400000000)
    (h2 : (m + k * 60000000) / 86400000000 ≤ 2932896) :
    Time.dateOf (toSnakecaseDict (toCamelcaseDict (.datetime m (k * 60000000)))) = .ok (m, k * 60000000) := by
  have e1 : toSnakecaseDict (toCamelcaseDict (.datetime m (k * 60000000))) = dateParts m (k * 60000000) := by
    rw [toSnakecaseDict, toCamelcaseDict, toCase, snake_dateTime]
  rw [e1, dateParts, minutes_exact hk]
  obtain ⟨y, mo, d, hc, a1, a2, a3, a4, a5, a8⟩ := civil_date ((m + k * 60000000) / 86400000000)
  obtain ⟨a6, a7⟩ := a8 h1 h2
  have hd := day_parts (m + k * 60000000)
  rw [hc]
  have hp : Property.pyDate (.int y) (.int mo) (.int d) = .ok ((m + k * 60000000) / 86400000000) := by
    simp only [Property.pyDate, asInt]
    rw [if_pos ⟨a6, a7, a1, a2, a3, a4⟩, a5]
  have b1 : 0 ≤ (m + k * 60000000) % 86400000000 := Int.emod_nonneg _ (by decide)
  have b2 : (m + k * 60000000) % 86400000000 < 86400000000 := Int.emod_lt_of_pos _ (by decide)
  refine (dict_date hp (by omega) (by omega) (by omega) (by omega) hk).trans ?_
  rw [hd, Int.add_sub_cancel]

example : Time.dateOf (toSnakecaseDict (toCamelcaseDict (.datetime 951782400123456 (90 * 60000000)))) = .ok (951782400123456, 5400000000) :=
  C30_datetime (by decide) (by decide) (by decide)
example : toCamelcaseDict (.datetime 951782400123456 (90 * 60000000)) = .dict [("year", .int 2000), ("month", .int 2), ("day", .int 29),
    ("hour", .int 1), ("minute", .int 30), ("second", .int 0), ("microsecond", .int 123456), ("timeZoneOffset", .flt 90)] := by
  have h : fdiv (totalSeconds (90 * 60000000)) 60 = ((90 : Int) : Rat) := minutes_exact (k := 90) (by decide)
  simp only [toCamelcaseDict, toCase, dateTimeDict]
  rw [show fdiv (totalSeconds (90 * 60000000)) 60 = (90 : Rat) from by simpa using h]
  rfl

end BM.Props
