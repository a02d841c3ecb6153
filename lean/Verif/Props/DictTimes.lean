import Verif.Props.Clock
import Verif.Props.Stamps
import Verif.Props.CaseNames
import Verif.SpecIntro
/-!
# Times as plain dictionaries (C49)
-/
namespace BM.Props
open Tables F Spec Case

/-! ### Dates, offsets, uncertainties -/

/-- The dictionary of a date denotes the instant, however the number of minutes is written. -/
theorem instant_dict {m k : Int} (hk : |k| < 1440) (h1 : -719162 ≤ (m + k * 60000000) / 86400000000)
    (h2 : (m + k * 60000000) / 86400000000 ≤ 2932896) : ∃ dz, dateParts m (k * 60000000) = .dict dz ∧
      dget dz "time_zone_offset" = some (.flt k) ∧
      (∀ z, timedeltaOf (60 * us) z = .ok (k * 60000000) → InstantMeans (.dict (dset dz "time_zone_offset" z)) m (k * 60000000)) := by
  have hk' := abs_lt.1 hk
  obtain ⟨y, mo, d, hc, a1, a2, a3, a4, a5, a8⟩ := civil_date ((m + k * 60000000) / 86400000000)
  obtain ⟨a6, a7⟩ := a8 h1 h2
  have hd := day_parts (m + k * 60000000)
  have hp : Property.pyDate (.int y) (.int mo) (.int d) = .ok ((m + k * 60000000) / 86400000000) := by
    simp only [Property.pyDate, asInt]
    rw [if_pos ⟨a6, a7, a1, a2, a3, a4⟩, a5]
  have b1 : 0 ≤ (m + k * 60000000) % 86400000000 := Int.emod_nonneg _ (by decide)
  have b2 : (m + k * 60000000) % 86400000000 < 86400000000 := Int.emod_lt_of_pos _ (by decide)
  refine ⟨[("year", .int y), ("month", .int mo), ("day", .int d), ("hour", .int ((m + k * 60000000) % 86400000000 / 3600000000)),
    ("minute", .int ((m + k * 60000000) % 86400000000 / 60000000 % 60)), ("second", .int ((m + k * 60000000) % 86400000000 / 1000000 % 60)),
    ("microsecond", .int ((m + k * 60000000) % 86400000000 % 1000000)), ("time_zone_offset", .flt k)], ?_, rfl, ?_⟩
  · rw [dateParts, minutes_exact hk, hc]
  · intro z hz
    refine ⟨⟨by usomega, by usomega⟩, .inr ⟨_, .int y, .int mo, .int d, z, (m + k * 60000000) / 86400000000, (m + k * 60000000) % 86400000000 / 3600000000,
      (m + k * 60000000) % 86400000000 / 60000000 % 60, (m + k * 60000000) % 86400000000 / 1000000 % 60,
      (m + k * 60000000) % 86400000000 % 1000000, rfl, by rfl, by rfl, by rfl, hp, ⟨_, by rfl, rfl, by omega, by omega⟩,
      ⟨_, by rfl, rfl, by omega, by omega⟩, ⟨_, by rfl, rfl, by omega, by omega⟩, ⟨_, by rfl, rfl, by omega, by omega⟩, by rfl, hz, ?_⟩⟩
    rw [hd, Int.add_sub_cancel]

theorem minutes_int {k : Int} (h : |k| < 1440) : timedeltaOf (60 * us) (.int k) = .ok (k * 60000000) := by
  rw [abs_lt] at h
  simp only [timedeltaOf, asInt]
  rw [show k * (60 * us) = k * 60000000 by simp only [us]; ring, pyTimedelta, if_pos]
  constructor <;> usomega

/-- A float within 0.4 microseconds of a whole number of microseconds denotes it. -/
theorem micros_near {q : Rat} {n : Int} (hn : |n| ≤ 2550000) (h : |q - (n : Rat) / 10 ^ 6| < 4 / 10 ^ 7) : timedeltaOf us (.flt q) = .ok n := by
  unfold timedeltaOf
  simp only
  have hn' := abs_le.1 hn
  have hq := abs_lt.1 h
  have n0 : (-2550000 : Rat) ≤ n := by exact_mod_cast hn'.1
  have n1 : (n : Rat) ≤ 2550000 := by exact_mod_cast hn'.2
  have hfr : |q - (ftrunc q : Rat)| ≤ 1 := by
    unfold ftrunc
    split
    · have y1 := Rat.floor_le q
      have y2 : q < (q.floor : Rat) + 1 := by rw [rfloor_eq]; exact Int.lt_floor_add_one q
      rw [abs_le]; constructor <;> linarith
    · have y1 := Rat.floor_le (-q)
      have y2 : -q < ((-q).floor : Rat) + 1 := by rw [rfloor_eq]; exact Int.lt_floor_add_one (-q)
      rw [abs_le]; push_cast; constructor <;> linarith
  have he : |fmul (q - (ftrunc q : Rat)) ((us : Int) : Rat) - (q - (ftrunc q : Rat)) * 1000000| ≤ 1 / 10 ^ 9 := by
    have : ((us : Int) : Rat) = 1000000 := by norm_num [us]
    rw [this, fmul]
    refine (rnd_err _).trans ?_
    rw [div_le_iff₀ (by norm_num), abs_mul]
    have : |(1000000 : Rat)| = 1000000 := by norm_num
    rw [this]
    calc |q - (ftrunc q : Rat)| * 1000000 ≤ 1 * 1000000 := by
          exact mul_le_mul_of_nonneg_right hfr (by norm_num)
      _ ≤ _ := by norm_num
  have he := abs_le.1 he
  have hr : rhe (((ftrunc q * us : Int) : Rat) + fmul (q - ftrunc q) ((us : Int) : Rat)) = n := by
    apply rhe_near
    have : ((ftrunc q * us : Int) : Rat) = (ftrunc q : Rat) * 1000000 := by push_cast; norm_num [us]
    rw [this, abs_lt]
    constructor <;> linarith
  rw [hr, pyTimedelta, if_pos]
  constructor <;> usomega

/-- How many minutes the zone of a received time is. -/
def zoneMinutes (tz : Nat) : Int := ((tz : Int) - 64) * 15

theorem zone_off (tz : Nat) : ((tz : Int) - 64) * 900 * us = zoneMinutes tz * 60000000 := by simp only [zoneMinutes, us]; ring
theorem zone_small {tz : Nat} (h : tz < 160) : |zoneMinutes tz| < 1440 := by unfold zoneMinutes; rw [abs_lt]; omega

theorem time_conv (cls : String) {op : Nat} {name : String} (hop : (op, name) ∈ [(0x5C, "time_set"), (0x5D, "time_status")]) (m off td unc : Int) (auth : Bool) :
    toSnakecaseDict (toCamelcaseDict (timeReport cls op name m off td unc auth)) = .dict [("opcode", .int op), (name, .dict [("date", dateParts m off),
      ("tai_utc_delta", .flt (totalSeconds td)), ("time_authority", .bool auth), ("uncertainty", .flt (totalSeconds unc))])] := by
  have s1 : snakecase (camelcase "opcode") = "opcode" := by decide +kernel
  have s2 : snakecase (camelcase "date") = "date" := by decide +kernel
  have s3 : snakecase (camelcase "tai_utc_delta") = "tai_utc_delta" := by decide +kernel
  have s4 : snakecase (camelcase "time_authority") = "time_authority" := by decide +kernel
  have s5 : snakecase (camelcase "uncertainty") = "uncertainty" := by decide +kernel
  have s6 : snakecase (camelcase "time_set") = "time_set" := by decide +kernel
  have s7 : snakecase (camelcase "time_status") = "time_status" := by decide +kernel
  have p1 : isPrivate "opcode" = false := by decide +kernel
  have p2 : isPrivate "date" = false := by decide +kernel
  have p3 : isPrivate "tai_utc_delta" = false := by decide +kernel
  have p4 : isPrivate "time_authority" = false := by decide +kernel
  have p5 : isPrivate "uncertainty" = false := by decide +kernel
  have p6 : isPrivate "time_set" = false := by decide +kernel
  have p7 : isPrivate "time_status" = false := by decide +kernel
  simp only [List.mem_cons, Prod.mk.injEq, List.not_mem_nil, or_false] at hop
  rcases hop with ⟨rfl, rfl⟩ | ⟨rfl, rfl⟩
  all_goals
    rw [timeReport, C30_dict (by simp [Convertible, ConvertibleEntries, dget, s1, s2, s3, s4, s5, s6, s7])]
    simp [plainValue, plainEntries, dget, p1, p2, p3, p4, p5, p6, p7]

theorem whole_seconds {n : Int} (h : |n| < 2 ^ 53) : totalSeconds (n * us) = n := by
  have e1 : (((n * us : Int) : Rat)) / 1000000 = ((n : Int) : Rat) := by push_cast; norm_num [us]
  rw [totalSeconds, e1, rnd_int _ h]

variable [Platform]

theorem time_access_error {op : Nat} {name : String} (hop : (op, name) ∈ [(0x5C, "time_set"), (0x5D, "time_status")]) (L : Lib) {d : Dict} {u : Val}
    (hd : Carrying op name d u) {e : Err} (hb : ∀ ctx, Time.timeSet.build L ctx u = .error e) :
    accessBuild registry L (.dict d) = .error e := by
  obtain ⟨k, hk, hs, hp⟩ := hd
  have he : (E.TimeOpcode, timeCases) ∈ registry := by inreg
  have key : ∀ {N : String}, lower N = name → upper name = N → (N, (op : Int)) ∈ E.TimeOpcode.members → findCase op timeCases = some Time.timeSet →
      accessBuild registry L (.dict d) = .error e := by
    intro N hl hu hN hc
    have hne : name ≠ "opcode" := by
      simp only [List.mem_cons, Prod.mk.injEq, List.not_mem_nil, or_false] at hop
      rcases hop with ⟨-, rfl⟩ | ⟨-, rfl⟩ <;> decide
    have := C04_build he hN (by rw [hl]; exact hne) L (d := d) (k := k) hk (by rw [hu] at hs; exact hs)
    rw [hl, hp, hc, Option.getD_some] at this
    simp only [hb, Except.map] at this
    cases hbd : accessBuild registry L (.dict d) with
    | error e' => rw [hbd] at this; simp only [Except.map, Except.error.injEq] at this; rw [this]
    | ok r => rw [hbd] at this; simp [Except.map] at this
  simp only [List.mem_cons, Prod.mk.injEq, List.not_mem_nil, or_false] at hop
  rcases hop with ⟨rfl, rfl⟩ | ⟨rfl, rfl⟩
  · exact key (N := "TIME_SET") (by decide) (by decide +kernel) (by simp [E.TimeOpcode]) rfl
  · exact key (N := "TIME_STATUS") (by decide) (by decide +kernel) (by simp [E.TimeOpcode]) rfl

/-- **C49 (times).** A received time is converted to a plain dictionary whose entry for the TAI-UTC difference is a float; this dictionary
is rejected when it is converted back and sent.  If it passes through the Cap'n Proto schema, where the difference is an integer, the zone is a
number of minutes and the uncertainty is a single-precision number (so within 0.4 microseconds of what was reported), then it is sent with
the same fields as the received one, up to 18 values of the uncertainty that are sent one unit lower. -/
theorem C49_time {op : Nat} {name : String} (hop : (op, name) ∈ [(0x5C, "time_set"), (0x5D, "time_status")]) {f : TimeFields} (hf : InRange f) (L : Lib)
    {v : Val} {rest : List UInt8} (h : accessParse registry L (wireOpcode op ++ f.bytes) = .ok (v, rest)) :
    ∃ dz sec : _, toSnakecaseDict (toCamelcaseDict v) = .dict [("opcode", .int op), (name, .dict [("date", .dict dz),
        ("tai_utc_delta", .flt ((f.delta : Int) - 255 : Int)), ("time_authority", .bool f.auth), ("uncertainty", .flt sec)])] ∧
      dget dz "time_zone_offset" = some (.flt (zoneMinutes f.tz)) ∧ |sec - (f.unc : Rat) / 100| < 1 / 10 ^ 15 ∧
      accessBuild registry L (toSnakecaseDict (toCamelcaseDict v)) = .error .attribute ∧
      ∀ z q, z = .int (zoneMinutes f.tz) ∨ z = .flt (zoneMinutes f.tz) → |q - (f.unc : Rat) / 100| < 4 / 10 ^ 7 →
        ∃ o, accessBuild registry L (.dict [("opcode", .int op), (name, .dict [("date", .dict (dset dz "time_zone_offset" z)),
          ("tai_utc_delta", .int ((f.delta : Int) - 255)), ("time_authority", .bool f.auth), ("uncertainty", .flt q)])]) =
          .ok (wireOpcode op ++ { f with unc := if f.unc ∈ uncertaintyExceptions then f.unc - 1 else f.unc }.bytes, o) := by
  obtain ⟨r1, r2⟩ := C23_read hop hf L
  by_cases hc : f.tz < 160 ∧ f.instant < endSecond * us ∧ f.instant + f.off < endSecond * us
  swap
  · obtain ⟨e, he⟩ := r2 hc
    rw [he] at h; cases h
  rw [r1 hc] at h
  cases h
  have hne : "opcode" ≠ name := by
    simp only [List.mem_cons, Prod.mk.injEq, List.not_mem_nil, or_false] at hop
    rcases hop with ⟨-, rfl⟩ | ⟨-, rfl⟩ <;> decide
  have hz : f.off = zoneMinutes f.tz * 60000000 := zone_off f.tz
  have hzs := zone_small hc.1
  have hes : endSecond = 253402300800 := rfl
  have hi : f.instant = ((f.tai : Int) + 946684800) * us + rhe ((f.sub : Rat) * 10 ^ 6 / 256) + f.off := rfl
  have hR0 : 0 ≤ rhe ((f.sub : Rat) * 10 ^ 6 / 256) := by
    have hr := abs_le.1 (rhe_err ((f.sub : Rat) * 10 ^ 6 / 256))
    have hs0 : (0 : Rat) ≤ f.sub := by positivity
    have : (-1 : Rat) < (rhe ((f.sub : Rat) * 10 ^ 6 / 256) : Int) := by linarith
    have : -1 < rhe ((f.sub : Rat) * 10 ^ 6 / 256) := by exact_mod_cast this
    omega
  have hzs' := abs_lt.1 hzs
  obtain ⟨dz, hd1, hd2, hd3⟩ := instant_dict (m := f.instant) hzs (by
    clear r1 r2
    generalize rhe ((f.sub : Rat) * 10 ^ 6 / 256) = R at *
    usomega) (by
    clear r1 r2
    generalize rhe ((f.sub : Rat) * 10 ^ 6 / 256) = R at *
    usomega)
  have hun : |((f.unc : Int) * 10000)| ≤ 2550000 := by have := hf.unc; rw [abs_le]; constructor <;> omega
  have hur : |totalSeconds (f.unc * 10000) - (f.unc : Rat) / 100| < 1 / 10 ^ 15 := by
    have e : (((f.unc : Int) * 10000 : Int) : Rat) / 1000000 = (f.unc : Rat) / 100 := by push_cast; ring
    rw [totalSeconds, e]
    refine lt_of_le_of_lt (rnd_err _) ?_
    have h0 : (0 : Rat) ≤ f.unc := by positivity
    have h1 : (f.unc : Rat) ≤ 255 := by have := hf.unc; exact_mod_cast (by omega : f.unc ≤ 255)
    rw [abs_of_nonneg (by positivity), div_lt_iff₀ (by norm_num)]
    norm_num
    linarith
  have hds : totalSeconds (((f.delta : Int) - 255) * us) = (((f.delta : Int) - 255 : Int) : Rat) :=
    whole_seconds (by have := hf.delta; rw [abs_lt]; constructor <;> omega)
  have hconv := time_conv "TimeOpcode" hop f.instant f.off ((f.delta - 255) * us) (f.unc * 10000) f.auth
  rw [hds] at hconv
  rw [hz, hd1] at hconv
  rw [hz] at hc ⊢
  refine ⟨dz, totalSeconds (f.unc * 10000), hconv, hd2, hur, ?_, ?_⟩
  · rw [hconv]
    have hdate : Time.dateOf (.dict dz) = .ok (f.instant, zoneMinutes f.tz * 60000000) := by
      have hl : -719162 ≤ (f.instant + zoneMinutes f.tz * 60000000) / 86400000000 := by
        clear r1 r2
        generalize rhe ((f.sub : Rat) * 10 ^ 6 / 256) = R at *
        usomega
      have hh : (f.instant + zoneMinutes f.tz * 60000000) / 86400000000 ≤ 2932896 := by usomega
      have := C30_datetime (m := f.instant) hzs hl hh
      rwa [toSnakecaseDict, toCamelcaseDict, toCase, snake_dateTime, hd1] at this
    refine time_access_error hop L (u := .dict [("date", .dict dz), ("tai_utc_delta", .flt ((f.delta : Int) - 255 : Int)), ("time_authority", .bool f.auth),
        ("uncertainty", .flt (totalSeconds (f.unc * 10000)))]) ⟨.int op, rfl, .inl rfl, by simp [dget, hne]⟩ fun ctx => ?_
    have hu := micros_near hun (q := totalSeconds (f.unc * 10000)) (by
      refine lt_of_le_of_lt (le_of_eq ?_) (hur.trans (by norm_num))
      congr 2; push_cast; ring)
    have he : Time.timeEncode (.dict [("date", .dict dz), ("tai_utc_delta", .flt ((f.delta : Int) - 255 : Int)), ("time_authority", .bool f.auth),
        ("uncertainty", .flt (totalSeconds (f.unc * 10000)))]) = .error .attribute := by
      simp [Time.timeEncode, dgetE, dget, hdate, ok_bind, Time.uncertaintyOf, hu, Time.deltaOf, asInt, error_bind]
    simp only [Time.timeSet, adapter, he, error_bind]
  · intro z q hzz hq
    have hzt : timedeltaOf (60 * us) z = .ok (zoneMinutes f.tz * 60000000) := by
      rcases hzz with rfl | rfl
      · exact minutes_int hzs
      · exact minutes_back hzs
    have hfit := again_fits hf hc.1 hc.2.1
    rw [hz] at hfit
    have hu := micros_near hun (q := q) (by
      refine lt_of_le_of_lt (le_of_eq ?_) hq
      congr 2; push_cast; ring)
    have hdl : pyTimedelta (((f.delta : Int) - 255) * us) = .ok (((f.delta : Int) - 255) * us) := by
      have := hf.delta
      rw [pyTimedelta, if_pos]
      constructor <;> usomega
    have hm : TimeMeans (.dict [("date", .dict (dset dz "time_zone_offset" z)), ("tai_utc_delta", .int ((f.delta : Int) - 255)),
        ("time_authority", .bool f.auth), ("uncertainty", .flt q)])
        ⟨f.instant, zoneMinutes f.tz * 60000000, f.unc * 10000, (f.delta - 255) * us, f.auth⟩ :=
      ⟨_, _, _, _, _, rfl, rfl, hd3 z hzt, rfl, .inr ⟨q, rfl, hu⟩, rfl, .inr ⟨_, rfl, hdl⟩, rfl, rfl⟩
    obtain ⟨hb, -⟩ := C05_encode_decode (time_messages hop)
      (v := .dict [("date", .datetime f.instant f.off), ("tai_utc_delta", .timedelta ((f.delta - 255) * us)), ("time_authority", .bool f.auth),
        ("uncertainty", .timedelta ((if f.unc ∈ uncertaintyExceptions then f.unc - 1 else f.unc : Nat) * 10000))])
      (b := { f with unc := if f.unc ∈ uncertaintyExceptions then f.unc - 1 else f.unc }.bytes)
      ⟨_, hm, .inl ⟨_, hfit, ⟨hc.2.1, by rw [← hz] at hc; exact hc.2.2, rfl⟩, rfl⟩⟩ L
      (d := [("opcode", .int op), (name, .dict [("date", .dict (dset dz "time_zone_offset" z)), ("tai_utc_delta", .int ((f.delta : Int) - 255)),
        ("time_authority", .bool f.auth), ("uncertainty", .flt q)])]) (k := .int op) rfl (.inl rfl) (by simp [payload, outerPayload, dget, hne])
    obtain ⟨o, hb⟩ := hb
    exact ⟨o, by simpa [header] using hb⟩

/-- A known time and its dictionary with a single-precision uncertainty. -/
example : InRange ⟨753315237, 64, 57, 292, true, 68⟩ := by constructor <;> decide
example : |(9563013 / 2 ^ 24 : Rat) - ((57 : Nat) : Rat) / 100| < 4 / 10 ^ 7 := by norm_num [abs_lt]

/-! ### Time stamps of the emergency lighting tests -/

/-- A test status as a plain dictionary: the fields are under the name of the form (`minimal`, or `optional` with the relative time stamp). -/
def testForm (n : Nat) (name form : String) (d : Dict) : Val :=
  .dict [("opcode", .int 0xE93601), ("silvair_elt", .dict [("subopcode", .int n), (name, .dict [(form, .dict d)])])]

/-- The entries that depend on whether four or more bytes follow the results. -/
def relEntry (t : List UInt8) : Dict := if t.length < 4 then [] else [("relative_timestamp", .int (leNat (t.take 4)))]
def relForm (t : List UInt8) : String := if t.length < 4 then "minimal" else "optional"
def relBytes (t : List UInt8) : List UInt8 := if t.length < 4 then [] else t.take 4

/-- Results as plain entries. -/
def functionalPlain (st r : UInt8) : Dict := [("execution_status", .int st.toNat), ("execution_result",
  .dict [("circuit_fault", .bool (r.toNat.testBit 2)), ("battery_fault", .bool (r.toNat.testBit 1)), ("lamp_fault", .bool (r.toNat.testBit 0))])]
def durationPlain (st r x y : UInt8) : Dict := [("execution_status", .int st.toNat), ("execution_result",
  .dict [("battery_duration_fault", .bool (r.toNat.testBit 3)), ("circuit_fault", .bool (r.toNat.testBit 2)), ("battery_fault", .bool (r.toNat.testBit 1)),
    ("lamp_fault", .bool (r.toNat.testBit 0))]), ("duration_result", .int (leNat [x, y]))]

/-- A time stamp as a plain dictionary. -/
def stampForm (date delta : Val) : Val := .dict [("date", date), ("tai_utc_delta", delta)]

theorem form_build {num : Nat} {name : String} {rs : List (RI UInt8)} (hk : (num, name, rs) ∈ testStatus)
    {f : StampFields} {u sv : Val} (hu : F.timestamp u f.bytes sv)
    {plain : Dict} {bs : List UInt8} {dv : Dict} (t : List UInt8) (hr : seqRel rs (("tai_timestamp", u) :: plain ++ relEntry t) bs dv)
    (hp : dget plain "relative_timestamp" = none) (L : Lib) :
    ∃ x, accessBuild registry L (testForm num name (relForm t) (("tai_timestamp", u) :: plain ++ relEntry t)) =
      .ok (wireOpcode 0xE93601 ++ [UInt8.ofNat num] ++ (f.bytes ++ bs ++ relBytes t), x) := by
  set o : Dict := ("tai_timestamp", u) :: plain ++ relEntry t with hod
  have hshort : seqRel (fld "tai_timestamp" F.timestamp :: rs) o (f.bytes ++ bs) (("tai_timestamp", sv) :: dv) :=
    F.seq_cons (F.fld_mk (by simp [hod, dget]) hu) hr
  have main : ∀ {odd}, vmsgBut 0xE93601 "silvair_elt" num name (longShort "relative_timestamp"
      [embed (fld "tai_timestamp" F.timestamp :: rs), u32 "relative_timestamp"] (fld "tai_timestamp" F.timestamp :: rs)) odd ∈ Spec.messages →
      name ≠ "subopcode" → ∃ x, accessBuild registry L (testForm num name (relForm t) o) =
      .ok (wireOpcode 0xE93601 ++ [UInt8.ofNat num] ++ (f.bytes ++ bs ++ relBytes t), x) := by
    intro odd hm hne
    have hG : ∃ v, longShort "relative_timestamp" [embed (fld "tai_timestamp" F.timestamp :: rs), u32 "relative_timestamp"]
        (fld "tai_timestamp" F.timestamp :: rs) (.dict [(relForm t, .dict o)]) (f.bytes ++ bs ++ relBytes t) v := by
      by_cases hl : t.length < 4
      · have e1 : relForm t = "minimal" := by simp [relForm, hl]
        have e2 : relBytes t = [] := by simp [relBytes, hl]
        rw [e1, e2, List.append_nil]
        exact ⟨_, .inr ⟨⟨_, rfl, rfl, rfl⟩, _, _, rfl, F.record_mk hshort, rfl⟩⟩
      · have e1 : relForm t = "optional" := by simp [relForm, hl]
        have e2 : relBytes t = leBytes 4 (leNat (t.take 4)) := by
          have : (t.take 4).length = 4 := by simp; omega
          rw [relBytes, if_neg hl]
          have h := leBytes_leNat (t.take 4)
          rw [this] at h
          exact h.symm
        have hlt : leNat (t.take 4) < 256 ^ 4 := by
          have : (t.take 4).length = 4 := by simp; omega
          have h := leNat_lt (t.take 4)
          rwa [this] at h
        have e3 : dget o "relative_timestamp" = some (.int (leNat (t.take 4))) := by
          rw [hod, relEntry, if_neg hl]
          simp only [List.cons_append, dget]
          rw [if_neg (by decide), BM.dget_append, hp]
          simp [dget]
        rw [e1, e2]
        refine ⟨_, .inl ⟨_, ("tai_timestamp", sv) :: dv ++ [("relative_timestamp", .int (leNat (t.take 4)))], rfl, ?_, rfl⟩⟩
        exact F.record_mk (F.seq_cons (r := embed (fld "tai_timestamp" F.timestamp :: rs)) hshort (F.seq_one (F.fld_mk e3 (F.uint_mk hlt))))
    obtain ⟨v, hG⟩ := hG
    have hpay : payload (vmsgBut 0xE93601 "silvair_elt" num name (longShort "relative_timestamp"
      [embed (fld "tai_timestamp" F.timestamp :: rs), u32 "relative_timestamp"] (fld "tai_timestamp" F.timestamp :: rs)) odd)
      [("opcode", .int 0xE93601), ("silvair_elt", .dict [("subopcode", .int num), (name, .dict [(relForm t, .dict o)])])] = some (.dict [(relForm t, .dict o)]) := by
      simp [payload, outerPayload, dget, innerPayload, Ne.symm hne, hashInt, asInt]
    obtain ⟨⟨x, hb⟩, -⟩ := C05_encode_decode hm hG L (d := [("opcode", .int 0xE93601),
        ("silvair_elt", .dict [("subopcode", .int num), (name, .dict [(relForm t, .dict o)])])]) (k := .int 0xE93601) rfl (.inl rfl) hpay
    exact ⟨x, hb⟩
  simp only [testStatus, List.mem_cons, Prod.mk.injEq, List.not_mem_nil, or_false] at hk
  rcases hk with ⟨rfl, rfl, rfl⟩ | ⟨rfl, rfl, rfl⟩
  · exact main (odd := fun u => OddLong "relative_timestamp" functionalLong u ∨ OddStamped u)
      (by simp only [Spec.messages, Spec.plainOnly, Spec.eltPlain, List.mem_append, List.mem_cons]; tauto) (by decide)
  · exact main (odd := fun u => OddLong "relative_timestamp" durationLong u ∨ OddStamped u)
      (by simp only [Spec.messages, Spec.plainOnly, Spec.eltPlain, List.mem_append, List.mem_cons]; tauto) (by decide)

omit [Platform] in
theorem map_err {α β : Type} {f : α → β} (e : Err) : (Except.error e : R α).map f = .error e := rfl
omit [Platform] in
theorem err_of_map {α β : Type} {x : R α} {f : α → β} {e : Err} (h : x.map f = .error e) : x = .error e := by
  cases x with
  | error e' => injection h with h; rw [h]
  | ok a => cases h

theorem form_error {num : Nat} {name : String} {rs : List (RI UInt8)} (hk : (num, name, rs) ∈ testStatus) {m off : Int} {dz rest : Dict}
    (hz : Time.dateOf (.dict dz) = .ok (m, off)) {q : Rat} (t : List UInt8) (L : Lib) :
    accessBuild registry L (testForm num name (relForm t) (("tai_timestamp", stampForm (.dict dz) (.flt q)) :: rest)) = .error .select := by
  set o : Dict := ("tai_timestamp", stampForm (.dict dz) (.flt q)) :: rest with hod
  have ho : dget o "tai_timestamp" = some (stampForm (.dict dz) (.flt q)) := by simp [hod, dget]
  have hb : ∀ ctx, ELT.timestampC.build L ctx (stampForm (.dict dz) (.flt q)) = .error .attribute := by
    intro ctx
    have hs : ELT.timestampEncode (stampForm (.dict dz) (.flt q)) = .error .attribute := by
      simp [ELT.timestampEncode, stampForm, dgetE, dget, hz, ok_bind, Time.deltaOf, asInt, error_bind]
    simp only [ELT.timestampC, adapter, hs, error_bind]
  have hbn : ELT.timestampC.buildNone = false := rfl
  -- without a stamp, or with this one, neither form can be built
  have hany : ∀ d', (dget d' "tai_timestamp" = none ∨ d' = o) → ∀ its ctx, ∃ e, buildItems L d' (field "tai_timestamp" ELT.timestampC :: its) ctx = .error e := by
    rintro d' (hd | rfl) its ctx
    · exact ⟨.key, by simp only [buildItems, field, hbn, Bool.false_eq_true, if_false, dgetE, hd, error_bind]⟩
    · exact ⟨.attribute, by simp only [buildItems, field, hbn, Bool.false_eq_true, if_false, dgetE, ho, ok_bind, hb, error_bind]⟩
  have hany' : ∀ d', (dget d' "tai_timestamp" = none ∨ d' = o) → ∀ its its' ctx, ∃ e,
      buildItems L d' (embedded (field "tai_timestamp" ELT.timestampC :: its) :: its') ctx = .error e := by
    intro d' hd its its' ctx
    obtain ⟨e, he⟩ := hany d' hd its d'
    refine ⟨e, ?_⟩
    have he : (embedded (field "tai_timestamp" ELT.timestampC :: its)).build L d' ctx = .error e := by
      show (do let (b, ctx') ← buildItems L d' (field "tai_timestamp" ELT.timestampC :: its) d'; .ok (b, dmerge ctx ctx') : R _) = _
      rw [he, error_bind]
    rw [buildItems, he]; rfl
  have hC : ∀ its ctx, (optionalMinimal [embedded (field "tai_timestamp" ELT.timestampC :: its), field "relative_timestamp" (uintLE 4)]
      (field "tai_timestamp" ELT.timestampC :: its)).build L ctx (.dict [(relForm t, .dict o)]) = .error .select := by
    intro its ctx
    have hget : ∀ k, ∃ d', (dget [(relForm t, Val.dict o)] k).getD (.dict [(relForm t, .dict o)]) = .dict d' ∧ (dget d' "tai_timestamp" = none ∨ d' = o) := by
      intro k
      by_cases hk : relForm t = k
      · exact ⟨o, by simp [dget, hk], .inr rfl⟩
      · refine ⟨_, by simp only [dget, if_neg hk, Option.getD_none]; rfl, .inl ?_⟩
        simp only [dget]
        rw [if_neg]
        unfold relForm
        split <;> decide
    obtain ⟨d1, g1, k1⟩ := hget "optional"
    obtain ⟨d2, g2, k2⟩ := hget "minimal"
    obtain ⟨e1, h1⟩ := hany' d1 k1 its [field "relative_timestamp" (uintLE 4)] d1
    obtain ⟨e2, h2⟩ := hany d2 k2 its d2
    simp only [optionalMinimal, namedSelect, select, List.map_cons, List.map_nil, selectBuild, nameAdapter, g1, g2, struct, asDict, ok_bind, h1, h2, error_bind]
  have main : ∀ {N}, lookupValue E.EmergencyLightingTestSubOpcode.members num = some N → lower N = name → num < 256 → name ≠ "subopcode" →
      (∃ its, (findCase num emergencyLightingTestParamsCases).getD passC =
        optionalMinimal [embedded (field "tai_timestamp" ELT.timestampC :: its), field "relative_timestamp" (uintLE 4)] (field "tai_timestamp" ELT.timestampC :: its)) →
      accessBuild registry L (testForm num name (relForm t) o) = .error .select := by
    rintro N hN hl hn hne ⟨its, hcase⟩
    have key := C33_build (V := ⟨0xE93601, "EmergencyLightingTestOpcode", "silvair_elt", E.EmergencyLightingTestSubOpcode, emergencyLightingTestParamsCases⟩)
      (by simp [vendorTable]) hN hn L (d := [("opcode", .int 0xE93601), ("silvair_elt", .dict [("subopcode", .int num), (name, .dict [(relForm t, .dict o)])])])
      (k := .int 0xE93601) (k' := .int num) rfl (.inl rfl) rfl rfl rfl
    have hd : dget [("subopcode", Val.int (num : Int)), (name, .dict [(relForm t, .dict o)])] name = some (.dict [(relForm t, .dict o)]) := by
      simp [dget, Ne.symm hne]
    simp only [hl, hd, Option.some_or, hcase, hC, map_err] at key
    exact err_of_map key
  simp only [testStatus, List.mem_cons, Prod.mk.injEq, List.not_mem_nil, or_false] at hk
  rcases hk with ⟨rfl, rfl, rfl⟩ | ⟨rfl, rfl, rfl⟩
  · exact main (N := "ELT_FUNCTIONAL_TEST_STATUS") (by decide +kernel) (by decide +kernel) (by decide) (by decide) ⟨_, rfl⟩
  · exact main (N := "ELT_DURATION_TEST_STATUS") (by decide +kernel) (by decide +kernel) (by decide) (by decide) ⟨_, rfl⟩

omit [Platform] in
/-- The dictionary of a received time stamp denotes it again, with an integer difference. -/
theorem stamp_dict {f : StampFields} (hf : Readable f) (hc : f.instant - f.td < endSecond * us) : ∃ dz,
    dateParts (f.instant - f.td) f.off = .dict dz ∧ dget dz "time_zone_offset" = some (.flt (zoneMinutes f.tz)) ∧
    Time.dateOf (.dict dz) = .ok (f.instant - f.td, f.off) ∧
    ∀ z, z = .int (zoneMinutes f.tz) ∨ z = .flt (zoneMinutes f.tz) → ∃ sv,
      F.timestamp (stampForm (.dict (dset dz "time_zone_offset" z)) (.int ((f.delta : Int) - 255))) f.bytes sv := by
  obtain ⟨-, hs⟩ := hf.sendable hc
  have hz : f.off = zoneMinutes f.tz * 60000000 := zone_off f.tz
  have hzs := zone_small hf.zone
  have hzs' := abs_lt.1 hzs
  obtain ⟨a, b, c, d, e⟩ := hf
  have hes : endSecond = 253402300800 := rfl
  have hi : f.instant = ((f.tai : Int) + 946684800) * us := rfl
  have ht : f.td = ((f.delta : Int) - 255) * us := rfl
  have hl : -719162 ≤ (f.instant - f.td + zoneMinutes f.tz * 60000000) / 86400000000 := by
    clear hs
    usomega
  have hh : (f.instant - f.td + zoneMinutes f.tz * 60000000) / 86400000000 ≤ 2932896 := by
    clear hs
    usomega
  obtain ⟨dz, hd1, hd2, hd3⟩ := instant_dict (m := f.instant - f.td) hzs hl hh
  refine ⟨dz, by rw [hz, hd1], hd2, ?_, ?_⟩
  · have := C30_datetime (m := f.instant - f.td) hzs hl hh
    rwa [toSnakecaseDict, toCamelcaseDict, toCase, snake_dateTime, hd1, ← hz] at this
  · intro z hzz
    have hzt : timedeltaOf (60 * us) z = .ok (zoneMinutes f.tz * 60000000) := by
      rcases hzz with rfl | rfl
      · exact minutes_int hzs
      · exact minutes_back hzs
    have hdl : pyTimedelta (((f.delta : Int) - 255) * us) = .ok f.td := by
      rw [pyTimedelta, if_pos, ht]
      constructor <;> usomega
    have hm : StampMeans (stampForm (.dict (dset dz "time_zone_offset" z)) (.int ((f.delta : Int) - 255))) (f.instant - f.td) f.off f.td := by
      rw [hz]
      exact ⟨_, _, _, rfl, rfl, hd3 z hzt, rfl, .inr ⟨_, rfl, hdl⟩⟩
    obtain ⟨f', e1, e2, e3, hF⟩ := hs.fits hm
    have : f' = f := by
      clear hF hm hd3 hs
      cases f'; cases f
      simp only [StampFields.mk.injEq] at *
      refine ⟨?_, ?_, ?_⟩ <;> usomega
    subst this
    exact ⟨_, hF⟩

omit [Platform] in
theorem stamp_delta {f : StampFields} (hf : f.delta < 2 ^ 15) : totalSeconds f.td = (((f.delta : Int) - 255 : Int) : Rat) :=
  whole_seconds (by rw [abs_lt]; constructor <;> omega)

omit [Platform] in
theorem functional_conv (f : StampFields) (st r : UInt8) (t : List UInt8) :
    toSnakecaseDict (toCamelcaseDict (eltReport 3 "elt_functional_test_status" (("tai_timestamp", stampReport f) :: functionalResults st r ++
      (relEntry t ++ [("_name", .str (relForm t))])))) =
    testForm 3 "elt_functional_test_status" (relForm t) (("tai_timestamp", stampForm (dateParts (f.instant - f.td) f.off) (.flt (totalSeconds f.td))) ::
      functionalPlain st r ++ relEntry t) := by
  have s0 : snakecase (camelcase "opcode") = "opcode" := by decide +kernel
  have p0 : isPrivate "opcode" = false := by decide +kernel
  have s1 : snakecase (camelcase "silvair_elt") = "silvair_elt" := by decide +kernel
  have p1 : isPrivate "silvair_elt" = false := by decide +kernel
  have s2 : snakecase (camelcase "subopcode") = "subopcode" := by decide +kernel
  have p2 : isPrivate "subopcode" = false := by decide +kernel
  have s3 : snakecase (camelcase "elt_functional_test_status") = "elt_functional_test_status" := by decide +kernel
  have p3 : isPrivate "elt_functional_test_status" = false := by decide +kernel
  have s4 : snakecase (camelcase "elt_duration_test_status") = "elt_duration_test_status" := by decide +kernel
  have p4 : isPrivate "elt_duration_test_status" = false := by decide +kernel
  have s5 : snakecase (camelcase "tai_timestamp") = "tai_timestamp" := by decide +kernel
  have p5 : isPrivate "tai_timestamp" = false := by decide +kernel
  have s6 : snakecase (camelcase "date") = "date" := by decide +kernel
  have p6 : isPrivate "date" = false := by decide +kernel
  have s7 : snakecase (camelcase "tai_utc_delta") = "tai_utc_delta" := by decide +kernel
  have p7 : isPrivate "tai_utc_delta" = false := by decide +kernel
  have s8 : snakecase (camelcase "execution_status") = "execution_status" := by decide +kernel
  have p8 : isPrivate "execution_status" = false := by decide +kernel
  have s9 : snakecase (camelcase "execution_result") = "execution_result" := by decide +kernel
  have p9 : isPrivate "execution_result" = false := by decide +kernel
  have s10 : snakecase (camelcase "circuit_fault") = "circuit_fault" := by decide +kernel
  have p10 : isPrivate "circuit_fault" = false := by decide +kernel
  have s11 : snakecase (camelcase "battery_fault") = "battery_fault" := by decide +kernel
  have p11 : isPrivate "battery_fault" = false := by decide +kernel
  have s12 : snakecase (camelcase "lamp_fault") = "lamp_fault" := by decide +kernel
  have p12 : isPrivate "lamp_fault" = false := by decide +kernel
  have s13 : snakecase (camelcase "battery_duration_fault") = "battery_duration_fault" := by decide +kernel
  have p13 : isPrivate "battery_duration_fault" = false := by decide +kernel
  have s14 : snakecase (camelcase "duration_result") = "duration_result" := by decide +kernel
  have p14 : isPrivate "duration_result" = false := by decide +kernel
  have s15 : snakecase (camelcase "relative_timestamp") = "relative_timestamp" := by decide +kernel
  have p15 : isPrivate "relative_timestamp" = false := by decide +kernel
  have sm : snakecase "minimal" = "minimal" := by decide +kernel
  have so : snakecase "optional" = "optional" := by decide +kernel
  have pm : isPrivate "minimal" = false := by decide +kernel
  have po : isPrivate "optional" = false := by decide +kernel
  have pn : isPrivate "_name" = true := by decide +kernel
  by_cases hl : t.length < 4
  · rw [C30_dict (by simp [Convertible, ConvertibleEntries, dget, eltReport, stampReport, functionalResults, relEntry, relForm, hl, s0, s1, s2, s3, s4, s5, s6, s7, s8, s9, s10, s11, s12, s13, s14, s15, sm, so, pm, po, pn])]
    simp [plainValue, plainEntries, dget, eltReport, stampReport, functionalResults, functionalPlain, stampForm, testForm, relEntry, relForm, hl, p0, p1, p2, p3, p4, p5, p6, p7, p8, p9, p10, p11, p12, p13, p14, p15, pn]
  · rw [C30_dict (by simp [Convertible, ConvertibleEntries, dget, eltReport, stampReport, functionalResults, relEntry, relForm, hl, s0, s1, s2, s3, s4, s5, s6, s7, s8, s9, s10, s11, s12, s13, s14, s15, sm, so, pm, po, pn])]
    simp [plainValue, plainEntries, dget, eltReport, stampReport, functionalResults, functionalPlain, stampForm, testForm, relEntry, relForm, hl, p0, p1, p2, p3, p4, p5, p6, p7, p8, p9, p10, p11, p12, p13, p14, p15, pn]

omit [Platform] in
theorem duration_conv (f : StampFields) (st r x y : UInt8) (t : List UInt8) :
    toSnakecaseDict (toCamelcaseDict (eltReport 7 "elt_duration_test_status" (("tai_timestamp", stampReport f) :: durationResults st r x y ++
      (relEntry t ++ [("_name", .str (relForm t))])))) =
    testForm 7 "elt_duration_test_status" (relForm t) (("tai_timestamp", stampForm (dateParts (f.instant - f.td) f.off) (.flt (totalSeconds f.td))) ::
      durationPlain st r x y ++ relEntry t) := by
  have s0 : snakecase (camelcase "opcode") = "opcode" := by decide +kernel
  have p0 : isPrivate "opcode" = false := by decide +kernel
  have s1 : snakecase (camelcase "silvair_elt") = "silvair_elt" := by decide +kernel
  have p1 : isPrivate "silvair_elt" = false := by decide +kernel
  have s2 : snakecase (camelcase "subopcode") = "subopcode" := by decide +kernel
  have p2 : isPrivate "subopcode" = false := by decide +kernel
  have s3 : snakecase (camelcase "elt_functional_test_status") = "elt_functional_test_status" := by decide +kernel
  have p3 : isPrivate "elt_functional_test_status" = false := by decide +kernel
  have s4 : snakecase (camelcase "elt_duration_test_status") = "elt_duration_test_status" := by decide +kernel
  have p4 : isPrivate "elt_duration_test_status" = false := by decide +kernel
  have s5 : snakecase (camelcase "tai_timestamp") = "tai_timestamp" := by decide +kernel
  have p5 : isPrivate "tai_timestamp" = false := by decide +kernel
  have s6 : snakecase (camelcase "date") = "date" := by decide +kernel
  have p6 : isPrivate "date" = false := by decide +kernel
  have s7 : snakecase (camelcase "tai_utc_delta") = "tai_utc_delta" := by decide +kernel
  have p7 : isPrivate "tai_utc_delta" = false := by decide +kernel
  have s8 : snakecase (camelcase "execution_status") = "execution_status" := by decide +kernel
  have p8 : isPrivate "execution_status" = false := by decide +kernel
  have s9 : snakecase (camelcase "execution_result") = "execution_result" := by decide +kernel
  have p9 : isPrivate "execution_result" = false := by decide +kernel
  have s10 : snakecase (camelcase "circuit_fault") = "circuit_fault" := by decide +kernel
  have p10 : isPrivate "circuit_fault" = false := by decide +kernel
  have s11 : snakecase (camelcase "battery_fault") = "battery_fault" := by decide +kernel
  have p11 : isPrivate "battery_fault" = false := by decide +kernel
  have s12 : snakecase (camelcase "lamp_fault") = "lamp_fault" := by decide +kernel
  have p12 : isPrivate "lamp_fault" = false := by decide +kernel
  have s13 : snakecase (camelcase "battery_duration_fault") = "battery_duration_fault" := by decide +kernel
  have p13 : isPrivate "battery_duration_fault" = false := by decide +kernel
  have s14 : snakecase (camelcase "duration_result") = "duration_result" := by decide +kernel
  have p14 : isPrivate "duration_result" = false := by decide +kernel
  have s15 : snakecase (camelcase "relative_timestamp") = "relative_timestamp" := by decide +kernel
  have p15 : isPrivate "relative_timestamp" = false := by decide +kernel
  have sm : snakecase "minimal" = "minimal" := by decide +kernel
  have so : snakecase "optional" = "optional" := by decide +kernel
  have pm : isPrivate "minimal" = false := by decide +kernel
  have po : isPrivate "optional" = false := by decide +kernel
  have pn : isPrivate "_name" = true := by decide +kernel
  by_cases hl : t.length < 4
  · rw [C30_dict (by simp [Convertible, ConvertibleEntries, dget, eltReport, stampReport, durationResults, relEntry, relForm, hl, s0, s1, s2, s3, s4, s5, s6, s7, s8, s9, s10, s11, s12, s13, s14, s15, sm, so, pm, po, pn])]
    simp [plainValue, plainEntries, dget, eltReport, stampReport, durationResults, durationPlain, stampForm, testForm, relEntry, relForm, hl, p0, p1, p2, p3, p4, p5, p6, p7, p8, p9, p10, p11, p12, p13, p14, p15, pn]
  · rw [C30_dict (by simp [Convertible, ConvertibleEntries, dget, eltReport, stampReport, durationResults, relEntry, relForm, hl, s0, s1, s2, s3, s4, s5, s6, s7, s8, s9, s10, s11, s12, s13, s14, s15, sm, so, pm, po, pn])]
    simp [plainValue, plainEntries, dget, eltReport, stampReport, durationResults, durationPlain, stampForm, testForm, relEntry, relForm, hl, p0, p1, p2, p3, p4, p5, p6, p7, p8, p9, p10, p11, p12, p13, p14, p15, pn]

omit [Platform] in
theorem functional_bits (r : UInt8) : bytesBits [UInt8.ofNat (r.toNat % 8)] =
    [false, false, false, false, false, r.toNat.testBit 2, r.toNat.testBit 1, r.toNat.testBit 0] := by
  have h : ∀ n < 256, bytesBits [UInt8.ofNat (n % 8)] = [false, false, false, false, false, n.testBit 2, n.testBit 1, n.testBit 0] := by decide +kernel
  exact h _ r.toNat_lt
omit [Platform] in
theorem duration_bits (r : UInt8) : bytesBits [UInt8.ofNat (r.toNat % 16)] =
    [false, false, false, false, r.toNat.testBit 3, r.toNat.testBit 2, r.toNat.testBit 1, r.toNat.testBit 0] := by
  have h : ∀ n < 256, bytesBits [UInt8.ofNat (n % 16)] = [false, false, false, false, n.testBit 3, n.testBit 2, n.testBit 1, n.testBit 0] := by decide +kernel
  exact h _ r.toNat_lt

omit [Platform] in
theorem bit_mk {k : String} {du : Dict} {x : Bool} (h : dget du k = some (.bool x)) : (fld k F.bit).rel du [x] [(k, .bool x)] :=
  F.fld_mk h ⟨rfl, rfl⟩

omit [Platform] in
theorem functional_sent (st r : UInt8) (hst : st.toNat < 8) (u : Val) (t : List UInt8) : ∃ dv,
    seqRel functionalShort.tail (("tai_timestamp", u) :: functionalPlain st r ++ relEntry t) [st, UInt8.ofNat (r.toNat % 8)] dv := by
  have hm : E.TestExecutionStatus.has (st.toNat : Int) = true := by
    have h : ∀ n < 8, E.TestExecutionStatus.has (n : Nat) = true := by decide
    exact h _ hst
  have hb : leBytes 1 st.toNat = [st] := by simp [leBytes]
  have h1 := F.fld_mk (k := "execution_status") (du := ("tai_timestamp", u) :: functionalPlain st r ++ relEntry t) (u := .int st.toNat) rfl
    (F.enumOf_mk (E := E.TestExecutionStatus) (n := 1) (k := st.toNat) (by omega) hm rfl)
  rw [hb] at h1
  have h2 : packed 1 (record [zeros false 5, fld "circuit_fault" bit, fld "battery_fault" bit, fld "lamp_fault" bit])
      (.dict [("circuit_fault", .bool (r.toNat.testBit 2)), ("battery_fault", .bool (r.toNat.testBit 1)), ("lamp_fault", .bool (r.toNat.testBit 0))])
      [UInt8.ofNat (r.toNat % 8)]
      (.dict [("circuit_fault", .bool (r.toNat.testBit 2)), ("battery_fault", .bool (r.toNat.testBit 1)), ("lamp_fault", .bool (r.toNat.testBit 0))]) := by
    refine ⟨rfl, ?_⟩
    rw [functional_bits]
    exact F.record_mk (F.seq_cons (r := zeros false 5) (b₁ := [false, false, false, false, false]) ⟨rfl, rfl⟩
      (F.seq_cons (bit_mk rfl) (F.seq_cons (bit_mk rfl) (F.seq_one (bit_mk rfl)))))
  exact ⟨_, F.seq_cons h1 (F.seq_one (F.fld_mk (k := "execution_result") rfl h2))⟩

omit [Platform] in
theorem duration_sent (st r x y : UInt8) (hst : st.toNat < 8) (u : Val) (t : List UInt8) : ∃ dv,
    seqRel durationShort.tail (("tai_timestamp", u) :: durationPlain st r x y ++ relEntry t) [st, UInt8.ofNat (r.toNat % 16), x, y] dv := by
  have hm : E.TestExecutionStatus.has (st.toNat : Int) = true := by
    have h : ∀ n < 8, E.TestExecutionStatus.has (n : Nat) = true := by decide
    exact h _ hst
  have hb : leBytes 1 st.toNat = [st] := by simp [leBytes]
  have h1 := F.fld_mk (k := "execution_status") (du := ("tai_timestamp", u) :: durationPlain st r x y ++ relEntry t) (u := .int st.toNat) rfl
    (F.enumOf_mk (E := E.TestExecutionStatus) (n := 1) (k := st.toNat) (by omega) hm rfl)
  rw [hb] at h1
  have h3 := F.fld_mk (k := "duration_result") (du := ("tai_timestamp", u) :: durationPlain st r x y ++ relEntry t) rfl
    (F.uint_mk (n := 2) (k := leNat [x, y]) (leNat_lt [x, y]))
  rw [show leBytes 2 (leNat [x, y]) = [x, y] from leBytes_leNat [x, y]] at h3
  have h2 : packed 1 (record [zeros false 4, fld "battery_duration_fault" bit, fld "circuit_fault" bit, fld "battery_fault" bit, fld "lamp_fault" bit])
      (.dict [("battery_duration_fault", .bool (r.toNat.testBit 3)), ("circuit_fault", .bool (r.toNat.testBit 2)), ("battery_fault", .bool (r.toNat.testBit 1)),
        ("lamp_fault", .bool (r.toNat.testBit 0))])
      [UInt8.ofNat (r.toNat % 16)]
      (.dict [("battery_duration_fault", .bool (r.toNat.testBit 3)), ("circuit_fault", .bool (r.toNat.testBit 2)), ("battery_fault", .bool (r.toNat.testBit 1)),
        ("lamp_fault", .bool (r.toNat.testBit 0))]) := by
    refine ⟨rfl, ?_⟩
    rw [duration_bits]
    exact F.record_mk (F.seq_cons (r := zeros false 4) (b₁ := [false, false, false, false]) ⟨rfl, rfl⟩
      (F.seq_cons (bit_mk rfl) (F.seq_cons (bit_mk rfl) (F.seq_cons (bit_mk rfl) (F.seq_one (bit_mk rfl))))))
  exact ⟨_, F.seq_cons h1 (F.seq_cons (F.fld_mk (k := "execution_result") rfl h2) (F.seq_one h3))⟩

/-- **C49 (functional test status).** The report of a received status, as a plain dictionary, has its fields under the name of its form and a float for the TAI-UTC
difference; it is rejected when it is converted back and sent (`SelectError`: neither form can be built).  With an integer difference, as in the Cap'n Proto
schema, it is sent as the bytes that were received (up to the reserved bits of the results, and without trailing bytes). -/
theorem C49_functional {f : StampFields} (hf : Readable f) (hc : f.instant - f.td < endSecond * us) (st r : UInt8) (hst : st.toNat < 8)
    (t : List UInt8) (L : Lib) :
    ∃ v rest dz, accessParse registry L (wireOpcode 0xE93601 ++ [0x03] ++ f.bytes ++ [st, r] ++ t) = .ok (v, rest) ∧
      toSnakecaseDict (toCamelcaseDict v) = testForm 3 "elt_functional_test_status" (relForm t)
        (("tai_timestamp", stampForm (.dict dz) (.flt ((f.delta : Int) - 255 : Int))) :: functionalPlain st r ++ relEntry t) ∧
      dget dz "time_zone_offset" = some (.flt (zoneMinutes f.tz)) ∧
      accessBuild registry L (toSnakecaseDict (toCamelcaseDict v)) = .error .select ∧
      ∀ z, z = .int (zoneMinutes f.tz) ∨ z = .flt (zoneMinutes f.tz) →
        ∃ o, accessBuild registry L (testForm 3 "elt_functional_test_status" (relForm t)
          (("tai_timestamp", stampForm (.dict (dset dz "time_zone_offset" z)) (.int ((f.delta : Int) - 255))) :: functionalPlain st r ++ relEntry t)) =
          .ok (wireOpcode 0xE93601 ++ [0x03] ++ (f.bytes ++ [st, UInt8.ofNat (r.toNat % 8)] ++ relBytes t), o) := by
  obtain ⟨dz, hd1, hd2, hd3, hd4⟩ := stamp_dict hf hc
  have hrec : Received f := ⟨by have := hf.tai; simp only [StampFields.instant, endSecond] at this; usomega, by have := hf.zone; omega, by have := hf.reserved; omega⟩
  obtain ⟨p1, p2, -⟩ := C24_parse_functional hrec st r t L
  have hp : ∃ rest, accessParse registry L (wireOpcode 0xE93601 ++ [0x03] ++ f.bytes ++ [st, r] ++ t) = .ok (eltReport 3 "elt_functional_test_status"
      (("tai_timestamp", stampReport f) :: functionalResults st r ++ (relEntry t ++ [("_name", .str (relForm t))])), rest) := by
    by_cases hl : t.length < 4
    · exact ⟨t, by rw [p1 hf hst hl]; simp [relEntry, relForm, hl]⟩
    · exact ⟨t.drop 4, by rw [p2 hf hst (by omega)]; simp [relEntry, relForm, hl]⟩
  obtain ⟨rest, hp⟩ := hp
  have hconv := functional_conv f st r t
  rw [hd1, stamp_delta hf.reserved] at hconv
  have hk : (3, "elt_functional_test_status", functionalShort.tail) ∈ testStatus := by simp [testStatus]
  refine ⟨_, rest, dz, hp, hconv, hd2, ?_, ?_⟩
  · rw [hconv]
    exact form_error hk hd3 t L
  · intro z hz
    obtain ⟨sv, hsv⟩ := hd4 z hz
    obtain ⟨dv, hs⟩ := functional_sent st r hst (stampForm (.dict (dset dz "time_zone_offset" z)) (.int ((f.delta : Int) - 255))) t
    exact form_build hk hsv t hs rfl L

/-- **C49 (duration test status).** As above, with the measured duration. -/
theorem C49_duration {f : StampFields} (hf : Readable f) (hc : f.instant - f.td < endSecond * us) (st r x y : UInt8) (hst : st.toNat < 8)
    (t : List UInt8) (L : Lib) :
    ∃ v rest dz, accessParse registry L (wireOpcode 0xE93601 ++ [0x07] ++ f.bytes ++ [st, r, x, y] ++ t) = .ok (v, rest) ∧
      toSnakecaseDict (toCamelcaseDict v) = testForm 7 "elt_duration_test_status" (relForm t)
        (("tai_timestamp", stampForm (.dict dz) (.flt ((f.delta : Int) - 255 : Int))) :: durationPlain st r x y ++ relEntry t) ∧
      dget dz "time_zone_offset" = some (.flt (zoneMinutes f.tz)) ∧
      accessBuild registry L (toSnakecaseDict (toCamelcaseDict v)) = .error .select ∧
      ∀ z, z = .int (zoneMinutes f.tz) ∨ z = .flt (zoneMinutes f.tz) →
        ∃ o, accessBuild registry L (testForm 7 "elt_duration_test_status" (relForm t)
          (("tai_timestamp", stampForm (.dict (dset dz "time_zone_offset" z)) (.int ((f.delta : Int) - 255))) :: durationPlain st r x y ++ relEntry t)) =
          .ok (wireOpcode 0xE93601 ++ [0x07] ++ (f.bytes ++ [st, UInt8.ofNat (r.toNat % 16), x, y] ++ relBytes t), o) := by
  obtain ⟨dz, hd1, hd2, hd3, hd4⟩ := stamp_dict hf hc
  have hrec : Received f := ⟨by have := hf.tai; simp only [StampFields.instant, endSecond] at this; usomega, by have := hf.zone; omega, by have := hf.reserved; omega⟩
  obtain ⟨p1, p2, -⟩ := C24_parse_duration hrec st r x y t L
  have hp : ∃ rest, accessParse registry L (wireOpcode 0xE93601 ++ [0x07] ++ f.bytes ++ [st, r, x, y] ++ t) = .ok (eltReport 7 "elt_duration_test_status"
      (("tai_timestamp", stampReport f) :: durationResults st r x y ++ (relEntry t ++ [("_name", .str (relForm t))])), rest) := by
    by_cases hl : t.length < 4
    · exact ⟨t, by rw [p1 hf hst hl]; simp [relEntry, relForm, hl]⟩
    · exact ⟨t.drop 4, by rw [p2 hf hst (by omega)]; simp [relEntry, relForm, hl]⟩
  obtain ⟨rest, hp⟩ := hp
  have hconv := duration_conv f st r x y t
  rw [hd1, stamp_delta hf.reserved] at hconv
  have hk : (7, "elt_duration_test_status", durationShort.tail) ∈ testStatus := by simp [testStatus]
  refine ⟨_, rest, dz, hp, hconv, hd2, ?_, ?_⟩
  · rw [hconv]
    exact form_error hk hd3 t L
  · intro z hz
    obtain ⟨sv, hsv⟩ := hd4 z hz
    obtain ⟨dv, hs⟩ := duration_sent st r x y hst (stampForm (.dict (dset dz "time_zone_offset" z)) (.int ((f.delta : Int) - 255))) t
    exact form_build hk hsv t hs rfl L

/-- The hypotheses are met: 2023-11-14, +01:00. -/
example : let f : StampFields := ⟨753315237, 68, 292⟩; Readable f ∧ f.instant - f.td < endSecond * us := by decide

end BM.Props
