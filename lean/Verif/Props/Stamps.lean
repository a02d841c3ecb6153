import Verif.Props.Clock
import Verif.Props.Vendor
import Verif.SpecIntro
/-!
# Time stamps of emergency lighting tests (C24)
-/
namespace BM.Props
open Tables F Spec

/-- The fields of a received time stamp: all values of the bytes. -/
structure Received (f : StampFields) : Prop where
  tai : f.tai < 2 ^ 40
  tz : f.tz < 256
  delta : f.delta < 2 ^ 16

/-- The reserved bit is zero, the zone is below +24 hours, and the time lies in the calendar: as TAI, and locally, as TAI and as UTC. -/
structure Readable (f : StampFields) : Prop where
  reserved : f.delta < 2 ^ 15
  zone : f.tz < 160
  tai : f.instant < endSecond * us
  localTai : f.instant + f.off < endSecond * us
  localUtc : f.instant + f.off - f.td < endSecond * us

instance (f : StampFields) : Decidable (Readable f) :=
  decidable_of_iff (f.delta < 2 ^ 15 ∧ f.tz < 160 ∧ f.instant < endSecond * us ∧ f.instant + f.off < endSecond * us ∧ f.instant + f.off - f.td < endSecond * us)
    ⟨fun ⟨a, b, c, d, e⟩ => ⟨a, b, c, d, e⟩, fun ⟨a, b, c, d, e⟩ => ⟨a, b, c, d, e⟩⟩

/-- What is reported for a time stamp: the instant in UTC (TAI less the difference), the zone, the difference. -/
def stampReport (f : StampFields) : Val :=
  .dict [("date", .datetime (f.instant - f.td) f.off), ("tai_utc_delta", .timedelta f.td)]

theorem stamp_parse {f : StampFields} (hf : Received f) (L : Lib) (ctx : Dict) (s : List UInt8) :
    ELT.timestampC.parse L ctx (f.bytes ++ s) = if Readable f then .ok (stampReport f, s) else .error .value := by
  have hp := (meets_stampRec (e := false)).dec (stampRec_rel (tai := f.tai) (tz := f.tz) (raw := f.delta) hf.tai hf.tz hf.delta) L ctx s (by simp)
  simp only [ELT.timestampC, adapter, StampFields.bytes, hp, ok_bind]
  generalize hD : stampOut f.tai f.tz f.delta = D
  have i1 : Time.intEntry D "tai_seconds" = .ok (f.tai : Int) := by rw [← hD]; rfl
  have i4 : Time.intEntry D "tai_utc_delta_raw" = .ok (f.delta : Int) := by rw [← hD]; rfl
  have i5 : Time.intEntry D "time_zone_offset" = .ok (f.tz : Int) := by rw [← hD]; rfl
  by_cases hr : f.delta < 2 ^ 15
  · have e1 : (f.delta : Int) % 32768 = f.delta := by omega
    have e2 : ¬ ((f.delta : Int) / 32768 % 2 ≠ 0) := by omega
    simp only [ELT.timestampDecode, i1, i4, i5, ok_bind, e1, e2, if_false]
    have e3 : ((f.tai : Int) + Time.meshEpoch) * us = f.instant := rfl
    have e4 : ((f.tz : Int) - 64) * 900 * us = f.off := rfl
    have e5 : Time.deltaDecode (f.delta : Int) = f.td := rfl
    rw [e3, e4, e5]
    by_cases hc : Readable f
    · rw [if_pos hc, if_pos ⟨by have := hc.zone; omega, hc.tai, hc.localTai, hc.localUtc⟩]
      rfl
    · rw [if_neg hc, if_neg (fun h => hc ⟨hr, by omega, h.2.1, h.2.2.1, h.2.2.2⟩)]
      rfl
  · have e2 : ((f.delta : Int) / 32768 % 2 ≠ 0) := by have := hf.delta; omega
    rw [if_neg (fun h => hr h.reserved)]
    simp only [ELT.timestampDecode, i4, ok_bind]
    rw [if_pos e2]
    rfl

theorem stamp_short (L : Lib) (ctx : Dict) {s : List UInt8} (h : s.length < 8) : ∃ e, ELT.timestampC.parse L ctx s = .error e := by
  cases hp : ELT.timestampC.parse L ctx s with
  | error e => exact ⟨e, rfl⟩
  | ok r => have := minLen_stamp hp; omega

/-- The bits of a byte. -/
theorem byte_bits (r : UInt8) : bytesBits [r] = [r.toNat.testBit 7, r.toNat.testBit 6, r.toNat.testBit 5, r.toNat.testBit 4, r.toNat.testBit 3,
    r.toNat.testBit 2, r.toNat.testBit 1, r.toNat.testBit 0] := by
  have h : ∀ n < 256, natBits 8 n = [n.testBit 7, n.testBit 6, n.testBit 5, n.testBit 4, n.testBit 3, n.testBit 2, n.testBit 1, n.testBit 0] := by
    decide +kernel
  simp only [bytesBits, List.flatMap_cons, List.flatMap_nil, List.append_nil]
  exact h _ r.toNat_lt

theorem functional_result (L : Lib) (ctx : Dict) (r : UInt8) (s : List UInt8) : ELT.functionalResult.parse L ctx (r :: s) =
    .ok (.dict [("circuit_fault", .bool (r.toNat.testBit 2)), ("battery_fault", .bool (r.toNat.testBit 1)), ("lamp_fault", .bool (r.toNat.testBit 0))], s) := by
  simp only [ELT.functionalResult, bitwise, takeN_one, ok_bind, byte_bits]
  generalize r.toNat.testBit 2 = a
  generalize r.toNat.testBit 1 = b
  generalize r.toNat.testBit 0 = c
  cases a <;> cases b <;> cases c <;> rfl

theorem duration_result (L : Lib) (ctx : Dict) (r : UInt8) (s : List UInt8) : ELT.durationResult.parse L ctx (r :: s) =
    .ok (.dict [("battery_duration_fault", .bool (r.toNat.testBit 3)), ("circuit_fault", .bool (r.toNat.testBit 2)),
      ("battery_fault", .bool (r.toNat.testBit 1)), ("lamp_fault", .bool (r.toNat.testBit 0))], s) := by
  simp only [ELT.durationResult, bitwise, takeN_one, ok_bind, byte_bits]
  generalize r.toNat.testBit 3 = d
  generalize r.toNat.testBit 2 = a
  generalize r.toNat.testBit 1 = b
  generalize r.toNat.testBit 0 = c
  cases d <;> cases a <;> cases b <;> cases c <;> rfl

/-- The test results that follow the time stamp. -/
def functionalResults (st r : UInt8) : Dict := [("execution_status", .enum "TestExecutionStatus" st.toNat), ("execution_result",
  .dict [("circuit_fault", .bool (r.toNat.testBit 2)), ("battery_fault", .bool (r.toNat.testBit 1)), ("lamp_fault", .bool (r.toNat.testBit 0))])]

def durationResults (st r x y : UInt8) : Dict := [("execution_status", .enum "TestExecutionStatus" st.toNat), ("execution_result",
  .dict [("battery_duration_fault", .bool (r.toNat.testBit 3)), ("circuit_fault", .bool (r.toNat.testBit 2)), ("battery_fault", .bool (r.toNat.testBit 1)),
    ("lamp_fault", .bool (r.toNat.testBit 0))]), ("duration_result", .int (leNat [x, y]))]

theorem status_parse (L : Lib) (ctx : Dict) (st : UInt8) (s : List UInt8) : (enumAdapter (uintLE 1) E.TestExecutionStatus).parse L ctx (st :: s) =
    if st.toNat < 8 then .ok (.enum "TestExecutionStatus" st.toNat, s) else .error .validation := by
  have h : ∀ n < 256, E.TestExecutionStatus.has (n : Nat) = decide (n < 8) := by decide +kernel
  have hl : ((leNat [st] : Nat) : Int) = (st.toNat : Int) := by simp [leNat]
  simp only [enumAdapter, adapter, uintLE, takeN_one, ok_bind, enumDecode, hashInt, asInt, hl, h _ st.toNat_lt, decide_eq_true_eq]
  by_cases h8 : st.toNat < 8
  · simp only [h8, if_true, ok_bind]; rfl
  · simp only [h8, if_false, error_bind]

theorem functional_items {f : StampFields} (hf : Received f) (st r : UInt8) (t : List UInt8) (L : Lib) :
    (Readable f ∧ st.toNat < 8 → parseItems L ELT.functionalMinimal [] (f.bytes ++ (st :: r :: t)) = .ok (("tai_timestamp", stampReport f) :: functionalResults st r, t)) ∧
    (¬ (Readable f ∧ st.toNat < 8) → ∃ e, e ≠ .diverge ∧ parseItems L ELT.functionalMinimal [] (f.bytes ++ (st :: r :: t)) = .error e) := by
  simp only [ELT.functionalMinimal, parseItems, field, stamp_parse hf]
  constructor
  · rintro ⟨h1, h2⟩
    simp only [h1, if_true, ok_bind, status_parse, h2, functional_result]
    rfl
  · intro hn
    by_cases h1 : Readable f
    · have h2 : ¬ st.toNat < 8 := fun h => hn ⟨h1, h⟩
      exact ⟨.validation, by decide, by simp only [h1, if_true, ok_bind, status_parse, h2, if_false, error_bind]⟩
    · exact ⟨.value, by decide, by simp only [h1, if_false, error_bind]⟩

theorem duration_items {f : StampFields} (hf : Received f) (st r x y : UInt8) (t : List UInt8) (L : Lib) :
    (Readable f ∧ st.toNat < 8 → parseItems L ELT.durationMinimal [] (f.bytes ++ (st :: r :: x :: y :: t)) =
      .ok (("tai_timestamp", stampReport f) :: durationResults st r x y, t)) ∧
    (¬ (Readable f ∧ st.toNat < 8) → ∃ e, e ≠ .diverge ∧ parseItems L ELT.durationMinimal [] (f.bytes ++ (st :: r :: x :: y :: t)) = .error e) := by
  simp only [ELT.durationMinimal, parseItems, field, stamp_parse hf]
  constructor
  · rintro ⟨h1, h2⟩
    simp only [h1, if_true, ok_bind, status_parse, h2, duration_result]
    have : takeN 2 (x :: y :: t) = .ok ([x, y], t) := takeN_append (b := [x, y]) (n := 2) (rest := t) rfl
    simp only [uintLE, this, ok_bind]
    rfl
  · intro hn
    by_cases h1 : Readable f
    · have h2 : ¬ st.toNat < 8 := fun h => hn ⟨h1, h⟩
      exact ⟨.validation, by decide, by simp only [h1, if_true, ok_bind, status_parse, h2, if_false, error_bind]⟩
    · exact ⟨.value, by decide, by simp only [h1, if_false, error_bind]⟩

/-- The short and the long form of a status. -/
theorem status_select {its : List (Item UInt8)} {s t : List UInt8} {L : Lib} {d : Dict} (hk : "_name" ∉ dkeys d ∧ "relative_timestamp" ∉ dkeys d) (hd : (dkeys d).Nodup) :
    (parseItems L its [] s = .ok (d, t) →
      (t.length < 4 → ∀ ctx, (optionalMinimal [embedded its, field "relative_timestamp" (uintLE 4)] its).parse L ctx s = .ok (.dict (d ++ [("_name", .str "minimal")]), t)) ∧
      (4 ≤ t.length → ∀ ctx, (optionalMinimal [embedded its, field "relative_timestamp" (uintLE 4)] its).parse L ctx s =
        .ok (.dict (d ++ [("relative_timestamp", .int (leNat (t.take 4))), ("_name", .str "optional")]), t.drop 4))) ∧
    ((∃ e, e ≠ .diverge ∧ parseItems L its [] s = .error e) →
      ∀ ctx, ∃ e, (optionalMinimal [embedded its, field "relative_timestamp" (uintLE 4)] its).parse L ctx s = .error e) := by
  have hm : dmerge [] d = d := dmerge_nil_of_nodup _ hd
  constructor
  · intro hp
    constructor
    · intro hlt ctx
      have h4 := takeN_short (n := 4) hlt
      simp only [optionalMinimal, namedSelect, select, List.map_cons, List.map_nil, selectParse, nameAdapter, struct, parseItems, embedded, hp, ok_bind, hm, field, uintLE, h4,
        error_bind]
      simp [dset_of_not_mem _ _ _ hk.1]
    · intro hle ctx
      have h4 : takeN 4 t = .ok (t.take 4, t.drop 4) := by
        conv_lhs => rw [← List.take_append_drop 4 t]
        exact takeN_append (by rw [List.length_take]; omega)
      simp only [optionalMinimal, namedSelect, select, List.map_cons, List.map_nil, selectParse, nameAdapter, struct, parseItems, embedded, hp, ok_bind, hm, field, uintLE, h4]
      rw [dset_of_not_mem _ _ _ hk.2, dset_of_not_mem]
      · simp
      · rw [dkeys_append, List.mem_append]
        rintro (h | h)
        · exact hk.1 h
        · simp [dkeys] at h
  · rintro ⟨e, hne, he⟩ ctx
    refine ⟨.select, ?_⟩
    simp only [optionalMinimal, namedSelect, select, List.map_cons, List.map_nil, selectParse, nameAdapter, struct, parseItems, embedded, he, error_bind]
    simp [hne]

variable [Platform]

theorem elt_parse {n : Nat} {N : String} (hN : lookupValue E.EmergencyLightingTestSubOpcode.members n = some N) (hn : n < 256)
    (L : Lib) (s : List UInt8) : accessParse registry L (wireOpcode 0xE93601 ++ (UInt8.ofNat n :: s)) =
      (do let (v, rest) ← ((findCase n emergencyLightingTestParamsCases).getD passC).parse L [("subopcode", .enum "EmergencyLightingTestSubOpcode" n)] s
          .ok (.dict [("opcode", .enum "EmergencyLightingTestOpcode" 0xE93601),
            ("silvair_elt", .dict [("subopcode", .enum "EmergencyLightingTestSubOpcode" n), (lower N, v)])], rest)) :=
  C33_parse (V := ⟨0xE93601, "EmergencyLightingTestOpcode", "silvair_elt", E.EmergencyLightingTestSubOpcode, emergencyLightingTestParamsCases⟩)
    (by simp [vendorTable]) hN hn L s

/-- What is reported for a test status message. -/
def eltReport (n : Nat) (name : String) (d : Dict) : Val :=
  .dict [("opcode", .enum "EmergencyLightingTestOpcode" 0xE93601),
    ("silvair_elt", .dict [("subopcode", .enum "EmergencyLightingTestSubOpcode" n), (name, .dict d)])]

/-- **C24 (parsing a functional test status).** A status is read exactly if its time stamp is readable and its execution status is known; if four or
more bytes follow the results, they are the relative time stamp. -/
theorem C24_parse_functional {f : StampFields} (hf : Received f) (st r : UInt8) (t : List UInt8) (L : Lib) :
    (Readable f → st.toNat < 8 → t.length < 4 → accessParse registry L (wireOpcode 0xE93601 ++ [0x03] ++ f.bytes ++ [st, r] ++ t) =
      .ok (eltReport 3 "elt_functional_test_status" (("tai_timestamp", stampReport f) :: functionalResults st r ++ [("_name", .str "minimal")]), t)) ∧
    (Readable f → st.toNat < 8 → 4 ≤ t.length → accessParse registry L (wireOpcode 0xE93601 ++ [0x03] ++ f.bytes ++ [st, r] ++ t) =
      .ok (eltReport 3 "elt_functional_test_status" (("tai_timestamp", stampReport f) :: functionalResults st r ++
        [("relative_timestamp", .int (leNat (t.take 4))), ("_name", .str "optional")]), t.drop 4)) ∧
    (¬ (Readable f ∧ st.toNat < 8) → ∃ e, accessParse registry L (wireOpcode 0xE93601 ++ [0x03] ++ f.bytes ++ [st, r] ++ t) = .error e) := by
  have key := elt_parse (n := 3) (N := "ELT_FUNCTIONAL_TEST_STATUS") (by decide +kernel) (by decide) L (f.bytes ++ (st :: r :: t))
  have hl : lower "ELT_FUNCTIONAL_TEST_STATUS" = "elt_functional_test_status" := by decide +kernel
  have hc : (findCase (3 : Nat) emergencyLightingTestParamsCases).getD passC = ELT.functionalStatus := rfl
  have e : wireOpcode 0xE93601 ++ [0x03] ++ f.bytes ++ [st, r] ++ t = wireOpcode 0xE93601 ++ (UInt8.ofNat 3 :: (f.bytes ++ (st :: r :: t))) := by simp
  rw [e, key, hl, hc]
  obtain ⟨a1, a2⟩ := functional_items hf st r t L
  obtain ⟨b1, b2⟩ := status_select (its := ELT.functionalMinimal) (s := f.bytes ++ (st :: r :: t)) (t := t) (L := L)
    (d := ("tai_timestamp", stampReport f) :: functionalResults st r) (by simp [dkeys, functionalResults]) (by simp [dkeys, functionalResults])
  refine ⟨fun h1 h2 h3 => ?_, fun h1 h2 h3 => ?_, fun h => ?_⟩
  · rw [(b1 (a1 ⟨h1, h2⟩)).1 h3]; rfl
  · rw [(b1 (a1 ⟨h1, h2⟩)).2 h3]; rfl
  · obtain ⟨e, he⟩ := b2 (a2 h) [("subopcode", .enum "EmergencyLightingTestSubOpcode" (3 : Nat))]
    exact ⟨e, by rw [he]; rfl⟩

/-- **C24 (parsing a duration test status).** As above, with the measured duration. -/
theorem C24_parse_duration {f : StampFields} (hf : Received f) (st r x y : UInt8) (t : List UInt8) (L : Lib) :
    (Readable f → st.toNat < 8 → t.length < 4 → accessParse registry L (wireOpcode 0xE93601 ++ [0x07] ++ f.bytes ++ [st, r, x, y] ++ t) =
      .ok (eltReport 7 "elt_duration_test_status" (("tai_timestamp", stampReport f) :: durationResults st r x y ++ [("_name", .str "minimal")]), t)) ∧
    (Readable f → st.toNat < 8 → 4 ≤ t.length → accessParse registry L (wireOpcode 0xE93601 ++ [0x07] ++ f.bytes ++ [st, r, x, y] ++ t) =
      .ok (eltReport 7 "elt_duration_test_status" (("tai_timestamp", stampReport f) :: durationResults st r x y ++
        [("relative_timestamp", .int (leNat (t.take 4))), ("_name", .str "optional")]), t.drop 4)) ∧
    (¬ (Readable f ∧ st.toNat < 8) → ∃ e, accessParse registry L (wireOpcode 0xE93601 ++ [0x07] ++ f.bytes ++ [st, r, x, y] ++ t) = .error e) := by
  have key := elt_parse (n := 7) (N := "ELT_DURATION_TEST_STATUS") (by decide +kernel) (by decide) L (f.bytes ++ (st :: r :: x :: y :: t))
  have hl : lower "ELT_DURATION_TEST_STATUS" = "elt_duration_test_status" := by decide +kernel
  have hc : (findCase (7 : Nat) emergencyLightingTestParamsCases).getD passC = ELT.durationStatus := rfl
  have e : wireOpcode 0xE93601 ++ [0x07] ++ f.bytes ++ [st, r, x, y] ++ t = wireOpcode 0xE93601 ++ (UInt8.ofNat 7 :: (f.bytes ++ (st :: r :: x :: y :: t))) := by simp
  rw [e, key, hl, hc]
  obtain ⟨a1, a2⟩ := duration_items hf st r x y t L
  obtain ⟨b1, b2⟩ := status_select (its := ELT.durationMinimal) (s := f.bytes ++ (st :: r :: x :: y :: t)) (t := t) (L := L)
    (d := ("tai_timestamp", stampReport f) :: durationResults st r x y) (by simp [dkeys, durationResults]) (by simp [dkeys, durationResults])
  refine ⟨fun h1 h2 h3 => ?_, fun h1 h2 h3 => ?_, fun h => ?_⟩
  · rw [(b1 (a1 ⟨h1, h2⟩)).1 h3]; rfl
  · rw [(b1 (a1 ⟨h1, h2⟩)).2 h3]; rfl
  · obtain ⟨e, he⟩ := b2 (a2 h) [("subopcode", .enum "EmergencyLightingTestSubOpcode" (7 : Nat))]
    exact ⟨e, by rw [he]; rfl⟩

/-! ### Building -/

/-- A time stamp that can be sent: a zone of whole quarters of an hour between -16 and +24 hours, a TAI-UTC difference of whole seconds that
fits 15 bits, a TAI time not before 2000, times in the calendar, and not in the last 30 microseconds of a second. -/
structure SendableStamp (m off td k n : Int) : Prop where
  zone : off = k * 900 * us ∧ -64 ≤ k ∧ k < 96
  delta : td = n * us ∧ -255 ≤ n ∧ n < 2 ^ 15 - 255
  start : 946684800 * us ≤ m + td ∧ minSecond * us ≤ m
  finish : m < endSecond * us ∧ m + td < endSecond * us ∧ m + off < endSecond * us ∧ m + td + off < endSecond * us
  fraction : m % us ≤ 999970

omit [Platform] in
theorem SendableStamp.fits {u : Val} {m off td k n : Int} (hu : StampMeans u m off td) (h : SendableStamp m off td k n) :
    ∃ f : StampFields, (f.tai : Int) = (m + td) / us - 946684800 ∧ (f.tz : Int) = k + 64 ∧ (f.delta : Int) = n + 255 ∧
      F.timestamp u f.bytes (.dict [("date", .datetime (m - m % us) off), ("tai_utc_delta", .timedelta td)]) := by
  obtain ⟨⟨z1, z2, z3⟩, ⟨d1, d2, d3⟩, ⟨s1, s2⟩, ⟨f1, f2, f3, f4⟩, fr⟩ := h
  have hes : endSecond = 253402300800 := rfl
  have hms : minSecond = -62135596800 := rfl
  have hmod : (m + td) % us = m % us := by rw [d1]; usomega
  have hdm := Int.emod_add_mul_ediv (m + td) us
  rw [hmod] at hdm
  have hm0 := Int.emod_nonneg m (show us ≠ 0 by decide)
  have hT : 946684800 ≤ (m + td) / us := by usomega
  have hT1 : (m + td) / us < endSecond := by usomega
  set T := (m + td) / us with hTd
  set r := m % us with hr
  have hq : ((m + td : Int) : Rat) / 10 ^ 6 = T + (r : Rat) / 10 ^ 6 := by rw [← hdm]; push_cast; field_simp; ring
  have hr0 : (0 : Rat) ≤ r := by exact_mod_cast hm0
  have hr1 : (r : Rat) ≤ 999970 := by exact_mod_cast fr
  have hT0q : (0 : Rat) ≤ T := by exact_mod_cast (by omega : 0 ≤ T)
  have hT1q : (T : Rat) ≤ 253402300800 := by rw [hes] at hT1; exact_mod_cast hT1.le
  have a0 : |((m + td : Int) : Rat) / 10 ^ 6| ≤ 255000000000 := by rw [hq, abs_le]; constructor <;> linarith
  have a1 := abs_le.1 (rnd_near a0)
  have a2 : (T : Rat) ≤ secondsF (m + td) := int_le_rnd (by rw [hq, abs_lt]; constructor <;> linarith) (by rw [hq]; linarith)
  have a3 : secondsF (m + td) = rnd (((m + td : Int) : Rat) / 10 ^ 6) := rfl
  rw [← a3, hq] at a1
  have hft : ftrunc (secondsF (m + td)) = T := ftrunc_eq (by omega) a2 (by linarith)
  obtain ⟨tai, htai⟩ := Int.eq_ofNat_of_zero_le (show 0 ≤ T - 946684800 by omega)
  let f : StampFields := ⟨tai, (k + 64).toNat, (n + 255).toNat⟩
  have htz : ((k + 64).toNat : Int) = k + 64 := Int.toNat_of_nonneg (by omega)
  have hdl : ((n + 255).toNat : Int) = n + 255 := Int.toNat_of_nonneg (by omega)
  have htd : f.td = td := by simp only [StampFields.td, f, hdl, d1]; ring
  have hoff : f.off = off := by simp only [StampFields.off, f, htz, z1]; ring
  have hin : f.instant = m + td - r := by
    simp only [StampFields.instant, f]
    have : (tai : Int) + 946684800 = T := by omega
    rw [this]; usomega
  refine ⟨f, by simp only [f]; omega, htz, hdl, m, off, td, f, hu, ?_, ?_, ⟨⟨?_, ?_⟩, ⟨htd.symm, ?_⟩, ⟨⟨0, by decide, by decide, ?_⟩, ?_⟩⟩, ⟨?_, ?_, ?_, ?_⟩, rfl⟩
  · simp only [inCalendar, decide_eq_true_eq]; exact ⟨s2, f1⟩
  · simp only [inCalendar, decide_eq_true_eq]; exact ⟨by usomega, f2⟩
  · simp only [f]; rw [hft]; omega
  · simp only [f]; omega
  · simp only [f]; omega
  · simp only [f, htz, z1]; usomega
  · simp only [f]; omega
  · rw [hin]; omega
  · rw [hin, hoff]; omega
  · rw [hin, hoff, htd]; omega
  · rw [hin, htd, hoff, show m + td - r - td = m - r by ring]

/-- The two kinds of test status: sub-opcode, name and the fields after the time stamp. -/
def testStatus : List (Nat × String × List (RI UInt8)) := [
  (3, "elt_functional_test_status", functionalShort.tail), (7, "elt_duration_test_status", durationShort.tail)]

/-- **C24 (round trip).** A time stamp that can be sent is sent as whole TAI seconds since 2000, exactly, with the zone and the TAI-UTC difference;
parsing returns the instant without its fraction of a second and exactly the same zone and difference, in both kinds of status and with or without a
relative time stamp. -/
theorem C24_roundtrip {num : Nat} {name : String} {rs : List (RI UInt8)} (hk : (num, name, rs) ∈ testStatus)
    {u : Val} {m off td k n : Int} (hu : StampMeans u m off td) (hs : SendableStamp m off td k n)
    {o : Dict} (ho : dget o "tai_timestamp" = some u) (h1 : dget o "optional" = none) (h2 : dget o "minimal" = none)
    {bs : List UInt8} {dv : Dict} (hr : seqRel rs o bs dv) (L : Lib) :
    ∃ f : StampFields, ((f.tai : Int) = (m + td) / us - 946684800 ∧ (f.tz : Int) = k + 64 ∧ (f.delta : Int) = n + 255) ∧
      (dget o "relative_timestamp" = none →
        (∃ x, accessBuild registry L (eltReport num name o) = .ok (wireOpcode 0xE93601 ++ [UInt8.ofNat num] ++ (f.bytes ++ bs), x)) ∧
        accessParse registry L (wireOpcode 0xE93601 ++ [UInt8.ofNat num] ++ (f.bytes ++ bs)) = .ok (eltReport num name
          (("tai_timestamp", .dict [("date", .datetime (m - m % us) off), ("tai_utc_delta", .timedelta td)]) :: dv ++ [("_name", .str "minimal")]), [])) ∧
      (∀ t : Nat, t < 2 ^ 32 → dget o "relative_timestamp" = some (.int t) →
        (∃ x, accessBuild registry L (eltReport num name o) = .ok (wireOpcode 0xE93601 ++ [UInt8.ofNat num] ++ (f.bytes ++ bs ++ leBytes 4 t), x)) ∧
        accessParse registry L (wireOpcode 0xE93601 ++ [UInt8.ofNat num] ++ (f.bytes ++ bs ++ leBytes 4 t)) = .ok (eltReport num name
          (("tai_timestamp", .dict [("date", .datetime (m - m % us) off), ("tai_utc_delta", .timedelta td)]) :: dv ++
            [("relative_timestamp", .int t), ("_name", .str "optional")]), [])) := by
  obtain ⟨f, e1, e2, e3, hf⟩ := hs.fits hu
  refine ⟨f, ⟨e1, e2, e3⟩, ?_⟩
  set sv : Val := .dict [("date", .datetime (m - m % us) off), ("tai_utc_delta", .timedelta td)]
  have hshort : seqRel (fld "tai_timestamp" F.timestamp :: rs) o (f.bytes ++ bs) (("tai_timestamp", sv) :: dv) :=
    F.seq_cons (F.fld_mk ho hf) hr
  have main : ∀ {odd N}, vmsgBut 0xE93601 "silvair_elt" num name (longShort "relative_timestamp"
      [embed (fld "tai_timestamp" F.timestamp :: rs), u32 "relative_timestamp"] (fld "tai_timestamp" F.timestamp :: rs)) odd ∈ Spec.messages →
      lookupValue E.EmergencyLightingTestSubOpcode.members num = some N → lower N = name → num < 256 → name ≠ "subopcode" → ∀ b v, longShort "relative_timestamp"
      [embed (fld "tai_timestamp" F.timestamp :: rs), u32 "relative_timestamp"] (fld "tai_timestamp" F.timestamp :: rs) (.dict o) b (.dict v) →
      (∃ x, accessBuild registry L (eltReport num name o) = .ok (wireOpcode 0xE93601 ++ [UInt8.ofNat num] ++ b, x)) ∧
        accessParse registry L (wireOpcode 0xE93601 ++ [UInt8.ofNat num] ++ b) = .ok (eltReport num name v, []) := by
    intro odd N hm hN hl hn hne b v hG
    have hp : payload (vmsgBut 0xE93601 "silvair_elt" num name (longShort "relative_timestamp"
      [embed (fld "tai_timestamp" F.timestamp :: rs), u32 "relative_timestamp"] (fld "tai_timestamp" F.timestamp :: rs)) odd)
      [("opcode", .enum "EmergencyLightingTestOpcode" 0xE93601),
        ("silvair_elt", .dict [("subopcode", .enum "EmergencyLightingTestSubOpcode" num), (name, .dict o)])] = some (.dict o) := by
      simp [payload, outerPayload, dget, innerPayload, Ne.symm hne, hashInt, asInt]
    obtain ⟨⟨x, hb⟩, cls, scls, hpar⟩ := C05_encode_decode hm hG L (d := [("opcode", .enum "EmergencyLightingTestOpcode" 0xE93601),
        ("silvair_elt", .dict [("subopcode", .enum "EmergencyLightingTestSubOpcode" num), (name, .dict o)])]) (k := .enum "EmergencyLightingTestOpcode" 0xE93601) rfl (.inl rfl) hp
    refine ⟨⟨x, hb⟩, ?_⟩
    have key := elt_parse hN hn L b
    have e : wireOpcode 0xE93601 ++ [UInt8.ofNat num] ++ b = wireOpcode 0xE93601 ++ (UInt8.ofNat num :: b) := by simp
    have hpar : accessParse registry L (wireOpcode 0xE93601 ++ [UInt8.ofNat num] ++ b) = .ok (.dict [("opcode", .enum cls 0xE93601),
          ("silvair_elt", .dict [("subopcode", .enum scls num), (name, .dict v)])], []) := hpar
    rw [e] at hpar ⊢
    rw [hpar, hl] at key
    obtain ⟨⟨w, rest⟩, hw, hh⟩ := bind_ok.1 key.symm
    simp only [Except.ok.injEq, Prod.mk.injEq, Val.dict.injEq, List.cons.injEq, Val.enum.injEq, and_true, true_and] at hh
    obtain ⟨⟨hc1, hc2, hc3⟩, -⟩ := hh
    rw [hpar, ← hc1, ← hc2]
    rfl
  have forms : (dget o "relative_timestamp" = none → longShort "relative_timestamp"
      [embed (fld "tai_timestamp" F.timestamp :: rs), u32 "relative_timestamp"] (fld "tai_timestamp" F.timestamp :: rs) (.dict o) (f.bytes ++ bs)
        (.dict (("tai_timestamp", sv) :: dv ++ [("_name", .str "minimal")]))) ∧
      (∀ t : Nat, t < 2 ^ 32 → dget o "relative_timestamp" = some (.int t) → longShort "relative_timestamp"
      [embed (fld "tai_timestamp" F.timestamp :: rs), u32 "relative_timestamp"] (fld "tai_timestamp" F.timestamp :: rs) (.dict o) (f.bytes ++ bs ++ leBytes 4 t)
        (.dict (("tai_timestamp", sv) :: dv ++ [("relative_timestamp", .int t), ("_name", .str "optional")]))) := by
    constructor
    · intro h3
      exact .inr ⟨⟨o, rfl, h1, h3⟩, o, _, rfl, by rw [h2]; exact F.record_mk hshort, rfl⟩
    · intro t ht h3
      refine .inl ⟨o, ("tai_timestamp", sv) :: dv ++ [("relative_timestamp", .int t)], rfl, ?_, by simp⟩
      rw [h1]
      exact F.record_mk (F.seq_cons (r := embed (fld "tai_timestamp" F.timestamp :: rs)) hshort (F.seq_one (F.fld_mk h3 (F.uint_mk (by omega)))))
  simp only [testStatus, List.mem_cons, Prod.mk.injEq, List.not_mem_nil, or_false] at hk
  rcases hk with ⟨rfl, rfl, rfl⟩ | ⟨rfl, rfl, rfl⟩
  · have hm := main (odd := fun u => OddLong "relative_timestamp" functionalLong u ∨ OddStamped u) (N := "ELT_FUNCTIONAL_TEST_STATUS")
      (by simp only [Spec.messages, Spec.plainOnly, Spec.eltPlain, List.mem_append, List.mem_cons]; tauto)
      (by decide +kernel) (by decide +kernel) (by decide) (by decide)
    exact ⟨fun h3 => hm _ _ (forms.1 h3), fun t ht h3 => hm _ _ (forms.2 t ht h3)⟩
  · have hm := main (odd := fun u => OddLong "relative_timestamp" durationLong u ∨ OddStamped u) (N := "ELT_DURATION_TEST_STATUS")
      (by simp only [Spec.messages, Spec.plainOnly, Spec.eltPlain, List.mem_append, List.mem_cons]; tauto)
      (by decide +kernel) (by decide +kernel) (by decide) (by decide)
    exact ⟨fun h3 => hm _ _ (forms.1 h3), fun t ht h3 => hm _ _ (forms.2 t ht h3)⟩

omit [Platform] in
theorem Readable.sendable {f : StampFields} (h : Readable f) (hu : f.instant - f.td < endSecond * us) :
    StampMeans (stampReport f) (f.instant - f.td) f.off f.td ∧ SendableStamp (f.instant - f.td) f.off f.td (f.tz - 64) (f.delta - 255) := by
  obtain ⟨a, b, c, d, e⟩ := h
  have hes : endSecond = 253402300800 := rfl
  have hms : minSecond = -62135596800 := rfl
  have hi : f.instant = ((f.tai : Int) + 946684800) * us := rfl
  have ho : f.off = ((f.tz : Int) - 64) * 900 * us := rfl
  have ht : f.td = ((f.delta : Int) - 255) * us := rfl
  refine ⟨⟨_, _, _, rfl, rfl, ⟨⟨?_, ?_⟩, .inl rfl⟩, rfl, .inl rfl⟩, ⟨⟨rfl, ?_, ?_⟩, ⟨rfl, ?_, ?_⟩, ⟨?_, ?_⟩, ⟨hu, ?_, ?_, ?_⟩, ?_⟩⟩
  all_goals usomega

/-- **C24 (sending a received time stamp).** A time stamp that was read is sent again as the bytes it was read from, if its UTC time lies in the calendar. -/
theorem C24_again {num : Nat} {name : String} {rs : List (RI UInt8)} (hk : (num, name, rs) ∈ testStatus) {f : StampFields} (hf : Readable f)
    (hc : f.instant - f.td < endSecond * us) {o : Dict} (ho : dget o "tai_timestamp" = some (stampReport f)) (h1 : dget o "optional" = none)
    (h2 : dget o "minimal" = none) {bs : List UInt8} {dv : Dict} (hr : seqRel rs o bs dv) (L : Lib) :
    (dget o "relative_timestamp" = none →
      ∃ x, accessBuild registry L (eltReport num name o) = .ok (wireOpcode 0xE93601 ++ [UInt8.ofNat num] ++ (f.bytes ++ bs), x)) ∧
    (∀ t : Nat, t < 2 ^ 32 → dget o "relative_timestamp" = some (.int t) →
      ∃ x, accessBuild registry L (eltReport num name o) = .ok (wireOpcode 0xE93601 ++ [UInt8.ofNat num] ++ (f.bytes ++ bs ++ leBytes 4 t), x)) := by
  obtain ⟨hm, hs⟩ := hf.sendable hc
  obtain ⟨f', ⟨e1, e2, e3⟩, a, b⟩ := C24_roundtrip hk hm hs ho h1 h2 hr L
  have : f' = f := by
    have hi : f.instant = ((f.tai : Int) + 946684800) * us := rfl
    cases f'; cases f
    simp only [StampFields.mk.injEq] at *
    refine ⟨?_, ?_, ?_⟩ <;> usomega
  subst this
  exact ⟨fun h => (a h).1, fun t ht h => (b t ht h).1⟩

/-- **C24 (the end of the calendar).** A time stamp that was read, but whose UTC time is past the end of the calendar, cannot be sent. -/
theorem C24_end {num : Nat} {name : String} {rs : List (RI UInt8)} (hk : (num, name, rs) ∈ testStatus) {f : StampFields}
    (hc : endSecond * us ≤ f.instant - f.td) {o : Dict} (ho : dget o "tai_timestamp" = some (stampReport f)) (h1 : dget o "optional" = none)
    (h2 : dget o "minimal" = none) (L : Lib) : ∃ e, accessBuild registry L (eltReport num name o) = .error e := by
  have hb : ∀ ctx, ELT.timestampC.build L ctx (stampReport f) = .error .overflow := by
    intro ctx
    have hcal : inCalendar (f.instant - f.td) = false := by simp only [inCalendar, decide_eq_false_iff_not]; omega
    have hs : ELT.timestampEncode (stampReport f) = .error .overflow := by
      simp only [ELT.timestampEncode, stampReport, dgetE, dget, if_true, ok_bind, Time.dateOf, Time.deltaOf, hcal, Bool.false_and, Bool.false_eq_true, if_false]
      rfl
    simp only [ELT.timestampC, adapter, hs, error_bind]
  have hbn : ELT.timestampC.buildNone = false := rfl
  have hst : ∀ its ctx, buildItems L o (field "tai_timestamp" ELT.timestampC :: its) ctx = .error .overflow := by
    intro its ctx
    simp only [buildItems, field, hbn, Bool.false_eq_true, if_false, dgetE, ho, ok_bind, hb, error_bind]
  have hC : ∀ its ctx, (optionalMinimal [embedded (field "tai_timestamp" ELT.timestampC :: its), field "relative_timestamp" (uintLE 4)]
      (field "tai_timestamp" ELT.timestampC :: its)).build L ctx (.dict o) = .error .select := by
    intro its ctx
    have hopt : ∀ ctx, buildItems L o [embedded (field "tai_timestamp" ELT.timestampC :: its), field "relative_timestamp" (uintLE 4)] ctx =
        .error .overflow := by
      intro ctx
      have he : (embedded (field "tai_timestamp" ELT.timestampC :: its)).build L o ctx = .error .overflow := by
        simp only [embedded, hst, error_bind]
      rw [buildItems, he]; rfl
    simp only [optionalMinimal, namedSelect, select, List.map_cons, List.map_nil, selectBuild, nameAdapter, h1, h2, Option.getD_none, struct, asDict, ok_bind, hst,
      hopt, error_bind]
  have main : ∀ {N}, lookupValue E.EmergencyLightingTestSubOpcode.members num = some N → lower N = name → num < 256 → name ≠ "subopcode" →
      (∃ its, (findCase num emergencyLightingTestParamsCases).getD passC =
        optionalMinimal [embedded (field "tai_timestamp" ELT.timestampC :: its), field "relative_timestamp" (uintLE 4)] (field "tai_timestamp" ELT.timestampC :: its)) →
      ∃ e, accessBuild registry L (eltReport num name o) = .error e := by
    rintro N hN hl hn hne ⟨its, hcase⟩
    have key := C33_build (V := ⟨0xE93601, "EmergencyLightingTestOpcode", "silvair_elt", E.EmergencyLightingTestSubOpcode, emergencyLightingTestParamsCases⟩)
      (by simp [vendorTable]) hN hn L (d := [("opcode", .enum "EmergencyLightingTestOpcode" 0xE93601),
        ("silvair_elt", .dict [("subopcode", .enum "EmergencyLightingTestSubOpcode" num), (name, .dict o)])])
      (k := .enum "EmergencyLightingTestOpcode" 0xE93601) (k' := .enum "EmergencyLightingTestSubOpcode" num) rfl (.inl rfl) rfl rfl rfl
    have hd : dget [("subopcode", .enum "EmergencyLightingTestSubOpcode" (num : Int)), (name, .dict o)] name = some (.dict o) := by
      simp [dget, Ne.symm hne]
    simp only [hl, hd, Option.some_or, hcase, hC, Except.map] at key
    cases hbd : accessBuild registry L (eltReport num name o) with
    | error e => exact ⟨e, rfl⟩
    | ok x =>
      exfalso
      have : accessBuild registry L (.dict [("opcode", .enum "EmergencyLightingTestOpcode" 0xE93601),
        ("silvair_elt", .dict [("subopcode", .enum "EmergencyLightingTestSubOpcode" num), (name, .dict o)])]) = .ok x := hbd
      rw [this] at key; cases key
  simp only [testStatus, List.mem_cons, Prod.mk.injEq, List.not_mem_nil, or_false] at hk
  rcases hk with ⟨rfl, rfl, rfl⟩ | ⟨rfl, rfl, rfl⟩
  · exact main (N := "ELT_FUNCTIONAL_TEST_STATUS") (by decide +kernel) (by decide +kernel) (by decide) (by decide) ⟨_, rfl⟩
  · exact main (N := "ELT_DURATION_TEST_STATUS") (by decide +kernel) (by decide +kernel) (by decide) (by decide) ⟨_, rfl⟩

/-- 2023-11-14 22:13:20.25 UTC, +01:00, TAI-UTC 37 s. -/
example : SendableStamp 1700000000250000 3600000000 37000000 4 37 := by constructor <;> decide
example : StampMeans (.dict [("date", .datetime 1700000000250000 3600000000), ("tai_utc_delta", .int 37)]) 1700000000250000 3600000000 37000000 :=
  ⟨_, _, _, rfl, rfl, ⟨by decide, .inl rfl⟩, rfl, .inr ⟨37, rfl, by decide⟩⟩
example : Readable ⟨753315237, 68, 292⟩ := by decide
-- the results of a functional test
example : ∃ bs dv, seqRel functionalShort.tail [("execution_status", .int 2), ("execution_result", .dict [("circuit_fault", .bool true),
    ("battery_fault", .bool false), ("lamp_fault", .bool true)])] bs dv :=
  ⟨_, _, F.seq_cons (F.fld_mk rfl (F.enumOf_mk (k := 2) (by decide) (by decide) rfl)) (F.seq_one (F.fld_mk rfl
    ⟨show [(5 : UInt8)].length = 1 from rfl, F.record_mk (F.seq_cons (r := zeros false 5) (b₁ := [false, false, false, false, false]) ⟨rfl, rfl⟩
      (F.seq_cons (F.fld_mk (G := F.bit) (u := .bool true) (b := [true]) (v := .bool true) rfl ⟨rfl, rfl⟩)
        (F.seq_cons (F.fld_mk (G := F.bit) (u := .bool false) (b := [false]) (v := .bool false) rfl ⟨rfl, rfl⟩)
          (F.seq_one (F.fld_mk (G := F.bit) (u := .bool true) (b := [true]) (v := .bool true) rfl ⟨rfl, rfl⟩)))))⟩))⟩
/-- A time stamp in the last minutes of 9999 that is read, but not sent. -/
example : let f : StampFields := ⟨252455615999, 32, 0⟩; Readable f ∧ endSecond * us ≤ f.instant - f.td := by decide

end BM.Props
