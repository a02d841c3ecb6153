import Verif.Props.Vendor
import Verif.SpecIntro
import Verif.MeetsRRule
import Verif.MeetsDescriptor
/-!
# The recurrence-rule scheduler (C28)
-/
namespace BM.Props
open Tables F

/-! ### What schedules are, and how they are written -/

/-- A date and time of the scheduler. -/
structure DateTime where
  second : Nat
  minute : Nat
  hour : Nat
  day : Nat
  month : Nat
  year : Nat

/-- The members fit their bit fields. -/
structure DateTime.Fits (t : DateTime) : Prop where
  second : t.second < 64
  minute : t.minute < 64
  hour : t.hour < 32
  day : t.day < 32
  month : t.month < 16
  year : t.year < 16384

/-- The date and time as a 40-bit number: year in the low 14 bits, then month, day, hour, minute and second. -/
def DateTime.word (t : DateTime) : Nat :=
  t.year + 2 ^ 14 * t.month + 2 ^ 18 * t.day + 2 ^ 23 * t.hour + 2 ^ 28 * t.minute + 2 ^ 34 * t.second
/-- Little-endian. -/
def DateTime.bytes (t : DateTime) : List UInt8 := leBytes 5 t.word
def DateTime.value (t : DateTime) : Val := .dict [("second", .int t.second), ("minute", .int t.minute), ("hour", .int t.hour),
  ("day", .int t.day), ("month", .int t.month), ("year", .int t.year)]

/-- A recurrence rule. -/
inductive Rule
  | freq (k : Nat)
  | endTime (t : DateTime)
  | count (n : Nat)
  | interval (n : Nat)
  | bySecond (l : List Nat)
  | byMinute (l : List Nat)
  | byHour (l : List Nat)
  | byDay (l : List Int)
  | byMonthDay (l : List Int)
  | byYearDay (l : List Int)
  | byWeekNo (l : List Int)
  | byMonth (n : Nat)
  | bySetPos (l : List Int)
  | dtStart (t : DateTime)
  | explicitDates (l : List DateTime)
  | exclusions (l : List DateTime)

/-- The number of the kind of rule. -/
def Rule.id : Rule → Nat
  | freq _ => 0 | endTime _ => 1 | count _ => 2 | interval _ => 3 | bySecond _ => 4 | byMinute _ => 5 | byHour _ => 6 | byDay _ => 7
  | byMonthDay _ => 8 | byYearDay _ => 9 | byWeekNo _ => 10 | byMonth _ => 11 | bySetPos _ => 12 | dtStart _ => 13 | explicitDates _ => 14
  | exclusions _ => 15

/-- The numbers are in range, and the lists are not too long for their length byte. -/
def Rule.Fits : Rule → Prop
  | freq k => k ≤ 6
  | endTime t | dtStart t => t.Fits
  | count n | interval n | byMonth n => n < 65536
  | bySecond l | byMinute l | byHour l => l.length < 256 ∧ ∀ n ∈ l, n < 256
  | byDay l => l.length < 256 ∧ ∀ n ∈ l, n ≠ 0 ∧ -7 ≤ n ∧ n ≤ 7
  | byMonthDay l | byWeekNo l => l.length < 256 ∧ ∀ n ∈ l, -128 ≤ n ∧ n ≤ 127
  | byYearDay l | bySetPos l => l.length < 256 ∧ ∀ n ∈ l, -32768 ≤ n ∧ n ≤ 32767
  | explicitDates l | exclusions l => l.length < 256 ∧ ∀ t ∈ l, t.Fits

/-- A number in two's complement, little-endian. -/
def signed (w : Nat) (n : Int) : List UInt8 := leBytes w (n % (256 ^ w : Nat)).toNat

/-- How the value of a rule is written. -/
def Rule.bytes : Rule → List UInt8
  | freq k => [UInt8.ofNat k]
  | endTime t | dtStart t => t.bytes
  | count n | interval n | byMonth n => leBytes 2 n
  | bySecond l | byMinute l | byHour l => UInt8.ofNat l.length :: l.map UInt8.ofNat
  | byDay l | byMonthDay l | byWeekNo l => UInt8.ofNat l.length :: l.flatMap (signed 1)
  | byYearDay l | bySetPos l => UInt8.ofNat l.length :: l.flatMap (signed 2)
  | explicitDates l | exclusions l => UInt8.ofNat l.length :: l.flatMap DateTime.bytes

/-- The value of a rule in the object. -/
def Rule.value : Rule → Val
  | freq k => .enum "Freqs" k
  | endTime t | dtStart t => t.value
  | count n | interval n | byMonth n => .int n
  | bySecond l | byMinute l | byHour l => .list (l.map fun (n : Nat) => .int (n : Int))
  | byDay l => .list (l.map (.enum "Days"))
  | byMonthDay l | byWeekNo l | byYearDay l | bySetPos l => .list (l.map .int)
  | explicitDates l | exclusions l => .list (l.map DateTime.value)

/-- The object for a rule. -/
def Rule.obj (r : Rule) : Val := .dict [("rule_id", .enum "RuleIDs" r.id), ("rule", r.value)]

/-- A slot. -/
structure Slot where
  id : Nat
  element : Nat
  parameter : List UInt8

structure Slot.Fits (s : Slot) : Prop where
  id : s.id < 65536
  element : s.element < 256
  parameter : s.parameter.length < 256

def Slot.bytes (s : Slot) : List UInt8 := leBytes 2 s.id ++ [UInt8.ofNat s.element, UInt8.ofNat s.parameter.length] ++ s.parameter
def Slot.obj (s : Slot) : Val := .dict [("slot_id", .int s.id), ("element", .int s.element), ("slot_parameter", .bytes s.parameter)]

/-- A schedule: slots and rules. -/
structure Schedule where
  slots : List Slot
  rules : List Rule

structure Schedule.Fits (e : Schedule) : Prop where
  count : e.slots.length < 256
  slots : ∀ s ∈ e.slots, s.Fits
  rules : ∀ r ∈ e.rules, r.Fits

def Schedule.bytes (e : Schedule) : List UInt8 :=
  UInt8.ofNat e.slots.length :: e.slots.flatMap Slot.bytes ++ e.rules.flatMap fun r => UInt8.ofNat r.id :: r.bytes
def Schedule.obj (e : Schedule) : Val := .dict [("array_of_slots", .list (e.slots.map Slot.obj)), ("rules", .list (e.rules.map Rule.obj))]

/-! ### They meet the formats -/

theorem bitsU_mk {n k : Nat} (h : k < 2 ^ n) : bitsU n (.int k) (natBits n k) (.int k) :=
  ⟨k, rfl, natBits_length n k, bitsNat_natBits n k h, rfl⟩

theorem dateTime_spec {t : DateTime} (h : t.Fits) : Spec.dateTime t.value t.bytes t.value := by
  obtain ⟨h1, h2, h3, h4, h5, h6⟩ := h
  refine ⟨leBytes_length _ _, ?_⟩
  have hb : bytesBits t.bytes.reverse = natBits 6 t.second ++ (natBits 6 t.minute ++ (natBits 5 t.hour ++ (natBits 5 t.day ++
      (natBits 4 t.month ++ natBits 14 t.year)))) := by
    refine bitsNat_inj (by simp [bytesBits_length, natBits_length, DateTime.bytes, leBytes_length]) ?_
    rw [bitsNat_rev, DateTime.bytes, leNat_leBytes _ _ (by unfold DateTime.word; omega)]
    simp only [bitsNat_append, natBits_length, List.length_append]
    rw [bitsNat_natBits _ _ (by omega), bitsNat_natBits _ _ (by omega), bitsNat_natBits _ _ (by omega), bitsNat_natBits _ _ (by omega),
      bitsNat_natBits _ _ (by omega), bitsNat_natBits _ _ (by omega)]
    unfold DateTime.word
    omega
  rw [hb]
  exact F.record_mk (F.seq_cons (F.fld_mk rfl (bitsU_mk (by omega))) (F.seq_cons (F.fld_mk rfl (bitsU_mk (by omega)))
    (F.seq_cons (F.fld_mk rfl (bitsU_mk (by omega))) (F.seq_cons (F.fld_mk rfl (bitsU_mk (by omega)))
      (F.seq_cons (F.fld_mk rfl (bitsU_mk (by omega))) (F.seq_one (F.fld_mk rfl (bitsU_mk (by omega)))))))))

theorem signed_spec {w : Nat} (hw : w = 1 ∨ w = 2) {n : Int} (h : -(256 ^ w : Nat) ≤ 2 * n ∧ 2 * n < (256 ^ w : Nat)) :
    (signed w n).length = w ∧ toSigned (256 ^ w) (leNat (signed w n)) = n := by
  refine ⟨leBytes_length _ _, ?_⟩
  have hp : (0 : Int) < (256 ^ w : Nat) := by rcases hw with rfl | rfl <;> decide
  have h1 := Int.emod_lt_of_pos n hp
  have h2 := Int.emod_nonneg n (Int.ne_of_gt hp)
  rw [signed, leNat_leBytes _ _ (by omega)]
  unfold toSigned
  have h3 := Int.emod_add_mul_ediv n (256 ^ w : Nat)
  rcases hw with rfl | rfl <;> norm_num at * <;> split <;> omega

theorem sint_mk {w : Nat} (hw : w = 1 ∨ w = 2) {n : Int} (h : -(256 ^ w : Nat) ≤ 2 * n ∧ 2 * n < (256 ^ w : Nat)) :
    sint w (.int n) (signed w n) (.int n) :=
  ⟨n, rfl, (signed_spec hw h).1, (signed_spec hw h).2, rfl⟩

theorem withCount_mk {β} {G : Fmt UInt8} (f : β → Val) (w : β → List UInt8) (g : β → Val) {xs : List β} (hl : xs.length < 256)
    (h : ∀ x ∈ xs, G (f x) (w x) (g x)) : withCount 1 G (.list (xs.map f)) (UInt8.ofNat xs.length :: xs.flatMap w) (.list (xs.map g)) :=
  ⟨xs.map f, xs.map g, _, rfl, by simpa using hl, F.many_map f w g xs h, by rw [List.length_map, leBytes_one]; rfl, rfl⟩

theorem flatMap_one {α β} (f : α → β) (l : List α) : l.flatMap (fun x => [f x]) = l.map f := by
  induction l with
  | nil => rfl
  | cons x l ih => simp [ih]

theorem rule_spec {r : Rule} (h : r.Fits) : Spec.rule r.obj (UInt8.ofNat r.id :: r.bytes) r.obj := by
  suffices hs : ∃ t ∈ Spec.rules, t.1 = r.id ∧ t.2 r.value r.bytes r.value by
    obtain ⟨t, ht, h1, h2⟩ := hs
    exact ⟨_, _, r.value, r.value, r.bytes, t, ht, rfl, rfl, by rw [h1]; rfl, rfl, h2, by rw [h1], by rw [h1]; rfl⟩
  have nats : ∀ {l : List Nat}, l.length < 256 ∧ (∀ n ∈ l, n < 256) →
      withCount 1 (uint 1) (.list (l.map fun (n : Nat) => .int (n : Int))) (UInt8.ofNat l.length :: l.map UInt8.ofNat) (.list (l.map fun (n : Nat) => .int (n : Int))) := by
    intro l ⟨h1, h2⟩
    have := withCount_mk (G := uint 1) (fun (n : Nat) => .int (n : Int)) (fun n => [UInt8.ofNat n]) (fun (n : Nat) => .int (n : Int)) h1
      (fun n hn => by have := F.uint_mk (n := 1) (k := n) (by have := h2 n hn; omega); rwa [leBytes_one] at this)
    rwa [flatMap_one] at this
  have ints : ∀ {w : Nat} {l : List Int}, (w = 1 ∨ w = 2) → (l.length < 256 ∧ ∀ n ∈ l, -(256 ^ w : Nat) ≤ 2 * n ∧ 2 * n < (256 ^ w : Nat)) →
      withCount 1 (sint w) (.list (l.map .int)) (UInt8.ofNat l.length :: l.flatMap (signed w)) (.list (l.map .int)) :=
    fun hw h => withCount_mk _ _ _ h.1 (fun n hn => sint_mk hw (h.2 n hn))
  have times : ∀ {l : List DateTime}, l.length < 256 ∧ (∀ n ∈ l, n.Fits) →
      withCount 1 Spec.dateTime (.list (l.map DateTime.value)) (UInt8.ofNat l.length :: l.flatMap DateTime.bytes) (.list (l.map DateTime.value)) :=
    fun h => withCount_mk _ _ _ h.1 (fun n hn => dateTime_spec (h.2 n hn))
  have mem : ∀ i (hi : i < 16), Spec.rules[i] ∈ Spec.rules := fun i hi => List.getElem_mem _
  cases r with
  | freq k =>
    refine ⟨_, mem 0 (by decide), rfl, ?_⟩
    have := F.enumOf_mk (E := E.Freqs) (n := 1) (k := k) (u := .enum "Freqs" k) (by have : k ≤ 6 := h; omega)
      (by have : k ≤ 6 := h; interval_cases k <;> rfl) rfl
    rw [leBytes_one] at this
    exact this
  | endTime t => exact ⟨_, mem 1 (by decide), rfl, dateTime_spec h⟩
  | count n => exact ⟨_, mem 2 (by decide), rfl, F.uint_mk h⟩
  | interval n => exact ⟨_, mem 3 (by decide), rfl, F.uint_mk h⟩
  | bySecond l => exact ⟨_, mem 4 (by decide), rfl, nats h⟩
  | byMinute l => exact ⟨_, mem 5 (by decide), rfl, nats h⟩
  | byHour l => exact ⟨_, mem 6 (by decide), rfl, nats h⟩
  | byDay l =>
    refine ⟨_, mem 7 (by decide), rfl, withCount_mk (G := enumOf (sint 1) E.Days) _ _ _ h.1 (fun n hn => ?_)⟩
    obtain ⟨h0, h1, h2⟩ := h.2 n hn
    refine ⟨n, .int n, .inr ⟨rfl, ?_⟩, ⟨n, rfl, (signed_spec (.inl rfl) (by norm_num; omega)).1, (signed_spec (.inl rfl) (by norm_num; omega)).2, rfl⟩, rfl⟩
    have : n = -7 ∨ n = -6 ∨ n = -5 ∨ n = -4 ∨ n = -3 ∨ n = -2 ∨ n = -1 ∨ n = 1 ∨ n = 2 ∨ n = 3 ∨ n = 4 ∨ n = 5 ∨ n = 6 ∨ n = 7 := by omega
    simp only [E.Days, List.mem_cons, List.not_mem_nil, or_false]
    rcases this with h | h | h | h | h | h | h | h | h | h | h | h | h | h <;> subst h <;> simp
  | byMonthDay l => exact ⟨_, mem 8 (by decide), rfl, ints (.inl rfl) ⟨h.1, fun n hn => by have := h.2 n hn; norm_num; omega⟩⟩
  | byYearDay l => exact ⟨_, mem 9 (by decide), rfl, ints (.inr rfl) ⟨h.1, fun n hn => by have := h.2 n hn; norm_num; omega⟩⟩
  | byWeekNo l => exact ⟨_, mem 10 (by decide), rfl, ints (.inl rfl) ⟨h.1, fun n hn => by have := h.2 n hn; norm_num; omega⟩⟩
  | byMonth n => exact ⟨_, mem 11 (by decide), rfl, F.uint_mk h⟩
  | bySetPos l => exact ⟨_, mem 12 (by decide), rfl, ints (.inr rfl) ⟨h.1, fun n hn => by have := h.2 n hn; norm_num; omega⟩⟩
  | dtStart t => exact ⟨_, mem 13 (by decide), rfl, dateTime_spec h⟩
  | explicitDates l => exact ⟨_, mem 14 (by decide), rfl, times h⟩
  | exclusions l => exact ⟨_, mem 15 (by decide), rfl, times h⟩

theorem byte_mk {n : Nat} (h : n < 256) : uint 1 (.int n) [UInt8.ofNat n] (.int n) := by
  have := F.uint_mk (n := 1) (k := n) (by omega)
  rwa [leBytes_one] at this

theorem slot_spec {s : Slot} (h : s.Fits) : Spec.slot s.obj s.bytes s.obj := by
  have hp : withLength 1 rest (.bytes s.parameter) (UInt8.ofNat s.parameter.length :: s.parameter) (.bytes s.parameter) :=
    ⟨s.parameter, ⟨rfl, .inl rfl⟩, h.parameter, by rw [leBytes_one]; rfl⟩
  have := F.record_mk (du := [("slot_id", .int s.id), ("element", .int s.element), ("slot_parameter", .bytes s.parameter)])
    (F.seq_cons (F.fld_mk (k := "slot_id") rfl (F.uint_mk (n := 2) h.id)) (F.seq_cons (F.fld_mk (k := "element") rfl (byte_mk h.element))
      (F.seq_one (F.fld_mk (k := "slot_parameter") rfl hp))))
  simpa [Slot.bytes, Slot.obj] using this

theorem schedule_spec {e : Schedule} (h : e.Fits) : Spec.schedule e.obj e.bytes e.obj := by
  have h1 := withCount_mk (G := Spec.slot) Slot.obj Slot.bytes Slot.obj h.count (fun s hs => slot_spec (h.slots s hs))
  have h2 := F.listOf_map (G := Spec.rule) Rule.obj (fun r => UInt8.ofNat r.id :: r.bytes) Rule.obj e.rules (fun r hr => rule_spec (h.rules r hr))
  exact F.record_mk (F.seq_cons (F.fld_mk (k := "array_of_slots") rfl h1) (F.seq_one (F.fld_mk (k := "rules") rfl h2)))

/-! ### Messages -/

variable [Platform]

/-- What `AccessMessage` reports for a scheduler message. -/
def schedReport (num : Nat) (v : Val) : Val :=
  .dict [("opcode", .enum "RRuleSchedulerOpcode" 0xE83601), ("silvair_rrule_scheduler", .dict [("subopcode", .enum "RRuleSchedulerSubOpcode" num), ("payload", v)])]

/-- The bytes before the payload of a scheduler message. -/
def schedHeader (num : Nat) : List UInt8 := wireOpcode 0xE83601 ++ [UInt8.ofNat num]

theorem sched_cases : findCase (0xE83601 : Nat) rRuleSchedulerCases = some (plainSubMessage E.RRuleSchedulerSubOpcode rRuleSchedulerSubMessageCases) := rfl

/-- **C28 (dispatch, parsing).** The byte after the opcode selects the construct for the payload. -/
theorem C28_parse {num : Nat} (hn : num ≤ 0x0D) (L : Lib) (s : List UInt8) : accessParse registry L (schedHeader num ++ s) =
      (do let (v, rest) ← ((findCase num rRuleSchedulerSubMessageCases).getD passC).parse L [("subopcode", .enum "RRuleSchedulerSubOpcode" num)] s
          .ok (schedReport num v, rest)) := by
  have he : (E.RRuleSchedulerOpcode, rRuleSchedulerCases) ∈ registry := by inreg
  have hl : lower "SILVAIR_RRULE_SCHEDULER" = "silvair_rrule_scheduler" := by decide +kernel
  have hh : E.RRuleSchedulerSubOpcode.has num = true := by interval_cases num <;> rfl
  rw [schedHeader, List.append_assoc]
  have := C04_parse he (N := "SILVAIR_RRULE_SCHEDULER") (n := 0xE83601) (by dsimp only; decide +kernel) L (UInt8.ofNat num :: s)
  rw [hl] at this
  rw [show [UInt8.ofNat num] ++ s = UInt8.ofNat num :: s from rfl]
  refine this.trans ?_
  rw [sched_cases, Option.getD_some]
  have hset : dset [] "subopcode" (.enum "RRuleSchedulerSubOpcode" (num : Int)) = [("subopcode", .enum "RRuleSchedulerSubOpcode" (num : Int))] := rfl
  have hcase : caseOf (.enum "RRuleSchedulerSubOpcode" (num : Int)) rRuleSchedulerSubMessageCases passC =
      (findCase num rRuleSchedulerSubMessageCases).getD passC := by
    rw [caseOf, show hashInt (.enum "RRuleSchedulerSubOpcode" (num : Int)) = some (num : Int) from rfl]
  have hp := subkey_parse (E := E.RRuleSchedulerSubOpcode) (n := num) (by omega) hh
  have hcls : E.RRuleSchedulerSubOpcode.cls = "RRuleSchedulerSubOpcode" := rfl
  simp only [plainSubMessage, struct, parseItems, field, hp, hcls, ok_bind, hset, switchC, BM.this, dgetE, dget_cons_self, hcase]
  cases ((findCase num rRuleSchedulerSubMessageCases).getD passC).parse L [("subopcode", .enum "RRuleSchedulerSubOpcode" num)] s <;> rfl

/-- **C28 (dispatch, building).** The sub-opcode, as a number or a member, selects the construct that writes what is under `payload`; its
absence is a `KeyError`. -/
theorem C28_build {num : Nat} (hn : num ≤ 0x0D) (L : Lib) {d d' : Dict} {k k' : Val} (hk : dget d "opcode" = some k)
    (hs : hashInt k = some (0xE83601 : Int) ∨ k = .str "SILVAIR_RRULE_SCHEDULER")
    (hd : (dget d "silvair_rrule_scheduler").or (dget d "params") = some (.dict d')) (hk' : dget d' "subopcode" = some k')
    (hs' : hashInt k' = some (num : Int)) :
    (accessBuild registry L (.dict d)).map Prod.fst =
      match dget d' "payload" with
      | none => .error .key
      | some u => (((findCase num rRuleSchedulerSubMessageCases).getD passC).build L
          (dset (dset (dset d' "subopcode" k') "subopcode" k') "payload" u) u).map (fun r => schedHeader num ++ r.1) := by
  have he : (E.RRuleSchedulerOpcode, rRuleSchedulerCases) ∈ registry := by inreg
  have hl : lower "SILVAIR_RRULE_SCHEDULER" = "silvair_rrule_scheduler" := by decide +kernel
  have hh : E.RRuleSchedulerSubOpcode.has num = true := by interval_cases num <;> rfl
  have := C04_build he (N := "SILVAIR_RRULE_SCHEDULER") (n := 0xE83601) (by dsimp only; decide +kernel) (by rw [hl]; decide) L hk hs
  rw [this, hl, hd]
  simp only [sched_cases, Option.getD_some]
  have hb1 : (enumAdapter (uintLE 1) E.RRuleSchedulerSubOpcode).buildNone = false := rfl
  have hb2 : (switchC (BM.this "subopcode") rRuleSchedulerSubMessageCases).buildNone = false := rfl
  have hkn : k' ≠ .none := by rintro rfl; simp [hashInt, asInt] at hs'
  have hcase : caseOf k' rRuleSchedulerSubMessageCases passC = (findCase num rRuleSchedulerSubMessageCases).getD passC := by
    rw [caseOf, hs']
  simp only [plainSubMessage, struct, asDict, ok_bind, buildItems, field, hb1, hb2, Bool.false_eq_true, if_false, dgetE, hk',
        subkey_build (by omega) hh L _ hs']
  cases hp : dget d' "payload" with
  | none => rfl
  | some u =>
    have hctx : dget (dset (dset (dset d' "subopcode" k') "subopcode" k') "payload" u) "subopcode" = some k' := by
      rw [dget_dset_ne _ _ (by decide), dget_dset_self]
    simp only [ok_bind, switchC, BM.this, dgetE, hctx, hcase, schedHeader]
    cases ((findCase num rRuleSchedulerSubMessageCases).getD passC).build L (dset (dset (dset d' "subopcode" k') "subopcode" k') "payload" u) u with
    | error x => rfl
    | ok y => simp [Except.map]

/-! ### Schedules -/

/-- An object with the scheduler payload `u` under sub-opcode `num`. -/
structure Sends (num : Nat) (d : Dict) (u : Val) : Prop where
  opcode : ∃ k, dget d "opcode" = some k ∧ (hashInt k = some (0xE83601 : Int) ∨ k = .str "SILVAIR_RRULE_SCHEDULER")
  inner : ∃ d', (dget d "silvair_rrule_scheduler").or (dget d "params") = some (.dict d') ∧
    (∃ k, dget d' "subopcode" = some k ∧ hashInt k = some (num : Int)) ∧ dget d' "payload" = some u

theorem sends_build {num : Nat} (hn : num ≤ 0x0D) (L : Lib) {d : Dict} {u : Val} (h : Sends num d u) : ∃ ctx,
    (accessBuild registry L (.dict d)).map Prod.fst =
      (((findCase num rRuleSchedulerSubMessageCases).getD passC).build L ctx u).map (fun r => schedHeader num ++ r.1) := by
  obtain ⟨⟨k, hk, hs⟩, d', hd, ⟨k', hk', hs'⟩, hp⟩ := h
  exact ⟨_, by rw [C28_build hn L hk hs hd hk' hs', hp]⟩

/-- The object of an entry. -/
def entryObj (id : Nat) (e : Schedule) : Val := .dict [("entry_id", .int id), ("scheduler_register_entry", e.obj)]

omit [Platform] in
theorem entry_spec {id : Nat} (hi : id < 256) {e : Schedule} (h : e.Fits) :
    record [Spec.u8 "entry_id", fld "scheduler_register_entry" Spec.schedule] (entryObj id e) (UInt8.ofNat id :: e.bytes) (entryObj id e) :=
  F.record_mk (F.seq_cons (F.fld_mk (k := "entry_id") rfl (byte_mk hi)) (F.seq_one (F.fld_mk (k := "scheduler_register_entry") rfl (schedule_spec h))))

/-- **C28 (schedules).** Setting an entry writes the entry number and the schedule, whatever slots and rules it has; the receiver reads
the same schedule. -/
theorem C28_entry_set {id : Nat} (hi : id < 256) {e : Schedule} (h : e.Fits) (L : Lib) {d : Dict} (hd : Sends 0x08 d (entryObj id e)) :
    (accessBuild registry L (.dict d)).map Prod.fst = .ok (schedHeader 0x08 ++ UInt8.ofNat id :: e.bytes) ∧
    accessParse registry L (schedHeader 0x08 ++ UInt8.ofNat id :: e.bytes) = .ok (schedReport 0x08 (entryObj id e), []) := by
  have hg := entry_spec hi h
  constructor
  · obtain ⟨ctx, hb⟩ := sends_build (by decide) L hd
    obtain ⟨r, hr⟩ := meets_entry.enc hg L ctx (fun x => x.elim)
    rw [hb]
    show (RRule.entrySet.build L ctx _).map _ = _
    rw [hr]; rfl
  · rw [C28_parse (by decide)]
    show (do let (v, rest) ← RRule.entrySet.parse L _ _; _) = _
    have := meets_entry.dec hg L [("subopcode", .enum "RRuleSchedulerSubOpcode" (0x08 : Nat))] [] (fun _ => rfl)
    rw [List.append_nil] at this
    rw [this]; rfl

/-- **C28 (entry status).** The same for the status of an entry, which has the status code before the schedule. -/
theorem C28_entry_status {id st : Nat} (hi : id < 256) (hst : E.StatusCodes.has st = true) (hst' : st < 256) {e : Schedule} (h : e.Fits) (L : Lib) {d : Dict}
    (hd : Sends 0x0B d (.dict [("entry_id", .int id), ("status", .enum "StatusCodes" st), ("scheduler_register_entry", e.obj)])) :
    (accessBuild registry L (.dict d)).map Prod.fst = .ok (schedHeader 0x0B ++ UInt8.ofNat id :: UInt8.ofNat st :: e.bytes) ∧
    accessParse registry L (schedHeader 0x0B ++ UInt8.ofNat id :: UInt8.ofNat st :: e.bytes) = .ok (schedReport 0x0B
      (.dict [("entry_id", .int id), ("status", .enum "StatusCodes" st), ("scheduler_register_entry", e.obj), ("_name", .str "optional")]), []) := by
  have hg : longShort "scheduler_register_entry" Spec.entryLong Spec.entryShort
      (.dict [("entry_id", .int id), ("status", .enum "StatusCodes" st), ("scheduler_register_entry", e.obj)])
      (UInt8.ofNat id :: UInt8.ofNat st :: e.bytes)
      (.dict [("entry_id", .int id), ("status", .enum "StatusCodes" st), ("scheduler_register_entry", e.obj), ("_name", .str "optional")]) := by
    refine .inl ⟨_, [("entry_id", .int id), ("status", .enum "StatusCodes" st), ("scheduler_register_entry", e.obj)], rfl, ?_, rfl⟩
    have hs : enumOf (uint 1) E.StatusCodes (.enum "StatusCodes" st) [UInt8.ofNat st] (.enum "StatusCodes" st) := by
      have := F.enumOf_mk (E := E.StatusCodes) (n := 1) (k := st) (u := .enum "StatusCodes" st) (by omega) (by simpa [EnumDef.has] using hst) rfl
      rwa [leBytes_one] at this
    exact F.record_mk (F.seq_cons (r := embed Spec.entryShort) (F.seq_cons (F.fld_mk (k := "entry_id") rfl (byte_mk hi))
      (F.seq_one (F.fld_mk (k := "status") rfl hs))) (F.seq_one (F.fld_mk (k := "scheduler_register_entry") rfl (schedule_spec h))))
  constructor
  · obtain ⟨ctx, hb⟩ := sends_build (by decide) L hd
    obtain ⟨r, hr⟩ := meets_entryStatus.enc hg L ctx (fun x => x.elim)
    rw [hb]
    show (RRule.entryStatus.build L ctx _).map _ = _
    rw [hr]; rfl
  · rw [C28_parse (by decide)]
    show (do let (v, rest) ← RRule.entryStatus.parse L _ _; _) = _
    have := meets_entryStatus.dec hg L [("subopcode", .enum "RRuleSchedulerSubOpcode" (0x0B : Nat))] [] (fun _ => rfl)
    rw [List.append_nil] at this
    rw [this]; rfl

/-- **C28 (dates).** Every five bytes are a date and time: the members are not checked against a calendar. -/
theorem C28_dates (b : List UInt8) (hb : b.length = 5) : ∃ t : DateTime, t.Fits ∧ t.bytes = b := by
  have h := leNat_lt b
  rw [hb] at h
  refine ⟨⟨leNat b / 2 ^ 34, leNat b / 2 ^ 28 % 64, leNat b / 2 ^ 23 % 32, leNat b / 2 ^ 18 % 32, leNat b / 2 ^ 14 % 16, leNat b % 16384⟩, ?_, ?_⟩
  · constructor <;> dsimp only <;> omega
  · rw [DateTime.bytes, show DateTime.word _ = leNat b by unfold DateTime.word; dsimp only; omega, ← hb, leBytes_leNat]

/-! ### Sets -/

omit [Platform] in
theorem set_spec {G : Fmt UInt8} {f : Nat → Val} {xs : List Nat} {u : Val} {vs : Nat → Val} (hu : iter u = .ok (xs.map f))
    (hG : ∀ n ∈ xs, G (f n) [UInt8.ofNat n] (vs n)) (hv : ∀ n, asInt (vs n) = some (n : Int)) {s : List Int} (hs : ∀ k, k ∈ s ↔ ∃ n ∈ xs, (n : Int) = k)
    (hp : s.Pairwise (· < ·)) : setOf G u (xs.map UInt8.ofNat) (.set s) := by
  refine ⟨xs.map f, xs.map vs, xs.map (fun (n : Nat) => (n : Int)), s, hu, ?_, ?_, ?_, hp, rfl⟩
  · have := F.many_map f (fun n => [UInt8.ofNat n]) vs xs hG
    rwa [flatMap_one] at this
  · simp [hv]
  · intro k; rw [hs]; simp

/-- **C28 (sets of rules).** A set of rule kinds is written in the order in which it is iterated over, and read as the same set: what is
reported depends only on which rules are members. -/
theorem C28_rules_any_order (L : Lib) {xs : List Nat} (hx : ∀ n ∈ xs, n < 16) {s : List Int} (hs : ∀ k, k ∈ s ↔ ∃ n ∈ xs, (n : Int) = k)
    (hp : s.Pairwise (· < ·)) {d : Dict} {u : Val} (hu : iter u = .ok (xs.map fun (n : Nat) => .int (n : Int)))
    (hd : Sends 0x01 d (.dict [("rule_ids", u)])) :
    (accessBuild registry L (.dict d)).map Prod.fst = .ok (schedHeader 0x01 ++ xs.map UInt8.ofNat) ∧
    accessParse registry L (schedHeader 0x01 ++ xs.map UInt8.ofNat) = .ok (schedReport 0x01 (.dict [("rule_ids", .set s)]), []) := by
  have hg : record [fld "rule_ids" (setOf (enumOf (uint 1) E.RuleIDs))] (.dict [("rule_ids", u)]) (xs.map UInt8.ofNat) (.dict [("rule_ids", .set s)]) := by
    refine F.record_mk (F.seq_one (F.fld_mk (k := "rule_ids") rfl (set_spec hu (vs := fun n => .enum "RuleIDs" n) ?_ (fun _ => rfl) hs hp)))
    intro n hn
    have h16 := hx n hn
    have := F.enumOf_mk (E := E.RuleIDs) (n := 1) (k := n) (u := .int n) (by omega) (by interval_cases n <;> rfl) rfl
    rwa [leBytes_one] at this
  constructor
  · obtain ⟨ctx, hb⟩ := sends_build (by decide) L hd
    obtain ⟨r, hr⟩ := meets_ruleSet.enc hg L ctx (fun x => x.elim)
    rw [hb]
    show (RRule.rulesListStatus.build L ctx _).map _ = _
    rw [hr]; rfl
  · rw [C28_parse (by decide)]
    show (do let (v, rest) ← RRule.rulesListStatus.parse L _ _; _) = _
    have := meets_ruleSet.dec hg L [("subopcode", .enum "RRuleSchedulerSubOpcode" (0x01 : Nat))] [] (fun _ => rfl)
    rw [List.append_nil] at this
    rw [this]; rfl

/-- **C28 (sets of entries).** The same for sets of entry numbers. -/
theorem C28_entries_any_order (L : Lib) {xs : List Nat} (hx : ∀ n ∈ xs, n < 256) {s : List Int} (hs : ∀ k, k ∈ s ↔ ∃ n ∈ xs, (n : Int) = k)
    (hp : s.Pairwise (· < ·)) {d : Dict} {u : Val} (hu : iter u = .ok (xs.map fun (n : Nat) => .int (n : Int)))
    (hd : Sends 0x0D d (.dict [("entry_ids", u)])) :
    (accessBuild registry L (.dict d)).map Prod.fst = .ok (schedHeader 0x0D ++ xs.map UInt8.ofNat) ∧
    accessParse registry L (schedHeader 0x0D ++ xs.map UInt8.ofNat) = .ok (schedReport 0x0D (.dict [("entry_ids", .set s)]), []) := by
  have hg : record [fld "entry_ids" (setOf (uint 1))] (.dict [("entry_ids", u)]) (xs.map UInt8.ofNat) (.dict [("entry_ids", .set s)]) :=
    F.record_mk (F.seq_one (F.fld_mk (k := "entry_ids") rfl (set_spec hu (vs := fun n => .int n) (fun n hn => byte_mk (hx n hn)) (fun _ => rfl) hs hp)))
  constructor
  · obtain ⟨ctx, hb⟩ := sends_build (by decide) L hd
    obtain ⟨r, hr⟩ := meets_entrySet.enc hg L ctx (fun x => x.elim)
    rw [hb]
    show (RRule.listStatus.build L ctx _).map _ = _
    rw [hr]; rfl
  · rw [C28_parse (by decide)]
    show (do let (v, rest) ← RRule.listStatus.parse L _ _; _) = _
    have := meets_entrySet.dec hg L [("subopcode", .enum "RRuleSchedulerSubOpcode" (0x0D : Nat))] [] (fun _ => rfl)
    rw [List.append_nil] at this
    rw [this]; rfl

/-! ### Where the list of rules ends, and rules and sub-opcodes given by name -/

omit [Platform] in
theorem rules_stop {L ctx} {t : List UInt8} {x : Err} (ht : RRule.rules.parse L ctx t = .error x) :
    ∀ {us b vs}, manyRel Spec.rule us b vs → ∀ fuel, (b ++ t).length ≤ fuel → greedyLoop (RRule.rules.parse L ctx) fuel (b ++ t) = .ok (vs, t) := by
  intro us
  induction us with
  | nil =>
    rintro b vs ⟨rfl, rfl⟩ fuel _
    have hne : x ≠ .diverge := by rintro rfl; exact meets_rule.nodiv _ _ _ ht
    rw [List.nil_append]
    unfold greedyLoop
    simp [ht, hne]
  | cons u us ih =>
    rintro b vs ⟨b1, b2, v, vs', rfl, rfl, hg, hm⟩ fuel hf
    have h1 := rule_len hg
    have := meets_rule.dec hg L ctx (b2 ++ t) (by simp)
    rw [List.append_assoc] at hf ⊢
    rw [List.length_append] at hf
    obtain ⟨f, rfl⟩ : ∃ f, fuel = f + 1 := ⟨fuel - 1, by omega⟩
    unfold greedyLoop
    have hlt : (b2 ++ t).length < (b1 ++ (b2 ++ t)).length := by rw [List.length_append (as := b1)]; omega
    simp only [this, hlt, if_true, ih hm f (by omega), ok_bind]

omit [Platform] in
theorem two_parse {α} {k1 k2 : String} (hk : k1 ≠ k2) {c1 c2 : Con α} {L ctx s s1 s2 v1 v2} (h1 : c1.parse L [] s = .ok (v1, s1))
    (h2 : c2.parse L [(k1, v1)] s1 = .ok (v2, s2)) :
    (struct [field k1 c1, field k2 c2]).parse L ctx s = .ok (.dict [(k1, v1), (k2, v2)], s2) := by
  have hset : dset [] k1 v1 = [(k1, v1)] := rfl
  simp only [struct, parseItems, field, h1, ok_bind, hset, h2]
  simp [dset, hk]

omit [Platform] in
theorem two_build {α} {k1 k2 : String} (hk : k1 ≠ k2) {c1 c2 : Con α} (n1 : c1.buildNone = false) (n2 : c2.buildNone = false) {L ctx b1 b2 v1 v2 r1 r2}
    (h1 : c1.build L [(k1, v1), (k2, v2)] v1 = .ok (b1, r1)) (h2 : ∀ r, (r = v1 ∨ r = r1) → c2.build L [(k1, r), (k2, v2)] v2 = .ok (b2, r2)) :
    ∃ r, (struct [field k1 c1, field k2 c2]).build L ctx (.dict [(k1, v1), (k2, v2)]) = .ok (b1 ++ b2, r) := by
  have hk' : k2 ≠ k1 := hk.symm
  simp only [struct, asDict, buildItems, field, n1, n2, ok_bind, Bool.false_eq_true, if_false, dgetE]
  have e1 : dget [(k1, v1), (k2, v2)] k2 = some v2 := by simp [dget, hk]
  have e0 : dset [(k1, v1), (k2, v2)] k1 v1 = [(k1, v1), (k2, v2)] := by simp [dset]
  have e2 : ∀ r, dset [(k1, r), (k2, v2)] k2 v2 = [(k1, r), (k2, v2)] := fun r => by simp [dset, hk]
  have e3 : dset [(k1, v1), (k2, v2)] k1 r1 = [(k1, r1), (k2, v2)] := by simp [dset]
  simp only [dget_cons_self, ok_bind, e0, h1, e1, e3]
  have e4 := h2 v1 (.inl rfl)
  have e5 := h2 r1 (.inr rfl)
  cases r1
  case none =>
    simp only [e2, e4, ok_bind, List.append_nil]
    exact ⟨_, rfl⟩
  all_goals
    simp only [e3, e2, e5, ok_bind, List.append_nil]
    exact ⟨_, rfl⟩

omit [Platform] in
theorem schedule_stop {L ctx} {t : List UInt8} (ht : ∀ ctx, ∃ x, RRule.rules.parse L ctx t = .error x) {e : Schedule} (h : e.Fits) :
    RRule.schedulerRegisterEntry.parse L ctx (e.bytes ++ t) = .ok (e.obj, t) := by
  have h1 := withCount_mk (G := Spec.slot) Slot.obj Slot.bytes Slot.obj h.count (fun s hs => slot_spec (h.slots s hs))
  have h2 := F.many_map (G := Spec.rule) Rule.obj (fun r => UInt8.ofNat r.id :: r.bytes) Rule.obj e.rules (fun r hr => rule_spec (h.rules r hr))
  have m : Meets lossless false (prefixedArray (uintLE 1) RRule.slots) (withCount 1 Spec.slot) := meets_withCount 1 meets_slots
  have d1 := m.dec h1 L [] ((e.rules.flatMap fun r => UInt8.ofNat r.id :: r.bytes) ++ t) (by simp)
  obtain ⟨x, hx⟩ := ht [("array_of_slots", .list (e.slots.map Slot.obj))]
  have d2 := rules_stop hx h2 _ (Nat.le_refl _)
  have hb : e.bytes ++ t = (UInt8.ofNat e.slots.length :: e.slots.flatMap Slot.bytes) ++ ((e.rules.flatMap fun r => UInt8.ofNat r.id :: r.bytes) ++ t) := by
    simp [Schedule.bytes]
  rw [hb]
  refine two_parse (by decide) d1 ?_
  simp only [greedyRange, d2, ok_bind]

/-- **C28 (end of the rules).** The list of rules ends at the first byte that does not start a complete, valid rule: what follows is
silently ignored, and the schedule is reported without it. -/
theorem C28_rules_end {id : Nat} (hi : id < 256) {e : Schedule} (h : e.Fits) (L : Lib) {t : List UInt8}
    (ht' : ∀ u b v rest, Spec.rule u b v → t ≠ b ++ rest) :
    accessParse registry L (schedHeader 0x08 ++ UInt8.ofNat id :: e.bytes ++ t) = .ok (schedReport 0x08 (entryObj id e), t) := by
  have ht : ∀ ctx, ∃ x, RRule.rules.parse L ctx t = .error x := by
    intro ctx
    cases hp : RRule.rules.parse L ctx t with
    | error x => exact ⟨x, rfl⟩
    | ok y =>
      obtain ⟨v, rest⟩ := y
      obtain ⟨b, hb, hg⟩ := meets_rule.exact trivial hp
      exact absurd hb (ht' v b v rest hg)
  rw [List.append_assoc, C28_parse (by decide)]
  show (do let (v, rest) ← RRule.entrySet.parse L _ _; _) = _
  have h1 := (meets_uint (M := lossless) (e := false) 1).dec (byte_mk hi) L [] (e.bytes ++ t) (by simp)
  rw [List.singleton_append] at h1
  rw [List.cons_append]
  have : RRule.entrySet.parse L [("subopcode", .enum "RRuleSchedulerSubOpcode" (0x08 : Nat))] (UInt8.ofNat id :: (e.bytes ++ t)) =
      .ok (entryObj id e, t) := by
    exact two_parse (by decide) h1 (schedule_stop ht h)
  rw [this]
  rfl

omit [Platform] in
/-- An identifier without a value is not a rule. -/
theorem bare_rule {L ctx} {n : Nat} (hn : n < 16) : ∃ x, RRule.rules.parse L ctx [UInt8.ofNat n] = .error x := by
  have hh : E.RuleIDs.has n = true := by interval_cases n <;> rfl
  have hset : dset [] "rule_id" (.enum "RuleIDs" (n : Int)) = [("rule_id", .enum "RuleIDs" (n : Int))] := rfl
  have hcls : E.RuleIDs.cls = "RuleIDs" := rfl
  refine ⟨.stream, ?_⟩
  simp only [RRule.rules, struct, parseItems, field, subkey_parse (E := E.RuleIDs) (n := n) (by omega) hh, hcls, ok_bind, hset, switchC, BM.this, dgetE,
    dget_cons_self]
  interval_cases n <;> rfl

omit [Platform] in
theorem named_rule_build {L : Lib} {N : String} {n : Nat} (hN : (N, (n : Int)) ∈ E.RuleIDs.members) (x : Val) (ctx : Dict) :
    ∃ r, RRule.rules.build L ctx (.dict [("rule_id", .str N), ("rule", x)]) = .ok ([UInt8.ofNat n], r) := by
  have hn : n < 16 ∧ lookupName E.RuleIDs.members N = some (n : Int) := by
    simp only [E.RuleIDs, List.mem_cons, Prod.mk.injEq, List.not_mem_nil, or_false] at hN
    rcases hN with ⟨rfl, h⟩ | ⟨rfl, h⟩ | ⟨rfl, h⟩ | ⟨rfl, h⟩ | ⟨rfl, h⟩ | ⟨rfl, h⟩ | ⟨rfl, h⟩ | ⟨rfl, h⟩ | ⟨rfl, h⟩ | ⟨rfl, h⟩ | ⟨rfl, h⟩ |
      ⟨rfl, h⟩ | ⟨rfl, h⟩ | ⟨rfl, h⟩ | ⟨rfl, h⟩ | ⟨rfl, h⟩ <;> refine ⟨by omega, ?_⟩ <;> rw [h] <;> decide +kernel
  refine two_build (k1 := "rule_id") (k2 := "rule") (b1 := [UInt8.ofNat n]) (b2 := []) (r1 := .str N) (r2 := x) (by decide) rfl rfl ?_ ?_
  · simp only [RRule.ruleId, enumAdapter, adapter, enumEncode, hn.2, ok_bind, uintLE, asInt]
    rw [if_pos (by constructor <;> simp <;> omega)]
    simp [leBytes_one]
  · intro r hr
    have : r = .str N := by simpa using hr
    subst this
    rfl

omit [Platform] in
theorem buildMany_append {α : Type} {f : Val → R (List α × Val)} : ∀ {us vs : List Val} {b c}, buildMany f us = .ok b → buildMany f vs = .ok c →
    buildMany f (us ++ vs) = .ok (b ++ c)
  | [], vs, b, c, h, h' => by cases h; simpa using h'
  | u :: us, vs, b, c, h, h' => by
    unfold buildMany at h
    cases h1 : f u with
    | error x => rw [h1] at h; cases h
    | ok y =>
      obtain ⟨b1, r1⟩ := y
      cases h2 : buildMany f us with
      | error x => simp only [h1, h2, ok_bind, error_bind] at h; cases h
      | ok b2 =>
        simp only [h1, h2, ok_bind, Except.ok.injEq] at h
        subst h
        simp only [List.cons_append, buildMany, h1, ok_bind, buildMany_append h2 h', List.append_assoc]

omit [Platform] in
theorem rules_build {L ctx} : ∀ {us b vs}, manyRel Spec.rule us b vs → buildMany (RRule.rules.build L ctx) us = .ok b
  | [], b, vs, h => by obtain ⟨rfl, -⟩ := h; rfl
  | u :: us, b, vs, h => by
    obtain ⟨b1, b2, v, vs', rfl, rfl, hg, hm⟩ := h
    obtain ⟨r, hr⟩ := meets_rule.enc hg L ctx (fun x => x.elim)
    simp only [buildMany, hr, ok_bind, rules_build hm]

/-- **C28 (rules given by name).** A rule whose kind is given by name is accepted, but its value is not written; the receiver reads the
schedule without it. -/
theorem C28_named_rule {id : Nat} (hi : id < 256) {e : Schedule} (h : e.Fits) {N : String} {n : Nat} (hN : (N, (n : Int)) ∈ E.RuleIDs.members) (x : Val)
    (L : Lib) {d : Dict} (hd : Sends 0x08 d (.dict [("entry_id", .int id), ("scheduler_register_entry",
      .dict [("array_of_slots", .list (e.slots.map Slot.obj)), ("rules", .list (e.rules.map Rule.obj ++ [.dict [("rule_id", .str N), ("rule", x)]]))])])) :
    (accessBuild registry L (.dict d)).map Prod.fst = .ok (schedHeader 0x08 ++ UInt8.ofNat id :: e.bytes ++ [UInt8.ofNat n]) ∧
    accessParse registry L (schedHeader 0x08 ++ UInt8.ofNat id :: e.bytes ++ [UInt8.ofNat n]) =
      .ok (schedReport 0x08 (entryObj id e), [UInt8.ofNat n]) := by
  have hn : n < 16 := by
    simp only [E.RuleIDs, List.mem_cons, Prod.mk.injEq, List.not_mem_nil, or_false] at hN
    omega
  refine ⟨?_, C28_rules_end hi h L ?_⟩
  rotate_left
  · intro u b v rest hg hb
    obtain ⟨x, hx⟩ := bare_rule (L := L) (ctx := []) hn
    rw [hb, meets_rule.dec hg L [] rest (by simp)] at hx
    cases hx
  obtain ⟨ctx, hb⟩ := sends_build (by decide) L hd
  rw [hb]
  show (RRule.entrySet.build L ctx _).map _ = _
  have h1 := withCount_mk (G := Spec.slot) Slot.obj Slot.bytes Slot.obj h.count (fun s hs => slot_spec (h.slots s hs))
  have h2 := F.many_map (G := Spec.rule) Rule.obj (fun r => UInt8.ofNat r.id :: r.bytes) Rule.obj e.rules (fun r hr => rule_spec (h.rules r hr))
  have m : Meets lossless false (prefixedArray (uintLE 1) RRule.slots) (withCount 1 Spec.slot) := meets_withCount 1 meets_slots
  have hr : ∀ ctx, buildMany (RRule.rules.build L ctx) (e.rules.map Rule.obj ++ [.dict [("rule_id", .str N), ("rule", x)]]) =
      .ok ((e.rules.flatMap fun r => UInt8.ofNat r.id :: r.bytes) ++ [UInt8.ofNat n]) := by
    intro ctx
    refine buildMany_append (rules_build h2) ?_
    obtain ⟨r, hr⟩ := named_rule_build (L := L) hN x ctx
    simp only [buildMany, hr, ok_bind, List.append_nil]
  have hs : ∀ ctx, ∃ r, RRule.schedulerRegisterEntry.build L ctx (.dict [("array_of_slots", .list (e.slots.map Slot.obj)),
      ("rules", .list (e.rules.map Rule.obj ++ [.dict [("rule_id", .str N), ("rule", x)]]))]) = .ok (e.bytes ++ [UInt8.ofNat n], r) := by
    intro ctx
    obtain ⟨r1, hr1⟩ := m.enc h1 L [("array_of_slots", .list (e.slots.map Slot.obj)),
      ("rules", .list (e.rules.map Rule.obj ++ [.dict [("rule_id", .str N), ("rule", x)]]))] (fun x => x.elim)
    have := two_build (L := L) (ctx := ctx) (k1 := "array_of_slots") (k2 := "rules") (c1 := prefixedArray (uintLE 1) RRule.slots) (c2 := greedyRange RRule.rules)
      (by decide) rfl rfl hr1 (v2 := .list (e.rules.map Rule.obj ++ [.dict [("rule_id", .str N), ("rule", x)]]))
      (b2 := (e.rules.flatMap fun r => UInt8.ofNat r.id :: r.bytes) ++ [UInt8.ofNat n])
      (r2 := .list (e.rules.map Rule.obj ++ [.dict [("rule_id", .str N), ("rule", x)]]))
      (fun r _ => by simp only [greedyRange, iter, ok_bind, hr])
    obtain ⟨r, h⟩ := this
    refine ⟨r, h.trans ?_⟩
    simp [Schedule.bytes]
  obtain ⟨r0, hr0⟩ := (meets_uint (M := lossless) (e := false) 1).enc (byte_mk hi) L [("entry_id", .int id), ("scheduler_register_entry",
      .dict [("array_of_slots", .list (e.slots.map Slot.obj)), ("rules", .list (e.rules.map Rule.obj ++ [.dict [("rule_id", .str N), ("rule", x)]]))])] (fun x => x.elim)
  obtain ⟨r, hr⟩ := hs [("entry_id", .int id), ("scheduler_register_entry",
      .dict [("array_of_slots", .list (e.slots.map Slot.obj)), ("rules", .list (e.rules.map Rule.obj ++ [.dict [("rule_id", .str N), ("rule", x)]]))])]
  have hr0' : r0 = .int id := by
    simp only [uintLE, asInt] at hr0
    rw [if_pos (by constructor <;> simp <;> omega)] at hr0
    simp only [Except.ok.injEq, Prod.mk.injEq] at hr0
    exact hr0.2.symm
  subst hr0'
  obtain ⟨r', h⟩ := two_build (ctx := ctx) (by decide) rfl rfl hr0 (fun r1 h => by
    have : r1 = .int id := by simpa using h
    subst this
    exact hr)
  rw [h]
  simp [Except.map]

/-- **C28 (sub-opcode given by name).** A scheduler message whose sub-opcode is given by name is accepted, but its payload is not written. -/
theorem C28_named_subopcode {N : String} {num : Nat} (hN : (N, (num : Int)) ∈ E.RRuleSchedulerSubOpcode.members) (L : Lib) {d d' : Dict} {k : Val}
    (hk : dget d "opcode" = some k) (hs : hashInt k = some (0xE83601 : Int) ∨ k = .str "SILVAIR_RRULE_SCHEDULER")
    (hd : (dget d "silvair_rrule_scheduler").or (dget d "params") = some (.dict d')) (hk' : dget d' "subopcode" = some (.str N)) :
    (accessBuild registry L (.dict d)).map Prod.fst =
      match dget d' "payload" with
      | none => .error .key
      | some _ => .ok (schedHeader num) := by
  have he : (E.RRuleSchedulerOpcode, rRuleSchedulerCases) ∈ registry := by inreg
  have hl : lower "SILVAIR_RRULE_SCHEDULER" = "silvair_rrule_scheduler" := by decide +kernel
  have hn : num < 16 ∧ lookupName E.RRuleSchedulerSubOpcode.members N = some (num : Int) := by
    simp only [E.RRuleSchedulerSubOpcode, List.mem_cons, Prod.mk.injEq, List.not_mem_nil, or_false] at hN
    rcases hN with ⟨rfl, h⟩ | ⟨rfl, h⟩ | ⟨rfl, h⟩ | ⟨rfl, h⟩ | ⟨rfl, h⟩ | ⟨rfl, h⟩ | ⟨rfl, h⟩ | ⟨rfl, h⟩ | ⟨rfl, h⟩ | ⟨rfl, h⟩ | ⟨rfl, h⟩ |
      ⟨rfl, h⟩ | ⟨rfl, h⟩ | ⟨rfl, h⟩ <;> refine ⟨by omega, ?_⟩ <;> rw [h] <;> decide +kernel
  have := C04_build he (N := "SILVAIR_RRULE_SCHEDULER") (n := 0xE83601) (by dsimp only; decide +kernel) (by rw [hl]; decide) L hk hs
  rw [this, hl, hd]
  simp only [sched_cases, Option.getD_some]
  have hb1 : (enumAdapter (uintLE 1) E.RRuleSchedulerSubOpcode).buildNone = false := rfl
  have hb2 : (switchC (BM.this "subopcode") rRuleSchedulerSubMessageCases).buildNone = false := rfl
  have hkey : ∀ ctx, (enumAdapter (uintLE 1) E.RRuleSchedulerSubOpcode).build L ctx (.str N) = .ok ([UInt8.ofNat num], .str N) := by
    intro ctx
    simp only [enumAdapter, adapter, enumEncode, hn.2, ok_bind, uintLE, asInt]
    rw [if_pos (by constructor <;> simp <;> omega)]
    simp [leBytes_one]
  simp only [plainSubMessage, struct, asDict, ok_bind, buildItems, field, hb1, hb2, Bool.false_eq_true, if_false, dgetE, hk', hkey]
  cases hp : dget d' "payload" with
  | none => rfl
  | some u =>
    have hctx : dget (dset (dset (dset d' "subopcode" (.str N)) "subopcode" (.str N)) "payload" u) "subopcode" = some (.str N) := by
      rw [dget_dset_ne _ _ (by decide), dget_dset_self]
    have hcase : caseOf (.str N) rRuleSchedulerSubMessageCases passC = passC := rfl
    simp only [ok_bind, switchC, BM.this, dgetE, hctx, hcase, passC, schedHeader]
    rfl

/-! ### Examples -/

/-- A schedule with two slots and several rules: weekly on Monday and Friday, every second week, until the end of 2025. -/
def someSchedule : Schedule where
  slots := [⟨0x0102, 3, [1, 2, 3]⟩, ⟨4, 0, []⟩]
  rules := [.freq 4, .interval 2, .byDay [1, 5], .bySetPos [-1, 300], .endTime ⟨59, 59, 23, 31, 12, 2025⟩, .exclusions [⟨0, 0, 0, 24, 12, 2024⟩]]

omit [Platform] in
theorem someSchedule_fits : someSchedule.Fits where
  count := by decide
  slots := by
    intro s hs
    simp only [someSchedule, List.mem_cons, List.not_mem_nil, or_false] at hs
    rcases hs with rfl | rfl <;> exact ⟨by decide, by decide, by decide⟩
  rules := by
    intro r hr
    simp only [someSchedule, List.mem_cons, List.not_mem_nil, or_false] at hr
    rcases hr with rfl | rfl | rfl | rfl | rfl | rfl
    · simp [Rule.Fits]
    · simp [Rule.Fits]
    · simp [Rule.Fits]
    · simp [Rule.Fits]
    · exact ⟨by decide, by decide, by decide, by decide, by decide, by decide⟩
    · refine ⟨by decide, ?_⟩
      intro t ht
      simp only [List.mem_cons, List.not_mem_nil, or_false] at ht
      subst ht
      exact ⟨by decide, by decide, by decide, by decide, by decide, by decide⟩

/-- The object that sends `u`. -/
def someSend (num : Int) (u : Val) : Dict :=
  [("opcode", .int 0xE83601), ("silvair_rrule_scheduler", .dict [("subopcode", .int num), ("payload", u)])]

omit [Platform] in
theorem someSend_sends (num : Nat) (u : Val) : Sends num (someSend num u) u :=
  ⟨⟨_, rfl, .inl rfl⟩, _, rfl, ⟨_, rfl, rfl⟩, rfl⟩

omit [Platform] in
example : (UInt8.ofNat 7 :: someSchedule.bytes) =
    [7, 2, 2, 1, 3, 3, 1, 2, 3, 4, 0, 0, 0, 0, 4, 3, 2, 0, 7, 2, 1, 5, 12, 2, 0xFF, 0xFF, 0x2C, 0x01, 1, 0xE9, 0x07, 0xFF, 0xBB, 0xEF,
      15, 1, 0xE8, 0x07, 0x63, 0, 0] := by decide +kernel

example (L : Lib) : (accessBuild registry L (.dict (someSend 8 (entryObj 7 someSchedule)))).map Prod.fst =
    .ok (schedHeader 0x08 ++ UInt8.ofNat 7 :: someSchedule.bytes) :=
  (C28_entry_set (by decide) someSchedule_fits L (someSend_sends 8 _)).1

example (L : Lib) : (accessBuild registry L (.dict (someSend 1 (.dict [("rule_ids", .list [.int 7, .int 0, .int 3])])))).map Prod.fst =
    .ok (schedHeader 0x01 ++ [7, 0, 3]) :=
  (C28_rules_any_order L (xs := [7, 0, 3]) (s := [0, 3, 7]) (by decide) (by simp; omega) (by decide) rfl (someSend_sends 1 _)).1

example (L : Lib) : (accessBuild registry L (.dict (someSend 8 (.dict [("entry_id", .int (7 : Nat)), ("scheduler_register_entry",
      .dict [("array_of_slots", .list (someSchedule.slots.map Slot.obj)),
        ("rules", .list (someSchedule.rules.map Rule.obj ++ [.dict [("rule_id", .str "COUNT"), ("rule", .int 10)]]))])])))).map Prod.fst =
    .ok (schedHeader 0x08 ++ UInt8.ofNat 7 :: someSchedule.bytes ++ [2]) :=
  (C28_named_rule (by decide) someSchedule_fits (N := "COUNT") (n := 2) (by decide +kernel) (.int 10) L (someSend_sends 8 _)).1

example (L : Lib) : (accessBuild registry L (.dict [("opcode", .int 0xE83601), ("silvair_rrule_scheduler",
      .dict [("subopcode", .str "SCHEDULE_REGISTER_ENTRY_GET"), ("payload", .dict [("entry_id", .int 5)])])])).map Prod.fst = .ok (schedHeader 7) :=
  (C28_named_subopcode (N := "SCHEDULE_REGISTER_ENTRY_GET") (num := 7) (by decide +kernel) L (k := .int 0xE83601)
    (d' := [("subopcode", .str "SCHEDULE_REGISTER_ENTRY_GET"), ("payload", .dict [("entry_id", .int 5)])]) rfl (.inl rfl) rfl rfl).trans rfl

end BM.Props
