import Verif.Props.Sent
import Verif.Props.Readings
/-!
# C47: what is sent for objects outside of the formats (messages)
-/
namespace BM.Props
open Tables F Spec

/-! ### Sensor values -/

section
variable [Platform]

theorem or_lt_iff {a b k : Nat} : a ||| b < 2 ^ k ↔ a < 2 ^ k ∧ b < 2 ^ k :=
  ⟨fun h => ⟨lt_of_le_of_lt Nat.left_le_or h, lt_of_le_of_lt Nat.right_le_or h⟩, fun h => Nat.or_lt_two_pow h.1 h.2⟩

theorem mpid_writes {uf ul uid : Val} {b} :
    Sensor.mpidBuild uf ul uid = .ok b ↔ ∃ l n : Nat, asInt ul = some (l : Int) ∧ asInt uid = some (n : Int) ∧ MpidSent (truthy uf) l n b := by
  by_cases hf : truthy uf = true
  · rw [mpid_build (fun h => by rw [hf] at h; cases h), hf]; rfl
  · have hf' : truthy uf = false := by simpa using hf
    rw [hf']
    constructor
    · intro h
      unfold Sensor.mpidBuild at h
      split at h
      · rename_i l i hl hi
        rw [if_neg hf] at h
        simp only [bind_ok] at h
        obtain ⟨b0, h1, b1, h2, h3⟩ := h
        split at h1
        · obtain ⟨m, hm, hm', rfl⟩ := oneByte_ok h1
          obtain ⟨m2, hm2, hm2', rfl⟩ := oneByte_ok h2
          cases h3
          have hm1 : (l - 1).toNat <<< 1 ||| (i % 8).toNat <<< 5 = m := by exact_mod_cast hm
          have hlt := (or_lt_iff (k := 8)).1 (hm1 ▸ hm')
          rw [Nat.shiftLeft_eq, Nat.shiftLeft_eq] at hlt
          refine ⟨l.toNat, i.toNat, by rw [hl, Int.toNat_of_nonneg (by omega)], by rw [hi, Int.toNat_of_nonneg (by omega)], by omega, by omega, by omega, ?_⟩
          rw [← hm1, Nat.shiftLeft_eq, Nat.shiftLeft_eq, show (i % 8).toNat = i.toNat % 8 by omega, show (l - 1).toNat = l.toNat - 1 by omega,
            show m2 = i.toNat / 8 by omega, Nat.mul_comm _ (2 ^ 1), Nat.mul_comm _ (2 ^ 5)]
          rfl
        · cases h1
      · cases h
    · rintro ⟨l, n, hl, hn, h1, h2, h3, rfl⟩
      have e1 : (((l : Int) - 1).toNat <<< 1 ||| ((n : Int) % 8).toNat <<< 5 : Nat) = 2 * (l - 1) ||| 32 * (n % 8) := by
        rw [Nat.shiftLeft_eq, Nat.shiftLeft_eq, show ((n : Int) % 8).toNat = n % 8 by omega, show ((l : Int) - 1).toNat = l - 1 by omega,
          Nat.mul_comm _ (2 ^ 1), Nat.mul_comm _ (2 ^ 5)]
      have e2 : 2 * (l - 1) ||| 32 * (n % 8) < 256 := (or_lt_iff (k := 8)).2 ⟨by omega, by omega⟩
      have e3 : (n : Int) / 8 = ((n / 8 : Nat) : Int) := by omega
      unfold Sensor.mpidBuild
      simp only [hl, hn]
      rw [if_neg hf, if_pos (by omega), e1, oneByte_eq e2, e3, oneByte_eq (by omega)]
      rfl

theorem writes_data : Writes Sensor.data (dataSent Spec.properties) := by
  intro L hL ctx u b
  constructor
  · rintro ⟨r, h⟩
    cases u <;> simp only [Sensor.data, bind_ok, reduceCtorEq] at h
    rename_i d
    obtain ⟨id, h1, uf, h2, ul, h3, b1, h4, b2, h5, h6⟩ := h
    cases h6
    obtain ⟨l, n, hl, hn, hm⟩ := mpid_writes.1 h4
    exact ⟨.none, d, id, uf, ul, n, l, b1, b2, rfl, dgetE_ok h1, dgetE_ok h2, dgetE_ok h3, hn, hl, hm, (setting_writes hL).1 h5, rfl⟩
  · rintro ⟨-, d, id, uf, ul, n, l, b₁, b₂, rfl, h1, h2, h3, hn, hl, hm, hs, rfl⟩
    exact ⟨.dict d, by
      simp only [Sensor.data, dgetE_eq h1, dgetE_eq h2, dgetE_eq h3, ok_bind, mpid_writes.2 ⟨l, n, hl, hn, hm⟩, (setting_writes hL).2 hs]⟩

theorem writes_descriptors : Writes Sensor.descriptorStatus (listOf (longElseShort descriptorLong descriptorShort)) :=
  writes_greedy (writes_optionalMinimal (MeetsIs.writes long_items) (MeetsIs.writes short_items))
end

/-! ### Schedules -/

theorem rule_names : ∀ p ∈ E.RuleIDs.members, lookupName E.RuleIDs.members p.1 = some p.2 ∧ 0 ≤ p.2 ∧ p.2 < 256 := by decide +kernel

theorem lookupName_pair {ms : List (String × Int)} {s : String} {k : Int} (h : lookupName ms s = some k) : (s, k) ∈ ms := by
  induction ms with
  | nil => simp [lookupName] at h
  | cons m ms ih =>
    obtain ⟨a, x⟩ := m
    simp only [lookupName] at h
    split at h
    · rename_i e; injection h with h; subst h; subst e; exact List.mem_cons_self
    · exact List.mem_cons_of_mem _ (ih h)

theorem writes_rule : Writes RRule.rules ruleSent := by
  intro L hL ctx u b
  have hb : (switchC (this "rule_id") RRule.ruleCases).buildNone = false := rfl
  have he : RRule.ruleId.buildNone = false := rfl
  have key : ∀ {d s}, dget d "rule_id" = some (.str s) → ((∃ r, RRule.rules.build L ctx (.dict d) = .ok (b, r)) ↔
      ∃ x, ∃ n : Nat, dget d "rule" = some x ∧ (s, (n : Int)) ∈ E.RuleIDs.members ∧ b = [UInt8.ofNat n]) := by
    intro d s hs
    constructor
    · rintro ⟨r, h⟩
      simp only [struct, asDict, ok_bind, buildItems, field, he, hb, Bool.false_eq_true, if_false, bind_ok, dgetE_eq hs] at h
      obtain ⟨⟨b0, c0⟩, ⟨⟨b1, c1⟩, ⟨⟨b1', r1⟩, h1, h1'⟩, ⟨b2, c2⟩, ⟨⟨b3, c3⟩, ⟨x, hx, ⟨b4, r4⟩, h4, h5⟩, h6⟩, h7⟩, h8⟩ := h
      cases h8; cases h7; cases h6; cases h5; cases h1'
      simp only [RRule.ruleId, enumAdapter, adapter, enumEncode, bind_ok] at h1
      obtain ⟨w, hw, ⟨b5, r5⟩, h9, h10⟩ := h1
      cases h10
      split at hw
      · rename_i n hn
        cases hw
        have hm := lookupName_pair hn
        have := (rule_names _ hm).2
        obtain ⟨m, rfl⟩ := Int.eq_ofNat_of_zero_le this.1
        obtain ⟨v, hv⟩ := (meets_uint (M := lossless) (e := false) 1).sound (fun _ => hL) h9
        refine ⟨x, m, dgetE_ok hx, hm, ?_⟩
        have h4' : b4 = [] := by
          have hd : dget (dset (dset (dset d "rule_id" (.str s)) "rule_id" (.str s)) "rule" x) "rule_id" = some (.str s) := by
            rw [dget_dset_ne _ _ (by decide), dget_dset_self]
          simp only [switchC, BM.this, dgetE_eq hd, ok_bind, caseOf, hashInt, asInt, passC] at h4
          cases h4; rfl
        subst h4'
        obtain ⟨k, hk, -, hl, hb', -⟩ := hv
        simp only [asInt, Option.some.injEq, Nat.cast_inj] at hk
        subst hk
        obtain ⟨y, rfl⟩ := List.length_eq_one_iff.1 hl
        have : y.toNat = m := by simpa [leNat] using hb'
        rw [← this]; simp
      · cases hw
    · rintro ⟨x, n, hx, hn, rfl⟩
      obtain ⟨h1, -, h2⟩ := rule_names _ hn
      have h2' : n < 256 := by dsimp only at h2; exact_mod_cast h2
      obtain ⟨r, hr⟩ := (meets_uint (M := lossless) (e := false) 1).enc (u := .enum "RuleIDs" n) (b := [UInt8.ofNat n]) (v := .int n)
        ⟨n, rfl, trivial, rfl, leNat_one h2', rfl⟩ L (dset d "rule_id" (.str s)) (fun _ => hL)
      have hd : ∀ x, dget (dset (dset (dset d "rule_id" (.str s)) "rule_id" (.str s)) "rule" x) "rule_id" = some (.str s) := by
        intro x; rw [dget_dset_ne _ _ (by decide), dget_dset_self]
      refine ⟨.dict (dset (dset (dset (dset d "rule_id" (.str s)) "rule_id" (.str s)) "rule" x) "rule" x), ?_⟩
      simp only [struct, asDict, ok_bind, buildItems, field, he, hb, Bool.false_eq_true, if_false, dgetE_eq hs]
      simp only [RRule.ruleId, enumAdapter, adapter, enumEncode, show lookupName E.RuleIDs.members s = some (n : Int) from h1, ok_bind,
        show E.RuleIDs.cls = "RuleIDs" from rfl, hr, dgetE_eq hx, switchC, BM.this, dgetE_eq (hd _), caseOf, hashInt, asInt, passC]
      cases x <;> first | rfl | (simp only [dset_twice]; rfl)
  constructor
  · rintro ⟨r, h⟩
    by_cases hn : NamedRule u
    · obtain ⟨d, s, rfl, hs⟩ := hn
      obtain ⟨x, n, hx, hn, rfl⟩ := (key hs).1 ⟨r, h⟩
      exact ⟨.none, .inr ⟨d, s, x, n, rfl, hs, hx, hn, rfl⟩⟩
    · obtain ⟨v, hv⟩ := meets_rule.sound (fun _ => hL) hn h
      exact ⟨v, .inl hv⟩
  · rintro ⟨v, hv | ⟨d, s, x, n, rfl, hs, hx, hn, rfl⟩⟩
    · exact meets_rule.enc hv L ctx (fun _ => hL)
    · exact (key hs).2 ⟨x, n, hx, hn, rfl⟩

theorem writes_schedule : Writes RRule.schedulerRegisterEntry scheduleSent :=
  writes_struct (.cons (writesI_field rfl (Meets.writes (meets_withCount (e := false) 1 meets_slots))) (.cons (writesI_field rfl (writes_greedy writes_rule)) .nil))

theorem writes_entrySet : Writes RRule.entrySet (record [u8 "entry_id", fld "scheduler_register_entry" scheduleSent]) :=
  writes_struct (.cons (writesI_field rfl (Meets.writes (meets_uint (M := lossless) (e := false) 1))) (.cons (writesI_field rfl writes_schedule) .nil))

theorem writes_entryShort : WritesIs RRule.entryStatusMinimal entryShort :=
  .cons (writesI_field rfl (Meets.writes (meets_uint (M := lossless) (e := false) 1)))
    (.cons (writesI_field rfl (Meets.writes (meets_enum_uint (M := lossless) (e := false) 1 E.StatusCodes))) .nil)

theorem writes_entryStatus : Writes RRule.entryStatus (longElseShort [embed entryShort, fld "scheduler_register_entry" scheduleSent] entryShort) :=
  writes_optionalMinimal (.cons (writesI_embedded writes_entryShort) (.cons (writesI_field rfl writes_schedule) .nil)) writes_entryShort

theorem writes_publication : Writes NDS.publicationSet (longElseShort ndsLong ndsShort) :=
  writes_optionalMinimal (MeetsIs.writes (by meets : MeetsIs lossless true NDS.publicationSetOptional ndsLong))
    (MeetsIs.writes (by meets : MeetsIs lossless true NDS.publicationSetMinimal ndsShort))

/-! ### The messages -/

/-- The registry sends exactly the bytes of the format. -/
def SendsAs (reg : List Entry) (m : MsgSpec) : Prop :=
  ∃ e ∈ reg, lookupValue e.1.members m.op = some (upper m.name) ∧ lower (upper m.name) = m.name ∧ m.name ≠ "opcode" ∧
    ∃ C c, (findCase m.op e.2).getD passC = C ∧ Writes c m.fmt ∧
      match m.sub with
      | none => C = c
      | some s => s.key ≠ "subopcode" ∧ ∃ E, Wraps C E s c

theorem SendsAs.build {reg : List Entry} {m : MsgSpec} (ok : RegOK reg) (h : SendsAs reg m) {u b v} (hG : m.fmt u b v) {L : Lib} (hL : L.Strict) {d k}
    (hk : dget d "opcode" = some k) (hs : Spells m k) (hp : payload m d = some u) :
    ∃ cls, accessBuild reg L (.dict d) = .ok (header m ++ b, .dict (afterBuild cls m.op d k)) := by
  obtain ⟨e, he, h1, h2, h3, C, c, h4, hW, h5⟩ := h
  refine ⟨e.1.cls, ?_⟩
  rw [access_build ok he h1 h2 h3 h4 L hk hs]
  unfold header
  cases hsub : m.sub with
  | none =>
    rw [hsub] at h5; subst h5
    simp only [payload, hsub] at hp
    obtain ⟨r, hr⟩ := (hW hL (ctx := [("opcode", .enum e.1.cls m.op), ("params", u)])).2 ⟨v, hG⟩
    simp only [hp, hr, List.append_nil]
  | some s =>
    rw [hsub] at h5
    obtain ⟨-, E, hX⟩ := h5
    simp only [payload, hsub] at hp
    obtain ⟨p, hp1, hp2⟩ := Option.bind_eq_some_iff.1 hp
    cases p <;> simp only [innerPayload, reduceCtorEq] at hp2
    rename_i d'
    split at hp2
    · rename_i hd
      obtain ⟨ctx', hb⟩ := hX.build L [("opcode", .enum e.1.cls m.op), ("params", .dict d')] d' u hd hp2
      obtain ⟨r, hr⟩ := (hW hL (ctx := ctx')).2 ⟨v, hG⟩
      obtain ⟨r', hr'⟩ := hb b r hr
      simp only [hp1, hr', List.append_assoc, List.cons_append, List.nil_append]
    · simp at hp2

theorem SendsAs.built {reg : List Entry} {m : MsgSpec} (ok : RegOK reg) (h : SendsAs reg m) {u} {L : Lib} (hL : L.Strict) {d k bs o}
    (hk : dget d "opcode" = some k) (hs : Spells m k) (hp : payload m d = some u)
    (hb : accessBuild reg L (.dict d) = .ok (bs, o)) : ∃ b v, m.fmt u b v ∧ bs = header m ++ b := by
  obtain ⟨e, he, h1, h2, h3, C, c, h4, hW, h5⟩ := h
  rw [access_build ok he h1 h2 h3 h4 L hk hs] at hb
  unfold header
  cases hsub : m.sub with
  | none =>
    rw [hsub] at h5; subst h5
    simp only [payload, hsub] at hp
    rw [hp] at hb
    split at hb
    · simp at hb
    · rename_i x hx; cases hx
      split at hb
      · rename_i b r hr
        simp only [Except.ok.injEq, Prod.mk.injEq] at hb
        obtain ⟨v, hv⟩ := (hW hL).1 ⟨r, hr⟩
        exact ⟨b, v, hv, by rw [List.append_nil]; exact hb.1.symm⟩
      · simp at hb
  | some s =>
    rw [hsub] at h5
    obtain ⟨-, E, hX⟩ := h5
    simp only [payload, hsub] at hp
    obtain ⟨p, hp1, hp2⟩ := Option.bind_eq_some_iff.1 hp
    rw [hp1] at hb
    split at hb
    · simp at hb
    · rename_i x hx; cases hx
      split at hb
      · rename_i b r hr
        simp only [Except.ok.injEq, Prod.mk.injEq] at hb
        obtain ⟨ctx', b', r', hc, rfl⟩ := hX.build' L _ p b r hr u hp2
        obtain ⟨v, hv⟩ := (hW hL).1 ⟨r', hc⟩
        exact ⟨b', v, hv, by rw [← hb.1]; simp⟩
      · simp at hb

/-! ### All of them -/

section
variable [Platform]

theorem sendsAll_nil : ∀ m ∈ ([] : List MsgSpec), SendsAs registry m := fun _ h => nomatch h
theorem sendsAll_cons {m : MsgSpec} {ms : List MsgSpec} (h : SendsAs registry m) (t : ∀ m ∈ ms, SendsAs registry m) : ∀ x ∈ m :: ms, SendsAs registry x := by
  intro x hx
  rcases List.mem_cons.1 hx with rfl | hx
  · exact h
  · exact t x hx

theorem sendsAs_msg {op : Nat} {name : String} {G : Fmt UInt8} {e : Entry} (he : e ∈ registry) (h1 : lookupValue e.1.members op = some (upper name))
    (h2 : lower (upper name) = name) (h3 : name ≠ "opcode") {c : Con UInt8} (hc : findCase op e.2 = some c) (hW : Writes c G) : SendsAs registry (msg op name G) :=
  ⟨e, he, h1, h2, h3, c, c, by rw [hc]; rfl, hW, rfl⟩

theorem property_header : WritesIs GenericProperty.propertyGet [propId "property_id"] :=
  MeetsIs.writes (M := lossless) (e := false) (by meets)
theorem access_header : WritesIs [embedded GenericProperty.propertyGet, field "access" (uintLE 1)] [embed [propId "property_id"], fld "access" (uint 1)] :=
  MeetsIs.writes (M := lossless) (e := false) (by meets)

theorem setting_header : WritesIs Sensor.settingGet settingHeader :=
  MeetsIs.writes (M := lossless) (e := false) (by meets)
theorem setting_access : WritesIs [embedded Sensor.settingGet, field "sensor_setting_access" (uintLE 1)] settingAccess :=
  MeetsIs.writes (M := lossless) (e := false) (by meets)

macro "sends" e:term:max t:term:max : tactic => `(tactic|
  refine sendsAll_cons (sendsAs_msg (e := $e) (by inreg) (by dsimp only; decide +kernel) (by decide +kernel) (by decide) rfl $t) ?_)

theorem sends_sent : ∀ m ∈ Spec.sent, SendsAs registry m := by
  unfold Spec.sent
  dsimp only
  sends (E.GenericPropertyOpcode, genericPropertyCases) (writes_property property_header)
  sends (E.GenericPropertyOpcode, genericPropertyCases) (writes_property property_header)
  sends (E.GenericPropertyOpcode, genericPropertyCases) (writes_property access_header)
  sends (E.GenericPropertyOpcode, genericPropertyCases) (writes_property access_header)
  sends (E.GenericPropertyOpcode, genericPropertyCases) (writes_property access_header)
  sends (E.GenericPropertyOpcode, genericPropertyCases) (writes_property access_header)
  sends (E.GenericPropertyOpcode, genericPropertyCases) (writes_property access_header)
  sends (E.SensorSetupOpcode, sensorSetupCases) (writes_setting setting_header)
  sends (E.SensorSetupOpcode, sensorSetupCases) (writes_setting setting_header)
  sends (E.SensorSetupOpcode, sensorSetupCases) (writes_setting setting_access)
  sends (E.SensorOpcode, sensorCases) writes_descriptors
  sends (E.SensorOpcode, sensorCases) (writes_greedy writes_data)
  exact sendsAll_nil

theorem sends_vendor : ∀ m ∈ Spec.sentVendor, SendsAs registry m := by
  have h : ∀ {num key}, lookupValue E.NetworkDiagnosticSetupServerSubOpcode.members (num : Nat) = some (upper key) → lower (upper key) = key → num < 256 → key ≠ "subopcode" →
      findCase num networkDiagnosticSetupServerParamsCases = some NDS.publicationSet →
      SendsAs registry (vmsg 0xFD3601 "silvair_nds_setup" num key (longElseShort ndsLong ndsShort)) := by
    intro num key h1 h2 h3 h4 h5
    exact ⟨(E.NetworkDiagnosticSetupServerOpcode, networkDiagnosticSetupServerCases), by inreg, by dsimp only; decide +kernel, by dsimp only; decide +kernel, by dsimp only; decide, _, _, rfl,
      writes_publication, h4, E.NetworkDiagnosticSetupServerSubOpcode, wraps_subMessage h1 h2 h3 (by dsimp only; rw [h5]; rfl)⟩
  exact sendsAll_cons (h (by decide +kernel) (by decide +kernel) (by decide) (by decide) rfl)
    (sendsAll_cons (h (by decide +kernel) (by decide +kernel) (by decide) (by decide) rfl) sendsAll_nil)

theorem sends_rrule : ∀ m ∈ Spec.sentRRule, SendsAs registry m := by
  have h : ∀ {num G c}, E.RRuleSchedulerSubOpcode.has (num : Nat) = true → num < 256 → findCase num rRuleSchedulerSubMessageCases = some c → Writes c G →
      SendsAs registry (rrule num G) := by
    intro num G c h1 h2 h3 h4
    exact ⟨(E.RRuleSchedulerOpcode, rRuleSchedulerCases), by inreg, by dsimp only; decide +kernel, by dsimp only; decide +kernel, by dsimp only; decide, _, c, rfl,
      h4, by dsimp only; decide, E.RRuleSchedulerSubOpcode, wraps_plainSubMessage h1 rfl h2 (by dsimp only; rw [h3]; rfl) rrule_pass⟩
  exact sendsAll_cons (h (by decide +kernel) (by decide) rfl writes_entrySet)
    (sendsAll_cons (h (by decide +kernel) (by decide) rfl writes_entryStatus) sendsAll_nil)

/-- **C47.** For the messages with objects outside of their format: an object is sent if and only if it is one of the objects described in `Verif.SpecSent`,
and what is sent is the header and the bytes described there. -/
theorem C47_sent {m : MsgSpec} (hm : m ∈ Spec.sent ++ Spec.sentVendor ++ Spec.sentRRule) {L : Lib} (hL : L.Strict) {d k u bs}
    (hk : dget d "opcode" = some k) (hs : Spells m k) (hp : payload m d = some u) :
    (∃ o, accessBuild registry L (.dict d) = .ok (bs, o)) ↔ ∃ b v, m.fmt u b v ∧ bs = header m ++ b := by
  have h : SendsAs registry m := by
    rcases List.mem_append.1 hm with hm | hm
    · rcases List.mem_append.1 hm with hm | hm
      · exact sends_sent m hm
      · exact sends_vendor m hm
    · exact sends_rrule m hm
  constructor
  · rintro ⟨o, ho⟩
    exact h.built registry_ok hL hk hs hp ho
  · rintro ⟨b, v, hv, rfl⟩
    obtain ⟨cls, h⟩ := h.build registry_ok hv hL hk hs hp
    exact ⟨_, h⟩
/-! ### What receivers make of it -/

/-- **C47 (dates beyond the calendar).** A date given as a number of days after 9999-12-31 is sent, but no receiver accepts it. -/
theorem C47_far_date {i : Nat} {name : String} (hi : (i, name) ∈ [(0x0C, "device_date_of_manufacture"), (0xA0, "luminaire_time_of_manufacture")])
    {n : Nat} (h1 : 2932896 < n) (h2 : n < 2 ^ 24) {L : Lib} (hL : L.Strict) :
    (∃ o, accessBuild registry L (.dict [("opcode", .int 0x4C), ("generic_user_property_set",
      .dict [("property_id", .int i), (name, .dict [("date", .int n)])])]) = .ok (0x4C :: (leBytes 2 i ++ leBytes 3 n), o)) ∧
    ∀ L', ∃ e, accessParse registry L' (0x4C :: (leBytes 2 i ++ leBytes 3 n)) = .error e := by
  constructor
  · refine (C47_sent (m := msg 0x4C "generic_user_property_set" (propertySent properties [propId "property_id"]))
      (List.mem_append_left _ (List.mem_append_left _ (List.mem_of_getElem? (i := 0) rfl))) hL (k := .int 0x4C) rfl (.inl rfl) rfl).2
      ⟨leBytes 2 i ++ leBytes 3 n, .none, ?_, rfl⟩
    have hp : ∃ p ∈ Spec.properties, p.id = i ∧ p.name = name ∧ i ∈ dateIds ∧ E.PropertyID.has i = true ∧ i < 256 ^ 2 ∧ name ≠ "property_id" := by
      simp only [List.mem_cons, Prod.mk.injEq, List.not_mem_nil, or_false] at hi
      rcases hi with ⟨rfl, rfl⟩ | ⟨rfl, rfl⟩
      · exact ⟨⟨0x0C, "device_date_of_manufacture", Spec.dateUTC, OddDate⟩, List.mem_append_left _ (List.mem_append_left _ (by simp [Spec.dateProperties])), rfl, rfl,
          by decide, by decide +kernel, by decide, by decide⟩
      · exact ⟨⟨0xA0, "luminaire_time_of_manufacture", Spec.dateUTC, OddDate⟩, List.mem_append_left _ (List.mem_append_left _ (by simp [Spec.dateProperties])), rfl, rfl,
          by decide, by decide +kernel, by decide, by decide⟩
    obtain ⟨p, hp, rfl, rfl, hd, hh, hlt, hne⟩ := hp
    refine ⟨_, .int p.id, p, leBytes 2 p.id, leBytes 3 n, [("property_id", .enum E.PropertyID.cls p.id)], .none, rfl, rfl, hp, rfl, ?_, ?_, rfl⟩
    · refine ⟨leBytes 2 p.id, [], _, [], (List.append_nil _).symm, (List.append_nil _).symm, ⟨.int p.id, _, rfl, ?_, rfl⟩, rfl, rfl⟩
      exact .inl <| enum_encodable (u := .int p.id) (k := p.id) rfl hh (leBytes_length _ _) (leNat_leBytes _ _ hlt)
    · refine .inr ⟨hd, [("date", .int n)], .int n, n, ?_, rfl, .inl rfl, h1, h2, rfl⟩
      simp [dget, hne.symm]
  · intro L'
    have h := (C44_property (N := "GENERIC_USER_PROPERTY_SET") (n := 0x4C) (a := 0) (List.mem_of_getElem? (i := 0) rfl) (hd := leBytes 2 i)
      (leBytes_length _ _) L' (leBytes 3 n)).1
    rw [show (leBytes 2 i).take 2 = leBytes 2 i from List.take_of_length_le (by rw [leBytes_length])] at h
    simp only [List.mem_cons, Prod.mk.injEq, List.not_mem_nil, or_false] at hi
    have hbad : ∀ i ∈ dayProperties, i ∉ textProperties → valueValid i ((leBytes 3 n).take 3) = false := by
      intro i hi ht
      rw [List.take_of_length_le (by rw [leBytes_length])]
      simp only [valueValid, if_neg ht, if_pos hi, leNat_leBytes 3 n h2]
      simpa using h1
    rcases hi with ⟨rfl, rfl⟩ | ⟨rfl, rfl⟩
    · exact (h 3 (by with_unfolding_all decide)).2 (.inr (hbad _ (by decide) (by decide)))
    · exact (h 3 (by with_unfolding_all decide)).2 (.inr (hbad _ (by decide) (by decide)))

omit [Platform] in
/-- **C47 (lengths beyond format A).** Lengths from 17 to 128 are written in format A, but over the identifier: the header that is sent is the header of
a shorter value, and of another property unless the bits of the identifier happen to be set. -/
theorem C47_spill {l n : Nat} {b : List UInt8} (h : MpidSent false l n b) : Mpid false ((l - 1) % 16 + 1) (n ||| (l - 1) / 16) b := by
  obtain ⟨h1, h2, h3, rfl⟩ := h
  have key : ∀ q < 8, ∀ r < 16, ∀ c < 8, 2 * (16 * q + r) ||| 32 * c = 2 * r + 32 * (c ||| q) ∧ c ||| q < 8 := by decide
  have e := key ((l - 1) / 16) (by omega) ((l - 1) % 16) (by omega) (n % 8) (by omega)
  rw [show 16 * ((l - 1) / 16) + (l - 1) % 16 = l - 1 by omega] at e
  have e2 : n ||| (l - 1) / 16 = 8 * (n / 8) + (n % 8 ||| (l - 1) / 16) := by
    have a : n = (n / 8) <<< 3 ||| n % 8 := by
      rw [← Nat.shiftLeft_add_eq_or_of_lt (by omega), Nat.shiftLeft_eq]; omega
    conv_lhs => rw [a, Nat.or_assoc, ← Nat.shiftLeft_add_eq_or_of_lt (by omega), Nat.shiftLeft_eq]
    omega
  refine ⟨by omega, by omega, by omega, rfl, ?_⟩
  rw [leNat_pair, toNat_ofNat (by omega), toNat_ofNat (by omega), e.1, e2]
  omega


end

/-- **C47 (rules given by name).** A schedule whose rules are given by name is sent without the rules, whatever they are: only the identifiers. -/
theorem C47_named_rules [Platform] {rs : List (String × Nat × Val)} (hr : ∀ r ∈ rs, (r.1, (r.2.1 : Int)) ∈ E.RuleIDs.members) {entry : Nat} (he : entry < 256)
    {L : Lib} (hL : L.Strict) :
    ∃ o, accessBuild registry L (.dict [("opcode", .int 0xE83601), ("silvair_rrule_scheduler", .dict [("subopcode", .int 0x08), ("payload",
      .dict [("entry_id", .int entry), ("scheduler_register_entry", .dict [("array_of_slots", .list []), ("rules",
        .list (rs.map (fun r => .dict [("rule_id", .str r.1), ("rule", r.2.2)])))])])])]) =
      .ok ([0xE8, 0x36, 0x01, 0x08, UInt8.ofNat entry, 0] ++ rs.map (fun r => UInt8.ofNat r.2.1), o) := by
  have hm : ∃ vs, manyRel ruleSent (rs.map (fun r => Val.dict [("rule_id", .str r.1), ("rule", r.2.2)])) (rs.map (fun r => UInt8.ofNat r.2.1)) vs := by
    induction rs with
    | nil => exact ⟨[], rfl, rfl⟩
    | cons r rs ih =>
      obtain ⟨vs, h⟩ := ih (fun x hx => hr x (List.mem_cons_of_mem _ hx))
      exact ⟨.none :: vs, [UInt8.ofNat r.2.1], _, .none, vs, rfl, rfl,
        .inr ⟨_, r.1, r.2.2, r.2.1, rfl, rfl, rfl, hr r List.mem_cons_self, rfl⟩, h⟩
  obtain ⟨vs, hm⟩ := hm
  refine (C47_sent (m := rrule 0x08 (record [u8 "entry_id", fld "scheduler_register_entry" scheduleSent]))
    (List.mem_append_right _ (List.mem_of_getElem? (i := 0) rfl)) hL (k := .int 0xE83601) rfl (.inl rfl) rfl).2
    ⟨[UInt8.ofNat entry, 0] ++ rs.map (fun r => UInt8.ofNat r.2.1), _, ⟨_, _, rfl,
      ⟨[UInt8.ofNat entry], 0 :: rs.map (fun r => UInt8.ofNat r.2.1), _, _, rfl, rfl, ⟨.int entry, .int entry, rfl, ⟨entry, rfl, trivial, rfl, leNat_one he, rfl⟩, rfl⟩,
        ⟨0 :: rs.map (fun r => UInt8.ofNat r.2.1), [], _, [], (List.append_nil _).symm, rfl, ⟨_, _, rfl, ⟨_, _, rfl,
          ⟨[0], rs.map (fun r => UInt8.ofNat r.2.1), _, _, rfl, rfl, ⟨.list [], .list [], rfl, ⟨[], [], [], rfl, by decide, ⟨rfl, rfl⟩, by decide, rfl⟩, rfl⟩,
            ⟨rs.map (fun r => UInt8.ofNat r.2.1), [], _, [], (List.append_nil _).symm, rfl, ⟨_, _, rfl, ⟨_, vs, rfl, hm, rfl⟩, rfl⟩, rfl, rfl⟩⟩, rfl⟩, rfl⟩, rfl, rfl⟩⟩, rfl⟩, rfl⟩

/-! Examples.  A presence sent with a length of 17 in format A (`length` 17, identifier 0x4D): the header that is sent says length 1 and identifier
0x4D (bit 0 of the identifier is already set); with the identifier 0x4C it would also say 0x4D. -/
example : MpidSent false 17 0x4C [0xA0, 0x09] ∧ Mpid false 1 0x4D [0xA0, 0x09] :=
  ⟨⟨by decide, by decide, by decide, by decide⟩, by decide, by decide, by decide, by decide, by decide⟩

/-- **C47 (features out of range).** A publication whose features are not between 0 and 3 is sent without them. -/
theorem C47_features [Platform] {d : Dict} {b : List UInt8} {v : Val} (hd : record ndsShort (.dict d) b v) {w : Val} (hw : dget d "features" = some w)
    (hf : ∀ n : Nat, asInt w = some (n : Int) → 3 < n) (ho : dget d "optional" = none) (hm : dget d "minimal" = none) {L : Lib} (hL : L.Strict) :
    ∃ o, accessBuild registry L (.dict [("opcode", .int 0xFD3601), ("silvair_nds_setup", .dict [("subopcode", .int 0x01), ("publication_set", .dict d)])]) =
      .ok ([0xFD, 0x36, 0x01, 0x01] ++ b, o) := by
  obtain ⟨du, dv, h1, h2, rfl⟩ := hd
  refine (C47_sent (m := vmsg 0xFD3601 "silvair_nds_setup" 0x01 "publication_set" (longElseShort ndsLong ndsShort))
    (List.mem_append_left _ (List.mem_append_right _ (List.mem_of_getElem? (i := 0) rfl))) hL (k := .int 0xFD3601) rfl (.inl rfl) rfl).2
    ⟨b, _, .inr ⟨?_, d, dv, rfl, ?_, rfl⟩, rfl⟩
  · rintro ⟨b', v', d', dv', hd', hg, -⟩
    injection hd' with hd'; subst hd'
    rw [ho] at hg
    obtain ⟨du', dv'', h3, h4, -⟩ := hg
    cases h3
    obtain ⟨b1, b2, d1, d2, -, -, -, b3, b4, d3, d4, -, -, ⟨x, y, hx, ⟨n, hn, hle, -⟩, -⟩, -⟩ := h4
    rw [hw] at hx; injection hx with hx; subst hx
    have := hf n hn
    omega
  · rw [hm]; exact ⟨du, dv, h1, h2, rfl⟩

example : ∃ v, record ndsShort (.dict [("destination", .int 0xC000), ("count", .int 2), ("period", .dict [("resolution", .int 1), ("steps", .int 6)]),
    ("ttl", .int 5), ("net_key_index", .int 3), ("features", .int 9)]) [0x00, 0xC0, 0x02, 0x00, 0x46, 0x05, 0x03, 0x00] v := by
  have h : Meets lossless true (struct NDS.publicationSetMinimal) (record ndsShort) := meets_struct (by meets) (by keys)
  refine h.sound (L := strictLib) (ctx := []) (r := .dict [("destination", .int 0xC000), ("count", .int 2), ("period", .dict [("resolution", .int 1), ("steps", .int 6)]),
    ("ttl", .int 5), ("net_key_index", .int 3), ("features", .int 9)]) (fun _ => ⟨fun _ _ _ => ⟨_, rfl⟩, fun _ _ _ => ⟨_, rfl⟩⟩) ?_
  with_unfolding_all rfl

end BM.Props
