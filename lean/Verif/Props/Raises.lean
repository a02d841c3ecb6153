import Verif.RaisesTime
import Verif.Props.Total
import Verif.Props.Opcodes
/-!
# Exceptions raised while decoding (C48)
-/
namespace BM.Props
open Tables Config
variable [Platform]

/-- The exceptions of the decoding library (and the model's marker for endless loops). -/
def PlainP (e : Err) : Prop := e ∈ Spec.plainErrors ∨ e = .diverge
/-- … and the exceptions of a list. -/
def RowP (r : List Err) (e : Err) : Prop := PlainP e ∨ e ∈ r

instance : Base PlainP := ⟨.inl (by decide), .inl (by decide), .inl (by decide), .inr rfl⟩
instance {r} : Base (RowP r) := ⟨.inl (.inl (by decide)), .inl (.inl (by decide)), .inl (.inl (by decide)), .inl (.inr rfl)⟩

/-- The payload decoder `c` of messages that begin with `H` raises only what the specification allows. -/
def RowOK (H : List UInt8) (c : Con UInt8) : Prop := ∀ L ctx s e, c.parse L ctx s = .error e → e = .diverge ∨ Spec.MayRaise (H ++ s) e

omit [Platform] in
theorem row_plain {H c} (h : Raises PlainP anyV c) : RowOK H c := by
  intro L ctx s e he
  rcases (h L ctx s trivial).1 e he with h | h
  · exact .inr (.inl h)
  · exact .inl h

omit [Platform] in
theorem row_listed {H c} (r : List Err) (hr : (H, r) ∈ Spec.otherErrors) (h : Raises (RowP r) anyV c) : RowOK H c := by
  intro L ctx s e he
  rcases (h L ctx s trivial).1 e he with (h | h) | h
  · exact .inr (.inl h)
  · exact .inl h
  · exact .inr (.inr ⟨_, hr, List.prefix_append _ _, h⟩)

omit [Platform] in
theorem row_sub {H : List UInt8} {E : EnumDef} {cases : List (Int × Con UInt8)} (h : ∀ q ∈ cases, RowOK (H ++ [UInt8.ofNat q.1.toNat]) q.2) :
    RowOK H (subMessage E cases) := by
  intro L ctx s e he
  match s with
  | [] => cases he; exact .inr (.inl (by decide))
  | x :: t =>
    cases hx : E.has (x.toNat : Int) with
    | false => rw [(subKeyed_switch E cases).2 L ctx x t hx] at he; cases he; exact .inr (.inl (by decide))
    | true =>
      have hk := subkey_parse (E := E) x.toNat_lt hx L ctx t
      rw [show UInt8.ofNat x.toNat = x from by simp] at hk
      obtain ⟨N, hN⟩ := lookupValue_of_has hx
      simp only [subMessage, switchStruct, hk, ok_bind, asInt, hN, caseOf, hashInt] at he
      cases hf : findCase (x.toNat : Int) cases with
      | none => rw [hf] at he; cases he
      | some c =>
        rw [hf] at he
        simp only [Option.getD_some] at he
        cases hp : c.parse L [("subopcode", .enum E.cls x.toNat)] t with
        | ok r => rw [hp] at he; cases he
        | error e' =>
          rw [hp] at he
          cases he
          have := h _ (findCase_raises hf) _ _ _ _ hp
          simpa using this

/-! ### The messages -/

theorem row_composition : Raises PlainP anyV Config.compositionDataStatus := by
  refine rs_switchStruct ?_ ?_ ?_
  · intro L ctx s e he
    have : Raises PlainP anyV (enumAdapter (uintLE 1) E.CompositionDataPage) := by raises
    exact (this L ctx s trivial).1 e he
  · intro L ctx s v r hv
    obtain ⟨k, hk, hE⟩ : ∃ k, asInt v = some k ∧ E.CompositionDataPage.has k = true := by
      simp only [enumAdapter, adapter] at hv
      cases hu : (uintLE 1).parse L ctx s with
      | error e => rw [hu] at hv; cases hv
      | ok x =>
        rw [hu] at hv
        simp only [ok_bind, enumDecode] at hv
        split at hv
        · split at hv
          · injection hv with hv; injection hv with hv _; subst hv; exact ⟨_, rfl, by assumption⟩
          · cases hv
        · cases hv
    obtain ⟨N, hN⟩ := lookupValue_of_has hE
    exact ⟨k, N, hk, hN⟩
  · refine all_cons ?_ (all_cons ?_ (all_cons ?_ (all_cons ?_ all_nil))) <;> raises

set_option maxRecDepth 100000 in
set_option maxHeartbeats 4000000 in
theorem config_rows : ∀ q ∈ configCases, RowOK (wireOpcode q.1.toNat) q.2 := by
  unfold configCases
  repeat' (first | exact all_nil | refine all_cons (row_plain row_composition) ?_ | refine all_cons (row_plain ?_) ?_)
  all_goals raises

/-- Walks through a table whose payloads are all plain. -/
macro "rows" : tactic => `(tactic| (
  repeat' (first | exact all_nil | refine all_cons (row_plain ?_) ?_)
  all_goals raises))

theorem battery_rows : ∀ q ∈ genericBatteryCases, RowOK (wireOpcode q.1.toNat) q.2 := by unfold genericBatteryCases; rows
theorem level_rows : ∀ q ∈ genericLevelCases, RowOK (wireOpcode q.1.toNat) q.2 := by unfold genericLevelCases; rows
theorem onoff_rows : ∀ q ∈ genericOnOffCases, RowOK (wireOpcode q.1.toNat) q.2 := by unfold genericOnOffCases; rows
theorem health_rows : ∀ q ∈ healthCases, RowOK (wireOpcode q.1.toNat) q.2 := by unfold healthCases; rows
theorem ctl_rows : ∀ q ∈ lightCTLCases, RowOK (wireOpcode q.1.toNat) q.2 := by unfold lightCTLCases; rows
theorem ctlSetup_rows : ∀ q ∈ lightCTLSetupCases, RowOK (wireOpcode q.1.toNat) q.2 := by unfold lightCTLSetupCases; rows
theorem lightness_rows : ∀ q ∈ lightLightnessCases, RowOK (wireOpcode q.1.toNat) q.2 := by unfold lightLightnessCases; rows
theorem lightnessSetup_rows : ∀ q ∈ lightLightnessSetupCases, RowOK (wireOpcode q.1.toNat) q.2 := by unfold lightLightnessSetupCases; rows
theorem scene_rows : ∀ q ∈ sceneCases, RowOK (wireOpcode q.1.toNat) q.2 := by unfold sceneCases; rows
theorem sensor_rows : ∀ q ∈ sensorCases, RowOK (wireOpcode q.1.toNat) q.2 := by unfold sensorCases; rows

theorem debugV2_rows : ∀ q ∈ debugV2Cases, RowOK (wireOpcode q.1.toNat) q.2 := by unfold debugV2Cases; rows
theorem rrule_sub : ∀ q ∈ rRuleSchedulerSubMessageCases, Raises PlainP anyV q.2 := by
  unfold rRuleSchedulerSubMessageCases
  repeat' (first | exact all_nil | refine all_cons ?_ ?_)
  all_goals raises
theorem rrule_rows : ∀ q ∈ rRuleSchedulerCases, RowOK (wireOpcode q.1.toNat) q.2 := by
  unfold rRuleSchedulerCases
  exact all_cons (row_plain (rs_plainSub rrule_sub)) all_nil

/-- The property messages of the vendor models: the identifier is checked before the value is read. -/
theorem vendor_mixin {E : EnumDef} {D : List (Int × Con UInt8)} (hD : covers E D = true) (h : ∀ q ∈ D, Raises PlainP anyV q.2) :
    Raises PlainP anyV (propertyMixin E D [field "property_id" (enumAdapter (uintLE 2) E)]) :=
  rs_mixin (header_id (raises_enumId E)) (fun _ h => .inl h) (fun _ => covers_find hD) h

theorem lec_set : Raises PlainP anyV LEC.propertySet := vendor_mixin (by decide) (by
  refine all_cons ?_ (all_cons ?_ all_nil) <;> raises)
theorem el_set : Raises PlainP anyV EL.propertySet := vendor_mixin (by decide) (by
  refine all_cons ?_ (all_cons ?_ (all_cons ?_ (all_cons ?_ all_nil))) <;> raises)
theorem elt_set : Raises PlainP anyV ELT.propertySet := vendor_mixin (by decide) (by
  repeat' (first | exact all_nil | refine all_cons ?_ ?_)
  all_goals raises)

theorem lec_rows : ∀ q ∈ lightExtendedControllerCases, RowOK (wireOpcode q.1.toNat) q.2 := by
  unfold lightExtendedControllerCases
  refine all_cons (row_sub ?_) all_nil
  unfold lightExtendedControllerParamsCases
  repeat' (first | exact all_nil | refine all_cons (row_plain lec_set) ?_ | refine all_cons (row_plain ?_) ?_)
  all_goals raises
theorem el_rows : ∀ q ∈ emergencyLightingCases, RowOK (wireOpcode q.1.toNat) q.2 := by
  unfold emergencyLightingCases
  refine all_cons (row_sub ?_) all_nil
  unfold emergencyLightingParamsCases
  repeat' (first | exact all_nil | refine all_cons (row_plain el_set) ?_ | refine all_cons (row_plain ?_) ?_)
  all_goals raises
theorem elt_rows : ∀ q ∈ emergencyLightingTestCases, RowOK (wireOpcode q.1.toNat) q.2 := by
  unfold emergencyLightingTestCases
  refine all_cons (row_sub ?_) all_nil
  unfold emergencyLightingTestParamsCases
  repeat' (first | exact all_nil | refine all_cons (row_plain elt_set) ?_ | refine all_cons (row_plain ?_) ?_)
  all_goals raises
theorem nds_rows : ∀ q ∈ networkDiagnosticServerCases, RowOK (wireOpcode q.1.toNat) q.2 := by
  unfold networkDiagnosticServerCases
  refine all_cons (row_sub ?_) all_nil
  unfold networkDiagnosticServerParamsCases
  rows
theorem ndsSetup_rows : ∀ q ∈ networkDiagnosticSetupServerCases, RowOK (wireOpcode q.1.toNat) q.2 := by
  unfold networkDiagnosticSetupServerCases
  refine all_cons (row_sub ?_) all_nil
  unfold networkDiagnosticSetupServerParamsCases
  rows

/-! ### The messages that raise other exceptions -/

omit [Platform] in
/-- A row of the table of other exceptions, given by its position. -/
theorem row_at (i : Nat) {H c} (r : List Err) (hr : Spec.otherErrors[i]? = some (H, r)) (h : Raises (RowP r) anyV c) : RowOK H c :=
  row_listed r (List.mem_of_getElem? hr) h

instance : BaseProp (RowP [.value, .overflow, .string]) := ⟨.inr (by decide), .inr (by decide)⟩
instance : BaseProp (RowP [.overflow, .string]) := ⟨.inr (by decide), .inr (by decide)⟩

theorem p_set : Raises (RowP [.value, .overflow, .string]) anyV GenericProperty.userPropertySet := rs_userProperty (.inr (by decide))
theorem p_status : Raises (RowP [.value, .overflow, .string]) anyV GenericProperty.propertyStatus := rs_propertyStatus (.inr (by decide))

theorem property_rows : ∀ q ∈ genericPropertyCases, RowOK (wireOpcode q.1.toNat) q.2 := by
  unfold genericPropertyCases
  refine all_cons (row_plain (by raises)) (all_cons (row_plain (by raises)) (all_cons (row_plain (by raises)) ?_))
  refine all_cons (row_at 4 _ rfl p_set) (all_cons (row_at 5 _ rfl p_set) (all_cons (row_at 6 _ rfl p_status) ?_))
  refine all_cons (row_plain (by raises)) (all_cons (row_plain (by raises)) (all_cons (row_plain (by raises)) ?_))
  refine all_cons (row_at 1 _ rfl p_status) (all_cons (row_at 2 _ rfl p_status) (all_cons (row_at 3 _ rfl p_status) ?_))
  refine all_cons (row_plain (by raises)) (all_cons (row_plain (by raises)) (all_cons (row_plain (by raises)) ?_))
  refine all_cons (row_plain (by raises)) (all_cons (row_plain (by raises)) (all_cons (row_at 0 _ rfl p_status) ?_))
  refine all_cons (row_plain (by raises)) (all_cons (row_plain (by raises)) all_nil)

theorem sensorSetup_rows : ∀ q ∈ sensorSetupCases, RowOK (wireOpcode q.1.toNat) q.2 := by
  unfold sensorSetupCases
  refine all_cons (row_plain (by raises)) (all_cons (row_plain (by raises)) (all_cons (row_plain (by raises)) (all_cons (row_plain (by raises)) ?_)))
  exact all_cons (row_at 7 _ rfl rs_settingSet) (all_cons (row_at 8 _ rfl rs_settingSet) (all_cons (row_at 9 _ rfl rs_settingStatus) all_nil))

theorem t_set : Raises (RowP [.key, .value, .overflow]) anyV Time.timeSet := rs_timeSet (.inr (by decide)) (.inr (by decide)) (.inr (by decide))

theorem time_rows : ∀ q ∈ timeCases, RowOK (wireOpcode q.1.toNat) q.2 := by
  unfold timeCases
  refine all_cons (row_plain (by raises)) (all_cons (row_at 10 _ rfl t_set) (all_cons (row_at 11 _ rfl t_set) ?_))
  rows

omit [Platform] in
theorem greedyText {P : Err → Prop} (hs : P .string) : Raises P anyV greedyString := by
  intro L ctx s _
  refine ⟨fun e h => ?_, fun _ _ _ => trivial⟩
  simp only [greedyString, bytesStr, utf8Decode] at h
  split at h <;> cases h
  exact hs

theorem fault_status : Raises (RowP [.string]) anyV Debug.lastSwFaultStatus := by
  refine rs_struct (raisesIs_cons (J := anyD) (by raises) (raisesIs_cons (J := anyD) (rs_field (greedyText (.inr (by decide)))) raisesIs_nil))
theorem firmware_status : Raises (RowP [.string]) anyV Debug.fullFirmwareVersionStatus :=
  rs_struct (raisesIs_cons (J := anyD) (rs_field (greedyText (.inr (by decide)))) raisesIs_nil)

set_option maxRecDepth 100000 in
theorem debug_rows : ∀ q ∈ debugCases, RowOK (wireOpcode q.1.toNat) q.2 := by
  unfold debugCases
  refine all_cons (row_sub ?_) all_nil
  unfold debugParamsCases
  repeat' (first
    | exact all_nil
    | refine all_cons (row_at 12 _ rfl fault_status) ?_ | refine all_cons (row_at 13 _ rfl fault_status) ?_
    | refine all_cons (row_at 14 _ rfl fault_status) ?_ | refine all_cons (row_at 15 _ rfl firmware_status) ?_
    | refine all_cons (row_plain ?_) ?_)
  all_goals raises

theorem gateway_rows : ∀ q ∈ gatewayConfigCases, RowOK (wireOpcode q.1.toNat) q.2 := by
  unfold gatewayConfigCases
  refine all_cons (row_sub ?_) all_nil
  unfold gatewayConfigParamsCases
  repeat' (first
    | exact all_nil
    | refine all_cons (row_at 16 _ rfl (rs_setServer (.inr (by decide)))) ?_
    | refine all_cons (row_at 17 _ rfl (rs_configurationStatus (.inr (by decide)))) ?_
    | refine all_cons (row_plain ?_) ?_)
  all_goals raises

/-- Every message of the registry raises only what the specification allows. -/
theorem registry_rows : ∀ e ∈ registry, ∀ q ∈ e.2, RowOK (wireOpcode q.1.toNat) q.2 := by
  unfold registry
  refine all_cons config_rows <| all_cons debug_rows <| all_cons gateway_rows <| all_cons onoff_rows <| all_cons battery_rows <|
    all_cons level_rows <| all_cons lightness_rows <| all_cons lightnessSetup_rows <| all_cons ctl_rows <| all_cons ctlSetup_rows <|
    all_cons health_rows <| all_cons nds_rows <| all_cons ndsSetup_rows <| all_cons scene_rows <| all_cons sensor_rows <|
    all_cons sensorSetup_rows <| all_cons lec_rows <| all_cons time_rows <| all_cons debugV2_rows <| all_cons rrule_rows <|
    all_cons property_rows <| all_cons el_rows <| all_cons elt_rows <| all_nil

/-! ### The property -/

theorem raise_registered {n : Nat} (hn : Registered n) (L : Lib) (t : List UInt8) {e : Err}
    (h : accessParse registry L (wireOpcode n ++ t) = .error e) : Spec.MayRaise (wireOpcode n ++ t) e := by
  obtain ⟨E, hE, ⟨N, k⟩, hp, hk⟩ := hn
  obtain ⟨en, he, rfl⟩ := List.mem_map.1 (registry_enums ▸ hE)
  have hk : k = (n : Int) := hk
  subst hk
  have hd := C31_terminates L (wireOpcode n ++ t)
  rw [C04_parse he hp] at h hd
  cases hf : findCase (n : Int) en.2 with
  | none => rw [hf] at h; cases h
  | some c =>
    rw [hf] at h hd
    simp only [Option.getD_some] at h hd
    cases hq : c.parse L [("opcode", .enum en.1.cls n)] t with
    | ok r => rw [hq] at h; cases h
    | error e' =>
      rw [hq] at h hd
      cases h
      rcases registry_rows en he _ (findCase_raises hf) _ _ _ _ hq with rfl | h
      · exact absurd rfl hd
      · exact h

/-- **C48 (exceptions).** If decoding a message raises an exception, then it is one of the decoding library, or one that the
specification lists for messages that begin like this one. -/
theorem C48_parse (L : Lib) (s : List UInt8) {e : Err} (h : accessParse registry L s = .error e) : Spec.MayRaise s e := by
  cases hn : opcodeNum s with
  | error x =>
    have : accessParse registry L s = .error x := by simp only [accessParse, accessParseAt, List.drop_zero, hn]; rfl
    rw [this] at h
    cases h
    rcases opcodeNum_err hn with h | h <;> rw [h] <;> exact .inl (by decide)
  | ok r =>
    obtain ⟨n, t⟩ := r
    obtain ⟨hw, rfl⟩ := opcodeNum_ok hn
    by_cases hr : Registered n
    · exact raise_registered hr L t h
    · rw [(C03_passthrough hw hr L t).1] at h; cases h


/-- A message raises an exception. -/
def RaisesAt (s : List UInt8) (e : Err) : Prop := ∀ L, accessParse registry L s = .error e

theorem raisesAt {E : Entry} (he : E ∈ registry) {N : String} {n : Nat} (hN : (N, (n : Int)) ∈ E.1.members) {t : List UInt8} {e : Err}
    (h : ∀ L, ((findCase n E.2).getD passC).parse L [("opcode", .enum E.1.cls n)] t = .error e) : RaisesAt (wireOpcode n ++ t) e := by
  intro L
  rw [C04_parse he hN, h]
  rfl

set_option maxRecDepth 100000 in
set_option maxHeartbeats 4000000 in
theorem occurs0 : ∀ e ∈ ([.value, .overflow, .string] : List Err), ∃ s, [0x46] <+: s ∧ RaisesAt s e :=
  all_cons ⟨_, ⟨[0xFF, 0xFE, 0x03], rfl⟩,
    (raisesAt (E := (E.GenericPropertyOpcode, genericPropertyCases)) (N := "GENERIC_MANUFACTURER_PROPERTY_STATUS") (n := 0x46) (t := [0xFF, 0xFE, 0x03]) (e := .value) (by inreg) (by dsimp only; decide +kernel) (fun L => by with_unfolding_all rfl))⟩
  (all_cons ⟨_, ⟨[0x0C, 0x00, 0x03, 0xFF, 0xFF, 0xFF], rfl⟩,
    (raisesAt (E := (E.GenericPropertyOpcode, genericPropertyCases)) (N := "GENERIC_MANUFACTURER_PROPERTY_STATUS") (n := 0x46) (t := [0x0C, 0x00, 0x03, 0xFF, 0xFF, 0xFF]) (e := .overflow) (by inreg) (by dsimp only; decide +kernel) (fun L => by with_unfolding_all rfl))⟩
  (all_cons ⟨_, ⟨[0x0E, 0x00, 0x03, 0xFF, 0xFF, 0xFF, 0xFF, 0xFF, 0xFF, 0xFF, 0xFF], rfl⟩,
    (raisesAt (E := (E.GenericPropertyOpcode, genericPropertyCases)) (N := "GENERIC_MANUFACTURER_PROPERTY_STATUS") (n := 0x46) (t := [0x0E, 0x00, 0x03, 0xFF, 0xFF, 0xFF, 0xFF, 0xFF, 0xFF, 0xFF, 0xFF]) (e := .string) (by inreg) (by dsimp only; decide +kernel) (fun L => by with_unfolding_all rfl))⟩ all_nil))

set_option maxRecDepth 100000 in
set_option maxHeartbeats 4000000 in
theorem occurs1 : ∀ e ∈ ([.value, .overflow, .string] : List Err), ∃ s, [0x48] <+: s ∧ RaisesAt s e :=
  all_cons ⟨_, ⟨[0xFF, 0xFE, 0x03], rfl⟩,
    (raisesAt (E := (E.GenericPropertyOpcode, genericPropertyCases)) (N := "GENERIC_ADMIN_PROPERTY_SET") (n := 0x48) (t := [0xFF, 0xFE, 0x03]) (e := .value) (by inreg) (by dsimp only; decide +kernel) (fun L => by with_unfolding_all rfl))⟩
  (all_cons ⟨_, ⟨[0x0C, 0x00, 0x03, 0xFF, 0xFF, 0xFF], rfl⟩,
    (raisesAt (E := (E.GenericPropertyOpcode, genericPropertyCases)) (N := "GENERIC_ADMIN_PROPERTY_SET") (n := 0x48) (t := [0x0C, 0x00, 0x03, 0xFF, 0xFF, 0xFF]) (e := .overflow) (by inreg) (by dsimp only; decide +kernel) (fun L => by with_unfolding_all rfl))⟩
  (all_cons ⟨_, ⟨[0x0E, 0x00, 0x03, 0xFF, 0xFF, 0xFF, 0xFF, 0xFF, 0xFF, 0xFF, 0xFF], rfl⟩,
    (raisesAt (E := (E.GenericPropertyOpcode, genericPropertyCases)) (N := "GENERIC_ADMIN_PROPERTY_SET") (n := 0x48) (t := [0x0E, 0x00, 0x03, 0xFF, 0xFF, 0xFF, 0xFF, 0xFF, 0xFF, 0xFF, 0xFF]) (e := .string) (by inreg) (by dsimp only; decide +kernel) (fun L => by with_unfolding_all rfl))⟩ all_nil))

set_option maxRecDepth 100000 in
set_option maxHeartbeats 4000000 in
theorem occurs2 : ∀ e ∈ ([.value, .overflow, .string] : List Err), ∃ s, [0x49] <+: s ∧ RaisesAt s e :=
  all_cons ⟨_, ⟨[0xFF, 0xFE, 0x03], rfl⟩,
    (raisesAt (E := (E.GenericPropertyOpcode, genericPropertyCases)) (N := "GENERIC_ADMIN_PROPERTY_SET_UNACKNOWLEDGED") (n := 0x49) (t := [0xFF, 0xFE, 0x03]) (e := .value) (by inreg) (by dsimp only; decide +kernel) (fun L => by with_unfolding_all rfl))⟩
  (all_cons ⟨_, ⟨[0x0C, 0x00, 0x03, 0xFF, 0xFF, 0xFF], rfl⟩,
    (raisesAt (E := (E.GenericPropertyOpcode, genericPropertyCases)) (N := "GENERIC_ADMIN_PROPERTY_SET_UNACKNOWLEDGED") (n := 0x49) (t := [0x0C, 0x00, 0x03, 0xFF, 0xFF, 0xFF]) (e := .overflow) (by inreg) (by dsimp only; decide +kernel) (fun L => by with_unfolding_all rfl))⟩
  (all_cons ⟨_, ⟨[0x0E, 0x00, 0x03, 0xFF, 0xFF, 0xFF, 0xFF, 0xFF, 0xFF, 0xFF, 0xFF], rfl⟩,
    (raisesAt (E := (E.GenericPropertyOpcode, genericPropertyCases)) (N := "GENERIC_ADMIN_PROPERTY_SET_UNACKNOWLEDGED") (n := 0x49) (t := [0x0E, 0x00, 0x03, 0xFF, 0xFF, 0xFF, 0xFF, 0xFF, 0xFF, 0xFF, 0xFF]) (e := .string) (by inreg) (by dsimp only; decide +kernel) (fun L => by with_unfolding_all rfl))⟩ all_nil))

set_option maxRecDepth 100000 in
set_option maxHeartbeats 4000000 in
theorem occurs3 : ∀ e ∈ ([.value, .overflow, .string] : List Err), ∃ s, [0x4A] <+: s ∧ RaisesAt s e :=
  all_cons ⟨_, ⟨[0xFF, 0xFE, 0x03], rfl⟩,
    (raisesAt (E := (E.GenericPropertyOpcode, genericPropertyCases)) (N := "GENERIC_ADMIN_PROPERTY_STATUS") (n := 0x4A) (t := [0xFF, 0xFE, 0x03]) (e := .value) (by inreg) (by dsimp only; decide +kernel) (fun L => by with_unfolding_all rfl))⟩
  (all_cons ⟨_, ⟨[0x0C, 0x00, 0x03, 0xFF, 0xFF, 0xFF], rfl⟩,
    (raisesAt (E := (E.GenericPropertyOpcode, genericPropertyCases)) (N := "GENERIC_ADMIN_PROPERTY_STATUS") (n := 0x4A) (t := [0x0C, 0x00, 0x03, 0xFF, 0xFF, 0xFF]) (e := .overflow) (by inreg) (by dsimp only; decide +kernel) (fun L => by with_unfolding_all rfl))⟩
  (all_cons ⟨_, ⟨[0x0E, 0x00, 0x03, 0xFF, 0xFF, 0xFF, 0xFF, 0xFF, 0xFF, 0xFF, 0xFF], rfl⟩,
    (raisesAt (E := (E.GenericPropertyOpcode, genericPropertyCases)) (N := "GENERIC_ADMIN_PROPERTY_STATUS") (n := 0x4A) (t := [0x0E, 0x00, 0x03, 0xFF, 0xFF, 0xFF, 0xFF, 0xFF, 0xFF, 0xFF, 0xFF]) (e := .string) (by inreg) (by dsimp only; decide +kernel) (fun L => by with_unfolding_all rfl))⟩ all_nil))

set_option maxRecDepth 100000 in
set_option maxHeartbeats 4000000 in
theorem occurs4 : ∀ e ∈ ([.value, .overflow, .string] : List Err), ∃ s, [0x4C] <+: s ∧ RaisesAt s e :=
  all_cons ⟨_, ⟨[0xFF, 0xFE], rfl⟩,
    (raisesAt (E := (E.GenericPropertyOpcode, genericPropertyCases)) (N := "GENERIC_USER_PROPERTY_SET") (n := 0x4C) (t := [0xFF, 0xFE]) (e := .value) (by inreg) (by dsimp only; decide +kernel) (fun L => by with_unfolding_all rfl))⟩
  (all_cons ⟨_, ⟨[0x0C, 0x00, 0xFF, 0xFF, 0xFF], rfl⟩,
    (raisesAt (E := (E.GenericPropertyOpcode, genericPropertyCases)) (N := "GENERIC_USER_PROPERTY_SET") (n := 0x4C) (t := [0x0C, 0x00, 0xFF, 0xFF, 0xFF]) (e := .overflow) (by inreg) (by dsimp only; decide +kernel) (fun L => by with_unfolding_all rfl))⟩
  (all_cons ⟨_, ⟨[0x0E, 0x00, 0xFF, 0xFF, 0xFF, 0xFF, 0xFF, 0xFF, 0xFF, 0xFF], rfl⟩,
    (raisesAt (E := (E.GenericPropertyOpcode, genericPropertyCases)) (N := "GENERIC_USER_PROPERTY_SET") (n := 0x4C) (t := [0x0E, 0x00, 0xFF, 0xFF, 0xFF, 0xFF, 0xFF, 0xFF, 0xFF, 0xFF]) (e := .string) (by inreg) (by dsimp only; decide +kernel) (fun L => by with_unfolding_all rfl))⟩ all_nil))

set_option maxRecDepth 100000 in
set_option maxHeartbeats 4000000 in
theorem occurs5 : ∀ e ∈ ([.value, .overflow, .string] : List Err), ∃ s, [0x4D] <+: s ∧ RaisesAt s e :=
  all_cons ⟨_, ⟨[0xFF, 0xFE], rfl⟩,
    (raisesAt (E := (E.GenericPropertyOpcode, genericPropertyCases)) (N := "GENERIC_USER_PROPERTY_SET_UNACKNOWLEDGED") (n := 0x4D) (t := [0xFF, 0xFE]) (e := .value) (by inreg) (by dsimp only; decide +kernel) (fun L => by with_unfolding_all rfl))⟩
  (all_cons ⟨_, ⟨[0x0C, 0x00, 0xFF, 0xFF, 0xFF], rfl⟩,
    (raisesAt (E := (E.GenericPropertyOpcode, genericPropertyCases)) (N := "GENERIC_USER_PROPERTY_SET_UNACKNOWLEDGED") (n := 0x4D) (t := [0x0C, 0x00, 0xFF, 0xFF, 0xFF]) (e := .overflow) (by inreg) (by dsimp only; decide +kernel) (fun L => by with_unfolding_all rfl))⟩
  (all_cons ⟨_, ⟨[0x0E, 0x00, 0xFF, 0xFF, 0xFF, 0xFF, 0xFF, 0xFF, 0xFF, 0xFF], rfl⟩,
    (raisesAt (E := (E.GenericPropertyOpcode, genericPropertyCases)) (N := "GENERIC_USER_PROPERTY_SET_UNACKNOWLEDGED") (n := 0x4D) (t := [0x0E, 0x00, 0xFF, 0xFF, 0xFF, 0xFF, 0xFF, 0xFF, 0xFF, 0xFF]) (e := .string) (by inreg) (by dsimp only; decide +kernel) (fun L => by with_unfolding_all rfl))⟩ all_nil))

set_option maxRecDepth 100000 in
set_option maxHeartbeats 4000000 in
theorem occurs6 : ∀ e ∈ ([.value, .overflow, .string] : List Err), ∃ s, [0x4E] <+: s ∧ RaisesAt s e :=
  all_cons ⟨_, ⟨[0xFF, 0xFE, 0x03], rfl⟩,
    (raisesAt (E := (E.GenericPropertyOpcode, genericPropertyCases)) (N := "GENERIC_USER_PROPERTY_STATUS") (n := 0x4E) (t := [0xFF, 0xFE, 0x03]) (e := .value) (by inreg) (by dsimp only; decide +kernel) (fun L => by with_unfolding_all rfl))⟩
  (all_cons ⟨_, ⟨[0x0C, 0x00, 0x03, 0xFF, 0xFF, 0xFF], rfl⟩,
    (raisesAt (E := (E.GenericPropertyOpcode, genericPropertyCases)) (N := "GENERIC_USER_PROPERTY_STATUS") (n := 0x4E) (t := [0x0C, 0x00, 0x03, 0xFF, 0xFF, 0xFF]) (e := .overflow) (by inreg) (by dsimp only; decide +kernel) (fun L => by with_unfolding_all rfl))⟩
  (all_cons ⟨_, ⟨[0x0E, 0x00, 0x03, 0xFF, 0xFF, 0xFF, 0xFF, 0xFF, 0xFF, 0xFF, 0xFF], rfl⟩,
    (raisesAt (E := (E.GenericPropertyOpcode, genericPropertyCases)) (N := "GENERIC_USER_PROPERTY_STATUS") (n := 0x4E) (t := [0x0E, 0x00, 0x03, 0xFF, 0xFF, 0xFF, 0xFF, 0xFF, 0xFF, 0xFF, 0xFF]) (e := .string) (by inreg) (by dsimp only; decide +kernel) (fun L => by with_unfolding_all rfl))⟩ all_nil))

set_option maxRecDepth 100000 in
set_option maxHeartbeats 4000000 in
theorem occurs7 : ∀ e ∈ ([.overflow, .string] : List Err), ∃ s, [0x59] <+: s ∧ RaisesAt s e :=
  all_cons ⟨_, ⟨[0x4F, 0x00, 0x0C, 0x00, 0xFF, 0xFF, 0xFF], rfl⟩,
    (raisesAt (E := (E.SensorSetupOpcode, sensorSetupCases)) (N := "SENSOR_SETTING_SET") (n := 0x59) (t := [0x4F, 0x00, 0x0C, 0x00, 0xFF, 0xFF, 0xFF]) (e := .overflow) (by inreg) (by dsimp only; decide +kernel) (fun L => by with_unfolding_all rfl))⟩
  (all_cons ⟨_, ⟨[0x4F, 0x00, 0x0E, 0x00, 0xFF, 0xFF, 0xFF, 0xFF, 0xFF, 0xFF, 0xFF, 0xFF], rfl⟩,
    (raisesAt (E := (E.SensorSetupOpcode, sensorSetupCases)) (N := "SENSOR_SETTING_SET") (n := 0x59) (t := [0x4F, 0x00, 0x0E, 0x00, 0xFF, 0xFF, 0xFF, 0xFF, 0xFF, 0xFF, 0xFF, 0xFF]) (e := .string) (by inreg) (by dsimp only; decide +kernel) (fun L => by with_unfolding_all rfl))⟩ all_nil)

set_option maxRecDepth 100000 in
set_option maxHeartbeats 4000000 in
theorem occurs8 : ∀ e ∈ ([.overflow, .string] : List Err), ∃ s, [0x5A] <+: s ∧ RaisesAt s e :=
  all_cons ⟨_, ⟨[0x4F, 0x00, 0x0C, 0x00, 0xFF, 0xFF, 0xFF], rfl⟩,
    (raisesAt (E := (E.SensorSetupOpcode, sensorSetupCases)) (N := "SENSOR_SETTING_SET_UNACKNOWLEDGED") (n := 0x5A) (t := [0x4F, 0x00, 0x0C, 0x00, 0xFF, 0xFF, 0xFF]) (e := .overflow) (by inreg) (by dsimp only; decide +kernel) (fun L => by with_unfolding_all rfl))⟩
  (all_cons ⟨_, ⟨[0x4F, 0x00, 0x0E, 0x00, 0xFF, 0xFF, 0xFF, 0xFF, 0xFF, 0xFF, 0xFF, 0xFF], rfl⟩,
    (raisesAt (E := (E.SensorSetupOpcode, sensorSetupCases)) (N := "SENSOR_SETTING_SET_UNACKNOWLEDGED") (n := 0x5A) (t := [0x4F, 0x00, 0x0E, 0x00, 0xFF, 0xFF, 0xFF, 0xFF, 0xFF, 0xFF, 0xFF, 0xFF]) (e := .string) (by inreg) (by dsimp only; decide +kernel) (fun L => by with_unfolding_all rfl))⟩ all_nil)

set_option maxRecDepth 100000 in
set_option maxHeartbeats 4000000 in
theorem occurs9 : ∀ e ∈ ([.overflow, .string] : List Err), ∃ s, [0x5B] <+: s ∧ RaisesAt s e :=
  all_cons ⟨_, ⟨[0x4F, 0x00, 0x0C, 0x00, 0x01, 0xFF, 0xFF, 0xFF], rfl⟩,
    (raisesAt (E := (E.SensorSetupOpcode, sensorSetupCases)) (N := "SENSOR_SETTING_STATUS") (n := 0x5B) (t := [0x4F, 0x00, 0x0C, 0x00, 0x01, 0xFF, 0xFF, 0xFF]) (e := .overflow) (by inreg) (by dsimp only; decide +kernel) (fun L => by with_unfolding_all rfl))⟩
  (all_cons ⟨_, ⟨[0x4F, 0x00, 0x0E, 0x00, 0x01, 0xFF, 0xFF, 0xFF, 0xFF, 0xFF, 0xFF, 0xFF, 0xFF], rfl⟩,
    (raisesAt (E := (E.SensorSetupOpcode, sensorSetupCases)) (N := "SENSOR_SETTING_STATUS") (n := 0x5B) (t := [0x4F, 0x00, 0x0E, 0x00, 0x01, 0xFF, 0xFF, 0xFF, 0xFF, 0xFF, 0xFF, 0xFF, 0xFF]) (e := .string) (by inreg) (by dsimp only; decide +kernel) (fun L => by with_unfolding_all rfl))⟩ all_nil)

set_option maxRecDepth 100000 in
set_option maxHeartbeats 4000000 in
theorem occurs10 : ∀ e ∈ ([.key, .value, .overflow] : List Err), ∃ s, [0x5C] <+: s ∧ RaisesAt s e :=
  all_cons ⟨_, ⟨[0x01, 0x00, 0x00, 0x00, 0x00], rfl⟩,
    (raisesAt (E := (E.TimeOpcode, timeCases)) (N := "TIME_SET") (n := 0x5C) (t := [0x01, 0x00, 0x00, 0x00, 0x00]) (e := .key) (by inreg) (by dsimp only; decide +kernel) (fun L => by with_unfolding_all rfl))⟩
  (all_cons ⟨_, ⟨[0x01, 0x00, 0x00, 0x00, 0x00, 0x00, 0x00, 0x00, 0x00, 0xFF], rfl⟩,
    (raisesAt (E := (E.TimeOpcode, timeCases)) (N := "TIME_SET") (n := 0x5C) (t := [0x01, 0x00, 0x00, 0x00, 0x00, 0x00, 0x00, 0x00, 0x00, 0xFF]) (e := .value) (by inreg) (by dsimp only; decide +kernel) (fun L => by with_unfolding_all rfl))⟩
  (all_cons ⟨_, ⟨[0xE8, 0xE8, 0x86, 0xC7, 0x3A, 0x00, 0x00, 0x00, 0x00, 0x44], rfl⟩,
    (raisesAt (E := (E.TimeOpcode, timeCases)) (N := "TIME_SET") (n := 0x5C) (t := [0xE8, 0xE8, 0x86, 0xC7, 0x3A, 0x00, 0x00, 0x00, 0x00, 0x44]) (e := .overflow) (by inreg) (by dsimp only; decide +kernel) (fun L => by with_unfolding_all rfl))⟩ all_nil))

set_option maxRecDepth 100000 in
set_option maxHeartbeats 4000000 in
theorem occurs11 : ∀ e ∈ ([.key, .value, .overflow] : List Err), ∃ s, [0x5D] <+: s ∧ RaisesAt s e :=
  all_cons ⟨_, ⟨[0x01, 0x00, 0x00, 0x00, 0x00], rfl⟩,
    (raisesAt (E := (E.TimeOpcode, timeCases)) (N := "TIME_STATUS") (n := 0x5D) (t := [0x01, 0x00, 0x00, 0x00, 0x00]) (e := .key) (by inreg) (by dsimp only; decide +kernel) (fun L => by with_unfolding_all rfl))⟩
  (all_cons ⟨_, ⟨[0x01, 0x00, 0x00, 0x00, 0x00, 0x00, 0x00, 0x00, 0x00, 0xFF], rfl⟩,
    (raisesAt (E := (E.TimeOpcode, timeCases)) (N := "TIME_STATUS") (n := 0x5D) (t := [0x01, 0x00, 0x00, 0x00, 0x00, 0x00, 0x00, 0x00, 0x00, 0xFF]) (e := .value) (by inreg) (by dsimp only; decide +kernel) (fun L => by with_unfolding_all rfl))⟩
  (all_cons ⟨_, ⟨[0xE8, 0xE8, 0x86, 0xC7, 0x3A, 0x00, 0x00, 0x00, 0x00, 0x44], rfl⟩,
    (raisesAt (E := (E.TimeOpcode, timeCases)) (N := "TIME_STATUS") (n := 0x5D) (t := [0xE8, 0xE8, 0x86, 0xC7, 0x3A, 0x00, 0x00, 0x00, 0x00, 0x44]) (e := .overflow) (by inreg) (by dsimp only; decide +kernel) (fun L => by with_unfolding_all rfl))⟩ all_nil))

set_option maxRecDepth 100000 in
set_option maxHeartbeats 4000000 in
theorem occurs12 : ∀ e ∈ ([.string] : List Err), ∃ s, [0xF5, 0x36, 0x01, 0x0E] <+: s ∧ RaisesAt s e :=
  all_cons ⟨_, ⟨[0x00, 0x00, 0x00, 0x00, 0xFF], rfl⟩,
    (raisesAt (E := (E.DebugOpcode, debugCases)) (N := "SILVAIR_DEBUG") (n := 0xF53601) (t := [0x0E, 0x00, 0x00, 0x00, 0x00, 0xFF]) (e := .string) (by inreg) (by dsimp only; decide +kernel) (fun L => by with_unfolding_all rfl))⟩ all_nil

set_option maxRecDepth 100000 in
set_option maxHeartbeats 4000000 in
theorem occurs13 : ∀ e ∈ ([.string] : List Err), ∃ s, [0xF5, 0x36, 0x01, 0x13] <+: s ∧ RaisesAt s e :=
  all_cons ⟨_, ⟨[0x00, 0x00, 0x00, 0x00, 0xFF], rfl⟩,
    (raisesAt (E := (E.DebugOpcode, debugCases)) (N := "SILVAIR_DEBUG") (n := 0xF53601) (t := [0x13, 0x00, 0x00, 0x00, 0x00, 0xFF]) (e := .string) (by inreg) (by dsimp only; decide +kernel) (fun L => by with_unfolding_all rfl))⟩ all_nil

set_option maxRecDepth 100000 in
set_option maxHeartbeats 4000000 in
theorem occurs14 : ∀ e ∈ ([.string] : List Err), ∃ s, [0xF5, 0x36, 0x01, 0x16] <+: s ∧ RaisesAt s e :=
  all_cons ⟨_, ⟨[0x00, 0x00, 0x00, 0x00, 0xFF], rfl⟩,
    (raisesAt (E := (E.DebugOpcode, debugCases)) (N := "SILVAIR_DEBUG") (n := 0xF53601) (t := [0x16, 0x00, 0x00, 0x00, 0x00, 0xFF]) (e := .string) (by inreg) (by dsimp only; decide +kernel) (fun L => by with_unfolding_all rfl))⟩ all_nil

set_option maxRecDepth 100000 in
set_option maxHeartbeats 4000000 in
theorem occurs15 : ∀ e ∈ ([.string] : List Err), ∃ s, [0xF5, 0x36, 0x01, 0x1C] <+: s ∧ RaisesAt s e :=
  all_cons ⟨_, ⟨[0xFF], rfl⟩,
    (raisesAt (E := (E.DebugOpcode, debugCases)) (N := "SILVAIR_DEBUG") (n := 0xF53601) (t := [0x1C, 0xFF]) (e := .string) (by inreg) (by dsimp only; decide +kernel) (fun L => by with_unfolding_all rfl))⟩ all_nil

set_option maxRecDepth 100000 in
set_option maxHeartbeats 4000000 in
theorem occurs16 : ∀ e ∈ ([.string] : List Err), ∃ s, [0xF0, 0x36, 0x01, 0x06] <+: s ∧ RaisesAt s e :=
  all_cons ⟨_, ⟨[0x00, 0x00, 0x01, 0xFF], rfl⟩,
    (raisesAt (E := (E.GatewayConfigServerOpcode, gatewayConfigCases)) (N := "SILVAIR_GATEWAY") (n := 0xF03601) (t := [0x06, 0x00, 0x00, 0x01, 0xFF]) (e := .string) (by inreg) (by dsimp only; decide +kernel) (fun L => by with_unfolding_all rfl))⟩ all_nil

set_option maxRecDepth 100000 in
set_option maxHeartbeats 4000000 in
theorem occurs17 : ∀ e ∈ ([.string] : List Err), ∃ s, [0xF0, 0x36, 0x01, 0x0C] <+: s ∧ RaisesAt s e :=
  all_cons ⟨_, ⟨[0x00, 0x00, 0x00, 0x00, 0x00, 0x00, 0x00, 0x00, 0x00, 0x00, 0x00, 0x00, 0x00, 0x01, 0xFF], rfl⟩,
    (raisesAt (E := (E.GatewayConfigServerOpcode, gatewayConfigCases)) (N := "SILVAIR_GATEWAY") (n := 0xF03601) (t := [0x0C, 0x00, 0x00, 0x00, 0x00, 0x00, 0x00, 0x00, 0x00, 0x00, 0x00, 0x00, 0x00, 0x00, 0x01, 0xFF]) (e := .string) (by inreg) (by dsimp only; decide +kernel) (fun L => by with_unfolding_all rfl))⟩ all_nil

/-- **C48 (occurrence).** Every exception of the specification does occur: for every row and every exception of the row there is a message
that begins like the row and raises it. -/
theorem C48_occurs : ∀ r ∈ Spec.otherErrors, ∀ e ∈ r.2, ∃ s, r.1 <+: s ∧ ∀ L, accessParse registry L s = .error e :=
  all_cons occurs0 <| all_cons occurs1 <| all_cons occurs2 <| all_cons occurs3 <| all_cons occurs4 <| all_cons occurs5 <| all_cons occurs6 <| all_cons occurs7 <| all_cons occurs8 <| all_cons occurs9 <| all_cons occurs10 <| all_cons occurs11 <| all_cons occurs12 <| all_cons occurs13 <| all_cons occurs14 <| all_cons occurs15 <| all_cons occurs16 <| all_cons occurs17 <| all_nil

/-- The exceptions of the decoding library occur as well: an empty message, a forbidden opcode, a scene recall cut short. -/
theorem C48_plain_occurs : ∀ e ∈ Spec.plainErrors, ∃ s, ∀ L, accessParse registry L s = .error e :=
  all_cons ⟨[], fun _ => rfl⟩ <| all_cons ⟨[0x7F], fun _ => rfl⟩ <| all_cons ⟨_, raisesAt (E := (E.SceneOpcode, sceneCases)) (N := "SCENE_RECALL")
    (n := 0x8242) (t := [0x01]) (e := .select) (by inreg) (by dsimp only; decide +kernel) (fun L => by with_unfolding_all rfl)⟩ all_nil

/-- A consequence: outside the messages listed, a handler for the library's exceptions catches everything. -/
theorem C48_guard (L : Lib) (s : List UInt8) (hs : ∀ r ∈ Spec.otherErrors, ¬ r.1 <+: s) :
    (∃ v, accessParse registry L s = .ok v) ∨ accessParse registry L s = .error .stream ∨ accessParse registry L s = .error .validation ∨
      accessParse registry L s = .error .select := by
  cases h : accessParse registry L s with
  | ok v => exact .inl ⟨v, rfl⟩
  | error e =>
    rcases C48_parse L s h with he | ⟨r, hr, hp, -⟩
    · simp only [Spec.plainErrors, List.mem_cons, List.not_mem_nil, or_false] at he
      rcases he with rfl | rfl | rfl <;> simp
    · exact absurd hp (hs r hr)

/-- The hypothesis of `C48_guard` holds for on/off messages, for example. -/
example : ∀ r ∈ Spec.otherErrors, ¬ r.1 <+: [0x82, 0x04, 0x01] := by decide

end BM.Props
