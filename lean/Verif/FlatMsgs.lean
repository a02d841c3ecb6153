import Verif.FlatAll
import Verif.SpecAll
import Verif.ServedAll
/-!
# All messages whose values survive the conversion of names, message by message
-/
namespace BM
open F Case Props

/-- The opcodes of the messages that have a field whose name does not survive the conversion: `GATT_proxy`, `app key indices`. -/
def nameClashes : List Nat := [0x8013, 0x8014, 0x804C]

/-- Selections between named alternatives, where only the first has the key `k`. -/
macro "flatsel" k:term : tactic => `(tactic| (
  refine flat_namedSelect (k := $k) ?_ ?_ ?_ ?_ ?_ ?_ ?_ ?_ ?_
  · flats
  · flats
  · keys
  · keys
  · exact GoodName.of (by decide +kernel)
  · exact GoodName.of (by decide +kernel)
  · needs
  · decide
  · decide))

theorem flat_model : Flat (orElse (named "vendor" (record Spec.vendorModel)) (named "sig" (record Spec.sigModel))) := by
  flatsel "vendor_id"

macro_rules | `(tactic| flat1) => `(tactic| with_reducible first
  | exact flat_model | flatsel "transition_time" | flatsel "remaining_time" | flatsel "property_id" | flatsel "capacity")

section
set_option linter.unusedSectionVars false
variable [Platform]

set_option maxHeartbeats 4000000 in
theorem flat_configLossless : ∀ m ∈ Spec.configLossless, m.op ∉ nameClashes → Flat m.fmt := by
  unfold Spec.configLossless
  each
  all_goals first
    | (intro h; exact absurd (by decide) h)
    | (intro _; flats)

set_option maxHeartbeats 4000000 in
theorem flat_configStable : ∀ m ∈ Spec.configStable, m.op ∉ nameClashes → Flat m.fmt := by
  unfold Spec.configStable
  each
  all_goals first
    | (intro h; exact absurd (by decide) h)
    | (intro _; flats)

theorem flat_composition : ∀ m ∈ Spec.compositionLossless, Flat m.fmt := by
  unfold Spec.compositionLossless
  each
  refine flat_tagged (by goodkey) ?_
  each
  all_goals refine ⟨by goodkey, by decide, ?_⟩
  all_goals flats

theorem flat_onoffLossless : ∀ m ∈ Spec.onoffLossless, Flat m.fmt := by
  unfold Spec.onoffLossless
  each
  all_goals flats

theorem flat_onoffPlain : ∀ m ∈ Spec.onoffPlain, Flat m.fmt := by
  unfold Spec.onoffPlain
  each
  all_goals flats

theorem flat_levelLossless : ∀ m ∈ Spec.levelLossless, Flat m.fmt := by
  unfold Spec.levelLossless
  each
  all_goals flats

theorem flat_levelPlain : ∀ m ∈ Spec.levelPlain, Flat m.fmt := by
  unfold Spec.levelPlain
  each
  all_goals flats

theorem flat_batteryLossless : ∀ m ∈ Spec.batteryLossless, Flat m.fmt := by
  unfold Spec.batteryLossless
  each
  all_goals flats

theorem flat_lightnessLossless : ∀ m ∈ Spec.lightnessLossless, Flat m.fmt := by
  unfold Spec.lightnessLossless
  each
  all_goals flats

theorem flat_lightnessPlain : ∀ m ∈ Spec.lightnessPlain, Flat m.fmt := by
  unfold Spec.lightnessPlain
  each
  all_goals flats

theorem flat_lightnessSetupLossless : ∀ m ∈ Spec.lightnessSetupLossless, Flat m.fmt := by
  unfold Spec.lightnessSetupLossless
  each
  all_goals flats

theorem flat_ctlLossless : ∀ m ∈ Spec.ctlLossless, Flat m.fmt := by
  unfold Spec.ctlLossless
  each
  all_goals flats

theorem flat_ctlPlain : ∀ m ∈ Spec.ctlPlain, Flat m.fmt := by
  unfold Spec.ctlPlain
  each
  all_goals flats

theorem flat_ctlSetupLossless : ∀ m ∈ Spec.ctlSetupLossless, Flat m.fmt := by
  unfold Spec.ctlSetupLossless
  each
  all_goals flats

theorem flat_sceneLossless : ∀ m ∈ Spec.sceneLossless, Flat m.fmt := by
  unfold Spec.sceneLossless
  each
  all_goals flats

theorem flat_scenePlain : ∀ m ∈ Spec.scenePlain, Flat m.fmt := by
  unfold Spec.scenePlain
  each
  all_goals flats

theorem flat_healthLossless : ∀ m ∈ Spec.healthLossless, Flat m.fmt := by
  unfold Spec.healthLossless
  each
  all_goals flats

theorem flat_propertyLossless : ∀ m ∈ Spec.propertyLossless, Flat m.fmt := by
  unfold Spec.propertyLossless
  each
  all_goals flats

theorem flat_sensorSetupLossless : ∀ m ∈ Spec.sensorSetupLossless, Flat m.fmt := by
  unfold Spec.sensorSetupLossless
  each
  all_goals flats

theorem flat_debugLossless : ∀ m ∈ Spec.debugLossless, Flat m.fmt := by
  unfold Spec.debugLossless
  each
  all_goals flats

theorem flat_debugStable : ∀ m ∈ Spec.debugStable, Flat m.fmt := by
  unfold Spec.debugStable
  each
  all_goals flats

theorem flat_debugPlain : ∀ m ∈ Spec.debugPlain, Flat m.fmt := by
  unfold Spec.debugPlain
  each
  all_goals flats

theorem flat_gatewayLossless : ∀ m ∈ Spec.gatewayLossless, Flat m.fmt := by
  unfold Spec.gatewayLossless
  each
  all_goals flats

theorem flat_ndsLossless : ∀ m ∈ Spec.ndsLossless, Flat m.fmt := by
  unfold Spec.ndsLossless
  each
  all_goals flats

theorem flat_ndsSetupLossless : ∀ m ∈ Spec.ndsSetupLossless, Flat m.fmt := by
  unfold Spec.ndsSetupLossless
  each
  all_goals flats

theorem flat_lecLossless : ∀ m ∈ Spec.lecLossless, Flat m.fmt := by
  unfold Spec.lecLossless
  each
  all_goals flats

theorem flat_elLossless : ∀ m ∈ Spec.elLossless, Flat m.fmt := by
  unfold Spec.elLossless
  each
  all_goals flats

theorem flat_timeLossless : ∀ m ∈ Spec.timeLossless, Flat m.fmt := by
  unfold Spec.timeLossless
  each
  all_goals flats

theorem flat_timeStable : ∀ m ∈ Spec.timeStable, Flat m.fmt := by
  unfold Spec.timeStable
  each
  all_goals flats

theorem flat_timePlain : ∀ m ∈ Spec.timePlain, Flat m.fmt := by
  unfold Spec.timePlain
  each
  all_goals flats

theorem flat_eltLossless : ∀ m ∈ Spec.eltLossless, Flat m.fmt := by
  unfold Spec.eltLossless
  each
  all_goals flats

theorem flat_eltPlain : ∀ m ∈ Spec.eltPlain, Flat m.fmt := by
  unfold Spec.eltPlain
  each
  all_goals flats

theorem flat_rrulePlain : ∀ m ∈ Spec.rrulePlain, Flat m.fmt := by
  unfold Spec.rrulePlain
  each
  all_goals flats


set_option maxRecDepth 100000 in
theorem good_value : GoodProps Spec.properties ["property_id", "property_id"] :=
  goodProps (cs := ["property_id".toList, "property_id".toList]) (by decide +kernel)
set_option maxRecDepth 100000 in
theorem good_access : GoodProps Spec.properties ["property_id", "property_id", "access"] :=
  goodProps (cs := ["property_id".toList, "property_id".toList, "access".toList]) (by decide +kernel)
set_option maxRecDepth 100000 in
theorem good_data : GoodProps Spec.properties [settingKey, rawKey, "format", "length"] :=
  goodProps (cs := [settingKey.toList, rawKey.toList, "format".toList, "length".toList]) (by decide +kernel)
set_option maxRecDepth 100000 in
theorem good_setting : GoodProps Spec.properties [settingKey, rawKey, "sensor_property_id", settingKey] :=
  goodProps (cs := [settingKey.toList, rawKey.toList, "sensor_property_id".toList, settingKey.toList]) (by decide +kernel)
set_option maxRecDepth 100000 in
theorem good_settingAccess : GoodProps Spec.properties [settingKey, rawKey, "sensor_property_id", settingKey, "sensor_setting_access"] :=
  goodProps (cs := [settingKey.toList, rawKey.toList, "sensor_property_id".toList, settingKey.toList, "sensor_setting_access".toList]) (by decide +kernel)

theorem flat_propertyStable : ∀ m ∈ Spec.propertyStable, Flat m.fmt := by
  have h1 : Flat Spec.propertyValue := flat_propertyMsg (by flats) (by keys) good_value
  have h2 : Flat Spec.propertyAccess := flat_propertyMsg (by flats) (by keys) good_access
  unfold Spec.propertyStable
  each
  all_goals assumption

theorem flat_sensorLossless : ∀ m ∈ Spec.sensorLossless, Flat m.fmt := by
  unfold Spec.sensorLossless
  each
  · flats
  · exact flat_descriptors (flat_descriptor (by flats) (by flats))
  · flats

theorem flat_sensorPlain : ∀ m ∈ Spec.sensorPlain, Flat m.fmt := by
  unfold Spec.sensorPlain
  each
  exact flat_listOf (flat_sensorData good_data)

theorem flat_sensorSetupStable : ∀ m ∈ Spec.sensorSetupStable, Flat m.fmt := by
  have h1 : Flat (settingMsg Spec.properties Spec.settingHeader) := flat_settingMsg (by flats) (by keys) good_setting (by decide)
  have h2 : Flat (settingMsg Spec.properties Spec.settingAccess) := flat_settingMsg (by flats) (by keys) good_settingAccess (by decide)
  unfold Spec.sensorSetupStable
  each
  all_goals assumption

theorem flat_gatewayPlain : ∀ m ∈ Spec.gatewayPlain, Flat m.fmt := by
  have a : FlatIs Spec.gatewayAuto := by flats
  have d : FlatIs Spec.gatewayDns := by flats
  unfold Spec.gatewayPlain
  each
  · refine flat_orElse (by flats) (flat_orElse (by flats) (by flats) ?_) ?_
    · intro b v h _ _
      exact plain_lacks (k := "dns_ip_address") (by needs) a (by keys) (by keys) h
    · rintro b v (h | ⟨-, h⟩) _ _
      · exact plain_lacks (k := "netmask") (by needs) d (by keys) (by keys) h
      · exact plain_lacks (k := "netmask") (by needs) a (by keys) (by keys) h
  all_goals flats

theorem good_lecProperties : GoodProps Spec.lecProperties ["property_id", "property_id"] := by
  refine ⟨?_, ?_, ?_⟩
  · unfold Spec.lecProperties
    each
    all_goals goodkey
  · unfold Spec.lecProperties
    each
    all_goals decide
  · unfold Spec.lecProperties
    each
    all_goals flats

theorem flat_lecStable : ∀ m ∈ Spec.lecStable, Flat m.fmt := by
  unfold Spec.lecStable
  each
  all_goals refine flat_propertyMsg (by flats) (by keys) good_lecProperties

theorem good_elProperties : GoodProps Spec.elProperties ["property_id", "property_id"] := by
  refine ⟨?_, ?_, ?_⟩
  · unfold Spec.elProperties
    each
    all_goals goodkey
  · unfold Spec.elProperties
    each
    all_goals decide
  · unfold Spec.elProperties
    each
    all_goals flats

theorem flat_elStable : ∀ m ∈ Spec.elStable, Flat m.fmt := by
  unfold Spec.elStable
  each
  all_goals refine flat_propertyMsg (by flats) (by keys) good_elProperties

theorem good_eltProperties : GoodProps Spec.eltProperties ["property_id", "property_id"] := by
  refine ⟨?_, ?_, ?_⟩
  · unfold Spec.eltProperties
    each
    all_goals goodkey
  · unfold Spec.eltProperties
    each
    all_goals decide
  · unfold Spec.eltProperties
    each
    all_goals flats

theorem flat_eltStable : ∀ m ∈ Spec.eltStable, Flat m.fmt := by
  unfold Spec.eltStable
  each
  all_goals refine flat_propertyMsg (by flats) (by keys) good_eltProperties

theorem flat_rules : ∀ t ∈ Spec.rules, Flat t.2 := by
  unfold Spec.rules
  each
  all_goals flats

theorem flat_rule : Flat Spec.rule := flat_variant (by goodkey) (by goodkey) (by decide) flat_rules
macro_rules | `(tactic| flat1) => `(tactic| with_reducible exact flat_rule)

theorem flat_rruleLossless : ∀ m ∈ Spec.rruleLossless, Flat m.fmt := by
  unfold Spec.rruleLossless
  each
  all_goals flats

theorem flat_debugV2Plain : ∀ m ∈ Spec.debugV2Plain, Flat m.fmt := by
  have h : Flat (tagged "DebugV2DataTypes" "data_type" "parameter" Spec.debugV2Values) := by
    refine flat_tagged (by goodkey) ?_
    each
    all_goals refine ⟨by goodkey, by decide, ?_⟩
    all_goals flats
  unfold Spec.debugV2Plain
  each
  refine flat_record ?_ (by keys) (by keys)
  flats
  exact h

/-- All messages but those with such a name. -/
theorem flat_messages : ∀ m ∈ Spec.messages, m.op ∉ nameClashes → Flat m.fmt := by
  refine forall_append (forall_append ?_ ?_) ?_
  · unfold Spec.lossless
    refine forall_append flat_configLossless ?_
    refine forall_append (fun m hm _ => flat_composition m hm) ?_
    refine forall_append (fun m hm _ => flat_onoffLossless m hm) ?_
    refine forall_append (fun m hm _ => flat_levelLossless m hm) ?_
    refine forall_append (fun m hm _ => flat_batteryLossless m hm) ?_
    refine forall_append (fun m hm _ => flat_lightnessLossless m hm) ?_
    refine forall_append (fun m hm _ => flat_lightnessSetupLossless m hm) ?_
    refine forall_append (fun m hm _ => flat_ctlLossless m hm) ?_
    refine forall_append (fun m hm _ => flat_ctlSetupLossless m hm) ?_
    refine forall_append (fun m hm _ => flat_sceneLossless m hm) ?_
    refine forall_append (fun m hm _ => flat_healthLossless m hm) ?_
    refine forall_append (fun m hm _ => flat_propertyLossless m hm) ?_
    refine forall_append (fun m hm _ => flat_sensorLossless m hm) ?_
    refine forall_append (fun m hm _ => flat_sensorSetupLossless m hm) ?_
    refine forall_append (fun m hm _ => flat_debugLossless m hm) ?_
    refine forall_append (fun m hm _ => flat_gatewayLossless m hm) ?_
    refine forall_append (fun m hm _ => flat_ndsLossless m hm) ?_
    refine forall_append (fun m hm _ => flat_ndsSetupLossless m hm) ?_
    refine forall_append (fun m hm _ => flat_lecLossless m hm) ?_
    refine forall_append (fun m hm _ => flat_elLossless m hm) ?_
    refine forall_append (fun m hm _ => flat_timeLossless m hm) ?_
    refine forall_append (fun m hm _ => flat_eltLossless m hm) ?_
    exact (fun m hm _ => flat_rruleLossless m hm)
  · refine forall_append flat_configStable ?_
    refine forall_append (fun m hm _ => flat_propertyStable m hm) ?_
    refine forall_append (fun m hm _ => flat_sensorSetupStable m hm) ?_
    refine forall_append (fun m hm _ => flat_debugStable m hm) ?_
    refine forall_append (fun m hm _ => flat_timeStable m hm) ?_
    refine forall_append (fun m hm _ => flat_lecStable m hm) ?_
    refine forall_append (fun m hm _ => flat_eltStable m hm) ?_
    exact (fun m hm _ => flat_elStable m hm)
  · unfold Spec.plainOnly
    refine forall_append (fun m hm _ => flat_onoffPlain m hm) ?_
    refine forall_append (fun m hm _ => flat_levelPlain m hm) ?_
    refine forall_append (fun m hm _ => flat_lightnessPlain m hm) ?_
    refine forall_append (fun m hm _ => flat_ctlPlain m hm) ?_
    refine forall_append (fun m hm _ => flat_scenePlain m hm) ?_
    refine forall_append (fun m hm _ => flat_sensorPlain m hm) ?_
    refine forall_append (fun m hm _ => flat_debugPlain m hm) ?_
    refine forall_append (fun m hm _ => flat_gatewayPlain m hm) ?_
    refine forall_append (fun m hm _ => flat_timePlain m hm) ?_
    refine forall_append (fun m hm _ => flat_eltPlain m hm) ?_
    refine forall_append (fun m hm _ => flat_debugV2Plain m hm) ?_
    exact (fun m hm _ => flat_rrulePlain m hm)

end
end BM
