import Verif.FlatAll
import Verif.ServedAll
/-!
# The keys of the sub-messages survive the conversion of names
-/
namespace BM
open F Case Props

section
set_option linter.unusedSectionVars false
variable [Platform]

theorem subs_configLossless : ∀ m ∈ Spec.configLossless, ∀ s, m.sub = some s → GoodKey s.key := by
  unfold Spec.configLossless
  each
  all_goals first
    | (intro s h; injection h with h; subst h; goodkey)
    | (intro s h; cases h)

theorem subs_compositionLossless : ∀ m ∈ Spec.compositionLossless, ∀ s, m.sub = some s → GoodKey s.key := by
  unfold Spec.compositionLossless
  each
  all_goals first
    | (intro s h; injection h with h; subst h; goodkey)
    | (intro s h; cases h)

theorem subs_onoffLossless : ∀ m ∈ Spec.onoffLossless, ∀ s, m.sub = some s → GoodKey s.key := by
  unfold Spec.onoffLossless
  each
  all_goals first
    | (intro s h; injection h with h; subst h; goodkey)
    | (intro s h; cases h)

theorem subs_levelLossless : ∀ m ∈ Spec.levelLossless, ∀ s, m.sub = some s → GoodKey s.key := by
  unfold Spec.levelLossless
  each
  all_goals first
    | (intro s h; injection h with h; subst h; goodkey)
    | (intro s h; cases h)

theorem subs_batteryLossless : ∀ m ∈ Spec.batteryLossless, ∀ s, m.sub = some s → GoodKey s.key := by
  unfold Spec.batteryLossless
  each
  all_goals first
    | (intro s h; injection h with h; subst h; goodkey)
    | (intro s h; cases h)

theorem subs_lightnessLossless : ∀ m ∈ Spec.lightnessLossless, ∀ s, m.sub = some s → GoodKey s.key := by
  unfold Spec.lightnessLossless
  each
  all_goals first
    | (intro s h; injection h with h; subst h; goodkey)
    | (intro s h; cases h)

theorem subs_lightnessSetupLossless : ∀ m ∈ Spec.lightnessSetupLossless, ∀ s, m.sub = some s → GoodKey s.key := by
  unfold Spec.lightnessSetupLossless
  each
  all_goals first
    | (intro s h; injection h with h; subst h; goodkey)
    | (intro s h; cases h)

theorem subs_ctlLossless : ∀ m ∈ Spec.ctlLossless, ∀ s, m.sub = some s → GoodKey s.key := by
  unfold Spec.ctlLossless
  each
  all_goals first
    | (intro s h; injection h with h; subst h; goodkey)
    | (intro s h; cases h)

theorem subs_ctlSetupLossless : ∀ m ∈ Spec.ctlSetupLossless, ∀ s, m.sub = some s → GoodKey s.key := by
  unfold Spec.ctlSetupLossless
  each
  all_goals first
    | (intro s h; injection h with h; subst h; goodkey)
    | (intro s h; cases h)

theorem subs_sceneLossless : ∀ m ∈ Spec.sceneLossless, ∀ s, m.sub = some s → GoodKey s.key := by
  unfold Spec.sceneLossless
  each
  all_goals first
    | (intro s h; injection h with h; subst h; goodkey)
    | (intro s h; cases h)

theorem subs_healthLossless : ∀ m ∈ Spec.healthLossless, ∀ s, m.sub = some s → GoodKey s.key := by
  unfold Spec.healthLossless
  each
  all_goals first
    | (intro s h; injection h with h; subst h; goodkey)
    | (intro s h; cases h)

theorem subs_propertyLossless : ∀ m ∈ Spec.propertyLossless, ∀ s, m.sub = some s → GoodKey s.key := by
  unfold Spec.propertyLossless
  each
  all_goals first
    | (intro s h; injection h with h; subst h; goodkey)
    | (intro s h; cases h)

theorem subs_sensorLossless : ∀ m ∈ Spec.sensorLossless, ∀ s, m.sub = some s → GoodKey s.key := by
  unfold Spec.sensorLossless
  each
  all_goals first
    | (intro s h; injection h with h; subst h; goodkey)
    | (intro s h; cases h)

theorem subs_sensorSetupLossless : ∀ m ∈ Spec.sensorSetupLossless, ∀ s, m.sub = some s → GoodKey s.key := by
  unfold Spec.sensorSetupLossless
  each
  all_goals first
    | (intro s h; injection h with h; subst h; goodkey)
    | (intro s h; cases h)

theorem subs_debugLossless : ∀ m ∈ Spec.debugLossless, ∀ s, m.sub = some s → GoodKey s.key := by
  unfold Spec.debugLossless
  each
  all_goals first
    | (intro s h; injection h with h; subst h; goodkey)
    | (intro s h; cases h)

theorem subs_gatewayLossless : ∀ m ∈ Spec.gatewayLossless, ∀ s, m.sub = some s → GoodKey s.key := by
  unfold Spec.gatewayLossless
  each
  all_goals first
    | (intro s h; injection h with h; subst h; goodkey)
    | (intro s h; cases h)

theorem subs_ndsLossless : ∀ m ∈ Spec.ndsLossless, ∀ s, m.sub = some s → GoodKey s.key := by
  unfold Spec.ndsLossless
  each
  all_goals first
    | (intro s h; injection h with h; subst h; goodkey)
    | (intro s h; cases h)

theorem subs_ndsSetupLossless : ∀ m ∈ Spec.ndsSetupLossless, ∀ s, m.sub = some s → GoodKey s.key := by
  unfold Spec.ndsSetupLossless
  each
  all_goals first
    | (intro s h; injection h with h; subst h; goodkey)
    | (intro s h; cases h)

theorem subs_lecLossless : ∀ m ∈ Spec.lecLossless, ∀ s, m.sub = some s → GoodKey s.key := by
  unfold Spec.lecLossless
  each
  all_goals first
    | (intro s h; injection h with h; subst h; goodkey)
    | (intro s h; cases h)

theorem subs_elLossless : ∀ m ∈ Spec.elLossless, ∀ s, m.sub = some s → GoodKey s.key := by
  unfold Spec.elLossless
  each
  all_goals first
    | (intro s h; injection h with h; subst h; goodkey)
    | (intro s h; cases h)

theorem subs_timeLossless : ∀ m ∈ Spec.timeLossless, ∀ s, m.sub = some s → GoodKey s.key := by
  unfold Spec.timeLossless
  each
  all_goals first
    | (intro s h; injection h with h; subst h; goodkey)
    | (intro s h; cases h)

theorem subs_eltLossless : ∀ m ∈ Spec.eltLossless, ∀ s, m.sub = some s → GoodKey s.key := by
  unfold Spec.eltLossless
  each
  all_goals first
    | (intro s h; injection h with h; subst h; goodkey)
    | (intro s h; cases h)

theorem subs_rruleLossless : ∀ m ∈ Spec.rruleLossless, ∀ s, m.sub = some s → GoodKey s.key := by
  unfold Spec.rruleLossless
  each
  all_goals first
    | (intro s h; injection h with h; subst h; goodkey)
    | (intro s h; cases h)

theorem subs_configStable : ∀ m ∈ Spec.configStable, ∀ s, m.sub = some s → GoodKey s.key := by
  unfold Spec.configStable
  each
  all_goals first
    | (intro s h; injection h with h; subst h; goodkey)
    | (intro s h; cases h)

theorem subs_propertyStable : ∀ m ∈ Spec.propertyStable, ∀ s, m.sub = some s → GoodKey s.key := by
  unfold Spec.propertyStable
  each
  all_goals first
    | (intro s h; injection h with h; subst h; goodkey)
    | (intro s h; cases h)

theorem subs_sensorSetupStable : ∀ m ∈ Spec.sensorSetupStable, ∀ s, m.sub = some s → GoodKey s.key := by
  unfold Spec.sensorSetupStable
  each
  all_goals first
    | (intro s h; injection h with h; subst h; goodkey)
    | (intro s h; cases h)

theorem subs_debugStable : ∀ m ∈ Spec.debugStable, ∀ s, m.sub = some s → GoodKey s.key := by
  unfold Spec.debugStable
  each
  all_goals first
    | (intro s h; injection h with h; subst h; goodkey)
    | (intro s h; cases h)

theorem subs_timeStable : ∀ m ∈ Spec.timeStable, ∀ s, m.sub = some s → GoodKey s.key := by
  unfold Spec.timeStable
  each
  all_goals first
    | (intro s h; injection h with h; subst h; goodkey)
    | (intro s h; cases h)

theorem subs_lecStable : ∀ m ∈ Spec.lecStable, ∀ s, m.sub = some s → GoodKey s.key := by
  unfold Spec.lecStable
  each
  all_goals first
    | (intro s h; injection h with h; subst h; goodkey)
    | (intro s h; cases h)

theorem subs_eltStable : ∀ m ∈ Spec.eltStable, ∀ s, m.sub = some s → GoodKey s.key := by
  unfold Spec.eltStable
  each
  all_goals first
    | (intro s h; injection h with h; subst h; goodkey)
    | (intro s h; cases h)

theorem subs_elStable : ∀ m ∈ Spec.elStable, ∀ s, m.sub = some s → GoodKey s.key := by
  unfold Spec.elStable
  each
  all_goals first
    | (intro s h; injection h with h; subst h; goodkey)
    | (intro s h; cases h)

theorem subs_onoffPlain : ∀ m ∈ Spec.onoffPlain, ∀ s, m.sub = some s → GoodKey s.key := by
  unfold Spec.onoffPlain
  each
  all_goals first
    | (intro s h; injection h with h; subst h; goodkey)
    | (intro s h; cases h)

theorem subs_levelPlain : ∀ m ∈ Spec.levelPlain, ∀ s, m.sub = some s → GoodKey s.key := by
  unfold Spec.levelPlain
  each
  all_goals first
    | (intro s h; injection h with h; subst h; goodkey)
    | (intro s h; cases h)

theorem subs_lightnessPlain : ∀ m ∈ Spec.lightnessPlain, ∀ s, m.sub = some s → GoodKey s.key := by
  unfold Spec.lightnessPlain
  each
  all_goals first
    | (intro s h; injection h with h; subst h; goodkey)
    | (intro s h; cases h)

theorem subs_ctlPlain : ∀ m ∈ Spec.ctlPlain, ∀ s, m.sub = some s → GoodKey s.key := by
  unfold Spec.ctlPlain
  each
  all_goals first
    | (intro s h; injection h with h; subst h; goodkey)
    | (intro s h; cases h)

theorem subs_scenePlain : ∀ m ∈ Spec.scenePlain, ∀ s, m.sub = some s → GoodKey s.key := by
  unfold Spec.scenePlain
  each
  all_goals first
    | (intro s h; injection h with h; subst h; goodkey)
    | (intro s h; cases h)

theorem subs_sensorPlain : ∀ m ∈ Spec.sensorPlain, ∀ s, m.sub = some s → GoodKey s.key := by
  unfold Spec.sensorPlain
  each
  all_goals first
    | (intro s h; injection h with h; subst h; goodkey)
    | (intro s h; cases h)

theorem subs_debugPlain : ∀ m ∈ Spec.debugPlain, ∀ s, m.sub = some s → GoodKey s.key := by
  unfold Spec.debugPlain
  each
  all_goals first
    | (intro s h; injection h with h; subst h; goodkey)
    | (intro s h; cases h)

theorem subs_gatewayPlain : ∀ m ∈ Spec.gatewayPlain, ∀ s, m.sub = some s → GoodKey s.key := by
  unfold Spec.gatewayPlain
  each
  all_goals first
    | (intro s h; injection h with h; subst h; goodkey)
    | (intro s h; cases h)

theorem subs_timePlain : ∀ m ∈ Spec.timePlain, ∀ s, m.sub = some s → GoodKey s.key := by
  unfold Spec.timePlain
  each
  all_goals first
    | (intro s h; injection h with h; subst h; goodkey)
    | (intro s h; cases h)

theorem subs_eltPlain : ∀ m ∈ Spec.eltPlain, ∀ s, m.sub = some s → GoodKey s.key := by
  unfold Spec.eltPlain
  each
  all_goals first
    | (intro s h; injection h with h; subst h; goodkey)
    | (intro s h; cases h)

theorem subs_debugV2Plain : ∀ m ∈ Spec.debugV2Plain, ∀ s, m.sub = some s → GoodKey s.key := by
  unfold Spec.debugV2Plain
  each
  all_goals first
    | (intro s h; injection h with h; subst h; goodkey)
    | (intro s h; cases h)

theorem subs_rrulePlain : ∀ m ∈ Spec.rrulePlain, ∀ s, m.sub = some s → GoodKey s.key := by
  unfold Spec.rrulePlain
  each
  all_goals first
    | (intro s h; injection h with h; subst h; goodkey)
    | (intro s h; cases h)


/-- The keys of the sub-messages. -/
theorem subs_messages : ∀ m ∈ Spec.messages, ∀ s, m.sub = some s → GoodKey s.key := by
  refine forall_append (forall_append ?_ ?_) ?_
  · unfold Spec.lossless
    refine forall_append subs_configLossless ?_
    refine forall_append subs_compositionLossless ?_
    refine forall_append subs_onoffLossless ?_
    refine forall_append subs_levelLossless ?_
    refine forall_append subs_batteryLossless ?_
    refine forall_append subs_lightnessLossless ?_
    refine forall_append subs_lightnessSetupLossless ?_
    refine forall_append subs_ctlLossless ?_
    refine forall_append subs_ctlSetupLossless ?_
    refine forall_append subs_sceneLossless ?_
    refine forall_append subs_healthLossless ?_
    refine forall_append subs_propertyLossless ?_
    refine forall_append subs_sensorLossless ?_
    refine forall_append subs_sensorSetupLossless ?_
    refine forall_append subs_debugLossless ?_
    refine forall_append subs_gatewayLossless ?_
    refine forall_append subs_ndsLossless ?_
    refine forall_append subs_ndsSetupLossless ?_
    refine forall_append subs_lecLossless ?_
    refine forall_append subs_elLossless ?_
    refine forall_append subs_timeLossless ?_
    refine forall_append subs_eltLossless ?_
    exact subs_rruleLossless
  · refine forall_append subs_configStable ?_
    refine forall_append subs_propertyStable ?_
    refine forall_append subs_sensorSetupStable ?_
    refine forall_append subs_debugStable ?_
    refine forall_append subs_timeStable ?_
    refine forall_append subs_lecStable ?_
    refine forall_append subs_eltStable ?_
    exact subs_elStable
  · unfold Spec.plainOnly
    refine forall_append subs_onoffPlain ?_
    refine forall_append subs_levelPlain ?_
    refine forall_append subs_lightnessPlain ?_
    refine forall_append subs_ctlPlain ?_
    refine forall_append subs_scenePlain ?_
    refine forall_append subs_sensorPlain ?_
    refine forall_append subs_debugPlain ?_
    refine forall_append subs_gatewayPlain ?_
    refine forall_append subs_timePlain ?_
    refine forall_append subs_eltPlain ?_
    refine forall_append subs_debugV2Plain ?_
    exact subs_rrulePlain


end
end BM
