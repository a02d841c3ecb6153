import Verif.Registry
import Verif.SpecAll
import Verif.MeetsGenerics
import Verif.MeetsDescriptor
import Verif.MeetsRRule
import Verif.MeetsTime
import Verif.MeetsElt
import Verif.MeetsPages
import Verif.MeetsComposition
/-!
# All specified messages are served by the registry
-/
namespace BM

theorem Served.weaken {M M' : Mode} {reg m} (h : Served M reg m) (ht : M.T → M'.T) (hu : M.U → M'.U)
    (hs : M'.S → M.S) (hx : M'.X → M.X) : Served M' reg m := by
  obtain ⟨e, he, h1, h2, h3, C, c, hc, hm, h5⟩ := h
  exact ⟨e, he, h1, h2, h3, C, c, hc, hm.weaken ht hu hs hx, h5⟩

theorem forall_append {P : MsgSpec → Prop} {a b : List MsgSpec} (ha : ∀ m ∈ a, P m) (hb : ∀ m ∈ b, P m) : ∀ m ∈ a ++ b, P m :=
  fun m hm => (List.mem_append.1 hm).elim (ha m) (hb m)

section
variable [Platform]

/-- Every entry of a literal table has the same opcode and name. -/
macro "samehead" : tactic => `(tactic| (
  refine List.forall_iff_forall_mem.1 ?_
  repeat' first | exact trivial | exact ⟨rfl, rfl⟩ | refine ⟨⟨rfl, rfl⟩, ?_⟩))

theorem rrule_pass : (switchC (this "subopcode") Tables.rRuleSchedulerSubMessageCases).buildNone = false := rfl

theorem served_lossless : ∀ m ∈ Spec.lossless, Served lossless Tables.registry m := by
  refine forall_append (config_lossless.served (by inreg)) ?_
  refine forall_append (composition_lossless.served (by inreg)) ?_
  refine forall_append (onoff_lossless.served (by inreg)) ?_
  refine forall_append (level_lossless.served (by inreg)) ?_
  refine forall_append (battery_lossless.served (by inreg)) ?_
  refine forall_append (lightness_lossless.served (by inreg)) ?_
  refine forall_append (lightnessSetup_lossless.served (by inreg)) ?_
  refine forall_append (ctl_lossless.served (by inreg)) ?_
  refine forall_append (ctlSetup_lossless.served (by inreg)) ?_
  refine forall_append (scene_lossless.served (by inreg)) ?_
  refine forall_append (health_lossless.served (by inreg)) ?_
  refine forall_append (property_lossless.served (by inreg)) ?_
  refine forall_append (sensor_lossless.served (by inreg)) ?_
  refine forall_append (sensorSetup_lossless.served (by inreg)) ?_
  refine forall_append (debug_lossless.served (name := "silvair_debug") (by inreg) (by decide +kernel) (by decide +kernel) (by decide) (by samehead)) ?_
  refine forall_append (gateway_lossless.served (name := "silvair_gateway") (by inreg) (by decide +kernel) (by decide +kernel) (by decide) (by samehead)) ?_
  refine forall_append (nds_lossless.served (name := "silvair_nds") (by inreg) (by decide +kernel) (by decide +kernel) (by decide) (by samehead)) ?_
  refine forall_append (ndsSetup_lossless.served (name := "silvair_nds_setup") (by inreg) (by decide +kernel) (by decide +kernel) (by decide) (by samehead)) ?_
  refine forall_append (lec_lossless.served (name := "silvair_lec") (by inreg) (by decide +kernel) (by decide +kernel) (by decide) (by samehead)) ?_
  refine forall_append (el_lossless.served (name := "silvair_el") (by inreg) (by decide +kernel) (by decide +kernel) (by decide) (by samehead)) ?_
  refine forall_append (time_lossless.served (by inreg)) ?_
  refine forall_append (elt_lossless.served (name := "silvair_elt") (by inreg) (by decide +kernel) (by decide +kernel) (by decide) (by samehead)) ?_
  exact (rrule_lossless.served (name := "silvair_rrule_scheduler") rrule_pass (by inreg) (by decide +kernel) (by decide +kernel) (by decide) (by samehead))

theorem served_stable : ∀ m ∈ Spec.stable, Served stable Tables.registry m := by
  refine forall_append (fun m hm => (served_lossless m hm).weaken id id id False.elim) ?_
  refine forall_append (config_stable.served (by inreg)) ?_
  refine forall_append (property_stable.served (by inreg)) ?_
  refine forall_append (sensorSetup_stable.served (by inreg)) ?_
  refine forall_append (debug_stable.served (name := "silvair_debug") (by inreg) (by decide +kernel) (by decide +kernel) (by decide) (by samehead)) ?_
  refine forall_append (time_stable.served (by inreg)) ?_
  refine forall_append (lec_stable.served (name := "silvair_lec") (by inreg) (by decide +kernel) (by decide +kernel) (by decide) (by samehead)) ?_
  refine forall_append (elt_stable.served (name := "silvair_elt") (by inreg) (by decide +kernel) (by decide +kernel) (by decide) (by samehead)) ?_
  exact (el_stable.served (name := "silvair_el") (by inreg) (by decide +kernel) (by decide +kernel) (by decide) (by samehead))

theorem served_plainOnly : ∀ m ∈ Spec.plainOnly, Served plain Tables.registry m := by
  refine forall_append (onoff_plain.served (by inreg)) ?_
  refine forall_append (level_plain.served (by inreg)) ?_
  refine forall_append (lightness_plain.served (by inreg)) ?_
  refine forall_append (ctl_plain.served (by inreg)) ?_
  refine forall_append (scene_plain.served (by inreg)) ?_
  refine forall_append (sensor_plain.served (by inreg)) ?_
  refine forall_append (debug_plain.served (name := "silvair_debug") (by inreg) (by decide +kernel) (by decide +kernel) (by decide) (by samehead)) ?_
  refine forall_append (gateway_plain.served (name := "silvair_gateway") (by inreg) (by decide +kernel) (by decide +kernel) (by decide) (by samehead)) ?_
  refine forall_append (time_plain.served (by inreg)) ?_
  refine forall_append (elt_plain.served (name := "silvair_elt") (by inreg) (by decide +kernel) (by decide +kernel) (by decide) (by samehead)) ?_
  refine forall_append (debugV2_plain.served (by inreg)) ?_
  exact (rrule_plain.served (name := "silvair_rrule_scheduler") rrule_pass (by inreg) (by decide +kernel) (by decide +kernel) (by decide) (by samehead))

theorem served_all : ∀ m ∈ Spec.messages, Served plain Tables.registry m :=
  forall_append (fun m hm => (served_stable m hm).weaken id id False.elim id) served_plainOnly

end
end BM
