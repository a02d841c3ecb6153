import Verif.FitRowBase
import Verif.FitTime
/-!
# Decoded values and the schema (C50): times and emergency lighting tests
-/
namespace BM.Capnp
open BM.Schema BM.Case BM.Props Config Tables
variable [Platform]

omit [Platform] in
theorem rowx_time {T : String} {fs : List Tree} {H : List UInt8} {n : Int} {N k' : String} (hN : lookupValue E.TimeOpcode.members n = some N) [hk : CamelName N k']
    [hm : HasMember u_AccessMessage k' (.type T)] [hT : IsPlain T fs] [m1 : HasMember fs "date" (.type "DateTime")] [m2 : HasMember fs "taiUtcDelta" (.type "Int16")]
    [m3 : HasMember fs "timeAuthority" (.type "Bool")] [m4 : HasMember fs "uncertainty" (.type "Float32")]
    (hx : Spec.capnpRejects.contains (H ++ List.replicate 5 0) = true) : RowX u_AccessMessage E.TimeOpcode H (n, Time.timeSet) := by
  intro N' hN' L ctx s v r hs hp
  rw [hN] at hN'
  injection hN' with hN'; subst hN'
  rw [hk.eq]
  refine hm.takes _ (takes_time (hT := hT) (m1 := m1) (m2 := m2) (m3 := m3) (m4 := m4) ?_ hp)
  rintro ⟨t, rfl⟩
  rw [← List.append_assoc] at hs
  exact hs (rejects_append hx)

set_option maxRecDepth 100000 in
set_option maxHeartbeats 4000000 in
theorem time_fit : ∀ q ∈ timeCases, RowX u_AccessMessage E.TimeOpcode (opc q) q := by
  unfold timeCases
  refine all_cons (rowx (row rfl (by fit))) (all_cons (rowx_time rfl (by dsimp only [opc]; decide)) (all_cons (rowx_time rfl (by dsimp only [opc]; decide)) ?_))
  fitrows

theorem fit_eltSet : Fit (.type "EmergencyLightingTestPropertySet") ELT.propertySet := by vmixin
theorem fit_eltStatus : Fit (.type "EmergencyLightingTestPropertyStatus") ELT.propertySet := by vmixin

/-- The payload of a vendor row. -/
syntax "erow" : tactic
macro_rules | `(tactic| erow) => `(tactic| first
  | with_reducible exact fit_eltSet
  | with_reducible exact fit_eltStatus
  | (fit
     all_goals repeat' (first
      | with_reducible exact fit_sized _
      | with_reducible exact fit_timestamp
      | with_reducible refine fit_bytewise ?_
      | fit)))
/-- The rows of a table of sub-messages. -/
syntax "erows" : tactic
macro_rules | `(tactic| erows) => `(tactic| (
  refine all_cons (rowx_sub rfl (by dsimp only [opc]; decide) (by decide +kernel) (by decide +kernel) (List.mem_of_getElem? (i := 1) rfl) ?_) all_nil
  repeat' (first | with_reducible exact all_nil | refine all_cons (rowx_out (by dsimp only [opc]; decide)) ?_ | refine all_cons (rowx (row rfl ?_)) ?_)
  all_goals erow))

set_option maxRecDepth 100000 in
set_option maxHeartbeats 4000000 in
theorem emergencyLightingTest_fit : ∀ q ∈ emergencyLightingTestCases, RowX u_AccessMessage E.EmergencyLightingTestOpcode (opc q) q := by unfold emergencyLightingTestCases emergencyLightingTestParamsCases; erows

end BM.Capnp
