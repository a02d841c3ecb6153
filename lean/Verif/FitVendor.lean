import Verif.FitRowBase
import Verif.FitTime
/-!
# Decoded values and the schema (C50): vendor messages
-/
namespace BM.Capnp
open BM.Schema BM.Case BM.Props Config Tables
variable [Platform]

theorem fit_lecSet : Fit (.type "LightExtendedControllerPropertySet") LEC.propertySet := by vmixin
theorem fit_lecStatus : Fit (.type "LightExtendedControllerPropertyStatus") LEC.propertySet := by vmixin
theorem fit_elSet : Fit (.type "EmergencyLightingPropertySet") EL.propertySet := by vmixin
theorem fit_elStatus : Fit (.type "EmergencyLightingPropertyStatus") EL.propertySet := by vmixin

/-- The payload of a vendor row. -/
syntax "vrow" : tactic
macro_rules | `(tactic| vrow) => `(tactic| first
  | with_reducible exact fit_lecSet
  | with_reducible exact fit_lecStatus
  | with_reducible exact fit_elSet
  | with_reducible exact fit_elStatus
  | (fit
     all_goals repeat' (first
      | with_reducible exact fit_sized _
      | with_reducible refine fit_bytewise ?_
      | fit)))
/-- The rows of a table of sub-messages. -/
syntax "vrows" : tactic
macro_rules | `(tactic| vrows) => `(tactic| (
  refine all_cons (rowx_sub rfl (by dsimp only [opc]; decide) (by decide +kernel) (by decide +kernel) (List.mem_of_getElem? (i := 1) rfl) ?_) all_nil
  repeat' (first | with_reducible exact all_nil | refine all_cons (rowx_out (by dsimp only [opc]; decide)) ?_ | refine all_cons (rowx (row rfl ?_)) ?_)
  all_goals vrow))

set_option maxRecDepth 100000 in
set_option maxHeartbeats 4000000 in
theorem debug_fit : ∀ q ∈ debugCases, RowX u_AccessMessage E.DebugOpcode (opc q) q := by unfold debugCases debugParamsCases; vrows
set_option maxRecDepth 100000 in
set_option maxHeartbeats 4000000 in
theorem gatewayConfig_fit : ∀ q ∈ gatewayConfigCases, RowX u_AccessMessage E.GatewayConfigServerOpcode (opc q) q := by unfold gatewayConfigCases gatewayConfigParamsCases; vrows
set_option maxRecDepth 100000 in
set_option maxHeartbeats 4000000 in
theorem networkDiagnosticServer_fit : ∀ q ∈ networkDiagnosticServerCases, RowX u_AccessMessage E.NetworkDiagnosticServerOpcode (opc q) q := by unfold networkDiagnosticServerCases networkDiagnosticServerParamsCases; vrows
set_option maxRecDepth 100000 in
set_option maxHeartbeats 4000000 in
theorem networkDiagnosticSetupServer_fit : ∀ q ∈ networkDiagnosticSetupServerCases, RowX u_AccessMessage E.NetworkDiagnosticSetupServerOpcode (opc q) q := by unfold networkDiagnosticSetupServerCases networkDiagnosticSetupServerParamsCases; vrows
set_option maxRecDepth 100000 in
set_option maxHeartbeats 4000000 in
theorem lightExtendedController_fit : ∀ q ∈ lightExtendedControllerCases, RowX u_AccessMessage E.LightExtendedControllerOpcode (opc q) q := by unfold lightExtendedControllerCases lightExtendedControllerParamsCases; vrows
set_option maxRecDepth 100000 in
set_option maxHeartbeats 4000000 in
theorem emergencyLighting_fit : ∀ q ∈ emergencyLightingCases, RowX u_AccessMessage E.EmergencyLightingOpcode (opc q) q := by unfold emergencyLightingCases emergencyLightingParamsCases; vrows
/-! ### The scheduler -/

omit [Platform] in
/-- The payload is empty or the message is listed. -/
theorem rowx_plain {E E' : EnumDef} {H : List UInt8} {n : Int} {N k' : String} {cases : List (Int × Con UInt8)} (hN : lookupValue E'.members n = some N)
    [hk : CamelName N k'] [hm : HasMember u_AccessMessage k' (.type "RRuleSchedulerSubMessage")]
    (hcov : known E cases (fun k => H ++ [UInt8.ofNat k.toNat]) = true)
    (hrow : ∀ q ∈ cases, Spec.capnpRejects.contains (H ++ [UInt8.ofNat q.1.toNat]) = true ∨ q.2 = struct []) : RowX u_AccessMessage E' H (n, plainSubMessage E cases) := by
  intro N' hN' L ctx s v r hx hp
  rw [hN] at hN'
  injection hN' with hN'; subst hN'
  rw [hk.eq]
  refine hm.takes _ ?_
  obtain ⟨d, rfl, hi⟩ := parse_struct hp
  obtain ⟨d1, t1, p1, hi⟩ := parse_cons hi
  obtain ⟨d2, t2, p2, hi⟩ := parse_cons hi
  injection hi with hi; injection hi with hi _; subst hi
  obtain ⟨v1, q1, rfl⟩ := parse_field p1
  obtain ⟨v2, q2, rfl⟩ := parse_field p2
  obtain ⟨m, rfl, hm1⟩ := key_enum (fit_uint (T := "UInt8") (by decide) (by decide)) _ _ _ _ _ q1
  obtain ⟨rfl, hh⟩ := subkey_inv q1
  rw [show H ++ UInt8.ofNat m.toNat :: t1 = H ++ [UInt8.ofNat m.toNat] ++ t1 by simp] at hx
  rcases known_find hcov hh with ⟨c, hc⟩ | h
  · rcases hrow _ (findCase_mem hc) with h | h
    · exact absurd (rejects_append h) hx
    · dsimp only at h
      subst h
      have hv : v2 = .dict [] := by
        have ht : this "subopcode" (dset [] "subopcode" (.enum E.cls m)) = .ok (.enum E.cls m) := rfl
        have hh : hashInt (.enum E.cls m) = some m := rfl
        simp only [switchC, ht, ok_bind, caseOf, hh, hc, Option.getD_some] at q2
        injection q2 with q2; injection q2 with q2 _; exact q2.symm
      subst hv
      have hpl : Members schema [.union none g_RRuleSchedulerSubMessage_payload] [] := .mk (by intro k v h; cases h) (by intro us _; simp)
      have ho : Ok s_RRuleSchedulerSubMessage (dset (dset [] "subopcode" (.enum E.cls m)) "payload" (.dict [])) := by
        refine (ok_nil.set (by decide) (.inr ?_)).set (by decide) (.inr ?_)
        · rw [show camelcase "subopcode" = "subopcode" by decide +kernel]
          exact HasMember.takes (T := .type "UInt8") _ hm1
        · rw [show camelcase "payload" = "payload" by decide +kernel]
          exact HasMember.takes (T := .group g_RRuleSchedulerSubMessage_payload) _ ⟨[], rfl, hpl⟩
      rw [ho.camel]
      exact .struct (IsPlain.mem (T := "RRuleSchedulerSubMessage")) (ho.members (IsPlain.plain "RRuleSchedulerSubMessage"))
  · exact absurd (rejects_append h) hx

theorem rRuleScheduler_fit : ∀ q ∈ rRuleSchedulerCases, RowX u_AccessMessage E.RRuleSchedulerOpcode (opc q) q := by
  unfold rRuleSchedulerCases
  refine all_cons (rowx_plain rfl (by with_unfolding_all exact (Eq.refl true)) ?_) all_nil
  unfold rRuleSchedulerSubMessageCases
  repeat' (first | with_reducible exact all_nil | refine all_cons (.inl (by dsimp only [opc]; decide)) ?_ | refine all_cons (.inr rfl) ?_)

end BM.Capnp
