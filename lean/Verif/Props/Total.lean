import Verif.Props.Coverage
import Verif.Props.Opcodes
/-!
# Decoding always ends (C31)
-/
namespace BM.Props
open Tables
variable [Platform]

/-- A vendor message whose sub-opcode is missing is a stream error, one with an unknown sub-opcode is a validation error. -/
def SubKeyed (C : Con UInt8) (E : EnumDef) : Prop :=
  (∀ L ctx, C.parse L ctx [] = .error .stream) ∧
  ∀ L ctx x t, E.has ((x : UInt8).toNat : Int) = false → C.parse L ctx (x :: t) = .error .validation

omit [Platform] in
theorem subKeyed_switch (E : EnumDef) (cases) : SubKeyed (subMessage E cases) E := by
  constructor
  · intro L ctx; rfl
  · intro L ctx x t h
    simp only [subMessage, switchStruct, enumAdapter, adapter, uintLE, takeN_one, ok_bind, enumDecode, hashInt, asInt]
    have : leNat [x] = x.toNat := by simp [leNat]
    rw [this, h]; rfl

omit [Platform] in
theorem subKeyed_plain (E : EnumDef) (cases) : SubKeyed (plainSubMessage E cases) E := by
  constructor
  · intro L ctx; rfl
  · intro L ctx x t h
    simp only [plainSubMessage, struct, parseItems, field, enumAdapter, adapter, uintLE, takeN_one, ok_bind, enumDecode, hashInt, asInt]
    have : leNat [x] = x.toNat := by simp [leNat]
    rw [this, h]; rfl

/-- The vendor entries of the registry. -/
theorem vendor_entries : ∀ q ∈ Spec.vendors, ∃ e ∈ registry, ∃ C, findCase q.1 e.2 = some C ∧ SubKeyed C q.2 ∧
    ∃ N, (N, (q.1 : Int)) ∈ e.1.members := by
  refine List.forall_iff_forall_mem.1 ?_
  refine ⟨⟨(E.DebugOpcode, debugCases), by inreg, _, rfl, subKeyed_switch _ _, _, List.Mem.head _⟩,
    ⟨(E.GatewayConfigServerOpcode, gatewayConfigCases), by inreg, _, rfl, subKeyed_switch _ _, _, List.Mem.head _⟩,
    ⟨(E.NetworkDiagnosticServerOpcode, networkDiagnosticServerCases), by inreg, _, rfl, subKeyed_switch _ _, _, List.Mem.head _⟩,
    ⟨(E.NetworkDiagnosticSetupServerOpcode, networkDiagnosticSetupServerCases), by inreg, _, rfl, subKeyed_switch _ _, _, List.Mem.head _⟩,
    ⟨(E.LightExtendedControllerOpcode, lightExtendedControllerCases), by inreg, _, rfl, subKeyed_switch _ _, _, List.Mem.head _⟩,
    ⟨(E.EmergencyLightingOpcode, emergencyLightingCases), by inreg, _, rfl, subKeyed_switch _ _, _, List.Mem.head _⟩,
    ⟨(E.EmergencyLightingTestOpcode, emergencyLightingTestCases), by inreg, _, rfl, subKeyed_switch _ _, _, List.Mem.head _⟩,
    ⟨(E.RRuleSchedulerOpcode, rRuleSchedulerCases), by inreg, _, rfl, subKeyed_plain _ _, _, List.Mem.head _⟩⟩

set_option maxRecDepth 100000 in
set_option maxHeartbeats 4000000 in
theorem sub_vendor : ((Spec.messages ++ Spec.bare).all fun m => m.sub.isNone || Spec.vendors.any fun q => q.1 == m.op) = true := by
  with_unfolding_all exact (Eq.refl true)

/-- **C04 (sub-opcodes).** A vendor message without sub-opcode, or with one that is not in its enumeration, is rejected. -/
theorem C04_unknown_sub {op : Nat} {E : EnumDef} (h : (op, E) ∈ Spec.vendors) (L : Lib) :
    accessParse registry L (wireOpcode op) = .error .stream ∧
    ∀ x t, E.has ((x : UInt8).toNat : Int) = false → accessParse registry L (wireOpcode op ++ x :: t) = .error .validation := by
  obtain ⟨e, he, C, hC, ⟨h1, h2⟩, N, hN⟩ := vendor_entries _ h
  constructor
  · have := C04_parse he hN L []
    rw [List.append_nil] at this
    rw [this, hC]
    simp only [Option.getD_some, h1]; rfl
  · intro x t hx
    rw [C04_parse he hN L, hC]
    simp only [Option.getD_some, h2 _ _ _ _ hx]; rfl

/-- **C31 (termination).** Decoding any byte string ends, with a value or an error: no greedy list loops for ever. -/
theorem C31_terminates (L : Lib) (s : List UInt8) : accessParse registry L s ≠ .error .diverge := by
  intro hdiv
  have key : ∀ m ∈ Spec.messages ++ Spec.bare, ∀ t, accessParse registry L (header m ++ t) ≠ .error .diverge := by
    intro m hm t h
    obtain ⟨c, cls, scls, hC, hb⟩ := (served_either m hm).carried registry_ok
    obtain ⟨ctx, hb⟩ := hb L t
    rw [hb] at h
    cases hp : c.parse L ctx t with
    | ok r => rw [hp] at h; cases h
    | error x => rw [hp] at h; cases h; exact hC.1.nodiv _ _ _ hp
  cases hn : opcodeNum s with
  | error x =>
    have : accessParse registry L s = .error x := by simp only [accessParse, accessParseAt, List.drop_zero, hn]; rfl
    rw [this] at hdiv; cases hdiv
    rcases opcodeNum_err hn with h | h <;> cases h
  | ok r =>
    obtain ⟨n, t⟩ := r
    obtain ⟨hw, rfl⟩ := opcodeNum_ok hn
    by_cases hr : Registered n
    · obtain ⟨E, hE, p, hp, hpn⟩ := hr
      obtain ⟨m, hm, hop, -⟩ := C22_complete hE hp
      have hop : m.op = n := by rw [hpn] at hop; exact_mod_cast hop
      subst hop
      cases hs : m.sub with
      | none => exact key m hm t (by rw [header, hs, List.append_nil]; exact hdiv)
      | some sb =>
        have := List.all_eq_true.1 sub_vendor m hm
        rw [hs] at this
        simp only [Option.isNone_some, Bool.false_or, List.any_eq_true, beq_iff_eq] at this
        obtain ⟨⟨op, E'⟩, hq, rfl⟩ := this
        match t with
        | [] =>
          rw [List.append_nil, (C04_unknown_sub hq L).1] at hdiv
          cases hdiv
        | x :: t =>
          cases hx : E'.has (x.toNat : Int) with
          | false => rw [(C04_unknown_sub hq L).2 x t hx] at hdiv; cases hdiv
          | true =>
            simp only [EnumDef.has, List.any_eq_true, beq_iff_eq] at hx
            obtain ⟨p', hp', he'⟩ := hx
            obtain ⟨m', hm', ho', s', hs', hn'⟩ := C22_sub_complete hq hp'
            have : s'.num = x.toNat := by rw [he'] at hn'; exact_mod_cast hn'
            refine key m' hm' t ?_
            simp only [header, hs', ho', this, List.append_assoc, List.cons_append, List.nil_append]
            rw [show UInt8.ofNat x.toNat = x from by simp]
            exact hdiv
    · rw [(C03_passthrough hw hr L t).1] at hdiv; cases hdiv

end BM.Props
