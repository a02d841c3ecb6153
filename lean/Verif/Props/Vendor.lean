import Verif.Props.Opcodes
/-!
# Sub-opcodes of the vendor models (C33)
-/
namespace BM.Props
open Tables

/-- A vendor model: its opcode, the class of the opcode, the key of its messages, its sub-opcodes and the constructs of its sub-messages. -/
structure Vendor where
  op : Nat
  cls : String
  key : String
  subs : EnumDef
  cases : List (Int × Con UInt8)

variable [Platform]

/-- The vendor models whose sub-messages are named after their sub-opcodes. -/
def vendorTable : List Vendor := [
  ⟨0xF53601, "DebugOpcode", "silvair_debug", E.DebugSubOpcode, debugParamsCases⟩,
  ⟨0xEA3601, "EmergencyLightingOpcode", "silvair_el", E.EmergencyLightingSubOpcode, emergencyLightingParamsCases⟩,
  ⟨0xE93601, "EmergencyLightingTestOpcode", "silvair_elt", E.EmergencyLightingTestSubOpcode, emergencyLightingTestParamsCases⟩,
  ⟨0xF03601, "GatewayConfigServerOpcode", "silvair_gateway", E.GatewayConfigServerSubOpcode, gatewayConfigParamsCases⟩,
  ⟨0xF63601, "LightExtendedControllerOpcode", "silvair_lec", E.LightExtendedControllerSubOpcode, lightExtendedControllerParamsCases⟩,
  ⟨0xFC3601, "NetworkDiagnosticServerOpcode", "silvair_nds", E.NetworkDiagnosticServerSubOpcode, networkDiagnosticServerParamsCases⟩,
  ⟨0xFD3601, "NetworkDiagnosticSetupServerOpcode", "silvair_nds_setup", E.NetworkDiagnosticSetupServerSubOpcode, networkDiagnosticSetupServerParamsCases⟩]

/-- Vendor `V` is the only opcode of a registered class. -/
structure Vendor.Registered (V : Vendor) (EO : EnumDef) : Prop where
  entry : (EO, [((V.op : Int), subMessage V.subs V.cases)]) ∈ registry
  name : (upper V.key, (V.op : Int)) ∈ EO.members
  lower : lower (upper V.key) = V.key
  cls : EO.cls = V.cls
  key : V.key ≠ "opcode"

set_option maxRecDepth 100000 in
theorem vendor_registered : ∀ V ∈ vendorTable, ∃ EO, V.Registered EO := by
  refine List.forall_iff_forall_mem.1 ?_
  refine ⟨⟨E.DebugOpcode, ?_⟩, ⟨E.EmergencyLightingOpcode, ?_⟩, ⟨E.EmergencyLightingTestOpcode, ?_⟩, ⟨E.GatewayConfigServerOpcode, ?_⟩,
    ⟨E.LightExtendedControllerOpcode, ?_⟩, ⟨E.NetworkDiagnosticServerOpcode, ?_⟩, ⟨E.NetworkDiagnosticSetupServerOpcode, ?_⟩⟩
  all_goals exact ⟨by inreg, by dsimp only; decide +kernel, by dsimp only; decide +kernel, rfl, by dsimp only; decide⟩

omit [Platform] in
theorem has_false {E : EnumDef} {n : Int} (h : ∀ N, lookupValue E.members n ≠ some N) : E.has n = false := by
  cases hh : E.has n with
  | false => rfl
  | true =>
    exfalso
    simp only [EnumDef.has, List.any_eq_true, beq_iff_eq] at hh
    obtain ⟨⟨N, m⟩, hm, rfl⟩ := hh
    have : ∀ ms : List (String × Int), (N, m) ∈ ms → ∃ N', lookupValue ms m = some N' := by
      intro ms
      induction ms with
      | nil => simp
      | cons a r ih =>
        intro hm
        unfold lookupValue
        split
        · exact ⟨_, rfl⟩
        · rename_i hne
          rcases List.mem_cons.1 hm with rfl | hm
          · exact absurd rfl hne
          · exact ih hm
    obtain ⟨N', hN'⟩ := this _ hm
    exact h N' hN'

/-- **C33 (parse).** The byte after the opcode of a vendor model selects the sub-message; what follows is decoded by the construct of that
sub-message (nothing is read for sub-opcodes without one), and reported under the lower-cased name of the sub-opcode. -/
theorem C33_parse {V : Vendor} (hV : V ∈ vendorTable) {N : String} {n : Nat} (hN : lookupValue V.subs.members n = some N) (hn : n < 256)
    (L : Lib) (s : List UInt8) : accessParse registry L (wireOpcode V.op ++ (UInt8.ofNat n :: s)) =
      (do let (v, rest) ← ((findCase n V.cases).getD passC).parse L [("subopcode", .enum V.subs.cls n)] s
          .ok (.dict [("opcode", .enum V.cls V.op), (V.key, .dict [("subopcode", .enum V.subs.cls n), (lower N, v)])], rest)) := by
  obtain ⟨EO, hR⟩ := vendor_registered V hV
  rw [← hR.cls]
  rw [C04_parse hR.entry hR.name, hR.lower]
  have hf : findCase (V.op : Int) [((V.op : Int), subMessage V.subs V.cases)] = some (subMessage V.subs V.cases) := by simp [findCase]
  have hh : V.subs.has n = true := by
    simp only [EnumDef.has, List.any_eq_true, beq_iff_eq]
    exact ⟨_, lookupValue_mem hN, rfl⟩
  have hai : asInt (.enum V.subs.cls n) = some (n : Int) := rfl
  have hcase : caseOf (.enum V.subs.cls n) V.cases passC = (findCase n V.cases).getD passC := by
    rw [caseOf, show hashInt (.enum V.subs.cls n) = some (n : Int) from rfl]
  simp only [hf, Option.getD_some]
  simp only [subMessage, switchStruct, subkey_parse hn hh, ok_bind, hai, hN, hcase]
  cases ((findCase n V.cases).getD passC).parse L [("subopcode", .enum V.subs.cls n)] s <;> rfl

/-- **C33 (unknown sub-opcodes).** A message whose sub-opcode is missing or not a member is an error. -/
theorem C33_parse_unknown {V : Vendor} (hV : V ∈ vendorTable) (L : Lib) {s : List UInt8}
    (h : ∀ x ∈ s.head?, ∀ N, lookupValue V.subs.members x.toNat ≠ some N) : ∃ e, accessParse registry L (wireOpcode V.op ++ s) = .error e := by
  obtain ⟨EO, hR⟩ := vendor_registered V hV
  rw [C04_parse hR.entry hR.name, hR.lower]
  have hf : findCase (V.op : Int) [((V.op : Int), subMessage V.subs V.cases)] = some (subMessage V.subs V.cases) := by simp [findCase]
  simp only [hf, Option.getD_some]
  simp only [subMessage, switchStruct]
  suffices hp : ∃ e, (enumAdapter (uintLE 1) V.subs).parse L [("opcode", .enum EO.cls V.op)] s = .error e by
    obtain ⟨e, he⟩ := hp
    exact ⟨e, by simp only [he, error_bind]⟩
  cases s with
  | nil => exact ⟨.stream, rfl⟩
  | cons x t =>
    have hx : V.subs.has x.toNat = false := has_false (h x (by simp))
    have hl : ((leNat [x] : Nat) : Int) = (x.toNat : Int) := by simp [leNat]
    refine ⟨.validation, ?_⟩
    simp only [enumAdapter, adapter, uintLE, takeN_one, ok_bind, enumDecode, hashInt, asInt, hl, hx, Bool.false_eq_true, if_false, error_bind]

/-- **C33 (build).** Building writes the sub-opcode and the payload built by the construct of that sub-message; the payload is taken from the
key with the lower-cased name of the sub-opcode, else from `payload`, and its absence is a `KeyError`.  -/
theorem C33_build {V : Vendor} (hV : V ∈ vendorTable) {N : String} {n : Nat} (hN : lookupValue V.subs.members n = some N) (hn : n < 256)
    (L : Lib) {d d' : Dict} {k k' : Val} (hk : dget d "opcode" = some k) (hs : hashInt k = some (V.op : Int) ∨ k = .str (upper V.key))
    (hd : (dget d V.key).or (dget d "params") = some (.dict d')) (hk' : dget d' "subopcode" = some k') (hs' : hashInt k' = some (n : Int)) :
    (accessBuild registry L (.dict d)).map Prod.fst =
      match (dget d' (lower N)).or (dget d' "payload") with
      | none => .error .key
      | some u => (((findCase n V.cases).getD passC).build L [("subopcode", .enum V.subs.cls n), ("payload", u)] u).map
          (fun r => wireOpcode V.op ++ (UInt8.ofNat n :: r.1)) := by
  obtain ⟨EO, hR⟩ := vendor_registered V hV
  have hf : findCase (V.op : Int) [((V.op : Int), subMessage V.subs V.cases)] = some (subMessage V.subs V.cases) := by simp [findCase]
  rw [C04_build hR.entry hR.name (by rw [hR.lower]; exact hR.key) L hk hs, hR.lower, hd]
  have hh : V.subs.has n = true := by
    simp only [EnumDef.has, List.any_eq_true, beq_iff_eq]
    exact ⟨_, lookupValue_mem hN, rfl⟩
  have hai : asInt (.enum V.subs.cls n) = some (n : Int) := rfl
  have hcase : caseOf (.enum V.subs.cls n) V.cases passC = (findCase n V.cases).getD passC := by
    rw [caseOf, show hashInt (.enum V.subs.cls n) = some (n : Int) from rfl]
  have hcall : V.subs.call k' = .ok (.enum V.subs.cls n) := by simp only [EnumDef.call, hs', hh, if_true]
  simp only [hf, Option.getD_some]
  simp only [subMessage, switchStruct, dgetE, hk', ok_bind, hcall, hai, hN, hcase]
  cases h1 : dget d' (lower N) with
  | some u =>
    simp only [ok_bind, subkey_build hn hh L _ (k := .enum V.subs.cls n) rfl, Option.some_or]
    cases ((findCase n V.cases).getD passC).build L [("subopcode", .enum V.subs.cls n), ("payload", u)] u <;> rfl
  | none =>
    cases h2 : dget d' "payload" with
    | none => rfl
    | some u =>
      simp only [ok_bind, subkey_build hn hh L _ (k := .enum V.subs.cls n) rfl, Option.none_or]
      cases ((findCase n V.cases).getD passC).build L [("subopcode", .enum V.subs.cls n), ("payload", u)] u <;> rfl

/-- **C33 (spelling).** The sub-opcode must be given as a number or a member: anything else, in particular its name, is an error. -/
theorem C33_build_unknown {V : Vendor} (hV : V ∈ vendorTable) (L : Lib) {d d' : Dict} {k : Val} (hk : dget d "opcode" = some k)
    (hs : hashInt k = some (V.op : Int) ∨ k = .str (upper V.key)) (hd : (dget d V.key).or (dget d "params") = some (.dict d'))
    (h : ∀ k' n N, dget d' "subopcode" = some k' → hashInt k' = some n → lookupValue V.subs.members n ≠ some N) :
    ∃ e, accessBuild registry L (.dict d) = .error e := by
  obtain ⟨EO, hR⟩ := vendor_registered V hV
  have hf : findCase (V.op : Int) [((V.op : Int), subMessage V.subs V.cases)] = some (subMessage V.subs V.cases) := by simp [findCase]
  have key := C04_build hR.entry hR.name (by rw [hR.lower]; exact hR.key) L hk hs
  rw [hR.lower, hd] at key
  have hb : ∃ e, (subMessage V.subs V.cases).build L [("opcode", .enum EO.cls V.op), ("params", .dict d')] (.dict d') = .error e := by
    cases hk' : dget d' "subopcode" with
    | none => exact ⟨.key, by simp only [subMessage, switchStruct, dgetE, hk', error_bind]⟩
    | some k' =>
      have hcall : V.subs.call k' = .error .value := by
        unfold EnumDef.call
        cases hh : hashInt k' with
        | none => rfl
        | some n => simp only [has_false (fun N => h k' n N hk' hh), Bool.false_eq_true, if_false]
      exact ⟨.value, by simp only [subMessage, switchStruct, dgetE, hk', ok_bind, hcall, error_bind]⟩
  obtain ⟨e, he⟩ := hb
  simp only [hf, Option.getD_some, he, Except.map] at key
  cases hbd : accessBuild registry L (.dict d) with
  | error e => exact ⟨e, rfl⟩
  | ok x => rw [hbd] at key; cases key

example : lookupValue E.EmergencyLightingSubOpcode.members 0x05 = some "EL_STATE_STATUS" := by decide +kernel
-- two members with the same number: the second is an alias of the first
example : lookupValue E.LightExtendedControllerSubOpcode.members 6 = some "BULK_LEC_PROPERTY_SET" := by decide +kernel

end BM.Props
