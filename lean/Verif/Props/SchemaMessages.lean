import Verif.FitAll
import Verif.NotAccepted
import Verif.Witness
import Verif.SchemaTrees
import Verif.Props.Opcodes
/-!
# Decoded messages and the generated Cap'n Proto schema (C50)
-/
namespace BM.Props
open Tables Config Capnp BM.Schema BM.Case
variable [Platform]

/-- The only member of `AccessMessage` besides the payloads. -/
def opcodeOnly : List Tree := [.field (some "opcode") "UInt32"]

omit [Platform] in
theorem access_plain : Plain s_AccessMessage u_AccessMessage opcodeOnly :=
  ⟨all_cons (List.mem_of_getElem? (i := 0) rfl) all_nil, rfl, by decide +kernel, List.mem_of_getElem? (i := 1) rfl⟩

omit [Platform] in
theorem takes_access {E : EnumDef} (hE : goodNames E = true ∧ small E 32 = true) {N : String} {n : Int} (hN : lookupValue E.members n = some N) (hne : lower N ≠ "opcode") {v : Val}
    (h : Member schema u_AccessMessage (camelcase (lower N)) (toCamelcaseDict v)) :
    Accepts schema "AccessMessage" (toCamelcaseDict (.dict [("opcode", .enum E.cls n), (lower N, v)])) := by
  have e : [("opcode", .enum E.cls n), (lower N, v)] = dset [("opcode", .enum E.cls n)] (lower N) v := by simp [dset, Ne.symm hne]
  rw [e]
  refine takes_header (T := "AccessMessage") access_plain ?_ (good_ne hE.1 hN) h
  refine forall_pair_cons ⟨by decide, .inr ?_⟩ forall_pair_nil
  rw [show camelcase "opcode" = "opcode" by decide +kernel]
  obtain ⟨a, b⟩ := small_lt hE.2 hN
  exact .field List.mem_cons_self (in_u32 a (by simpa using b))

/-- No opcode has the name of the entry with the opcode. -/
def notOpcode (E : EnumDef) : Bool := E.members.all fun m => lower m.1 != "opcode"

theorem registry_notOpcode : ∀ e ∈ registry, notOpcode e.1 = true := by
  unfold registry
  repeat' (first | with_reducible exact all_nil | refine all_cons (by dsimp only; decide +kernel) ?_)

theorem accepts_registered {n : Nat} (hn : Registered n) (L : Lib) (t : List UInt8) {v : Val} {rest : List UInt8}
    (h : accessParse registry L (wireOpcode n ++ t) = .ok (v, rest)) (hx : ¬ Spec.CapnpRejects (wireOpcode n ++ t)) :
    Accepts schema "AccessMessage" (toCamelcaseDict v) := by
  obtain ⟨E, hE, ⟨N, k⟩, hp, hk⟩ := hn
  obtain ⟨en, he, rfl⟩ := List.mem_map.1 (registry_enums ▸ hE)
  have hk : k = (n : Int) := hk
  subst hk
  have hN := lookupValue_of_mem (numbers_of registry_ok he) hp
  rw [C04_parse he hp] at h
  have hf : (∃ c, findCase (n : Int) en.2 = some c) ∨ _ := known_find (registry_known en he) (List.any_eq_true.2 ⟨_, hp, by simp⟩)
  rcases hf with ⟨c, hf⟩ | hf
  · rw [hf] at h
    simp only [Option.getD_some] at h
    cases hq : c.parse L [("opcode", .enum en.1.cls n)] t with
    | error e => rw [hq] at h; cases h
    | ok r =>
      obtain ⟨u, r⟩ := r
      rw [hq] at h
      simp only [ok_bind] at h
      injection h with h
      injection h with h _
      subst h
      have hne : lower N ≠ "opcode" := by simpa using List.all_eq_true.1 (registry_notOpcode en he) _ hp
      exact takes_access (registry_names en he) hN hne (registry_fit en he ((n : Int), c) (Capnp.findCase_mem hf) N hN L _ t u r hx hq)
  · exact absurd (rejects_append hf) hx

set_option maxRecDepth 1000000 in
omit [Platform] in
/-- No member of the message type is called `params`. -/
theorem no_params : (schema.all fun e => e.1 != "AccessMessage" || !nameMay 8 e.2 "params") = true := by decide +kernel

omit [Platform] in
theorem not_accepts_unknown (n : Int) (s : List UInt8) :
    ¬ Accepts schema "AccessMessage" (toCamelcaseDict (.dict [("opcode", .int n), ("params", .bytes s)])) := by
  have h1 : camelcase "opcode" = "opcode" := by decide +kernel
  have h2 : camelcase "params" = "params" := by decide +kernel
  have : ∃ v w, toCamelcaseDict (.dict [("opcode", .int n), ("params", .bytes s)]) = .dict [("opcode", v), ("params", w)] := by
    refine ⟨toCamelcaseDict (.int n), toCamelcaseDict (.bytes s), ?_⟩
    have p1 : isPrivate "opcode" = false := by decide +kernel
    have p2 : isPrivate "params" = false := by decide +kernel
    have g : dget [("opcode", Val.int n), ("params", Val.bytes s)] "_name" = none := by simp [dget]
    simp [toCamelcaseDict, toCase, toCaseItems, h1, h2, dset, p1, p2, g]
  obtain ⟨v, w, e⟩ := this
  rw [e]
  exact not_member (k := "params") (v := w) 8 (by simp) no_params

/-- **C50.** Take any message that decodes and does not begin like one of the listed ones.  The decoded value, with the names of its entries
converted, can be stored in the generated Cap'n Proto message type if and only if the opcode is one of the registered ones. -/
theorem C50_accepts (L : Lib) {s : List UInt8} {v : Val} {rest : List UInt8} (h : accessParse registry L s = .ok (v, rest))
    (hx : ¬ Spec.CapnpRejects s) :
    Accepts schema "AccessMessage" (toCamelcaseDict v) ↔ ∃ (n : Nat) (t : List UInt8), Registered n ∧ s = wireOpcode n ++ t := by
  constructor
  · intro ha
    cases hn : opcodeNum s with
    | error x =>
      have : accessParse registry L s = .error x := by simp only [accessParse, accessParseAt, List.drop_zero, hn]; rfl
      rw [this] at h
      cases h
    | ok r =>
      obtain ⟨n, t⟩ := r
      obtain ⟨hw, rfl⟩ := opcodeNum_ok hn
      by_cases hr : Registered n
      · exact ⟨n, t, hr, rfl⟩
      · rw [(C03_passthrough hw hr L t).1] at h
        injection h with h
        injection h with h _
        subst h
        exact absurd ha (not_accepts_unknown _ _)
  · rintro ⟨n, t, hr, rfl⟩
    exact accepts_registered hr L t h hx

omit [Platform] in
/-- A way to see that a message is not listed. -/
theorem not_rejects {m : List UInt8} (h : (Spec.capnpRejects.any fun p => p.isPrefixOf m) = false) : ¬ Spec.CapnpRejects m := by
  rintro ⟨p, hp, hx⟩
  exact absurd (List.isPrefixOf_iff_prefix.2 hx) (List.any_eq_false.1 h p hp)

set_option maxRecDepth 100000 in
/-- The hypotheses hold, e.g. for *sensor get* with a property, whose value is accepted, ... -/
example : ∃ v, (∀ L, accessParse registry L [0x82, 0x31, 0x4F, 0x00] = .ok (v, [])) ∧ ¬ Spec.CapnpRejects [0x82, 0x31, 0x4F, 0x00] ∧
    Accepts schema "AccessMessage" (toCamelcaseDict v) := by
  have h : ∀ L, accessParse registry L [0x82, 0x31, 0x4F, 0x00] =
      .ok (.dict [("opcode", .enum "SensorOpcode" 0x8231), ("sensor_get", .dict [("property_id", .enum "PropertyID" 0x4F), ("_name", .str "optional")])], []) := by
    intro L
    rw [show ([0x82, 0x31, 0x4F, 0x00] : List UInt8) = wireOpcode 0x8231 ++ [0x4F, 0x00] from rfl,
      C04_parse (e := (E.SensorOpcode, sensorCases)) (N := "SENSOR_GET") (n := 0x8231) (by inreg) (by dsimp only; decide +kernel)]
    with_unfolding_all rfl
  have hx : ¬ Spec.CapnpRejects [0x82, 0x31, 0x4F, 0x00] := not_rejects (by decide)
  exact ⟨_, h, hx, (C50_accepts strictLib (h _) hx).2 ⟨0x8231, [0x4F, 0x00], ⟨E.SensorOpcode, List.mem_of_getElem? (i := 14) rfl, ("SENSOR_GET", 0x8231), by decide +kernel, rfl⟩, rfl⟩⟩

end BM.Props
