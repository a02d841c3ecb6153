import Verif.FitProps
import Verif.SpecCapnpMsgs
import Verif.Tables
/-!
# Decoded values and the schema (C50): the messages
-/
namespace BM.Capnp
open BM.Schema BM.Case BM.Props Config Tables
variable [Platform]

/-- The values of the row of a table are accepted, for messages that begin with `H` and are not listed. -/
def RowX (us : List Tree) (E : EnumDef) (H : List UInt8) (q : Int × Con UInt8) : Prop := ∀ N, lookupValue E.members q.1 = some N →
  ∀ L ctx s v r, ¬ Spec.CapnpRejects (H ++ s) → q.2.parse L ctx s = .ok (v, r) → Member schema us (camelcase (lower N)) (toCamelcaseDict v)

omit [Platform] in
theorem rowx {us : List Tree} {E : EnumDef} {H : List UInt8} {q : Int × Con UInt8} (h : Row us E q) : RowX us E H q :=
  fun N hN L ctx s v r _ hp => h N hN L ctx s v r hp

omit [Platform] in
theorem rowx_out {us : List Tree} {E : EnumDef} {H : List UInt8} {q : Int × Con UInt8} (h : Spec.capnpRejects.contains H = true) : RowX us E H q :=
  fun _ _ _ _ s _ _ hx _ => absurd ⟨H, List.contains_iff_mem.1 h, List.prefix_append _ _⟩ hx

omit [Platform] in
theorem rejects_append {H t : List UInt8} (h : Spec.capnpRejects.contains H = true) : Spec.CapnpRejects (H ++ t) :=
  ⟨H, List.contains_iff_mem.1 h, List.prefix_append _ _⟩

/-- Every member of the enumeration has a row or is listed. -/
def known (E : EnumDef) (cases : List (Int × Con UInt8)) (H : Int → List UInt8) : Bool :=
  E.members.all fun m => (cases.map (·.1)).contains m.2 || Spec.capnpRejects.contains (H m.2)

omit [Platform] in
theorem findCase_some {k : Int} : ∀ {cases : List (Int × Con UInt8)}, k ∈ cases.map (·.1) → ∃ c, findCase k cases = some c
  | (n, c) :: cs, h => by
    unfold findCase
    split
    · exact ⟨c, rfl⟩
    · rename_i hn
      rcases List.mem_cons.1 h with h | h
      · exact absurd h.symm hn
      · exact findCase_some h

omit [Platform] in
theorem known_find {E : EnumDef} {cases : List (Int × Con UInt8)} {H : Int → List UInt8} (h : known E cases H = true) {n : Int} (hn : E.has n = true) :
    (∃ c, findCase n cases = some c) ∨ Spec.capnpRejects.contains (H n) = true := by
  obtain ⟨N, hN⟩ := lookupValue_of_has hn
  have := List.all_eq_true.1 h _ (lookup_mem hN)
  rcases Bool.or_eq_true_iff.1 this with h | h
  · exact .inl (findCase_some (List.contains_iff_mem.1 h))
  · exact .inr h

omit [Platform] in
/-- The sub-opcode. -/
theorem subkey_inv {E : EnumDef} {L : Lib} {ctx : Dict} {s : List UInt8} {n : Int} {t : List UInt8} (h : (enumAdapter (uintLE 1) E).parse L ctx s = .ok (.enum E.cls n, t)) :
    s = UInt8.ofNat n.toNat :: t ∧ E.has n = true := by
  refine ⟨?_, key_has h⟩
  obtain ⟨u, hu, hd⟩ := parse_adapter h
  match s with
  | [] => cases hu
  | x :: s' =>
    have he : (uintLE 1).parse L ctx (x :: s') = .ok (.int (leNat [x]), s') := rfl
    rw [he] at hu
    injection hu with hu; injection hu with h1 h2; subst h1 h2
    have hh : hashInt (.int (leNat [x])) = some (leNat [x] : Int) := rfl
    simp only [enumDecode, hh] at hd
    split at hd
    · injection hd with hd; injection hd with _ hd; subst hd
      have : leNat [x] = x.toNat := by simp [leNat]
      rw [this]; simp
    · cases hd

omit [Platform] in
/-- A vendor message. -/
theorem rowx_sub {us fs us' : List Tree} {E E' : EnumDef} {H : List UInt8} {n : Int} {N k' T : String} {cases : List (Int × Con UInt8)} (hN : lookupValue E'.members n = some N)
    [hk : CamelName N k'] [hm : HasMember us k' (.type T)] [hT : IsUnion T fs us'] [hs : HasMember fs "subopcode" (.type "UInt8")]
    (hcov : known E cases (fun k => H ++ [UInt8.ofNat k.toNat]) = true) (hg : goodNames E = true) (hd : (fieldNames us').contains "subopcode" = false)
    (hin : Tree.union none us' ∈ fs) (hrow : ∀ q ∈ cases, RowX us' E (H ++ [UInt8.ofNat q.1.toNat]) q) : RowX us E' H (n, subMessage E cases) := by
  intro N' hN' L ctx s v r hx hp
  rw [hN] at hN'
  injection hN' with hN'; subst hN'
  rw [hk.eq]
  have hc : Camel "subopcode" "subopcode" := ⟨by decide +kernel, by decide +kernel⟩
  refine hm.takes _ (takes_switch (hT := hT) (hk := hc) (hm := hs) (key_enum (fit_uint (by decide) (by decide))) hg hd hp ?_ hin)
  intro m t hp'
  obtain ⟨rfl, hh⟩ := subkey_inv hp'
  rw [show H ++ UInt8.ofNat m.toNat :: t = H ++ [UInt8.ofNat m.toNat] ++ t by simp] at hx
  rcases known_find hcov hh with ⟨c, hc⟩ | h
  · exact ⟨c, hc, fun N hN L ctx v r h => hrow _ (findCase_mem hc) N hN L ctx t v r hx h⟩
  · exact absurd (rejects_append h) hx

/-! ### Messages of the models of the Bluetooth SIG -/

/-- The first bytes of a message. -/
abbrev opc (q : Int × Con UInt8) : List UInt8 := wireOpcode q.1.toNat
/-- The payload of a row. -/
syntax "fitrow" : tactic
macro_rules | `(tactic| fitrow) => `(tactic| first
  | with_reducible exact fit_composition
  | with_reducible exact fit_userProperty
  | with_reducible exact fit_propertyStatus
  | with_reducible exact fit_adminSet
  | with_reducible exact fit_settingSet
  | with_reducible exact fit_settingStatus
  | (fit
     all_goals first
      | with_reducible exact fit_descriptorItem
      | with_reducible exact fit_data
      | with_reducible exact fit_parameter))
/-- The rows of a table. -/
syntax "fitrows" : tactic
macro_rules | `(tactic| fitrows) => `(tactic| (
  repeat' (first | with_reducible exact all_nil | refine all_cons (rowx_out (by dsimp only [opc]; decide)) ?_ | refine all_cons (rowx (row rfl ?_)) ?_)
  all_goals fitrow))

/-! ### Constructs of vendor messages -/

omit [Platform] in
theorem fit_sized (k : String) : Fit (.type "Text") (Gateway.sizedString k) := by
  intro L ctx s v r hp
  simp only [Gateway.sizedString] at hp
  cases hn : countOf k ctx with
  | error e => rw [hn] at hp; cases hp
  | ok n => rw [hn] at hp; exact fit_text L ctx s v r hp

omit [Platform] in
theorem fit_bytewise {T : Slot} {n : Nat} {c : Con UInt8} (h : Fit T c) : Fit T (bytewise n c) := by
  intro L ctx s v r hp
  simp only [bytewise] at hp
  cases ht : takeN (8 * n) s with
  | error e => rw [ht] at hp; cases hp
  | ok x =>
    rw [ht] at hp
    simp only [ok_bind] at hp
    split at hp
    · rename_i b _
      cases hc : c.parse L ctx b with
      | error e => rw [hc] at hp; cases hp
      | ok y =>
        rw [hc] at hp
        injection hp with hp; injection hp with hp _; subst hp
        exact h L ctx b _ _ hc
    · cases hp

/-- A property of a vendor model. -/
macro "vmixin" : tactic => `(tactic| (
  refine fit_mixin (plain := idOnly) ⟨all_cons (List.mem_of_getElem? (i := 0) rfl) all_nil, rfl, by decide +kernel, List.mem_of_getElem? (i := 1) rfl⟩ (by decide +kernel) (by decide +kernel) (by fit) ?_
  repeat' (first | with_reducible exact all_nil | refine all_cons (row rfl ?_) ?_)
  all_goals fit))

end BM.Capnp
