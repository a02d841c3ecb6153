import Verif.Alias
import Verif.Props.Vendor
/-!
# The message classes and their second name for the payload (C38)
-/
namespace BM.Props
open Tables

set_option linter.unusedSimpArgs false

/-- The key of a switch is a member of `E`. -/
structure KeyOf (E : EnumDef) (c : Con UInt8) : Prop where
  none : c.buildNone = false
  parse : ∀ L ctx s v rest, c.parse L ctx s = .ok (v, rest) → ∃ n N, v = .enum E.cls n ∧ lookupValue E.members n = some N
  build : ∀ L ctx n b v, c.build L ctx (.enum E.cls n) = .ok (b, v) → v = .enum E.cls n
  ctx : ∀ L ctx ctx' s, c.parse L ctx s = c.parse L ctx' s
  bctx : ∀ L ctx ctx' u, c.build L ctx u = c.build L ctx' u

theorem has_lookup {E : EnumDef} {n : Int} (h : E.has n = true) : ∃ N, lookupValue E.members n = some N := by
  by_contra hc
  have := has_false (E := E) (n := n) (fun N hN => hc ⟨N, hN⟩)
  simp [this] at h

theorem keyOf_opcode (E : EnumDef) : KeyOf E (opcodeC (some E)) where
  none := rfl
  parse := by
    intro L ctx s v rest h
    simp only [opcodeC] at h
    obtain ⟨⟨n, r⟩, h1, h⟩ := bind_ok.1 h
    obtain ⟨w, h2, h⟩ := bind_ok.1 h
    simp only [opcodeType] at h2
    split at h2
    · rename_i hh
      obtain ⟨N, hN⟩ := has_lookup hh
      cases h2; cases h
      exact ⟨n, N, rfl, hN⟩
    · cases h2
  build := by
    intro L ctx n b v h
    simp only [opcodeC, asInt] at h
    obtain ⟨b', h1, h⟩ := bind_ok.1 h
    obtain ⟨w, h2, h⟩ := bind_ok.1 h
    simp only [opcodeType] at h2
    split at h2
    · cases h2; cases h; rfl
    · cases h2
  ctx := fun _ _ _ _ => rfl
  bctx := fun _ _ _ _ => rfl

theorem keyOf_enum (E : EnumDef) : KeyOf E (enumAdapter (uintLE 1) E) where
  none := rfl
  parse := by
    intro L ctx s v rest h
    simp only [enumAdapter, adapter] at h
    obtain ⟨⟨w, r⟩, h1, h⟩ := bind_ok.1 h
    obtain ⟨x, h2, h⟩ := bind_ok.1 h
    cases h
    simp only [enumDecode] at h2
    split at h2
    · split at h2
      · rename_i n _ hh
        obtain ⟨N, hN⟩ := has_lookup hh
        cases h2
        exact ⟨n, N, rfl, hN⟩
      · cases h2
    · cases h2
  build := by
    intro L ctx n b v h
    simp only [enumAdapter, adapter] at h
    obtain ⟨w, h2, h⟩ := bind_ok.1 h
    obtain ⟨⟨b', y⟩, h3, h⟩ := bind_ok.1 h
    cases h
    rfl
  ctx := fun _ _ _ _ => rfl
  bctx := fun _ _ _ _ => rfl

/-- A `SwitchStruct`: the name and construct of its key, the class of the key, the name of the switch and its cases. -/
structure Switch where
  key : String
  con : Con UInt8
  members : EnumDef
  sw : String
  cases : List (Int × Con UInt8)

namespace Switch

/-- The construct as part of other constructs and of `AccessMessage` (compiled form). -/
abbrev compiled (W : Switch) : Con UInt8 := switchStruct W.key W.con W.members W.sw W.cases
/-- `W.parse(data)`. -/
abbrev parse (W : Switch) (L : Lib) (s : List UInt8) := switchParse W.key W.con W.members W.sw W.cases L s
/-- `W.build(m)` for a container `m`. -/
abbrev build (W : Switch) (L : Lib) (m : Container) := switchBuild W.key W.con W.members W.sw W.cases L m.item
/-- `W.build(d)` for a dictionary `d`. -/
abbrev buildDict (W : Switch) (L : Lib) (d : Dict) := switchBuild W.key W.con W.members W.sw W.cases L (dgetE d)

structure Good (W : Switch) : Prop where
  keyOf : KeyOf W.members W.con
  ne : W.key ≠ W.sw
  names : ∀ n N, lookupValue W.members.members n = some N → lower N ≠ W.key ∧ lower N ≠ W.sw

end Switch

theorem switchEncode_eq {key : String} {E : EnumDef} {sw : String} {item : String → R Val} {k : Val} {n : Int} {N : String}
    (hk : item key = .ok k) (hn : hashInt k = some n) (hN : lookupValue E.members n = some N) :
    switchEncode key E sw item = (do
      let v ← itemOr item (lower N) sw
      .ok (dset [(key, .enum E.cls n)] sw v)) := by
  have hh : E.has n = true := by
    simp only [EnumDef.has, List.any_eq_true, beq_iff_eq]
    exact ⟨_, lookupValue_mem hN, rfl⟩
  simp only [switchEncode, hk, ok_bind, EnumDef.call, hn, hh, if_true, keyName, hN]

theorem members_build {W : Switch} (hW : W.Good) (L : Lib) (n : Int) (v : Val) :
    ((switchMembers W.key W.con W.sw W.cases).build L [] (.dict (dset [(W.key, .enum W.members.cls n)] W.sw v))).map Prod.fst =
      (do let (b1, _) ← W.con.build L [(W.key, .enum W.members.cls n), (W.sw, v)] (.enum W.members.cls n)
          let (b2, _) ← (caseOf (.enum W.members.cls n) W.cases passC).build L [(W.key, .enum W.members.cls n), (W.sw, v)] v
          .ok (b1 ++ b2)) := by
  have hne := hW.ne
  have hne' : W.sw ≠ W.key := Ne.symm hne
  simp only [switchMembers, struct, asDict, ok_bind, buildItems, field, hW.keyOf.none, dset, hne, hne', if_false, dgetE, dget, if_true,
    Bool.false_eq_true, switchC, this]
  cases hb : W.con.build L [(W.key, .enum W.members.cls n), (W.sw, v)] (.enum W.members.cls n) with
  | error e => rfl
  | ok r =>
    obtain ⟨b1, r⟩ := r
    have := hW.keyOf.build _ _ _ _ _ hb
    subst this
    simp only [ok_bind, dset, hne, hne', if_false, if_true, dget, ite_self, Option.getD_some]
    cases (caseOf (.enum W.members.cls n) W.cases passC).build L [(W.key, .enum W.members.cls n), (W.sw, v)] v with
    | error e => rfl
    | ok r =>
      obtain ⟨b2, x⟩ := r
      simp [Except.map]

theorem map_bind_fst {α β : Type} (x : R (α × β)) : (do let (b, _) ← x; (.ok b : R α)) = x.map Prod.fst := by
  cases x <;> rfl

/-- What building does, given the items of the object. -/
theorem switchBuild_eq {W : Switch} (hW : W.Good) (L : Lib) {item : String → R Val} {k : Val} {n : Int} {N : String}
    (hk : item W.key = .ok k) (hn : hashInt k = some n) (hN : lookupValue W.members.members n = some N) :
    switchBuild W.key W.con W.members W.sw W.cases L item = (do
      let v ← itemOr item (lower N) W.sw
      let (b1, _) ← W.con.build L [(W.key, .enum W.members.cls n), (W.sw, v)] (.enum W.members.cls n)
      let (b2, _) ← (caseOf (.enum W.members.cls n) W.cases passC).build L [(W.key, .enum W.members.cls n), (W.sw, v)] v
      .ok (b1 ++ b2)) := by
  simp only [switchBuild, switchEncode_eq hk hn hN, map_bind_fst]
  cases itemOr item (lower N) W.sw with
  | error e => rfl
  | ok v => simp only [ok_bind, members_build hW]

theorem switchBuild_congr {W : Switch} (L : Lib) {item item' : String → R Val} {k : Val} {n : Int} {N : String}
    (hk : item W.key = .ok k) (hk' : item' W.key = .ok k) (hn : hashInt k = some n) (hN : lookupValue W.members.members n = some N)
    (hv : itemOr item (lower N) W.sw = itemOr item' (lower N) W.sw) :
    switchBuild W.key W.con W.members W.sw W.cases L item = switchBuild W.key W.con W.members W.sw W.cases L item' := by
  simp only [switchBuild, switchEncode_eq hk hn hN, switchEncode_eq hk' hn hN, hv]

/-- Interpreted and compiled parsing. -/
theorem switchParse_eq {W : Switch} (hW : W.Good) (L : Lib) (ctx : Dict) (s : List UInt8) :
    (∃ e, W.parse L s = .error e ∧ W.compiled.parse L ctx s = .error e) ∨
    (∃ n N v rest, lookupValue W.members.members n = some N ∧
      W.parse L s = .ok (⟨[(W.key, .enum W.members.cls n), (lower N, v)], W.sw, lower N⟩, rest) ∧
      W.compiled.parse L ctx s = .ok (.dict [(W.key, .enum W.members.cls n), (lower N, v)], rest)) := by
  have hne := hW.ne
  simp only [Switch.parse, switchParse, switchMembers, struct, parseItems, field, Switch.compiled, switchStruct,
    hW.keyOf.ctx L ctx []]
  cases hp : W.con.parse L [] s with
  | error e => exact .inl ⟨e, rfl, rfl⟩
  | ok r =>
    obtain ⟨k, r⟩ := r
    obtain ⟨n, N, rfl, hN⟩ := hW.keyOf.parse _ _ _ _ _ hp
    obtain ⟨h1, h2⟩ := hW.names n N hN
    simp only [ok_bind, dset, switchC, this, dgetE, dget, if_true, asInt, hN]
    cases (caseOf (.enum W.members.cls n) W.cases passC).parse L [(W.key, .enum W.members.cls n)] r with
    | error e => exact .inl ⟨e, rfl, rfl⟩
    | ok x =>
      obtain ⟨v, rest⟩ := x
      refine .inr ⟨n, N, v, rest, hN, ?_, rfl⟩
      simp [dset, hne, Ne.symm h1, asDict, switchDecode, dgetE, dget, keyName, hN]

variable [Platform]

/-- Every `SwitchStruct` of the package: the message classes, the sub-messages of the vendor models named after their sub-opcodes,
the pages of the composition data and the parameters of `debugV2`. -/
def switches : List Switch :=
  registry.map (fun e => ⟨"opcode", opcodeC (some e.1), e.1, "params", e.2⟩) ++
  vendorTable.map (fun V => ⟨"subopcode", enumAdapter (uintLE 1) V.subs, V.subs, "payload", V.cases⟩) ++
  [⟨"page", enumAdapter (uintLE 1) E.CompositionDataPage, E.CompositionDataPage, "data",
      [(0, Config.compositionDataPage0), (1, Config.compositionDataPage1), (2, Config.compositionDataPage2), (255, greedyBytes)]⟩,
   ⟨"data_type", enumAdapter (uintLE 1) E.DebugV2DataTypes, E.DebugV2DataTypes, "parameter", DebugV2.parameterCases⟩]

omit [Platform] in
theorem names_of {E : EnumDef} {a b : String} (h : (E.members.all fun m => lower m.1 != a && lower m.1 != b) = true) :
    ∀ n N, lookupValue E.members n = some N → lower N ≠ a ∧ lower N ≠ b := by
  intro n N hN
  have := List.all_eq_true.1 h _ (lookupValue_mem hN)
  simpa using this

theorem switches_good : ∀ W ∈ switches, W.Good := by
  intro W hW
  simp only [switches, List.mem_append, List.mem_map, or_assoc] at hW
  rcases hW with ⟨e, he, rfl⟩ | ⟨V, hV, rfl⟩ | hW
  · refine ⟨keyOf_opcode _, by simp, ?_⟩
    intro n N hN
    dsimp only at hN
    have hmem : lower N ∈ (opcodeEnums.flatMap fun E => E.members.map fun m => lower m.1) :=
      List.mem_flatMap.2 ⟨e.1, by rw [← registry_enums]; exact List.mem_map.2 ⟨e, he, rfl⟩, List.mem_map.2 ⟨_, lookupValue_mem hN, rfl⟩⟩
    exact ⟨fun h => C04_keys.2.1 ((show lower N = "opcode" from h) ▸ hmem), fun h => C04_keys.2.2 ((show lower N = "params" from h) ▸ hmem)⟩
  · refine ⟨keyOf_enum _, by simp, names_of ?_⟩
    dsimp only
    have : ∀ V ∈ vendorTable, (V.subs.members.all fun m => lower m.1 != "subopcode" && lower m.1 != "payload") = true := by
      refine List.forall_iff_forall_mem.1 ?_
      refine ⟨?_, ?_, ?_, ?_, ?_, ?_, ?_⟩ <;> first | (dsimp only; decide +kernel) | (simp only [List.Forall]; decide +kernel)
    exact this V hV
  · simp only [List.mem_cons, List.not_mem_nil, or_false] at hW
    rcases hW with rfl | rfl
    · exact ⟨keyOf_enum _, by simp, names_of (by dsimp only; decide +kernel)⟩
    · exact ⟨keyOf_enum _, by simp, names_of (by dsimp only; decide +kernel)⟩

/-- **C38 (same entries).** A class parses exactly the bytes its compiled form parses (the form inside `AccessMessage` and inside other
messages), to a container with the same entries. -/
theorem C38_same {W : Switch} (hW : W ∈ switches) (L : Lib) (ctx : Dict) (s rest : List UInt8) (d : Dict) :
    (∃ m, W.parse L s = .ok (m, rest) ∧ m.entries = d) ↔ W.compiled.parse L ctx s = .ok (.dict d, rest) := by
  rcases switchParse_eq (switches_good W hW) L ctx s with ⟨e, h1, h2⟩ | ⟨n, N, v, r, hN, h1, h2⟩
  · rw [h1, h2]
    constructor
    · rintro ⟨m, h, -⟩; cases h
    · intro h; cases h
  · rw [h1, h2]
    constructor
    · rintro ⟨m, h, rfl⟩; cases h; rfl
    · intro h; cases h; exact ⟨_, rfl, rfl⟩

/-- **C38 (same bytes).** Building a dictionary with a class or with its compiled form is the same. -/
theorem C38_build {W : Switch} (hW : W ∈ switches) (L : Lib) (ctx d : Dict) :
    W.buildDict L d = (W.compiled.build L ctx (.dict d)).map Prod.fst := by
  have hg := switches_good W hW
  simp only [Switch.compiled, switchStruct]
  cases hk : dget d W.key with
  | none => simp only [Switch.buildDict, switchBuild, switchEncode, dgetE, hk, error_bind]; rfl
  | some k =>
    have hk' : dgetE d W.key = .ok k := by simp only [dgetE, hk]
    cases hn : hashInt k with
    | none => simp only [Switch.buildDict, switchBuild, switchEncode, hk', EnumDef.call, hn, ok_bind, error_bind]; rfl
    | some n =>
      cases hh : W.members.has n with
      | false =>
        simp only [Switch.buildDict, switchBuild, switchEncode, hk', EnumDef.call, hn, hh, ok_bind, error_bind, Bool.false_eq_true, if_false]
        rfl
      | true =>
        obtain ⟨N, hN⟩ := has_lookup hh
        rw [Switch.buildDict, switchBuild_eq hg L hk' hn hN]
        simp only [hk', ok_bind, EnumDef.call, hn, hh, if_true, asInt, hN]
        have tail : ∀ v : Val, (do
            let (b1, _) ← W.con.build L [(W.key, .enum W.members.cls n), (W.sw, v)] (.enum W.members.cls n)
            let (b2, _) ← (caseOf (.enum W.members.cls n) W.cases passC).build L [(W.key, .enum W.members.cls n), (W.sw, v)] v
            (.ok (b1 ++ b2) : R (List UInt8))) = (do
            let (b1, _) ← W.con.build L [(W.key, .enum W.members.cls n), (W.sw, v)] (.enum W.members.cls n)
            let (b2, _) ← (caseOf (.enum W.members.cls n) W.cases passC).build L [(W.key, .enum W.members.cls n), (W.sw, v)] v
            (.ok (b1 ++ b2, Val.dict d) : R (List UInt8 × Val))).map Prod.fst := by
          intro v
          cases W.con.build L [(W.key, .enum W.members.cls n), (W.sw, v)] (.enum W.members.cls n) with
          | error e => rfl
          | ok r =>
            simp only [ok_bind]
            cases (caseOf (.enum W.members.cls n) W.cases passC).build L [(W.key, .enum W.members.cls n), (W.sw, v)] v <;> rfl
        simp only [itemOr, dgetE]
        cases dget d (lower N) with
        | some v => simp only [ok_bind]; exact tail v
        | none =>
          cases dget d W.sw with
          | some v => simp only [ok_bind]; exact tail v
          | none => rfl

/-- **C38 (two names).** A message parsed by its class has the key and the payload under the lower-cased name of the key, and nothing else; asked
for the name of the switch (`params`, `payload`, …) it answers with the payload too, although that name is not among its keys. -/
theorem C38_names {W : Switch} (hW : W ∈ switches) {L : Lib} {s rest : List UInt8} {m : Container} (h : W.parse L s = .ok (m, rest)) :
    ∃ n N v, lookupValue W.members.members n = some N ∧ dkeys m.entries = [W.key, lower N] ∧
      m.item W.key = .ok (.enum W.members.cls n) ∧ m.item (lower N) = .ok v ∧ m.item W.sw = .ok v ∧ m.get W.sw = none := by
  have hg := switches_good W hW
  rcases switchParse_eq hg L [] s with ⟨e, h1, -⟩ | ⟨n, N, v, r, hN, h1, -⟩
  · rw [h1] at h; cases h
  · rw [h1] at h
    cases h
    obtain ⟨a, b⟩ := hg.names n N hN
    have hne := hg.ne
    refine ⟨n, N, v, hN, rfl, ?_, ?_, ?_, ?_⟩ <;> simp [Container.item, Container.get, dgetE, dget, hne, a, b, Ne.symm a, Ne.symm b]

/-- **C38 (no second name in `AccessMessage`).** What `AccessMessage` parses for a registered opcode has no `params`. -/
theorem C38_access {e : Entry} (he : e ∈ registry) {N : String} {n : Nat} (hN : (N, (n : Int)) ∈ e.1.members) {L : Lib} {s rest : List UInt8} {d : Dict}
    (h : accessParse registry L (wireOpcode n ++ s) = .ok (.dict d, rest)) : dkeys d = ["opcode", lower N] ∧ dget d "params" = none := by
  have hmem : lower N ∈ (opcodeEnums.flatMap fun E => E.members.map fun m => lower m.1) :=
    List.mem_flatMap.2 ⟨e.1, by rw [← registry_enums]; exact List.mem_map.2 ⟨e, he, rfl⟩, List.mem_map.2 ⟨_, hN, rfl⟩⟩
  rw [C04_parse he hN] at h
  obtain ⟨⟨v, r⟩, -, h⟩ := bind_ok.1 h
  cases h
  have h2 : lower N ≠ "params" := fun h => C04_keys.2.2 (h ▸ hmem)
  exact ⟨rfl, by simp [dget, h2]⟩

/-- **C38 (assigning the second name).** Assigning to the second name of a parsed message changes neither what it answers nor what is
built from it. -/
theorem C38_assign {W : Switch} (hW : W ∈ switches) {L : Lib} {s rest : List UInt8} {m : Container} (h : W.parse L s = .ok (m, rest))
    (L' : Lib) (x : Val) : (m.set W.sw x).item W.sw = m.item W.sw ∧ W.build L' (m.set W.sw x) = W.build L' m := by
  have hg := switches_good W hW
  rcases switchParse_eq hg L [] s with ⟨e, h1, -⟩ | ⟨n, N, v, r, hN, h1, -⟩
  · rw [h1] at h; cases h
  · rw [h1] at h
    cases h
    obtain ⟨a, b⟩ := hg.names n N hN
    have hne := hg.ne
    refine ⟨by simp [Container.item, Container.set, dgetE, dget, dset, hne, a, b, Ne.symm a, Ne.symm b], ?_⟩
    refine switchBuild_congr L' (k := .enum W.members.cls n) (n := n) (N := N) ?_ ?_ rfl hN ?_ <;>
      simp [itemOr, Container.item, Container.set, dgetE, dget, dset, hne, a, b, Ne.symm a, Ne.symm b]

/-- **C38 (assigning the payload).** Assigning to the named payload of a parsed message is seen under both names, and building
writes the message with the new payload. -/
theorem C38_replace {W : Switch} (hW : W ∈ switches) {L : Lib} {s rest : List UInt8} {m : Container} (h : W.parse L s = .ok (m, rest))
    {n : Int} {N : String} (hk : m.item W.key = .ok (.enum W.members.cls n)) (hN : lookupValue W.members.members n = some N) (L' : Lib) (x : Val) :
    (m.set (lower N) x).item (lower N) = .ok x ∧ (m.set (lower N) x).item W.sw = .ok x ∧
      W.build L' (m.set (lower N) x) = W.buildDict L' [(W.key, .enum W.members.cls n), (lower N, x)] := by
  have hg := switches_good W hW
  rcases switchParse_eq hg L [] s with ⟨e, h1, -⟩ | ⟨n', N', v, r, hN', h1, -⟩
  · rw [h1] at h; cases h
  · rw [h1] at h
    cases h
    have hne := hg.ne
    have : n' = n := by simpa [Container.item, dgetE, dget, hne] using hk
    subst this
    have : N' = N := by rw [hN] at hN'; cases hN'; rfl
    subst this
    obtain ⟨a, b⟩ := hg.names n' N' hN
    refine ⟨by simp [Container.item, Container.set, dgetE, dget, dset, hne, a, b, Ne.symm a, Ne.symm b],
      by simp [Container.item, Container.set, dgetE, dget, dset, hne, a, b, Ne.symm a, Ne.symm b], ?_⟩
    refine switchBuild_congr L' (k := .enum W.members.cls n') (n := n') (N := N') ?_ ?_ rfl hN ?_ <;>
      simp [itemOr, Container.item, Container.set, dgetE, dget, dset, hne, a, b, Ne.symm a, Ne.symm b]

/-- **C38 (another opcode).** When the key of a parsed message is replaced by another member, building the message sends the old payload
under the new key; the same entries in a plain dictionary (as parsed by `AccessMessage`) are rejected. -/
theorem C38_rekey {W : Switch} (hW : W ∈ switches) {L : Lib} {s rest : List UInt8} {m : Container} (h : W.parse L s = .ok (m, rest))
    {v : Val} (hv : m.item W.sw = .ok v) {k : Val} {n : Int} {N : String} (hk : hashInt k = some n) (hN : lookupValue W.members.members n = some N)
    (hnew : m.get (lower N) = none) (L' : Lib) :
    W.build L' (m.set W.key k) = W.buildDict L' [(W.key, k), (lower N, v)] ∧ W.buildDict L' (m.set W.key k).entries = .error .key := by
  have hg := switches_good W hW
  rcases switchParse_eq hg L [] s with ⟨e, h1, -⟩ | ⟨n', N', w, r, hN', h1, -⟩
  · rw [h1] at h; cases h
  · rw [h1] at h
    cases h
    obtain ⟨a, b⟩ := hg.names n N hN
    obtain ⟨a', b'⟩ := hg.names n' N' hN'
    have hne := hg.ne
    have hNN : lower N' ≠ lower N := by
      intro e
      simp [Container.get, dget, e, Ne.symm a] at hnew
    have hw : w = v := by simpa [Container.item, dgetE, dget, Ne.symm a'] using hv
    subst hw
    constructor
    · refine switchBuild_congr L' (k := k) (n := n) (N := N) ?_ ?_ hk hN ?_ <;>
        simp [itemOr, Container.item, Container.set, dgetE, dget, dset, hne, a, b, Ne.symm a, Ne.symm b, a', b', Ne.symm a', Ne.symm b', hNN, Ne.symm hNN]
    · have hk1 : dgetE (Container.set ⟨[(W.key, .enum W.members.cls n'), (lower N', w)], W.sw, lower N'⟩ W.key k).entries W.key = .ok k := by
        simp [Container.set, dset, dgetE, dget]
      simp only [Switch.buildDict, switchBuild, switchEncode_eq hk1 hk hN]
      simp [itemOr, Container.set, dset, dgetE, dget, hne, Ne.symm a, hNN, b']

/-- The names of `E` differ from `property_id` and from `property_value`. -/
def PropertyNames (E : EnumDef) : Prop := ∀ n N, lookupValue E.members n = some N → lower N ≠ "property_id" ∧ lower N ≠ "property_value"

omit [Platform] in
/-- **C38 (properties).** A parsed message with a property has its value under the lower-cased name of the property; asked for `property_value`
it answers with it too. -/
theorem C38_property {En : EnumDef} (hE : PropertyNames En) {D : List (Int × Con UInt8)} {hdr : List (Item UInt8)} {L : Lib} {ctx : Dict}
    {s rest : List UInt8} {w : Val} (h : (propertyMixin En D hdr).parse L ctx s = .ok (w, rest)) :
    ∃ d m n N v, w = .dict d ∧ propertyContainer En d = .ok m ∧ m.entries = d ∧ lookupValue En.members n = some N ∧
      m.item "property_id" = .ok (.enum En.cls n) ∧ m.item (lower N) = .ok v ∧ m.item "property_value" = .ok v := by
  simp only [propertyMixin] at h
  obtain ⟨⟨d, s'⟩, -, h⟩ := bind_ok.1 h
  obtain ⟨id0, -, h⟩ := bind_ok.1 h
  obtain ⟨id, hc, h⟩ := bind_ok.1 h
  obtain ⟨name, hm, h⟩ := bind_ok.1 h
  obtain ⟨c, -, h⟩ := bind_ok.1 h
  obtain ⟨⟨v, r⟩, -, h⟩ := bind_ok.1 h
  simp only [EnumDef.call] at hc
  split at hc
  · rename_i n _
    split at hc
    · rename_i hh
      obtain ⟨N, hN⟩ := has_lookup hh
      cases hc
      simp only [memberKey, asInt, hN] at hm
      injection hm with hm
      subst hm
      injection h with h
      injection h with h1 h2
      subst h1
      obtain ⟨a, b⟩ := hE n N hN
      have hid : dget (dset (dset (dpop d "property_id") "property_id" (.enum En.cls n)) (lower N) v) "property_id" = some (.enum En.cls n) := by
        rw [dget_dset_ne _ _ a, dget_dset_self]
      refine ⟨_, ⟨_, "property_value", lower N⟩, n, N, v, rfl, ?_, rfl, hN, ?_, ?_, ?_⟩
      · simp only [propertyContainer, dgetE, hid, ok_bind, keyName, hN]
      · simp [Container.item, dgetE, hid]
      · simp [Container.item, dgetE, b, dget_dset_self]
      · simp [Container.item, dgetE, dget_dset_self]
    · cases hc
  · cases hc

omit [Platform] in
/-- The properties of the mesh, of the light extended controller, of emergency lighting and of its tests. -/
theorem C38_property_names : PropertyNames E.PropertyID ∧ PropertyNames E.LightExtendedControllerProperty ∧
    PropertyNames E.EmergencyLightingProperty ∧ PropertyNames E.EmergencyLightingTestProperty := by
  refine ⟨names_of ?_, names_of ?_, names_of ?_, names_of ?_⟩ <;> decide +kernel

/-- **C38 (sensor settings).** The same of the settings of sensors, with the name `sensor_setting_raw`; an unknown setting has only that name. -/
theorem C38_setting {hdr : List (Item UInt8)} {L : Lib} {ctx : Dict} {s rest : List UInt8} {w : Val}
    (h : (Sensor.settingCon hdr).parse L ctx s = .ok (w, rest)) :
    ∃ d m v, w = .dict d ∧ settingContainer d = .ok m ∧ m.entries = d ∧ m.item "sensor_setting_raw" = .ok v ∧ m.item m.alias = .ok v ∧
      (m.alias = "sensor_setting_raw" ∨ ∃ n N, lookupValue E.PropertyID.members n = some N ∧ m.alias = lower N ∧
        m.item "sensor_setting_property_id" = .ok (.enum E.PropertyID.cls n)) := by
  have names : ∀ n N, lookupValue E.PropertyID.members n = some N → lower N ≠ "sensor_setting_property_id" ∧ lower N ≠ "sensor_setting_raw" :=
    names_of (by decide +kernel)
  simp only [Sensor.settingCon] at h
  obtain ⟨⟨d, s'⟩, -, h⟩ := bind_ok.1 h
  obtain ⟨id, -, h⟩ := bind_ok.1 h
  -- the container of a dictionary with the identifier and the value
  have key : ∀ v : Val, ∃ d' m, Val.dict (dset (dset (dpop d "sensor_setting_property_id") "sensor_setting_property_id" (Sensor.settingKey id).1)
      (Sensor.settingKey id).2 v) = .dict d' ∧ settingContainer d' = .ok m ∧ m.entries = d' ∧ m.item "sensor_setting_raw" = .ok v ∧ m.item m.alias = .ok v ∧
      (m.alias = "sensor_setting_raw" ∨ ∃ n N, lookupValue E.PropertyID.members n = some N ∧ m.alias = lower N ∧
        m.item "sensor_setting_property_id" = .ok (.enum E.PropertyID.cls n)) := by
    intro v
    have hcase : (Sensor.settingKey id = (id, "sensor_setting_raw") ∧ Sensor.settingKey id = Sensor.settingKey (Sensor.settingKey id).1) ∨
        ∃ n N, lookupValue E.PropertyID.members n = some N ∧ Sensor.settingKey id = (.enum E.PropertyID.cls n, lower N) ∧
          Sensor.settingKey (.enum E.PropertyID.cls n) = (.enum E.PropertyID.cls n, lower N) := by
      cases hn : hashInt id with
      | none => left; simp [Sensor.settingKey, EnumDef.call, hn]
      | some n =>
        cases hh : E.PropertyID.has n with
        | false => left; simp [Sensor.settingKey, EnumDef.call, hn, hh]
        | true =>
          obtain ⟨N, hN⟩ := has_lookup hh
          right
          refine ⟨n, N, hN, ?_, ?_⟩
          · simp only [Sensor.settingKey, EnumDef.call, hn, hh, if_true, memberKey, asInt, hN]
          · simp only [Sensor.settingKey, EnumDef.call, hashInt, hh, if_true, memberKey, asInt, hN]
    refine ⟨_, ⟨_, "sensor_setting_raw", (Sensor.settingKey id).2⟩, rfl, ?_, rfl, ?_, ?_, ?_⟩
    · have hid : dgetE (dset (dset (dpop d "sensor_setting_property_id") "sensor_setting_property_id" (Sensor.settingKey id).1)
          (Sensor.settingKey id).2 v) "sensor_setting_property_id" = .ok (Sensor.settingKey id).1 := by
        have : (Sensor.settingKey id).2 ≠ "sensor_setting_property_id" := by
          rcases hcase with ⟨h1, -⟩ | ⟨n, N, hN, h1, -⟩
          · rw [h1]; simp
          · rw [h1]; exact (names n N hN).1
        simp only [dgetE, dget_dset_ne _ _ this, dget_dset_self]
      simp only [settingContainer, hid, ok_bind]
      rcases hcase with ⟨h1, h2⟩ | ⟨n, N, hN, h1, h2⟩
      · rw [← h2]
      · simp only [h1, h2]
    · simp [Container.item, dgetE, dget_dset_self]
    · simp [Container.item, dgetE, dget_dset_self]
    · rcases hcase with ⟨h1, h2⟩ | ⟨n, N, hN, h1, h2⟩
      · left; rw [h1]
      · right
        refine ⟨n, N, hN, by rw [h1], ?_⟩
        simp only [Container.item, h1, dgetE, if_neg (show ¬"sensor_setting_property_id" = "sensor_setting_raw" by decide)]
        rw [dget_dset_ne _ _ (names n N hN).1, dget_dset_self]
  unfold Sensor.parseSetting at h
  dsimp only at h
  split at h
  · obtain ⟨⟨v, r⟩, -, h⟩ := bind_ok.1 h
    injection h with h
    injection h with h1 h2
    subst h1
    obtain ⟨d', m, hd', hm⟩ := key v
    exact ⟨d', m, v, hd', hm⟩
  · injection h with h
    injection h with h1 h2
    subst h1
    obtain ⟨d', m, hd', hm⟩ := key (.list (s'.map fun x => .int x.toNat))
    exact ⟨d', m, _, hd', hm⟩

/-! Cases: the acknowledged and unacknowledged forms of a message share their payload. -/

def onOff : Switch := ⟨"opcode", opcodeC (some E.GenericOnOffOpcode), E.GenericOnOffOpcode, "params", genericOnOffCases⟩

theorem onOff_switch : onOff ∈ switches :=
  List.mem_append_left _ (List.mem_append_left _ (List.mem_map.2 ⟨(E.GenericOnOffOpcode, genericOnOffCases), by inreg, rfl⟩))

-- "set on, transaction 5" as parsed by its class: its payload under both names
example (L : Lib) : ∃ m v, onOff.parse L [0x82, 0x02, 0x01, 0x05] = .ok (m, []) ∧ m.item "params" = .ok v ∧ m.item "generic_onoff_set" = .ok v ∧
    m.get "params" = none :=
  ⟨⟨_, _, _⟩, _, by with_unfolding_all rfl, by with_unfolding_all rfl, by with_unfolding_all rfl, by with_unfolding_all rfl⟩

-- … and sent again without acknowledgement by changing its opcode
set_option maxRecDepth 100000 in
example (L : Lib) : ∃ m, onOff.parse L [0x82, 0x02, 0x01, 0x05] = .ok (m, []) ∧
    lookupValue E.GenericOnOffOpcode.members 0x8203 = some "GENERIC_ONOFF_SET_UNACKNOWLEDGED" ∧ m.get "generic_onoff_set_unacknowledged" = none ∧
    onOff.build L (m.set "opcode" (.int 0x8203)) = .ok [0x82, 0x03, 0x01, 0x05] :=
  ⟨⟨_, _, _⟩, by with_unfolding_all rfl, by with_unfolding_all rfl, by with_unfolding_all rfl, by with_unfolding_all rfl⟩

end BM.Props
