import Verif.ServedAll
import Verif.SpecBare
/-!
# Every registered message is specified; messages without a payload definition (C22)
-/
namespace BM
section
variable [Platform]

theorem meets_pass {M : Mode} {e} : Meets M e passC F.nothing where
  enc := by rintro u b v ⟨rfl, rfl⟩ L ctx _; exact ⟨_, rfl⟩
  dec := by rintro u b v ⟨rfl, rfl⟩ L ctx rest _; rfl
  sound := by intro L ctx u b r _ h; cases h; exact ⟨.none, rfl, rfl⟩
  refl := by rintro _ u b v ⟨rfl, rfl⟩; exact ⟨rfl, rfl⟩
  inv := by intro _ L ctx s v rest h; cases h; exact ⟨[], rfl, rfl⟩
  exact := by intro _ L ctx s v rest h; cases h; exact ⟨[], rfl, rfl, rfl⟩
  nodiv := by intro L ctx s h; cases h

omit [Platform] in
theorem lenEq_nothing : LenEq F.nothing 0 := by rintro u b v ⟨rfl, rfl⟩; rfl

theorem covers_none {M E cases m tbl N} (h1 : lookupValue E.members m.op = some N) (h2 : N = upper m.name ∧ lower N = m.name ∧ m.name ≠ "opcode" ∧ m.sub.isNone = true)
    (h3 : findCase m.op cases = none) (h4 : m.fmt = F.nothing) (hz : m.size = some 0) (h : Covers M E cases tbl) : Covers M E cases (m :: tbl) := by
  intro x hx
  rcases List.mem_cons.1 hx with rfl | hx
  · exact ⟨Option.isNone_iff_eq_none.1 h2.2.2.2, h2.1 ▸ h1, h2.1 ▸ h2.2.1, h2.2.2.1, passC, by rw [h3]; rfl, carries_fix hz (h4 ▸ meets_pass.but) (h4 ▸ lenEq_nothing)⟩
  · exact h x hx

theorem subCovers_none {M E cases m tbl N s} (h0 : m.sub = some s) (h1 : lookupValue E.members s.num = some N)
    (h2 : N = upper s.key ∧ lower N = s.key ∧ s.key ≠ "subopcode" ∧ s.num < 256)
    (h3 : findCase s.num cases = none) (h4 : m.fmt = F.nothing) (hz : m.size = some 0) (h : SubCovers M E cases tbl) :
    SubCovers M E cases (m :: tbl) := by
  intro x hx
  rcases List.mem_cons.1 hx with rfl | hx
  · exact ⟨s, h0, h2.1 ▸ h1, h2.1 ▸ h2.2.1, h2.2.2.1, h2.2.2.2, passC, by rw [h3]; rfl, carries_fix hz (h4 ▸ meets_pass.but) (h4 ▸ lenEq_nothing)⟩
  · exact h x hx

macro "bares" : tactic => `(tactic| repeat' first
  | exact covers_nil
  | exact subCovers_nil
  | refine covers_none (by rfl) (by dsimp only; decide +kernel) (by rfl) rfl rfl ?_
  | refine subCovers_none rfl (by rfl) (by dsimp only; decide +kernel) (by rfl) rfl rfl ?_)

theorem sensor_bare : Covers lossless E.SensorOpcode Tables.sensorCases Spec.sensorBare := by unfold Spec.sensorBare; bares
theorem sensorSetup_bare : Covers lossless E.SensorSetupOpcode Tables.sensorSetupCases Spec.sensorSetupBare := by
  unfold Spec.sensorSetupBare; bares
theorem gateway_bare : SubCovers lossless E.GatewayConfigServerSubOpcode Tables.gatewayConfigParamsCases Spec.gatewayBare := by
  unfold Spec.gatewayBare; bares
theorem lec_bare : SubCovers lossless E.LightExtendedControllerSubOpcode Tables.lightExtendedControllerParamsCases Spec.lecBare := by
  unfold Spec.lecBare; bares
theorem nds_bare : SubCovers lossless E.NetworkDiagnosticServerSubOpcode Tables.networkDiagnosticServerParamsCases Spec.ndsBare := by
  unfold Spec.ndsBare; bares

theorem served_bare : ∀ m ∈ Spec.bare, Served lossless Tables.registry m := by
  refine forall_append (sensor_bare.served (by inreg)) ?_
  refine forall_append (sensorSetup_bare.served (by inreg)) ?_
  refine forall_append (gateway_bare.served (name := "silvair_gateway") (by inreg) (by decide +kernel) (by decide +kernel) (by decide) (by samehead)) ?_
  refine forall_append (lec_bare.served (name := "silvair_lec") (by inreg) (by decide +kernel) (by decide +kernel) (by decide) (by samehead)) ?_
  exact nds_bare.served (name := "silvair_nds") (by inreg) (by decide +kernel) (by decide +kernel) (by decide) (by samehead)
end

theorem bare_nothing : ∀ m ∈ Spec.bare, m.fmt = F.nothing ∧ m.size = some 0 := by
  refine List.forall_iff_forall_mem.1 ?_
  repeat' first | exact trivial | exact ⟨rfl, rfl⟩ | refine ⟨⟨rfl, rfl⟩, ?_⟩

namespace Props
open Tables
variable [Platform]

set_option maxRecDepth 100000 in
set_option maxHeartbeats 4000000 in
theorem ops_covered : (opcodeEnums.all fun E => E.members.all fun p =>
    (Spec.messages ++ Spec.bare).any fun m => p.2 == (m.op : Int)) = true := by
  with_unfolding_all exact (Eq.refl true)

set_option maxRecDepth 100000 in
set_option maxHeartbeats 4000000 in
theorem subs_covered : (Spec.vendors.all fun q => q.2.members.all fun p =>
    (Spec.messages ++ Spec.bare).any fun m => m.op == q.1 && match m.sub with | some s => p.2 == (s.num : Int) | none => false) = true := by
  with_unfolding_all exact (Eq.refl true)

theorem served_either : ∀ m ∈ Spec.messages ++ Spec.bare, Served plain registry m :=
  forall_append served_all fun m hm => (served_bare m hm).weaken id id False.elim False.elim

/-- **C05, C22 (completeness).** Every opcode registered in the package has a specified message type, under its own name, either
among the messages with a payload or among those without. -/
theorem C22_complete {E : EnumDef} (hE : E ∈ opcodeEnums) {p : String × Int} (hp : p ∈ E.members) :
    ∃ m ∈ Spec.messages ++ Spec.bare, (m.op : Int) = p.2 ∧ upper m.name = p.1 := by
  have := List.all_eq_true.1 (List.all_eq_true.1 ops_covered E hE) p hp
  obtain ⟨m, hm, he⟩ := List.any_eq_true.1 this
  have he : p.2 = (m.op : Int) := by simpa using he
  refine ⟨m, hm, he.symm, ?_⟩
  obtain ⟨e, hreg, hN, -⟩ := served_either m hm
  have hE' : e.1 ∈ opcodeEnums := by rw [← registry_enums]; exact List.mem_map.2 ⟨e, hreg, rfl⟩
  rw [← registry_enums] at hE
  obtain ⟨e', he', rfl⟩ := List.mem_map.1 hE
  have hp' : (p.1, (m.op : Int)) ∈ e'.1.members := by rw [← he]; exact hp
  have := mem_of_map_fst registry_ok.numbers hreg he' (lookupValue_mem hN) hp'
  subst this
  have := lookupValue_of_mem (numbers_of registry_ok hreg) hp'
  rw [hN] at this
  exact Option.some.inj this

/-- **C05, C22 (completeness).** Every number of a sub-opcode enumeration has a specified sub-message. -/
theorem C22_sub_complete {op : Nat} {E : EnumDef} (hE : (op, E) ∈ Spec.vendors) {p : String × Int} (hp : p ∈ E.members) :
    ∃ m ∈ Spec.messages ++ Spec.bare, m.op = op ∧ ∃ s, m.sub = some s ∧ (s.num : Int) = p.2 := by
  have := List.all_eq_true.1 (List.all_eq_true.1 subs_covered _ hE) p hp
  obtain ⟨m, hm, he⟩ := List.any_eq_true.1 this
  simp only [Bool.and_eq_true, beq_iff_eq] at he
  obtain ⟨h1, h2⟩ := he
  refine ⟨m, hm, h1, ?_⟩
  cases hs : m.sub with
  | none => simp [hs] at h2
  | some s => simp only [hs, beq_iff_eq] at h2; exact ⟨s, rfl, h2.symm⟩

set_option maxRecDepth 100000 in
set_option maxHeartbeats 4000000 in
theorem bare_disjoint : (Spec.bare.all fun m' => Spec.messages.all fun m =>
    !(m.op == m'.op && (m.sub.map Sub.num == m'.sub.map Sub.num))) = true := by
  with_unfolding_all exact (Eq.refl true)

/-- **C22 (exactly these).** No message type is both with and without a payload definition. -/
theorem C22_disjoint {m m' : MsgSpec} (hm : m ∈ Spec.messages) (hm' : m' ∈ Spec.bare) :
    m.op ≠ m'.op ∨ m.sub.map Sub.num ≠ m'.sub.map Sub.num := by
  have := List.all_eq_true.1 (List.all_eq_true.1 bare_disjoint m' hm') m hm
  simpa [imp_iff_not_or] using this

/-- **C31 (trailing bytes).** The payload of a message of fixed size is decoded in the same way whatever bytes follow it; they are left
unread. -/
theorem C31_trailing {m : MsgSpec} (hm : m ∈ Spec.messages ++ Spec.bare) {n : Nat} (hn : m.size = some n) {u b v} (h : m.fmt u b v) (L : Lib)
    (extra : List UInt8) :
    b.length = n ∧ ∃ cls subcls, accessParse registry L (header m ++ (b ++ extra)) = .ok (report m cls subcls v, extra) := by
  obtain ⟨c, cls, scls, hC, hb⟩ := (served_either m hm).carried registry_ok
  refine ⟨hC.2 n hn h, cls, scls, ?_⟩
  obtain ⟨ctx, hb⟩ := hb L (b ++ extra)
  rw [hb, hC.1.dec h L ctx extra (by simp [hn])]

/-- **C22 (parse).** A message without a payload definition is reported with payload `None`; its payload bytes are not looked at. -/
theorem C22_parse {m : MsgSpec} (hm : m ∈ Spec.bare) (L : Lib) (s : List UInt8) :
    ∃ cls subcls, accessParse registry L (header m ++ s) = .ok (report m cls subcls .none, s) := by
  obtain ⟨h1, h2⟩ := bare_nothing m hm
  exact (C31_trailing (List.mem_append_right _ hm) h2 (u := .none) (b := []) (v := .none) (by rw [h1]; exact ⟨rfl, rfl⟩) L s).2

/-- **C22 (build).** Building a message without a payload definition emits the bare opcode, whatever payload is given. -/
theorem C22_build {m : MsgSpec} (hm : m ∈ Spec.bare) (L : Lib) {d : Dict} {k u : Val}
    (hk : dget d "opcode" = some k) (hs : Spells m k) (hp : payload m d = some u) :
    ∃ o, accessBuild registry L (.dict d) = .ok (header m, o) := by
  obtain ⟨cls, hb⟩ := (served_bare m hm).build registry_ok (u := u) (b := []) (v := .none)
    (by rw [(bare_nothing m hm).1]; exact ⟨rfl, rfl⟩) L False.elim hk hs hp
  rw [List.append_nil] at hb
  exact ⟨_, hb⟩

-- a message without payload: sensor column get, with two payload bytes that are lost
example : ∃ m ∈ Spec.bare, header m ++ [0x4D, 0x00] = [0x82, 0x32, 0x4D, 0x00] :=
  ⟨_, List.Mem.head _, by decide⟩

/-- **C29 (sizes).** A message of a fixed size that is built occupies the bytes of its opcode and exactly as many more as the
specification says (provided the library rejects integers that do not fit their field). -/
theorem C29_build_size {m : MsgSpec} (hm : m ∈ Spec.messages ++ Spec.bare) {n : Nat} (hn : m.size = some n) {L : Lib} (hL : L.Strict) {d : Dict}
    {k u : Val} {bs : List UInt8} {o : Val} (hk : dget d "opcode" = some k) (hs : Spells m k) (hp : payload m d = some u)
    (h : accessBuild registry L (.dict d) = .ok (bs, o)) (ho : ¬ m.odd u) :
    bs.length = (header m).length + n := by
  have hS := served_either m hm
  obtain ⟨c, ctx, b, r, hM, hb, rfl⟩ := hS.built registry_ok L hk hs hp h
  obtain ⟨v, hG⟩ := hM.sound (fun _ => hL) ho hb
  rw [List.length_append, (C31_trailing hm hn hG L []).1]

/-- **C29 (consumed).** Parsing a lossless message of a fixed size consumes exactly its opcode and that many bytes, and needs them: the
parsed prefix parses to the same object whatever follows. -/
theorem C29_parse_size {m : MsgSpec} (hm : m ∈ Spec.lossless) {n : Nat} (hn : m.size = some n) (L : Lib) {s rest : List UInt8} {v : Val}
    (h : accessParse registry L (header m ++ s) = .ok (v, rest)) :
    n ≤ s.length ∧ rest = s.drop n ∧ ∀ extra, accessParse registry L (header m ++ (s.take n ++ extra)) = .ok (v, extra) := by
  obtain ⟨c, cls, scls, hC, hb⟩ := (served_lossless m hm).carried registry_ok
  obtain ⟨ctx, hb1⟩ := hb L s
  rw [hb1] at h
  split at h
  · rename_i v' rest' hv
    simp only [Except.ok.injEq, Prod.mk.injEq] at h
    obtain ⟨rfl, rfl⟩ := h
    obtain ⟨b, rfl, hG⟩ := hC.1.exact trivial hv
    have hl := hC.2 n hn hG
    refine ⟨by rw [List.length_append]; omega, by rw [← hl, List.drop_left], fun extra => ?_⟩
    rw [← hl, List.take_left]
    obtain ⟨ctx, hb2⟩ := hb L (b ++ extra)
    rw [hb2, hC.1.dec hG L ctx extra (by simp [hn])]
  · simp at h

-- a message of fixed size
example : ∃ m ∈ Spec.lossless, m.op = 0x00 ∧ m.size = some 19 := ⟨_, List.Mem.head _, rfl, rfl⟩

end Props
end BM
