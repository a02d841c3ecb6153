import Verif.Registry
/-!
# Opcodes, the registry and dispatch (C01–C04, C32)
-/
namespace BM.Props
open Tables

/-! ## C01 -/

/-- **C01 (round trip).** Every well-formed opcode is written as its 1, 2 or 3 big-endian bytes and read back, whatever follows. -/
theorem C01_roundtrip {n : Nat} (h : WellFormed n) (L : Lib) (ctx : Dict) (rest : List UInt8) :
    (opcodeC none).build L ctx (.int n) = .ok (wireOpcode n, .int n) ∧
    (opcodeC none).parse L ctx (wireOpcode n ++ rest) = .ok (.int n, rest) := by
  constructor
  · simp only [opcodeC, asInt, opcodeBytes_wire h, ok_bind, opcodeType]
  · simp only [opcodeC, opcodeNum_wire h, ok_bind, opcodeType]

/-- **C01 (inverse).** Whatever parses is a well-formed opcode, and building it gives exactly the bytes consumed. -/
theorem C01_parse_inverse {L : Lib} {ctx : Dict} {s rest : List UInt8} {v : Val} (h : (opcodeC none).parse L ctx s = .ok (v, rest)) :
    ∃ n b, WellFormed n ∧ v = .int (n : Nat) ∧ s = b ++ rest ∧ (opcodeC none).build L ctx v = .ok (b, v) := by
  simp only [opcodeC, bind_ok, opcodeType, Except.ok.injEq, Prod.mk.injEq] at h
  obtain ⟨⟨n, r⟩, h1, v', rfl, rfl, rfl⟩ := h
  obtain ⟨hw, hs⟩ := opcodeNum_ok h1
  exact ⟨n, _, hw, rfl, hs, (C01_roundtrip hw L ctx []).1⟩

/-- **C01 (first byte 0x7F).** -/
theorem C01_reject_7F (E : Option EnumDef) (L : Lib) (ctx : Dict) (s : List UInt8) :
    (opcodeC E).parse L ctx (0x7F :: s) = .error .validation := rfl

/-- **C01 (truncation).** Every proper prefix of an opcode is rejected. -/
theorem C01_reject_truncated {n : Nat} (h : WellFormed n) {p q : List UInt8} (hpq : p ++ q = wireOpcode n) (hq : q ≠ [])
    (L : Lib) (ctx : Dict) : (opcodeC none).parse L ctx p = .error .stream := by
  have key : opcodeNum p = .error .stream := by
    have hq' : 0 < q.length := List.length_pos_iff.2 hq
    rcases h with h | h | h
    · rw [wireOpcode_one h] at hpq
      match p with
      | [] => rfl
      | a :: p => have := congrArg List.length hpq; simp only [List.length_append, List.length_cons, List.length_nil] at this; omega
    · rw [wireOpcode_two (by omega) (by omega)] at hpq
      match p with
      | [] => rfl
      | [a] =>
        simp only [List.cons_append, List.cons.injEq] at hpq
        have h1 : a.toNat = n / 256 := by rw [hpq.1]; exact toNat_ofNat (by omega)
        simp only [opcodeNum, h1, Nat.shiftRight_eq_div_pow]
        rw [if_neg (by omega), if_neg (by omega)]
      | a :: b :: p => have := congrArg List.length hpq; simp only [List.length_append, List.length_cons, List.length_nil] at this; omega
    · rw [wireOpcode_three (by omega)] at hpq
      match p with
      | [] => rfl
      | [a] =>
        simp only [List.cons_append, List.cons.injEq] at hpq
        have h1 : a.toNat = n / 65536 := by rw [hpq.1]; exact toNat_ofNat (by omega)
        simp only [opcodeNum, h1, Nat.shiftRight_eq_div_pow]
        rw [if_neg (by omega), if_neg (by omega)]
      | [a, b] =>
        simp only [List.cons_append, List.cons.injEq] at hpq
        have h1 : a.toNat = n / 65536 := by rw [hpq.1]; exact toNat_ofNat (by omega)
        simp only [opcodeNum, h1, Nat.shiftRight_eq_div_pow]
        rw [if_neg (by omega), if_neg (by omega), if_neg (by omega), if_pos (by omega)]
      | a :: b :: c :: p => have := congrArg List.length hpq; simp only [List.length_append, List.length_cons, List.length_nil] at this; omega
  simp only [opcodeC, key, error_bind]

/-- **C01 (prefix-free).** -/
theorem C01_prefix_free {n m : Nat} (hn : WellFormed n) (hm : WellFormed m) {x y : List UInt8}
    (h : wireOpcode n ++ x = wireOpcode m ++ y) : n = m ∧ x = y := by
  have h1 := opcodeNum_wire hn x
  rw [h, opcodeNum_wire hm y] at h1
  simp only [Except.ok.injEq, Prod.mk.injEq] at h1
  exact ⟨h1.1.symm, h1.2.symm⟩

/-- **C01 (ill-formed opcodes).** Building a number that is not a well-formed opcode either raises or emits bytes that no parser
reads back as that number. -/
theorem C01_ill_formed {k : Int} (h : ∀ n : Nat, k = n → ¬ WellFormed n) {L : Lib} {ctx : Dict} {b : List UInt8} {r : Val}
    (_ : (opcodeC none).build L ctx (.int k) = .ok (b, r)) (rest : List UInt8) :
    (opcodeC none).parse L ctx (b ++ rest) ≠ .ok (.int k, rest) := by
  intro hp
  obtain ⟨n, -, hw, hv, -⟩ := C01_parse_inverse hp
  exact h n (by injection hv) hw

/-- **C01 (what is written).** Whatever integer is given, well-formed or not: if it is accepted, the bytes written are its shortest
big-endian representation, of at most three bytes; exactly the numbers of at most three bytes are accepted. -/
theorem C01_written {L : Lib} {ctx : Dict} {u : Val} {b : List UInt8} {r : Val} (h : (opcodeC none).build L ctx u = .ok (b, r)) :
    asInt u = some (leNat b.reverse : Int) ∧ b ≠ [] ∧ b.length ≤ 3 ∧ (1 < b.length → 256 ^ (b.length - 1) ≤ leNat b.reverse) := by
  simp only [opcodeC] at h
  split at h
  · next k hk =>
    simp only [bind_ok, Except.ok.injEq, Prod.mk.injEq] at h
    obtain ⟨b', hb, _, _, rfl, rfl⟩ := h
    have key : ∀ m : Nat, toBytesBE m k = .ok b' → b'.length = m ∧ k = (leNat b'.reverse : Int) := by
      intro m hm
      simp only [toBytesBE] at hm
      split at hm
      · next hc =>
        simp only [Except.ok.injEq] at hm
        subst hm
        refine ⟨by rw [List.length_reverse, leBytes_length], ?_⟩
        rw [List.reverse_reverse, leNat_leBytes _ _ hc.2]; omega
      · cases hm
    rw [hk]
    simp only [opcodeBytes] at hb
    split at hb
    · obtain ⟨h1, h2⟩ := key 3 hb
      refine ⟨by rw [h2], (by rintro rfl; cases h1), by omega, fun _ => ?_⟩
      rw [h1]; omega
    split at hb
    · obtain ⟨h1, h2⟩ := key 2 hb
      refine ⟨by rw [h2], (by rintro rfl; cases h1), by omega, fun _ => ?_⟩
      rw [h1]; omega
    · obtain ⟨h1, h2⟩ := key 1 hb
      exact ⟨by rw [h2], (by rintro rfl; cases h1), by omega, fun h => absurd h (by omega)⟩
  · cases h

theorem C01_accepted (L : Lib) (ctx : Dict) (k : Int) :
    (∃ b r, (opcodeC none).build L ctx (.int k) = .ok (b, r)) ↔ 0 ≤ k ∧ k < 2 ^ 24 := by
  have h3 : ∀ m : Nat, (∃ b, toBytesBE m k = .ok b) ↔ 0 ≤ k ∧ k.toNat < 256 ^ m := by
    intro m
    simp only [toBytesBE]
    split
    · next h => exact ⟨fun _ => h, fun _ => ⟨_, rfl⟩⟩
    · next h => exact ⟨fun ⟨_, h'⟩ => (by cases h'), fun h' => absurd h' h⟩
  have e : (∃ b r, (opcodeC none).build L ctx (.int k) = .ok (b, r)) ↔ ∃ b, opcodeBytes k = .ok b := by
    simp only [opcodeC, asInt, bind_ok, opcodeType, Except.ok.injEq, Prod.mk.injEq]
    constructor
    · rintro ⟨b, r, a, h, -⟩; exact ⟨a, h⟩
    · rintro ⟨b, h⟩; exact ⟨b, _, b, h, _, rfl, rfl, rfl⟩
  rw [e]
  simp only [opcodeBytes]
  split
  · rw [h3]; omega
  split
  · rw [h3]; omega
  · rw [h3]; omega

-- the hypotheses are met
example : WellFormed 0x7E ∧ WellFormed 0x8201 ∧ WellFormed 0xF53601 ∧ ¬ WellFormed 0x7F := by decide
example : [0x82] ++ [0x01] = wireOpcode 0x8201 ∧ ([0x01] : List UInt8) ≠ [] := by decide
example : (∀ n : Nat, (0x7F : Int) = n → ¬ WellFormed n) ∧ ∀ L ctx, (opcodeC none).build L ctx (.int 0x7F) = .ok ([0x7F], .int 0x7F) :=
  ⟨by intro n h; have : n = 0x7F := by omega
      subst this; decide, fun _ _ => rfl⟩

/-! ## C02 -/

/-- **C02 (numbers).** No opcode number is registered twice, within a class or across classes. -/
theorem C02_numbers : (opcodeEnums.flatMap fun E => E.members.map Prod.snd).Nodup := enums_numbers
/-- **C02 (names).** No opcode name is registered twice. -/
theorem C02_names : (opcodeEnums.flatMap fun E => E.members.map Prod.fst).Nodup := enums_names
/-- **C02 (well-formed).** Every registered number is a well-formed opcode. -/
theorem C02_well_formed : ∀ E ∈ opcodeEnums, ∀ m ∈ E.members, ∃ n : Nat, m.2 = n ∧ WellFormed n := by
  intro E hE m hm
  exact enums_wf m.2 (List.mem_flatMap.2 ⟨E, hE, List.mem_map.2 ⟨m, hm, rfl⟩⟩)

variable [Platform]

/-- **C02 (table).** The dispatch table maps exactly the registered numbers, each to its own class: no entry is shadowed or lost. -/
theorem C02_table (n : Int) (e : Entry) :
    tget (opcodeTable registry []) n = some e ↔ e ∈ registry ∧ ∃ N, (N, n) ∈ e.1.members := by
  constructor
  · exact table_inv registry_ok
  · rintro ⟨he, N, hN⟩
    exact table_of registry_ok he (lookupValue_of_mem (numbers_of registry_ok he) hN)

/-! ## C03 -/

/-- The number is registered in some message class. -/
def Registered (n : Int) : Prop := ∃ E ∈ opcodeEnums, ∃ m ∈ E.members, m.2 = n

omit [Platform] in
theorem registered_iff [Platform] (n : Int) : Registered n ↔ ∃ e, tget (opcodeTable registry []) n = some e := by
  simp only [C02_table, Registered, ← registry_enums, List.mem_map]
  constructor
  · rintro ⟨E, ⟨e, he, rfl⟩, m, hm, rfl⟩; exact ⟨e, he, m.1, hm⟩
  · rintro ⟨e, he, N, hN⟩; exact ⟨e.1, ⟨e, he, rfl⟩, _, hN, rfl⟩

theorem not_registered {n : Int} (h : ¬ Registered n) : tget (opcodeTable registry []) n = none := by
  cases h' : tget (opcodeTable registry []) n with
  | none => rfl
  | some e => exact absurd ((registered_iff n).2 ⟨e, h'⟩) h

/-- **C03 (parse, re-encode).** A message with an unregistered opcode is returned as number and raw payload, and building that
object gives back the received bytes. -/
theorem C03_passthrough {n : Nat} (hw : WellFormed n) (hn : ¬ Registered n) (L : Lib) (s : List UInt8) :
    let obj : Val := .dict [("opcode", .int n), ("params", .bytes s)]
    accessParse registry L (wireOpcode n ++ s) = .ok (obj, []) ∧
    accessBuild registry L obj = .ok (wireOpcode n ++ s, obj) := by
  constructor
  · simp only [accessParse, accessParseAt, List.drop_zero, opcodeNum_wire hw, ok_bind, not_registered hn]
  · simp only [accessBuild, dgetE, dget, if_true, ok_bind, hashInt, asInt, not_registered hn, opcodeC, opcodeBytes_wire hw, opcodeType]
    rfl

/-- **C03 (build).** Building any object with an unregistered integer opcode emits the opcode bytes followed by `params`, and
leaves the object alone. -/
theorem C03_build {n : Nat} (hw : WellFormed n) (hn : ¬ Registered n) (L : Lib) {d : Dict} {s : List UInt8}
    (ho : dget d "opcode" = some (.int n)) (hp : dget d "params" = some (.bytes s)) :
    accessBuild registry L (.dict d) = .ok (wireOpcode n ++ s, .dict d) := by
  simp only [accessBuild, dgetE, ho, hp, ok_bind, hashInt, asInt, not_registered hn, opcodeC, opcodeBytes_wire hw, opcodeType]

/-- **C03 (exactly the registered ones are decoded).** A successful parse yields raw `params` under the plain opcode number if and
only if the opcode is not registered. -/
theorem C03_only_unknown {n : Nat} (hw : WellFormed n) (L : Lib) (s : List UInt8) {v : Val} {rest : List UInt8}
    (h : accessParse registry L (wireOpcode n ++ s) = .ok (v, rest)) :
    (∃ d, v = .dict d ∧ dget d "opcode" = some (.int n)) ↔ ¬ Registered n := by
  constructor
  · rintro ⟨d, rfl, hd⟩ hr
    obtain ⟨e, he⟩ := (registered_iff n).1 hr
    simp only [accessParse, accessParseAt, List.drop_zero, opcodeNum_wire hw, ok_bind, he, bind_ok] at h
    obtain ⟨⟨v, r⟩, -, h⟩ := h
    split at h
    · simp only [Except.ok.injEq, Prod.mk.injEq, Val.dict.injEq] at h
      rw [← h.1, dget_dset_self] at hd
      simp at hd
    · simp at h
  · intro hn
    rw [(C03_passthrough hw hn L s).1] at h
    simp only [Except.ok.injEq, Prod.mk.injEq] at h
    exact ⟨_, h.1.symm, by simp⟩

-- an unregistered well-formed opcode
example : WellFormed 0xC00000 ∧ ¬ Registered ((0xC00000 : Nat) : Int) := by
  refine ⟨by decide, ?_⟩
  have h : opcodeEnums.all (fun E => E.members.all fun m => decide (m.2 ≠ 0xC00000)) = true := by decide +kernel
  rintro ⟨E, hE, m, hm, h'⟩
  have := List.all_eq_true.1 (List.all_eq_true.1 h E hE) m hm
  simp at this
  exact this h'

/-! ## C04 -/

/-- **C04 (parse).** The bytes after a registered opcode are decoded by the construct registered for that opcode in its class
(registered opcodes without one: nothing is read), and the result is reported under the lower-cased opcode name. -/
theorem C04_parse {e : Entry} (he : e ∈ registry) {N : String} {n : Nat} (hN : (N, (n : Int)) ∈ e.1.members) (L : Lib) (s : List UInt8) :
    accessParse registry L (wireOpcode n ++ s) =
      (do let (v, rest) ← ((findCase n e.2).getD passC).parse L [("opcode", .enum e.1.cls n)] s
          .ok (.dict [("opcode", .enum e.1.cls n), (lower N, v)], rest)) := by
  have hN' := lookupValue_of_mem (numbers_of registry_ok he) hN
  have ht := table_of registry_ok he hN'
  obtain ⟨k, hk, hw⟩ := table_wf registry_ok ht
  have : n = k := by exact_mod_cast hk
  subst this
  simp only [accessParse, accessParseAt, List.drop_zero, opcodeNum_wire hw, ok_bind, ht, messageCon_parse hw hN' rfl]
  cases ((findCase n e.2).getD passC).parse L [("opcode", .enum e.1.cls n)] s with
  | error x => rfl
  | ok r => obtain ⟨v, rest⟩ := r; simp [dset]

/-- **C04 (build).** However the opcode is spelled (number, member, anything equal to it, or its name), building emits the opcode
and the payload built by the construct registered for it; the payload is taken from the key with the lower-cased opcode name,
else from `params`, and its absence is a `KeyError`. -/
theorem C04_build {e : Entry} (he : e ∈ registry) {N : String} {n : Nat} (hN : (N, (n : Int)) ∈ e.1.members) (hne : lower N ≠ "opcode")
    (L : Lib) {d : Dict} {k : Val} (hk : dget d "opcode" = some k) (hs : hashInt k = some (n : Int) ∨ k = .str N) :
    (accessBuild registry L (.dict d)).map Prod.fst =
      match (dget d (lower N)).or (dget d "params") with
      | none => .error .key
      | some u => (((findCase n e.2).getD passC).build L [("opcode", .enum e.1.cls n), ("params", u)] u).map (fun r => wireOpcode n ++ r.1) := by
  have hN' := lookupValue_of_mem (numbers_of registry_ok he) hN
  have ht := table_of registry_ok he hN'
  obtain ⟨k', hk', hw⟩ := table_wf registry_ok ht
  have : n = k' := by exact_mod_cast hk'
  subst this
  rcases hs with hs | rfl
  · have hns : ∀ s, k ≠ .str s := by rintro s rfl; simp [hashInt, asInt] at hs
    have : accessBuild registry L (.dict d) = (do let (b, _) ← (messageCon e).build L [] (.dict d); .ok (b, .dict d)) := by
      simp only [accessBuild, dgetE, hk, ok_bind]
      cases k <;> first | exact absurd rfl (hns _) | simp only [hs, ht]
    rw [this, messageCon_build hw hN' rfl L d k hk hs]
    cases (dget d (lower N)).or (dget d "params") with
    | none => rfl
    | some u => dsimp only; cases ((findCase n e.2).getD passC).build L _ u <;> rfl
  · have hk' : dget (dset d "opcode" (.enum e.1.cls n)) "opcode" = some (.enum e.1.cls n) := dget_dset_self _ _ _
    simp only [accessBuild, dgetE, hk, ok_bind, findName_of registry_ok he hN']
    rw [messageCon_build hw hN' rfl L _ _ hk' rfl, dget_dset_ne _ _ (Ne.symm hne), dget_dset_ne _ _ (by decide)]
    cases (dget d (lower N)).or (dget d "params") with
    | none => rfl
    | some u => dsimp only; cases ((findCase n e.2).getD passC).build L _ u <;> rfl

omit [Platform] in
theorem lowerNames (l : List EnumDef) : (l.flatMap fun E => E.members.map fun m => lower m.1) = (allNames l).map lower := by
  simp [allNames, List.map_flatMap, Function.comp_def]

set_option maxHeartbeats 8000000 in
/-- No opcode name clashes with the key `opcode` when lower-cased, and lower-casing distinguishes the names. -/
theorem C04_keys : ((opcodeEnums.flatMap fun E => E.members.map fun m => lower m.1).Nodup) ∧
    "opcode" ∉ (opcodeEnums.flatMap fun E => E.members.map fun m => lower m.1) ∧
    "params" ∉ (opcodeEnums.flatMap fun E => E.members.map fun m => lower m.1) := by
  have h : nameChars.all (fun l => l.map (Char.toUpper ∘ Char.toLower) == l &&
      l.map Char.toLower != "opcode".toList && l.map Char.toLower != "params".toList) = true := by decide +kernel
  have h' : ∀ N ∈ allNames opcodeEnums, upper (lower N) = N ∧ lower N ≠ "opcode" ∧ lower N ≠ "params" := by
    intro N hN
    rw [enums_chars] at hN
    obtain ⟨l, hl, rfl⟩ := List.mem_map.1 hN
    have := List.all_eq_true.1 h l hl
    simp only [Bool.and_eq_true, beq_iff_eq, bne_iff_ne, ne_eq] at this
    obtain ⟨⟨h1, h2⟩, h3⟩ := this
    refine ⟨?_, fun e => h2 ?_, fun e => h3 ?_⟩
    · simp only [upper, lower, String.toList_ofList, List.map_map, h1]
    · simpa [lower] using congrArg String.toList e
    · simpa [lower] using congrArg String.toList e
  rw [lowerNames opcodeEnums]
  refine ⟨?_, ?_, ?_⟩
  · refine List.Nodup.of_map upper ?_
    rw [List.map_map, List.map_congr_left (f := upper ∘ lower) (g := id) (fun N hN => (h' N hN).1), List.map_id]
    exact enums_names
  · rintro hm; obtain ⟨N, hN, he⟩ := List.mem_map.1 hm; exact (h' N hN).2.1 he
  · rintro hm; obtain ⟨N, hN, he⟩ := List.mem_map.1 hm; exact (h' N hN).2.2 he

/-- **C04 (spellings agree).** Two objects that spell the same registered opcode differently but carry the same payload are built
to the same bytes. -/
theorem C04_spellings {e : Entry} (he : e ∈ registry) {N : String} {n : Nat} (hN : (N, (n : Int)) ∈ e.1.members)
    (L : Lib) (u x : Val) {k k' : Val} (hs : hashInt k = some (n : Int) ∨ k = .str N) (hs' : hashInt k' = some (n : Int) ∨ k' = .str N) :
    (accessBuild registry L (.dict [("opcode", k), (lower N, u), ("params", x)])).map Prod.fst =
      (accessBuild registry L (.dict [("opcode", k'), ("params", u)])).map Prod.fst := by
  have hmem : lower N ∈ (opcodeEnums.flatMap fun E => E.members.map fun m => lower m.1) :=
    List.mem_flatMap.2 ⟨e.1, by rw [← registry_enums]; exact List.mem_map.2 ⟨e, he, rfl⟩, List.mem_map.2 ⟨_, hN, rfl⟩⟩
  have h1 : lower N ≠ "opcode" := fun h => C04_keys.2.1 (h ▸ hmem)
  have h2 : lower N ≠ "params" := fun h => C04_keys.2.2 (h ▸ hmem)
  rw [C04_build he hN h1 L (by simp) hs, C04_build he hN h1 L (by simp) hs']
  simp [dget, Ne.symm h1, Ne.symm h2]

/-- **C04 (unknown name).** An opcode name that is not registered raises `StopIteration`. -/
theorem C04_unknown_name {s : String} (h : ∀ E ∈ opcodeEnums, ∀ m ∈ E.members, m.1 ≠ s) (L : Lib) {d : Dict}
    (hk : dget d "opcode" = some (.str s)) : accessBuild registry L (.dict d) = .error .stopIteration := by
  have : findName s (opcodeTable registry []) = none := by
    refine findName_none ?_
    intro n' e' hm hN
    have := tget_of_mem _ (table_keys registry_ok) hm
    obtain ⟨he', -⟩ := table_inv registry_ok this
    exact h e'.1 (by rw [← registry_enums]; exact List.mem_map.2 ⟨_, he', rfl⟩) _ (lookupValue_mem hN) rfl
  simp only [accessBuild, dgetE, hk, ok_bind, this]

-- a registered opcode and its spellings
example : ∃ e ∈ registry, ("GENERIC_ONOFF_SET", ((0x8202 : Nat) : Int)) ∈ e.1.members :=
  ⟨(E.GenericOnOffOpcode, genericOnOffCases), by inreg,
    show _ ∈ E.GenericOnOffOpcode.members by decide⟩
example : ∀ E ∈ opcodeEnums, ∀ m ∈ E.members, m.1 ≠ "NO_SUCH_OPCODE" := by
  have h : opcodeEnums.all (fun E => E.members.all fun m => decide (m.1 ≠ "NO_SUCH_OPCODE")) = true := by decide +kernel
  intro E hE m hm
  simpa using List.all_eq_true.1 (List.all_eq_true.1 h E hE) m hm

/-! ## C32 -/

/-- **C32 (unknown opcode).** Parsing from a stream positioned at `o` decodes an unregistered opcode at that position. -/
theorem C32_unknown {n : Nat} (hw : WellFormed n) (hn : ¬ Registered n) (L : Lib) (pre s : List UInt8) :
    accessParseAt registry L (pre ++ (wireOpcode n ++ s)) pre.length =
      accessParse registry L (wireOpcode n ++ s) := by
  simp only [accessParse, accessParseAt, List.drop_left, List.drop_zero, opcodeNum_wire hw, ok_bind, not_registered hn]

/-- **C32 (known opcode).** For a registered opcode at position `o` the message body is decoded from the *beginning* of the stream, by
the class of the opcode at position `o`: the result never depends on the payload that follows that opcode, except through the
stream as a whole. -/
theorem C32_known {n : Nat} (hw : WellFormed n) {e : Entry} (he : tget (opcodeTable registry []) n = some e) (L : Lib) (pre s : List UInt8) :
    accessParseAt registry L (pre ++ (wireOpcode n ++ s)) pre.length =
      (do let (v, rest) ← (messageCon e).parse L [] (pre ++ (wireOpcode n ++ s))
          match v with
          | .dict d => .ok (.dict (dset d "opcode" (.enum e.1.cls n)), rest)
          | _ => .error .attribute) := by
  simp only [accessParseAt, List.drop_left, opcodeNum_wire hw, ok_bind, he]
  rfl

/-- **C32 (agreement at 0).** -/
theorem C32_zero (L : Lib) (s : List UInt8) : accessParseAt registry L s 0 = accessParse registry L s := rfl

/-- **C32 (disagreement).** With two equal on/off-get messages in the stream, parsing at the second one leaves the stream after the
first: `parse_stream` at a non-zero offset does not agree with `parse` of the remaining bytes. -/
theorem C32_counterexample (L : Lib) : ∃ v, accessParse registry L [0x82, 0x01] = .ok (v, []) ∧
    accessParseAt registry L [0x82, 0x01, 0x82, 0x01] 2 = .ok (v, [0x82, 0x01]) := by
  refine ⟨.dict [("opcode", .enum "GenericOnOffOpcode" 0x8201), ("generic_onoff_get", .dict [])], ?_, ?_⟩
  · have := C04_parse (e := (E.GenericOnOffOpcode, genericOnOffCases)) (by inreg)
      (N := "GENERIC_ONOFF_GET") (n := 0x8201) (show _ ∈ E.GenericOnOffOpcode.members by decide) L []
    rw [show wireOpcode 0x8201 ++ [] = [0x82, 0x01] from by decide] at this
    rw [this]; rfl
  · have ht : tget (opcodeTable registry []) ((0x8201 : Nat) : Int) = some (E.GenericOnOffOpcode, genericOnOffCases) :=
      (C02_table _ _).2 ⟨by inreg, "GENERIC_ONOFF_GET", show _ ∈ E.GenericOnOffOpcode.members by decide⟩
    have := C32_known (n := 0x8201) (by decide) ht L [0x82, 0x01] []
    rw [show [0x82, 0x01] ++ (wireOpcode 0x8201 ++ []) = [0x82, 0x01, 0x82, 0x01] from by decide] at this
    rw [show ([0x82, 0x01] : List UInt8).length = 2 from rfl] at this
    rw [this]; rfl

end BM.Props
