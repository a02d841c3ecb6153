import Verif.Access
import Verif.Covers
/-!
# Access messages: lemmas
-/
namespace BM
open F

/-! ### Opcodes -/

theorem shl8_or (a : Nat) {b : Nat} (h : b < 256) : a <<< 8 ||| b = a * 256 + b := by
  rw [← Nat.shiftLeft_add_eq_or_of_lt (by simpa using h), Nat.shiftLeft_eq]

theorem wireOpcode_one {n : Nat} (h : n ≤ 0x7E) : wireOpcode n = [UInt8.ofNat n] := if_pos h
theorem wireOpcode_two {n : Nat} (h : 0x7E < n) (h' : n ≤ 0xFFFF) :
    wireOpcode n = [UInt8.ofNat (n / 256), UInt8.ofNat (n % 256)] := by
  rw [wireOpcode, if_neg (by omega), if_pos h']
theorem wireOpcode_three {n : Nat} (h : 0xFFFF < n) :
    wireOpcode n = [UInt8.ofNat (n / 65536), UInt8.ofNat (n / 256 % 256), UInt8.ofNat (n % 256)] := by
  rw [wireOpcode, if_neg (by omega), if_neg (by omega)]

theorem toNat_ofNat {n : Nat} (h : n < 256) : (UInt8.ofNat n).toNat = n := by
  simp; omega

theorem opcodeNum_wire {n : Nat} (h : WellFormed n) (rest : List UInt8) :
    opcodeNum (wireOpcode n ++ rest) = .ok (n, rest) := by
  rcases h with h | h | h
  · rw [wireOpcode_one h]
    have h1 : n % 256 = n := by omega
    have : ¬ n = 127 := by omega
    simp [opcodeNum, h1, this, Nat.shiftRight_eq_div_pow]; omega
  · rw [wireOpcode_two (by omega) (by omega)]
    have h1 : n / 256 % 256 = n / 256 := by omega
    have h2 : ¬ n / 256 = 127 := by omega
    have h3 : ¬ n / 256 < 128 := by omega
    have h4 : n / 256 / 64 = 2 := by omega
    simp [opcodeNum, h1, h2, h3, Nat.shiftRight_eq_div_pow, h4]
    rw [shl8_or _ (by omega)]; omega
  · rw [wireOpcode_three (by omega)]
    have h1 : n / 65536 % 256 = n / 65536 := by omega
    have h2 : ¬ n / 65536 = 127 := by omega
    have h3 : ¬ n / 65536 < 128 := by omega
    have h4 : n / 65536 / 64 = 3 := by omega
    simp [opcodeNum, h1, h2, h3, Nat.shiftRight_eq_div_pow, h4]
    rw [shl8_or _ (by omega), shl8_or _ (by omega)]; omega

theorem opcodeNum_ok {s : List UInt8} {n : Nat} {rest : List UInt8} (h : opcodeNum s = .ok (n, rest)) :
    WellFormed n ∧ s = wireOpcode n ++ rest := by
  match s with
  | [] => simp [opcodeNum] at h
  | b0 :: s1 =>
    have hb := b0.toNat_lt
    simp only [opcodeNum, Nat.shiftRight_eq_div_pow] at h
    split at h
    · simp at h
    · rename_i h7
      split at h
      · simp only [Except.ok.injEq, Prod.mk.injEq] at h
        obtain ⟨rfl, rfl⟩ := h
        have : b0.toNat ≤ 0x7E := by omega
        exact ⟨.inl this, by rw [wireOpcode_one this]; simp⟩
      · rename_i h0
        match s1 with
        | [] => simp at h
        | b1 :: s2 =>
          have hb1 := b1.toNat_lt
          simp only [shl8_or _ hb1] at h
          split at h
          · simp only [Except.ok.injEq, Prod.mk.injEq] at h
            obtain ⟨rfl, rfl⟩ := h
            refine ⟨.inr (.inl (by omega)), ?_⟩
            rw [wireOpcode_two (by omega) (by omega), show (b0.toNat * 256 + b1.toNat) / 256 = b0.toNat by omega,
              show (b0.toNat * 256 + b1.toNat) % 256 = b1.toNat by omega]
            simp
          · split at h
            · match s2 with
              | [] => simp at h
              | b2 :: s3 =>
                have hb2 := b2.toNat_lt
                simp only [shl8_or _ hb2, Except.ok.injEq, Prod.mk.injEq] at h
                obtain ⟨rfl, rfl⟩ := h
                refine ⟨.inr (.inr (by omega)), ?_⟩
                rw [wireOpcode_three (by omega), show ((b0.toNat * 256 + b1.toNat) * 256 + b2.toNat) / 65536 = b0.toNat by omega,
                  show ((b0.toNat * 256 + b1.toNat) * 256 + b2.toNat) / 256 % 256 = b1.toNat by omega,
                  show ((b0.toNat * 256 + b1.toNat) * 256 + b2.toNat) % 256 = b2.toNat by omega]
                simp
            · simp at h

theorem opcodeNum_err {s : List UInt8} {e : Err} (h : opcodeNum s = .error e) : e = .stream ∨ e = .validation := by
  unfold opcodeNum at h
  repeat' (first | split at h | (simp at h; done) | (simp at h; simp [← h]; done))
  all_goals (simp only [] at h; repeat' (first | split at h | (simp at h; done) | (simp at h; simp [← h]; done)))

theorem opcodeBytes_wire {n : Nat} (h : WellFormed n) : opcodeBytes n = .ok (wireOpcode n) := by
  rcases h with h | h | h
  · rw [wireOpcode_one h, opcodeBytes, if_neg (by omega), if_neg (by omega)]
    rw [toBytesBE, if_pos (by omega)]
    simp [leBytes, Nat.mod_eq_of_lt (show n < 256 by omega)]
  · rw [wireOpcode_two (by omega) (by omega), opcodeBytes, if_neg (by omega), if_pos (by omega)]
    rw [toBytesBE, if_pos (by omega)]
    simp [leBytes, Nat.mod_eq_of_lt (show n / 256 < 256 by omega)]
  · rw [wireOpcode_three (by omega), opcodeBytes, if_pos (by omega)]
    rw [toBytesBE, if_pos (by omega)]
    simp [leBytes, Nat.div_div_eq_div_mul, Nat.mod_eq_of_lt (show n / 65536 < 256 by omega)]

/-! ### The opcode table -/

theorem tget_tset_self {β} (t : List (Int × β)) (k v) : tget (tset t k v) k = some v := by
  induction t with
  | nil => simp [tset, tget]
  | cons x t ih => obtain ⟨k', v'⟩ := x; by_cases h : k' = k <;> simp [tset, tget, h, ih]

theorem tget_tset_ne {β} (t : List (Int × β)) {k k'} (v) (h : k ≠ k') : tget (tset t k v) k' = tget t k' := by
  induction t with
  | nil => simp [tset, tget, h]
  | cons x t ih =>
    obtain ⟨k₁, v₁⟩ := x
    by_cases h₁ : k₁ = k
    · subst h₁; simp [tset, tget, h]
    · by_cases h₂ : k₁ = k'
      · subst h₂; simp [tset, tget, h₁]
      · simp [tset, tget, h₁, h₂, ih]

theorem tset_new {β} (t : List (Int × β)) (k v) (h : k ∉ t.map Prod.fst) : tset t k v = t ++ [(k, v)] := by
  induction t with
  | nil => rfl
  | cons x t ih =>
    obtain ⟨k', v'⟩ := x
    simp only [List.map_cons, List.mem_cons, not_or] at h
    simp [tset, Ne.symm h.1, ih h.2]

theorem registerClass_new (e : Entry) (ms : List (String × Int)) (t : List (Int × Entry))
    (h : (t.map Prod.fst ++ ms.map Prod.snd).Nodup) : registerClass e ms t = t ++ ms.map fun m => (m.2, e) := by
  induction ms generalizing t with
  | nil => simp [registerClass]
  | cons m ms ih =>
    obtain ⟨s, n⟩ := m
    have hn : n ∉ t.map Prod.fst := by
      intro hm
      rw [List.nodup_append] at h
      exact h.2.2 n hm n (by simp) rfl
    rw [registerClass, tset_new t n e hn, ih]
    · simp
    · simpa using h

/-- All numbers of the opcode enumerations. -/
def allNumbers (es : List EnumDef) : List Int := es.flatMap fun E => E.members.map Prod.snd
/-- All names of the opcode enumerations. -/
def allNames (es : List EnumDef) : List String := es.flatMap fun E => E.members.map Prod.fst

theorem opcodeTable_new (reg : List Entry) (t : List (Int × Entry))
    (h : (t.map Prod.fst ++ allNumbers (reg.map Prod.fst)).Nodup) :
    opcodeTable reg t = t ++ reg.flatMap fun e => e.1.members.map fun m => (m.2, e) := by
  induction reg generalizing t with
  | nil => simp [opcodeTable]
  | cons e es ih =>
    simp only [allNumbers, List.map_cons, List.flatMap_cons, ← List.append_assoc] at h
    rw [opcodeTable, registerClass_new e _ t (List.nodup_append.1 h).1, ih]
    · simp
    · simpa [allNumbers, Function.comp_def] using h

theorem tget_of_mem {β} (t : List (Int × β)) (h : (t.map Prod.fst).Nodup) {k v} (hm : (k, v) ∈ t) : tget t k = some v := by
  induction t with
  | nil => simp at hm
  | cons x t ih =>
    obtain ⟨k', v'⟩ := x
    simp only [List.map_cons, List.nodup_cons] at h
    rcases List.mem_cons.1 hm with he | hm
    · cases he; simp [tget]
    · have : k' ≠ k := by rintro rfl; exact h.1 (List.mem_map.2 ⟨_, hm, rfl⟩)
      simp [tget, this, ih h.2 hm]

theorem tget_mem {β} (t : List (Int × β)) {k v} (h : tget t k = some v) : (k, v) ∈ t := by
  induction t with
  | nil => simp [tget] at h
  | cons x t ih =>
    obtain ⟨k', v'⟩ := x
    by_cases he : k' = k
    · subst he; simp [tget] at h; simp [h]
    · simp [tget, he] at h; exact List.mem_cons.2 (.inr (ih h))

theorem lookupValue_mem {ms : List (String × Int)} {n N} (h : lookupValue ms n = some N) : (N, n) ∈ ms := by
  induction ms with
  | nil => simp [lookupValue] at h
  | cons x ms ih =>
    obtain ⟨k, m⟩ := x
    by_cases he : m = n
    · subst he; simp [lookupValue] at h; simp [h]
    · simp [lookupValue, he] at h; exact List.mem_cons.2 (.inr (ih h))

theorem lookupValue_of_mem {ms : List (String × Int)} (hn : (ms.map Prod.snd).Nodup) {n N} (h : (N, n) ∈ ms) :
    lookupValue ms n = some N := by
  induction ms with
  | nil => simp at h
  | cons x ms ih =>
    obtain ⟨k, m⟩ := x
    simp only [List.map_cons, List.nodup_cons] at hn
    rcases List.mem_cons.1 h with he | h
    · cases he; simp [lookupValue]
    · have : m ≠ n := by rintro rfl; exact hn.1 (List.mem_map.2 ⟨_, h, rfl⟩)
      simp [lookupValue, this, ih hn.2 h]

/-- The registry is free of clashes. -/
structure RegOK (reg : List Entry) : Prop where
  numbers : (allNumbers (reg.map Prod.fst)).Nodup
  names : (allNames (reg.map Prod.fst)).Nodup
  wf : ∀ n ∈ allNumbers (reg.map Prod.fst), ∃ k : Nat, n = k ∧ WellFormed k

section
variable {reg : List Entry} (ok : RegOK reg)
include ok

theorem table_eq : opcodeTable reg [] = reg.flatMap fun e => e.1.members.map fun m => (m.2, e) := by
  rw [opcodeTable_new reg [] (by simpa using ok.numbers)]; simp

theorem table_keys : ((opcodeTable reg []).map Prod.fst).Nodup := by
  rw [table_eq ok]
  have := ok.numbers
  simpa [allNumbers, List.map_flatMap, Function.comp_def, List.flatMap_map] using this

theorem table_of {e : Entry} (he : e ∈ reg) {N n} (h : lookupValue e.1.members n = some N) :
    tget (opcodeTable reg []) n = some e := by
  refine tget_of_mem _ (table_keys ok) ?_
  rw [table_eq ok]
  exact List.mem_flatMap.2 ⟨e, he, List.mem_map.2 ⟨_, lookupValue_mem h, rfl⟩⟩

theorem table_inv {e : Entry} {n} (h : tget (opcodeTable reg []) n = some e) : e ∈ reg ∧ ∃ N, (N, n) ∈ e.1.members := by
  have := tget_mem _ h
  rw [table_eq ok] at this
  obtain ⟨e', he', hm⟩ := List.mem_flatMap.1 this
  obtain ⟨m, hm', heq⟩ := List.mem_map.1 hm
  cases heq
  exact ⟨he', m.1, hm'⟩

theorem numbers_of {e : Entry} (he : e ∈ reg) : (e.1.members.map Prod.snd).Nodup := by
  have := ok.numbers
  simp only [allNumbers, List.flatMap_map] at this
  rw [List.nodup_flatMap] at this
  exact this.1 e he

theorem table_name {e : Entry} {n} (h : tget (opcodeTable reg []) n = some e) : ∃ N, lookupValue e.1.members n = some N := by
  obtain ⟨he, N, hN⟩ := table_inv ok h
  exact ⟨N, lookupValue_of_mem (numbers_of ok he) hN⟩

theorem table_wf {e : Entry} {n} (h : tget (opcodeTable reg []) n = some e) : ∃ k : Nat, n = k ∧ WellFormed k := by
  obtain ⟨he, N, hN⟩ := table_inv ok h
  exact ok.wf n (List.mem_flatMap.2 ⟨e.1, List.mem_map.2 ⟨e, he, rfl⟩, List.mem_map.2 ⟨_, hN, rfl⟩⟩)

end

theorem findName_of_mem (t : List (Int × Entry)) {n e N} (hm : (n, e) ∈ t) (hN : lookupValue e.1.members n = some N)
    (hu : ∀ n' e', (n', e') ∈ t → lookupValue e'.1.members n' = some N → n' = n ∧ e' = e) : findName N t = some (n, e) := by
  induction t with
  | nil => simp at hm
  | cons x t ih =>
    obtain ⟨n', e'⟩ := x
    by_cases h : lookupValue e'.1.members n' = some N
    · obtain ⟨rfl, rfl⟩ := hu n' e' (by simp) h
      simp [findName, h]
    · simp only [findName, h, if_false]
      refine ih ?_ (fun n' e' hm' => hu n' e' (List.mem_cons.2 (.inr hm')))
      rcases List.mem_cons.1 hm with he | hm
      · cases he; exact absurd hN h
      · exact hm

theorem findName_none {t : List (Int × Entry)} {N} (hu : ∀ n' e', (n', e') ∈ t → lookupValue e'.1.members n' ≠ some N) :
    findName N t = none := by
  induction t with
  | nil => rfl
  | cons x t ih =>
    obtain ⟨n', e'⟩ := x
    simp only [findName, hu n' e' (by simp), if_false]
    exact ih fun n e hm => hu n e (List.mem_cons.2 (.inr hm))

/-- Different classes share no name. -/
theorem name_unique {es : List EnumDef} (h : (allNames es).Nodup) {A B : EnumDef} (hA : A ∈ es) (hB : B ∈ es) {N a b}
    (ha : (N, a) ∈ A.members) (hb : (N, b) ∈ B.members) : A = B ∧ a = b := by
  induction es with
  | nil => simp at hA
  | cons E es ih =>
    simp only [allNames, List.flatMap_cons, List.nodup_append] at h
    obtain ⟨h1, h2, h3⟩ := h
    have hin : ∀ {X : EnumDef} {x}, X ∈ es → (N, x) ∈ X.members → N ∈ es.flatMap fun E => E.members.map Prod.fst :=
      fun hX hx => List.mem_flatMap.2 ⟨_, hX, List.mem_map.2 ⟨_, hx, rfl⟩⟩
    have hd : ∀ {x}, (N, x) ∈ E.members → N ∈ E.members.map Prod.fst := fun hx => List.mem_map.2 ⟨_, hx, rfl⟩
    rcases List.mem_cons.1 hA with rfl | hA' <;> rcases List.mem_cons.1 hB with rfl | hB'
    · refine ⟨rfl, ?_⟩
      generalize B.members = ms at h1 ha hb
      clear h3 hd
      induction ms with
      | nil => simp at ha
      | cons m ms ih =>
        simp only [List.map_cons, List.nodup_cons, List.mem_map, not_exists, not_and] at h1
        rcases List.mem_cons.1 ha with ha | ha' <;> rcases List.mem_cons.1 hb with hb | hb'
        · rw [← ha] at hb; exact (Prod.mk.inj hb).2.symm
        · subst ha; exact (h1.1 (N, b) hb' rfl).elim
        · subst hb; exact (h1.1 (N, a) ha' rfl).elim
        · exact ih h1.2 ha' hb'
    · exact absurd rfl (h3 N (hd ha) N (hin hB' hb))
    · exact absurd rfl (h3 N (hd hb) N (hin hA' ha))
    · exact ih h2 hA' hB'

theorem mem_of_map_fst {reg : List Entry} (h : (allNumbers (reg.map Prod.fst)).Nodup) {e e' : Entry} (he : e ∈ reg) (he' : e' ∈ reg)
    {n a b} (ha : (a, n) ∈ e.1.members) (hb : (b, n) ∈ e'.1.members) : e = e' := by
  have ht : ((reg.flatMap fun e => e.1.members.map fun m => (m.2, e)).map Prod.fst).Nodup := by
    simpa [allNumbers, List.map_flatMap, Function.comp_def, List.flatMap_map] using h
  have h1 := tget_of_mem _ ht (List.mem_flatMap.2 ⟨e, he, List.mem_map.2 ⟨_, ha, rfl⟩⟩)
  have h2 := tget_of_mem _ ht (List.mem_flatMap.2 ⟨e', he', List.mem_map.2 ⟨_, hb, rfl⟩⟩)
  rw [h1] at h2
  exact Option.some.inj h2

variable {reg : List Entry} in
theorem findName_of (ok : RegOK reg) {e : Entry} (he : e ∈ reg) {N n} (h : lookupValue e.1.members n = some N) :
    findName N (opcodeTable reg []) = some (n, e) := by
  refine findName_of_mem _ (tget_mem _ (table_of ok he h)) h ?_
  intro n' e' hm hN
  have := tget_of_mem _ (table_keys ok) hm
  obtain ⟨he', -⟩ := table_inv ok this
  obtain ⟨-, rfl⟩ := name_unique ok.names (List.mem_map.2 ⟨_, he', rfl⟩) (List.mem_map.2 ⟨_, he, rfl⟩) (lookupValue_mem hN) (lookupValue_mem h)
  exact ⟨rfl, (mem_of_map_fst ok.numbers he' he (lookupValue_mem hN) (lookupValue_mem h))⟩

/-! ### Messages -/

theorem messageCon_build {e : Entry} {op : Nat} {N : String} {c : Con UInt8} (hw : WellFormed op)
    (hN : lookupValue e.1.members op = some N) (hc : (findCase op e.2).getD passC = c) (L d k)
    (hk : dget d "opcode" = some k) (hh : hashInt k = some (op : Int)) :
    (messageCon e).build L [] (.dict d) =
      match (dget d (lower N)).or (dget d "params") with
      | none => .error .key
      | some u =>
        match c.build L [("opcode", .enum e.1.cls op), ("params", u)] u with
        | .ok (b, _) => .ok (wireOpcode op ++ b, .dict d)
        | .error x => .error x := by
  have hhas : e.1.has op = true := by
    simp only [EnumDef.has, List.any_eq_true, beq_iff_eq]
    exact ⟨_, lookupValue_mem hN, rfl⟩
  have hcall : e.1.call k = .ok (.enum e.1.cls op) := by simp only [EnumDef.call, hh, hhas, if_true]
  have hai : asInt (.enum e.1.cls op) = some (op : Int) := rfl
  have hcase : caseOf (.enum e.1.cls op) e.2 passC = c := by
    rw [caseOf, show hashInt (.enum e.1.cls op) = some (op : Int) from rfl]; simp only [hc]
  have hkey : ∀ ctx, (opcodeC (some e.1)).build L ctx (.enum e.1.cls op) = .ok (wireOpcode op, .enum e.1.cls op) := by
    intro ctx
    simp only [opcodeC, hai, opcodeBytes_wire hw, ok_bind, opcodeType, hhas, if_true]
  simp only [messageCon, switchStruct, dgetE, hk, ok_bind, hcall, hai, hN, hkey, hcase]
  cases dget d (lower N) with
  | some u => simp only [ok_bind, Option.some_or]; cases c.build L _ u <;> rfl
  | none =>
    cases dget d "params" with
    | none => rfl
    | some u => simp only [ok_bind, Option.none_or]; cases c.build L _ u <;> rfl

theorem messageCon_parse {e : Entry} {op : Nat} {N : String} {c : Con UInt8} (hw : WellFormed op)
    (hN : lookupValue e.1.members op = some N) (hc : (findCase op e.2).getD passC = c) (L s) :
    (messageCon e).parse L [] (wireOpcode op ++ s) =
      match c.parse L [("opcode", .enum e.1.cls op)] s with
      | .ok (v, rest) => .ok (.dict [("opcode", .enum e.1.cls op), (lower N, v)], rest)
      | .error x => .error x := by
  have hhas : e.1.has op = true := by
    simp only [EnumDef.has, List.any_eq_true, beq_iff_eq]
    exact ⟨_, lookupValue_mem hN, rfl⟩
  simp only [messageCon, switchStruct, opcodeC, opcodeNum_wire hw, ok_bind, opcodeType, hhas, if_true, asInt, hN, caseOf, hashInt, hc]
  cases c.parse L _ s <;> rfl

/-- The caller's object after building: an opcode given by name is replaced by the member. -/
def afterBuild (cls : String) (op : Nat) (d : Dict) : Val → Dict
  | .str _ => dset d "opcode" (.enum cls op)
  | _ => d

/-- What building an object of a registered class does. -/
theorem access_build {reg : List Entry} (ok : RegOK reg) {e : Entry} (he : e ∈ reg) {m : MsgSpec}
    (hN : lookupValue e.1.members m.op = some (upper m.name)) (hl : lower (upper m.name) = m.name) (hne : m.name ≠ "opcode")
    {c : Con UInt8} (hc : (findCase m.op e.2).getD passC = c) (L : Lib) {d : Dict} {k : Val}
    (hk : dget d "opcode" = some k) (hs : Spells m k) :
    accessBuild reg L (.dict d) =
      match outerPayload m d with
      | none => .error .key
      | some u =>
        match c.build L [("opcode", .enum e.1.cls m.op), ("params", u)] u with
        | .ok (b, _) => .ok (wireOpcode m.op ++ b, .dict (afterBuild e.1.cls m.op d k))
        | .error x => .error x := by
  have hw : WellFormed m.op := by
    obtain ⟨k, hk, hw⟩ := table_wf ok (table_of ok he hN)
    have : m.op = k := by exact_mod_cast hk
    rwa [this]
  rcases hs with hs | rfl
  · have hns : ∀ s, k ≠ .str s := by rintro s rfl; simp [hashInt, asInt] at hs
    have : accessBuild reg L (.dict d) = (do let (b, _) ← (messageCon e).build L [] (.dict d); .ok (b, .dict d)) := by
      simp only [accessBuild, dgetE, hk, ok_bind]
      cases k <;> first | exact absurd rfl (hns _) | simp only [hs, table_of ok he hN]
    have hab : afterBuild e.1.cls m.op d k = d := by cases k <;> first | exact absurd rfl (hns _) | rfl
    rw [this, messageCon_build hw hN hc L d k hk hs, hl, hab]
    unfold outerPayload
    cases (dget d m.name).or (dget d "params") with
    | none => rfl
    | some u => dsimp only; cases c.build L _ u <;> rfl
  · have hk' : dget (dset d "opcode" (.enum e.1.cls m.op)) "opcode" = some (.enum e.1.cls m.op) := dget_dset_self _ _ _
    simp only [accessBuild, dgetE, hk, ok_bind, findName_of ok he hN]
    rw [messageCon_build hw hN hc L _ _ hk' rfl, hl, dget_dset_ne _ _ (Ne.symm hne), dget_dset_ne _ _ (by decide)]
    unfold outerPayload
    cases (dget d m.name).or (dget d "params") with
    | none => rfl
    | some u => simp only [afterBuild]; cases c.build L _ u <;> rfl

/-- What parsing bytes that start with a registered opcode does. -/
theorem access_parse {reg : List Entry} (ok : RegOK reg) {e : Entry} (he : e ∈ reg) {m : MsgSpec}
    (hN : lookupValue e.1.members m.op = some (upper m.name)) (hl : lower (upper m.name) = m.name) (hne : m.name ≠ "opcode")
    {c : Con UInt8} (hc : (findCase m.op e.2).getD passC = c) (L : Lib) (s : List UInt8) :
    accessParse reg L (wireOpcode m.op ++ s) =
      match c.parse L [("opcode", .enum e.1.cls m.op)] s with
      | .ok (v, rest) => .ok (.dict [("opcode", .enum e.1.cls m.op), (m.name, v)], rest)
      | .error x => .error x := by
  have hw : WellFormed m.op := by
    obtain ⟨k, hk, hw⟩ := table_wf ok (table_of ok he hN)
    have : m.op = k := by exact_mod_cast hk
    rwa [this]
  simp only [accessParse, accessParseAt, List.drop_zero, opcodeNum_wire hw, ok_bind, table_of ok he hN, messageCon_parse hw hN hc, hl]
  cases c.parse L _ s with
  | error x => rfl
  | ok r => obtain ⟨v, rest⟩ := r; simp [dset]

/-! ### Sub-messages -/

/-- `C` is the construct of a sub-message table `cases` with sub-opcodes `E`, in which `s` is the sub-message with payload
construct `c`. -/
structure Wraps (C : Con UInt8) (E : EnumDef) (s : Sub) (c : Con UInt8) : Prop where
  build : ∀ L ctx d u, (dget d "subopcode").bind hashInt = some (s.num : Int) → (dget d s.key).or (dget d "payload") = some u →
    ∃ ctx', ∀ b r, c.build L ctx' u = .ok (b, r) → ∃ r', C.build L ctx (.dict d) = .ok (UInt8.ofNat s.num :: b, r')
  build' : ∀ L ctx u b r, C.build L ctx u = .ok (b, r) → ∀ p, innerPayload s u = some p →
    ∃ ctx' b' r', c.build L ctx' p = .ok (b', r') ∧ b = UInt8.ofNat s.num :: b'
  parse : ∀ L ctx t, ∃ ctx', C.parse L ctx (UInt8.ofNat s.num :: t) =
    match c.parse L ctx' t with
    | .ok (v, rest) => .ok (.dict [("subopcode", .enum E.cls s.num), (s.key, v)], rest)
    | .error x => .error x

theorem takeN_one (x : UInt8) (t : List UInt8) : takeN 1 (x :: t) = .ok ([x], t) := by
  simp [takeN]

theorem leBytes_one (n : Nat) : leBytes 1 n = [UInt8.ofNat n] := by
  simp only [leBytes, List.cons.injEq, and_true]
  apply UInt8.toNat.inj
  simp [UInt8.toNat_ofNat]

theorem subkey_parse {E : EnumDef} {n : Nat} (hn : n < 256) (h : E.has n = true) (L ctx t) :
    (enumAdapter (uintLE 1) E).parse L ctx (UInt8.ofNat n :: t) = .ok (.enum E.cls n, t) := by
  simp only [enumAdapter, adapter, uintLE, takeN_one, ok_bind, leNat_one hn, enumDecode, hashInt, asInt, h, if_true]

theorem subkey_build {E : EnumDef} {n : Nat} (hn : n < 256) (h : E.has n = true) (L ctx) {k : Val} (hk : hashInt k = some (n : Int)) :
    (enumAdapter (uintLE 1) E).build L ctx k = .ok ([UInt8.ofNat n], k) := by
  have : enumEncode E k = .ok (.enum E.cls n) := by
    cases k <;> first | (simp [hashInt, asInt] at hk; done) | simp only [enumEncode, hk, h, if_true]
  simp only [enumAdapter, adapter, this, ok_bind, uintLE, asInt]
  rw [if_pos (by constructor <;> simp <;> omega)]
  simp [leBytes_one]

theorem wraps_subMessage {E : EnumDef} {cases : List (Int × Con UInt8)} {s : Sub} {c : Con UInt8}
    (hN : lookupValue E.members s.num = some (upper s.key)) (hl : lower (upper s.key) = s.key) (hn : s.num < 256)
    (hc : (findCase s.num cases).getD passC = c) : Wraps (subMessage E cases) E s c := by
  have hhas : E.has s.num = true := by
    simp only [EnumDef.has, List.any_eq_true, beq_iff_eq]
    exact ⟨_, lookupValue_mem hN, rfl⟩
  have hcase : caseOf (.enum E.cls s.num) cases passC = c := by
    rw [caseOf, show hashInt (.enum E.cls s.num) = some (s.num : Int) from rfl]; simp only [hc]
  have hai : asInt (.enum E.cls s.num) = some (s.num : Int) := rfl
  have main : ∀ L ctx d u, (dget d "subopcode").bind hashInt = some (s.num : Int) → (dget d s.key).or (dget d "payload") = some u →
      (subMessage E cases).build L ctx (.dict d) =
        (do let (b, _) ← c.build L [("subopcode", .enum E.cls s.num), ("payload", u)] u; .ok (UInt8.ofNat s.num :: b, .dict d)) := by
    intro L ctx d u hd hp
    obtain ⟨k, hk, hh⟩ := Option.bind_eq_some_iff.1 hd
    have hcall : E.call k = .ok (.enum E.cls s.num) := by simp only [EnumDef.call, hh, hhas, if_true]
    simp only [subMessage, switchStruct, dgetE, hk, ok_bind, hcall, hai, hN, hl, hcase]
    cases h1 : dget d s.key with
    | some u' =>
      rw [h1, Option.some_or] at hp; cases hp
      simp only [ok_bind, subkey_build hn hhas L _ (k := .enum E.cls s.num) rfl]
      cases c.build L _ _ <;> rfl
    | none =>
      rw [h1, Option.none_or] at hp
      simp only [hp, ok_bind, subkey_build hn hhas L _ (k := .enum E.cls s.num) rfl]
      cases c.build L _ u <;> rfl
  refine ⟨fun L ctx d u hd hp => ⟨[("subopcode", .enum E.cls s.num), ("payload", u)], fun b r h => ?_⟩, ?_, ?_⟩
  · rw [main L ctx d u hd hp, h]; exact ⟨_, rfl⟩
  · intro L ctx u b r h p hp
    cases u <;> simp only [innerPayload, reduceCtorEq] at hp
    rename_i d
    split at hp
    · rename_i hd
      rw [main L ctx d p hd hp] at h
      obtain ⟨⟨b', r'⟩, h1, h2⟩ := bind_ok.1 h
      cases h2
      exact ⟨_, b', r', h1, rfl⟩
    · simp at hp
  · intro L ctx t
    refine ⟨[("subopcode", .enum E.cls s.num)], ?_⟩
    simp only [subMessage, switchStruct, subkey_parse hn hhas, ok_bind, hai, hN, hl, hcase]
    cases c.parse L _ t <;> rfl

theorem wraps_plainSubMessage {E : EnumDef} {cases : List (Int × Con UInt8)} {s : Sub} {c : Con UInt8}
    (hh : E.has s.num = true) (hk : s.key = "payload") (hn : s.num < 256)
    (hc : (findCase s.num cases).getD passC = c) (hb : (switchC (this "subopcode") cases).buildNone = false) :
    Wraps (plainSubMessage E cases) E s c := by
  have hcase : ∀ k, hashInt k = some (s.num : Int) → caseOf k cases passC = c := by
    intro k hk; rw [caseOf, hk]; simp only [hc]
  have main : ∀ L ctx d u, (dget d "subopcode").bind hashInt = some (s.num : Int) → (dget d s.key).or (dget d "payload") = some u →
      ∃ ctx', ∀ x, (c.build L ctx' u = .error x → (plainSubMessage E cases).build L ctx (.dict d) = .error x) ∧
        ∀ b r, c.build L ctx' u = .ok (b, r) → ∃ r', (plainSubMessage E cases).build L ctx (.dict d) = .ok (UInt8.ofNat s.num :: b, r') := by
    intro L ctx d u hd hp
    obtain ⟨k, hk', hh'⟩ := Option.bind_eq_some_iff.1 hd
    have hp' : dget d "payload" = some u := by rw [hk] at hp; cases h : dget d "payload" <;> simp [h] at hp ⊢; exact hp
    have hb1 : (enumAdapter (uintLE 1) E).buildNone = false := rfl
    have hkn : k ≠ .none := by rintro rfl; simp [hashInt, asInt] at hh'
    have hctx : dgetE (dset (dset (dset d "subopcode" k) "subopcode" k) "payload" u) "subopcode" = .ok k := by
      rw [dgetE, dget_dset_ne _ _ (by decide), dget_dset_self]
    refine ⟨dset (dset (dset d "subopcode" k) "subopcode" k) "payload" u, fun x => ⟨fun hx => ?_, fun b r hx => ?_⟩⟩
    all_goals
      simp only [plainSubMessage, struct, asDict, ok_bind, buildItems, field, hb1, hb, Bool.false_eq_true, if_false, dgetE, hk',
        subkey_build hn hh L _ hh', hp']
      simp only [dgetE] at hctx
      simp only [switchC, this, dgetE, hctx, ok_bind, hcase k hh', hx]
    · rfl
    · rw [List.append_nil]; exact ⟨_, rfl⟩
  refine ⟨fun L ctx d u hd hp => ?_, ?_, ?_⟩
  · obtain ⟨ctx', h⟩ := main L ctx d u hd hp
    exact ⟨ctx', (h .key).2⟩
  · intro L ctx u b r h p hp
    cases u <;> simp only [innerPayload, reduceCtorEq] at hp
    rename_i d
    split at hp
    · rename_i hd
      obtain ⟨ctx', h'⟩ := main L ctx d p hd hp
      cases hcb : c.build L ctx' p with
      | error x => rw [(h' x).1 hcb] at h; simp at h
      | ok y =>
        obtain ⟨b', r'⟩ := y
        obtain ⟨r'', h2⟩ := (h' .key).2 b' r' hcb
        rw [h2] at h; cases h
        exact ⟨_, b', r', hcb, rfl⟩
    · simp at hp
  · intro L ctx t
    refine ⟨[("subopcode", .enum E.cls s.num)], ?_⟩
    have : dset [] "subopcode" (.enum E.cls s.num) = [("subopcode", .enum E.cls s.num)] := rfl
    simp only [plainSubMessage, struct, parseItems, field, subkey_parse hn hh, ok_bind, this, switchC, BM.this, dgetE, dget_cons_self,
      hcase (.enum E.cls s.num) rfl, hk]
    cases c.parse L _ t <;> rfl

/-! ### Served messages -/

/-- Message type `m` is registered, and its payload construct meets its format. -/
def Served (M : Mode) (reg : List Entry) (m : MsgSpec) : Prop :=
  ∃ e ∈ reg, lookupValue e.1.members m.op = some (upper m.name) ∧ lower (upper m.name) = m.name ∧ m.name ≠ "opcode" ∧
    ∃ C c, (findCase m.op e.2).getD passC = C ∧ Carries M m c ∧
      match m.sub with
      | none => C = c
      | some s => s.key ≠ "subopcode" ∧ ∃ E, Wraps C E s c

theorem Covers.served {M E cases tbl reg} (h : Covers M E cases tbl) (he : (E, cases) ∈ reg) : ∀ m ∈ tbl, Served M reg m := by
  intro m hm
  obtain ⟨h0, h1, h2, h3, c, h4, h5⟩ := h m hm
  exact ⟨(E, cases), he, h1, h2, h3, c, c, h4, h5, by rw [h0]⟩

theorem SubCovers.served {M E cases tbl name} (h : SubCovers M E cases tbl)
    {op : Nat} {EO : EnumDef} {reg : List Entry} (he : (EO, [((op : Int), subMessage E cases)]) ∈ reg) (h1 : lookupValue EO.members op = some (upper name))
    (h2 : lower (upper name) = name) (h3 : name ≠ "opcode") (ht : ∀ m ∈ tbl, m.op = op ∧ m.name = name) :
    ∀ m ∈ tbl, Served M reg m := by
  intro m hm
  obtain ⟨s, h0, hs1, hs2, hs3, hs4, c, hs5, hs6⟩ := h m hm
  obtain ⟨rfl, rfl⟩ := ht m hm
  refine ⟨_, he, h1, h2, h3, subMessage E cases, c, by simp [findCase], hs6, ?_⟩
  rw [h0]
  exact ⟨hs3, E, wraps_subMessage hs1 hs2 hs4 hs5⟩

variable {M : Mode} {reg : List Entry} {m : MsgSpec}

/-- Building an object whose payload is in the format's domain. -/
theorem Served.build (ok : RegOK reg) (h : Served M reg m) {u b v} (hG : m.fmt u b v) (L : Lib) (hL : M.T → L.Strict) {d k}
    (hk : dget d "opcode" = some k) (hs : Spells m k) (hp : payload m d = some u) :
    ∃ cls, accessBuild reg L (.dict d) = .ok (header m ++ b, .dict (afterBuild cls m.op d k)) := by
  obtain ⟨e, he, h1, h2, h3, C, c, h4, hM, h5⟩ := h
  refine ⟨e.1.cls, ?_⟩
  rw [access_build ok he h1 h2 h3 h4 L hk hs]
  unfold header
  cases hsub : m.sub with
  | none =>
    rw [hsub] at h5; subst h5
    simp only [payload, hsub] at hp
    obtain ⟨r, hr⟩ := hM.meets.enc hG L [("opcode", .enum e.1.cls m.op), ("params", u)] hL
    simp only [hp, hr, List.append_nil]
  | some s =>
    rw [hsub] at h5
    obtain ⟨-, E, hW⟩ := h5
    simp only [payload, hsub] at hp
    obtain ⟨p, hp1, hp2⟩ := Option.bind_eq_some_iff.1 hp
    cases p <;> simp only [innerPayload, reduceCtorEq] at hp2
    rename_i d'
    split at hp2
    · rename_i hd
      obtain ⟨ctx', hb⟩ := hW.build L [("opcode", .enum e.1.cls m.op), ("params", .dict d')] d' u hd hp2
      obtain ⟨r, hr⟩ := hM.meets.enc hG L ctx' hL
      obtain ⟨r', hr'⟩ := hb b r hr
      simp only [hp1, hr', List.append_assoc, List.cons_append, List.nil_append]
    · simp at hp2

/-- What was built from an object with a payload. -/
theorem Served.built (ok : RegOK reg) (h : Served M reg m) {u} (L : Lib) {d k bs o}
    (hk : dget d "opcode" = some k) (hs : Spells m k) (hp : payload m d = some u)
    (hb : accessBuild reg L (.dict d) = .ok (bs, o)) :
    ∃ c ctx b r, MeetsBut m.odd M true c m.fmt ∧ c.build L ctx u = .ok (b, r) ∧ bs = header m ++ b := by
  obtain ⟨e, he, h1, h2, h3, C, c, h4, hM, h5⟩ := h
  rw [access_build ok he h1 h2 h3 h4 L hk hs] at hb
  unfold header
  cases hsub : m.sub with
  | none =>
    rw [hsub] at h5; subst h5
    simp only [payload, hsub] at hp
    rw [hp] at hb
    split at hb
    · simp at hb
    · rename_i x hx; cases hx
      split at hb
      · rename_i b r hr
        simp only [Except.ok.injEq, Prod.mk.injEq] at hb
        exact ⟨C, _, b, r, hM.meets, hr, by rw [List.append_nil]; exact hb.1.symm⟩
      · simp at hb
  | some s =>
    rw [hsub] at h5
    obtain ⟨-, E, hW⟩ := h5
    simp only [payload, hsub] at hp
    obtain ⟨p, hp1, hp2⟩ := Option.bind_eq_some_iff.1 hp
    rw [hp1] at hb
    split at hb
    · simp at hb
    · rename_i x hx; cases hx
      split at hb
      · rename_i b r hr
        simp only [Except.ok.injEq, Prod.mk.injEq] at hb
        obtain ⟨ctx', b', r', hc, rfl⟩ := hW.build' L _ p b r hr u hp2
        exact ⟨c, ctx', b', r', hM.meets, hc, by rw [← hb.1]; simp⟩
      · simp at hb

theorem Served.carried (ok : RegOK reg) (h : Served M reg m) : ∃ c cls scls, Carries M m c ∧ ∀ L s, ∃ ctx,
    accessParse reg L (header m ++ s) =
      match c.parse L ctx s with
      | .ok (v, rest) => .ok (report m cls scls v, rest)
      | .error x => .error x := by
  obtain ⟨e, he, h1, h2, h3, C, c, h4, hM, h5⟩ := h
  cases hsub : m.sub with
  | none =>
    rw [hsub] at h5; subst h5
    refine ⟨C, e.1.cls, "", hM, fun L s => ⟨[("opcode", .enum e.1.cls m.op)], ?_⟩⟩
    rw [header, hsub, List.append_nil, access_parse ok he h1 h2 h3 h4 L s]
    simp only [report, hsub]
  | some s' =>
    rw [hsub] at h5
    obtain ⟨-, E, hW⟩ := h5
    refine ⟨c, e.1.cls, E.cls, hM, fun L s => ?_⟩
    obtain ⟨ctx, hp⟩ := hW.parse L [("opcode", .enum e.1.cls m.op)] s
    refine ⟨ctx, ?_⟩
    simp only [header, hsub, List.append_assoc, List.cons_append, List.nil_append]
    rw [access_parse ok he h1 h2 h3 h4 L, hp]
    simp only [report, hsub]
    cases c.parse L ctx s <;> rfl

theorem Served.parse (ok : RegOK reg) (h : Served M reg m) : ∃ c cls scls, MeetsBut m.odd M true c m.fmt ∧ ∀ L s, ∃ ctx,
    accessParse reg L (header m ++ s) =
      match c.parse L ctx s with
      | .ok (v, rest) => .ok (report m cls scls v, rest)
      | .error x => .error x := by
  obtain ⟨c, cls, scls, h1, h2⟩ := h.carried ok
  exact ⟨c, cls, scls, h1.meets, h2⟩

/-- A reported object spells its own opcode and carries the reported payload. -/
theorem Served.report (h : Served M reg m) (cls scls v) : ∃ d, report m cls scls v = .dict d ∧
    dget d "opcode" = some (.enum cls m.op) ∧ payload m d = some v := by
  obtain ⟨e, he, h1, h2, h3, C, c, h4, hM, h5⟩ := h
  refine ⟨_, rfl, by simp, ?_⟩
  cases hsub : m.sub with
  | none => simp [payload, hsub, outerPayload, dget, Ne.symm h3]
  | some s =>
    rw [hsub] at h5
    simp [payload, hsub, outerPayload, dget, Ne.symm h3, innerPayload, Ne.symm h5.1, hashInt, asInt]

end BM
