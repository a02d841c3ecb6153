import Verif.MeetsGenerics
/-!
# Field constructs (C09–C13, C19, C26)
-/
namespace BM.Props
open Config F

/-- The field carries exactly the `n`-byte little-endian unsigned integers satisfying `P`: these are built to and parsed from
their bytes unchanged, every other number is rejected on parsing, and nothing else is accepted on building. -/
structure Carries (c : Con UInt8) (n : Nat) (P : Nat → Prop) : Prop where
  build : ∀ (L : Lib) (ctx : Dict) (u : Val) (k : Nat), asInt u = some (k : Int) → k < 256 ^ n → P k → ∃ r, c.build L ctx u = .ok (leBytes n k, r)
  parse : ∀ (L : Lib) (ctx : Dict) (k : Nat) (rest : List UInt8), k < 256 ^ n → P k → c.parse L ctx (leBytes n k ++ rest) = .ok (.int k, rest)
  parse_only : ∀ (L : Lib) (ctx : Dict) (s : List UInt8) (v : Val) (rest : List UInt8), c.parse L ctx s = .ok (v, rest) →
    ∃ k : Nat, k < 256 ^ n ∧ P k ∧ v = .int k ∧ s = leBytes n k ++ rest
  build_only : ∀ (L : Lib) (ctx : Dict) (u : Val) (b : List UInt8) (r : Val), c.build L ctx u = .ok (b, r) →
    ∃ k : Nat, k < 256 ^ n ∧ P k ∧ asInt u = some (k : Int) ∧ b = leBytes n k

theorem uintWhere_bytes {n : Nat} {P : Nat → Prop} {u b v} (h : uintWhere n P u b v) :
    ∃ k : Nat, k < 256 ^ n ∧ P k ∧ asInt u = some (k : Int) ∧ b = leBytes n k ∧ v = .int k := by
  obtain ⟨k, hu, hP, hl, hb, rfl⟩ := h
  have hlt := leNat_lt b
  rw [hl, hb] at hlt
  exact ⟨k, hlt, hP, hu, by rw [← hb, ← hl, leBytes_leNat], rfl⟩

theorem carries_of_meets {c : Con UInt8} {n : Nat} {P : Nat → Prop}
    (h : Meets ⟨False, False, True, True⟩ false c (uintWhere n P)) : Carries c n P where
  build L ctx u k hu hk hP := h.enc ⟨k, hu, hP, leBytes_length _ _, leNat_leBytes _ _ hk, rfl⟩ L ctx False.elim
  parse L ctx k rest hk hP := h.dec (u := .int k) ⟨k, rfl, hP, leBytes_length _ _, leNat_leBytes _ _ hk, rfl⟩ L ctx rest (by simp)
  parse_only L ctx s v rest hp := by
    obtain ⟨b, rfl, hG⟩ := h.exact trivial hp
    obtain ⟨k, hk, hP, -, rfl, rfl⟩ := uintWhere_bytes hG
    exact ⟨k, hk, hP, rfl, rfl⟩
  build_only L ctx u b r hb := by
    obtain ⟨v, hG⟩ := h.sound False.elim hb
    obtain ⟨k, hk, hP, hu, rfl, -⟩ := uintWhere_bytes hG
    exact ⟨k, hk, hP, hu, rfl⟩

/-! ## C09 -/

/-- **C09 (classification).** Every 16-bit address has the type whose range it lies in. -/
theorem C09_address_type {a : Nat} (h : a < 65536) :
    (getAddressType a = .unassigned ↔ a = 0) ∧ (getAddressType a = .unicast ↔ 0x0001 ≤ a ∧ a ≤ 0x7FFF) ∧
    (getAddressType a = .virtual ↔ 0x8000 ≤ a ∧ a ≤ 0xBFFF) ∧ (getAddressType a = .group ↔ 0xC000 ≤ a ∧ a ≤ 0xFEFF) ∧
    (getAddressType a = .rfu ↔ 0xFF00 ≤ a ∧ a ≤ 0xFFFB) ∧ (getAddressType a = .allProxies ↔ a = 0xFFFC) ∧
    (getAddressType a = .allFriends ↔ a = 0xFFFD) ∧ (getAddressType a = .allRelays ↔ a = 0xFFFE) ∧
    (getAddressType a = .allNodes ↔ a = 0xFFFF) := by
  obtain ⟨h1, h2, h3, h4, h5, h6, h7, h8, h9⟩ := getAddressType_spec h
  exact ⟨h1, h2, h4, h3, h5, h6, h7, h8, h9⟩

theorem C09_unassigned : Carries unassignedAddress 2 (· = 0) := by
  refine carries_of_meets (meets_address _ _ fun k hk => ?_)
  have := C09_address_type hk
  cases h : getAddressType k <;> rw [h] at this <;> simp_all
theorem C09_unicast : Carries unicastAddress 2 (fun a => 0x0001 ≤ a ∧ a ≤ 0x7FFF) := carries_of_meets meets_unicast
theorem C09_group : Carries groupAddress 2 (fun a => 0xC000 ≤ a ∧ a ≤ 0xFEFF) := by
  refine carries_of_meets (meets_address _ _ fun k hk => ?_)
  have := C09_address_type hk
  cases h : getAddressType k <;> rw [h] at this <;> simp_all
theorem C09_virtual : Carries virtualLabel 2 (fun a => 0x8000 ≤ a ∧ a ≤ 0xBFFF) := by
  refine carries_of_meets (meets_address _ _ fun k hk => ?_)
  have := C09_address_type hk
  cases h : getAddressType k <;> rw [h] at this <;> simp_all
theorem C09_not_virtual : Carries notVirtualLabel 2 (fun a => a ≤ 0x7FFF ∨ 0xC000 ≤ a) := by
  refine carries_of_meets (meets_address _ _ fun k hk => ?_)
  have := C09_address_type hk
  cases h : getAddressType k <;> rw [h] at this <;> simp at this ⊢ <;> omega
/-- Subscription addresses: groups, the reserved range and the fixed groups except all-nodes. -/
theorem C09_subscription : Carries subscriptionAddress 2 (fun a => 0xC000 ≤ a ∧ a ≤ 0xFFFE) := by
  refine carries_of_meets (meets_address _ _ fun k hk => ?_)
  have := C09_address_type hk
  cases h : getAddressType k <;> rw [h] at this <;> simp at this ⊢ <;> omega
theorem C09_status_subscription : Carries statusSubscriptionAddress 2 (fun a => a = 0 ∨ 0x8000 ≤ a ∧ a ≤ 0xFFFE) := by
  refine carries_of_meets (meets_address _ _ fun k hk => ?_)
  have := C09_address_type hk
  cases h : getAddressType k <;> rw [h] at this <;> simp at this ⊢ <;> omega
theorem C09_unicast_unassigned : Carries unicastUnassignedAddress 2 (fun a => a ≤ 0x7FFF) := by
  refine carries_of_meets (meets_address _ _ fun k hk => ?_)
  have := C09_address_type hk
  cases h : getAddressType k <;> rw [h] at this <;> simp at this ⊢ <;> omega
theorem C09_unicast_unassigned_group :
    Carries unicastUnassignedGroupAddress 2 (fun a => a ≤ 0x7FFF ∨ 0xC000 ≤ a ∧ a ≤ 0xFEFF) := by
  refine carries_of_meets (meets_address _ _ fun k hk => ?_)
  have := C09_address_type hk
  cases h : getAddressType k <;> rw [h] at this <;> simp at this ⊢ <;> omega

/-! ## C10 -/

theorem C10_ttl : Carries ttl 1 (· ≤ 0x7F) := carries_of_meets meets_sevenBit
theorem C10_fast_period : Carries (rangeValidator (uintLE 1) none (some 15)) 1 (· ≤ 15) := carries_of_meets meets_fastPeriod
theorem C10_scene_number : Carries Scene.sceneNumber 2 (0 < ·) := carries_of_meets meets_sceneNumber
theorem C10_int12 : Carries int12ul 2 (· < 4096) := by
  refine carries_of_meets (meets_uintWhere 2 _ _ ?_)
  intro u k hk hu
  simp only [hu, Int.toNat_natCast, and_F000 (show k < 65536 from hk)]
  congr 1
  rw [Bool.eq_iff_iff]; simp
/-- Every range validator over an `n`-byte unsigned integer enforces its bounds in both directions. -/
theorem C10_range (n : Nat) (mn mx : Option Int) :
    Carries (rangeValidator (uintLE n) mn mx) n (fun k => (∀ m, mn = some m → m ≤ k) ∧ (∀ m, mx = some m → (k : Int) ≤ m)) := by
  have : DecidablePred fun k : Nat => (∀ m, mn = some m → m ≤ (k : Int)) ∧ (∀ m, mx = some m → (k : Int) ≤ m) := fun _ => Classical.dec _
  refine carries_of_meets (meets_uintWhere n _ _ ?_)
  intro u k hk hu
  simp only [inRange, asNum_of_asInt hu]
  congr 1
  rw [Bool.eq_iff_iff]
  cases mn <;> cases mx <;> simp 
  all_goals norm_cast

example : (5 : Nat) < 256 ^ 1 ∧ 5 ≤ 0x7F := by decide

/-! ## C11 -/

theorem word_bits {n : Nat} {b : List UInt8} (_ : b.length = n) (j : Nat) (hj : j ≤ 8 * n) :
    bitsNat ((bytesBits b.reverse).drop (8 * n - j)) = leNat b % 2 ^ j ∧
    bitsNat ((bytesBits b.reverse).take (8 * n - j)) = leNat b / 2 ^ j := by
  have hl : (bytesBits b.reverse).length = 8 * n := by rw [bytesBits_length, List.length_reverse]; omega
  have h1 := bitsNat_append ((bytesBits b.reverse).take (8 * n - j)) ((bytesBits b.reverse).drop (8 * n - j))
  rw [List.take_append_drop, bitsNat_rev, List.length_drop, hl, show 8 * n - (8 * n - j) = j by omega] at h1
  have h2 := bitsNat_lt ((bytesBits b.reverse).drop (8 * n - j))
  rw [List.length_drop, hl, show 8 * n - (8 * n - j) = j by omega] at h2
  constructor
  · rw [h1, Nat.add_comm, Nat.add_mul_mod_self_right, Nat.mod_eq_of_lt h2]
  · rw [h1, Nat.add_comm, Nat.add_mul_div_right _ _ (Nat.two_pow_pos j), Nat.div_eq_of_lt h2, Nat.zero_add]

/-- **C11 (single index, build).** Two little-endian bytes. -/
theorem C11_single_build (name : String) (L : Lib) (ctx : Dict) {d : Dict} {u : Val} {k : Nat} (hu : dget d name = some u)
    (hi : asInt u = some (k : Int)) (hk : k < 4096) :
    ∃ r, (struct [singleKeyIndex name]).build L ctx (.dict d) = .ok (leBytes 2 k, r) := by
  have hM : Meets ⟨False, True, True, False⟩ false (reversed 2 (bitwise 2 (struct [anon (padding false 4), field name (ubits 12)])))
      (F.packedLE 2 (F.record [F.zeros false 4, F.fld name (F.bitsU 12)])) := by
    refine meets_reversed (meets_bitwise (meets_struct (.cons (meetsI_zeros _ _ (by simp))
      (.last (meetsI_field rfl (meets_ubits 12 trivial)))) (by simp [F.zeros, F.fld])) ?_)
    exact (lenEq_record (.cons (lenEqI_zeros _ _) (.cons (lenEqI_fld (lenEq_bitsU 12)) .nil))).cast rfl
  have hG : F.packedLE 2 (F.record [F.zeros false 4, F.fld name (F.bitsU 12)]) (.dict d) (leBytes 2 k) (.dict [(name, .int k)]) := by
    refine ⟨leBytes_length _ _, _, _, rfl, ⟨List.replicate 4 false, natBits 12 k, [], [(name, .int k)], ?_, rfl,
      ⟨rfl, rfl⟩, natBits 12 k, [], [(name, .int k)], [], by simp, rfl,
      ⟨u, _, hu, ⟨k, hi, natBits_length _ _, bitsNat_natBits _ _ hk, rfl⟩, rfl⟩, rfl, rfl⟩, rfl⟩
    rw [bytesBits_rev_leBytes (by omega), show List.replicate 4 false = natBits 4 0 by rfl, ← natBits_add (n := 4) (m := 12) (by omega) hk]
    simp
  obtain ⟨r, hr⟩ := hM.enc hG L d False.elim
  have hit : (singleKeyIndex name).build L d d = .ok (leBytes 2 k, dset d "_" (.dict d)) := by
    simp only [singleKeyIndex, embeddedBitStruct, if_true, hr, ok_bind]
  simp only [struct, asDict, ok_bind, buildItems, hit, List.append_nil]
  exact ⟨_, rfl⟩

/-- **C11 (single index, parse).** Two bytes are read; the index is the low 12 bits of the little-endian word, the top 4 bits are
ignored. -/
theorem C11_single_parse (name : String) (L : Lib) (ctx : Dict) {b : List UInt8} (hb : b.length = 2) (rest : List UInt8) :
    ∃ d, (struct [singleKeyIndex name]).parse L ctx (b ++ rest) = .ok (.dict d, rest) ∧
      dget d name = some (.int ((leNat b % 4096 : Nat) : Int)) := by
  have hl : (bytesBits b.reverse).length = 16 := by rw [bytesBits_length, List.length_reverse, hb]
  have h2 := (word_bits hb 12 (by omega)).1
  have e : takeN 4 (bytesBits b.reverse) = .ok ((bytesBits b.reverse).take 4, (bytesBits b.reverse).drop 4) := by
    simp [takeN, hl]
  have e2 : takeN 12 ((bytesBits b.reverse).drop 4) = .ok ((bytesBits b.reverse).drop 4, []) := by
    have := takeN_append (n := 12) (b := (bytesBits b.reverse).drop 4) (rest := []) (by rw [List.length_drop, hl])
    rwa [List.append_nil] at this
  simp only [struct, parseItems, singleKeyIndex, embeddedBitStruct, reversed, bitwise, takeN_append hb, ok_bind, if_true]
  rw [← List.append_nil b.reverse, takeN_append (show b.reverse.length = 2 by simpa using hb)]
  simp only [ok_bind, List.append_nil, anon, padding, e, field, ubits, e2, dset]
  refine ⟨_, rfl, ?_⟩
  simp only [dmerge]
  rw [dget_dset_self]; exact congrArg (fun k : Nat => some (Val.int k)) h2

/-- **C11 (pair, build).** Three bytes, the little-endian word `first + 4096 * second`. -/
theorem C11_pair_build (first second : String) (hne : first ≠ second) (L : Lib) (ctx : Dict) {d : Dict} {u w : Val} {j k : Nat}
    (hu : dget d first = some u) (hw : dget d second = some w) (hi : asInt u = some (j : Int)) (hj : j < 4096)
    (hi' : asInt w = some (k : Int)) (hk : k < 4096) :
    ∃ r, (struct [doubleKeyIndex first second]).build L ctx (.dict d) = .ok (leBytes 3 (j + 4096 * k), r) := by
  have hM : Meets ⟨False, True, True, True⟩ false (reversed 3 (bitwise 3 (struct [field second (ubits 12), field first (ubits 12)])))
      (F.packedLE 3 (F.record [F.fld second (F.bitsU 12), F.fld first (F.bitsU 12)])) := by
    refine meets_reversed (meets_bitwise (meets_struct (.cons (meetsI_field rfl (meets_ubits 12 trivial))
      (.last (meetsI_field rfl (meets_ubits 12 trivial)))) (by simpa [F.fld] using hne.symm)) ?_)
    exact (lenEq_record (.cons (lenEqI_fld (lenEq_bitsU 12)) (.cons (lenEqI_fld (lenEq_bitsU 12)) .nil))).cast rfl
  have hG : F.packedLE 3 (F.record [F.fld second (F.bitsU 12), F.fld first (F.bitsU 12)]) (.dict d) (leBytes 3 (j + 4096 * k))
      (.dict [(second, .int k), (first, .int j)]) := by
    refine ⟨leBytes_length _ _, _, _, rfl, ⟨natBits 12 k, natBits 12 j, [(second, .int k)], [(first, .int j)], ?_, rfl,
      ⟨w, _, hw, ⟨k, hi', natBits_length _ _, bitsNat_natBits _ _ hk, rfl⟩, rfl⟩, natBits 12 j, [], [(first, .int j)], [], by simp, rfl,
      ⟨u, _, hu, ⟨j, hi, natBits_length _ _, bitsNat_natBits _ _ hj, rfl⟩, rfl⟩, rfl, rfl⟩, rfl⟩
    rw [bytesBits_rev_leBytes (by omega), ← natBits_add (n := 12) (m := 12) hk hj]
    congr 1; omega
  obtain ⟨r, hr⟩ := hM.enc hG L d False.elim
  have hit : (doubleKeyIndex first second).build L d d = .ok (leBytes 3 (j + 4096 * k), dset d "_" (.dict d)) := by
    simp only [doubleKeyIndex, embeddedBitStruct, if_true, hr, ok_bind]
  simp only [struct, asDict, ok_bind, buildItems, hit, List.append_nil]
  exact ⟨_, rfl⟩

/-- **C11 (pair, parse).** Three bytes are read; the first index is the low half, the second the high half of the word. -/
theorem C11_pair_parse (first second : String) (hne : first ≠ second) (L : Lib) (ctx : Dict) {b : List UInt8} (hb : b.length = 3)
    (rest : List UInt8) :
    ∃ d, (struct [doubleKeyIndex first second]).parse L ctx (b ++ rest) = .ok (.dict d, rest) ∧
      dget d first = some (.int ((leNat b % 4096 : Nat) : Int)) ∧ dget d second = some (.int ((leNat b / 4096 : Nat) : Int)) := by
  have hl : (bytesBits b.reverse).length = 24 := by rw [bytesBits_length, List.length_reverse, hb]
  obtain ⟨h1, h2⟩ := word_bits hb 12 (by omega)
  have e : takeN 12 (bytesBits b.reverse) = .ok ((bytesBits b.reverse).take 12, (bytesBits b.reverse).drop 12) := by
    simp [takeN, hl]
  have e2 : takeN 12 ((bytesBits b.reverse).drop 12) = .ok ((bytesBits b.reverse).drop 12, []) := by
    have := takeN_append (n := 12) (b := (bytesBits b.reverse).drop 12) (rest := []) (by rw [List.length_drop, hl])
    rwa [List.append_nil] at this
  simp only [struct, parseItems, doubleKeyIndex, embeddedBitStruct, reversed, bitwise, takeN_append hb, ok_bind, if_true]
  rw [← List.append_nil b.reverse, takeN_append (show b.reverse.length = 3 by simpa using hb)]
  simp only [ok_bind, List.append_nil, e, field, ubits, e2]
  refine ⟨_, rfl, ?_, ?_⟩
  · simp only [dset, if_neg hne.symm, dmerge]
    rw [dget_dset_self]; exact congrArg (fun k : Nat => some (Val.int k)) h1
  · simp only [dset, if_neg hne.symm, dmerge]
    rw [dget_dset_ne _ _ hne]
    by_cases h : "_" = second
    · simp only [if_pos h, dget, if_true]; exact congrArg (fun k : Nat => some (Val.int k)) h2
    · simp only [if_neg h, dget, if_true]; exact congrArg (fun k : Nat => some (Val.int k)) h2

example (L : Lib) : ∃ r, (struct [netAndAppKeyIndex]).build L [] (.dict [("net_key_index", .int 0x123), ("app_key_index", .int 0x456)]) =
    .ok ([0x23, 0x61, 0x45], r) :=
  C11_pair_build "net_key_index" "app_key_index" (by decide) L [] rfl rfl rfl (by decide : 0x123 < 4096) rfl (by decide : 0x456 < 4096)

/-! ## C12 -/

/-- Number of bytes of a list of `n` key indices. -/
theorem keyBytes_length : ∀ ks : List Nat, (keyBytes ks).length = 3 * (ks.length / 2) + 2 * (ks.length % 2)
  | [] => rfl
  | [a] => by simp [keyBytes, leBytes_length]
  | a :: b :: r => by
    rw [keyBytes, List.length_append, leBytes_length, keyBytes_length r]
    simp only [List.length_cons]; omega

/-- **C12 (round trip).** A list of 12-bit key indices, in any order, is built to 3 bytes per pair and 2 for an odd one, and these
bytes parse to the indices in ascending order. -/
theorem C12_roundtrip (L : Lib) (ctx : Dict) {us : List Val} {ks : List Nat}
    (hu : us.map asInt = ks.map (fun (k : Nat) => some (k : Int))) (hk : ∀ k ∈ ks, k < 4096) :
    ∃ b r, ∃ ss : List Nat, keyIndices.build L ctx (.list us) = .ok (b, r) ∧
      b.length = 3 * (ks.length / 2) + 2 * (ks.length % 2) ∧
      keyIndices.parse L ctx b = .ok (.list (ss.map fun (k : Nat) => Val.int k), []) ∧
      ss.Perm ks ∧ ss.Pairwise (· ≤ ·) := by
  obtain ⟨ss, hp, hs, -⟩ := sorted_ints ks
  have hM := meets_keyIndices (M := ⟨False, True, True, False⟩) trivial (fun h => h)
  have hG : F.keyList (.list us) (keyBytes ss) (.list (ss.map fun (k : Nat) => Val.int k)) :=
    ⟨us, ks, ss, rfl, hu, hk, hp, hs, rfl, rfl⟩
  obtain ⟨r, hr⟩ := hM.enc hG L ctx False.elim
  have hd := hM.dec hG L ctx [] (fun _ => rfl)
  rw [List.append_nil] at hd
  exact ⟨_, r, ss, hr, by rw [keyBytes_length, hp.length_eq], hd, hp, hs⟩

/-- **C12 (side effect).** After building, the caller's list is empty, so building the same list object again emits nothing. -/
theorem C12_empties {L : Lib} {ctx : Dict} {us : List Val} {b : List UInt8} {r : Val} (h : keyIndices.build L ctx (.list us) = .ok (b, r)) :
    r = .list [] ∧ ∀ L' ctx', keyIndices.build L' ctx' r = .ok ([], .list []) := by
  simp only [keyIndices, bind_ok] at h
  obtain ⟨⟨items, l⟩, -, ⟨b', r'⟩, -, h⟩ := h
  simp only [Except.ok.injEq, Prod.mk.injEq] at h
  obtain ⟨rfl, rfl⟩ := h
  exact ⟨rfl, fun _ _ => rfl⟩

/-- **C12 (rejection).** Indices of more than 12 bits, and things that are not integers, are rejected (with a library that rejects
overflow). -/
theorem C12_sound {L : Lib} (hL : L.Strict) {ctx : Dict} {u : Val} {b : List UInt8} {r : Val} (h : keyIndices.build L ctx u = .ok (b, r)) :
    ∃ us, ∃ ks : List Nat, u = .list us ∧ us.map asInt = ks.map (fun (k : Nat) => some (k : Int)) ∧ ∀ k ∈ ks, k < 4096 := by
  have hM := meets_keyIndices (M := ⟨False, True, True, False⟩) trivial (fun h => h)
  obtain ⟨v, us, ks, ss, hu, h1, h2, -⟩ := hM.sound (fun _ => hL) h
  exact ⟨us, ks, hu, h1, h2⟩

example : ([.int 300, .int 5, .int 4095] : List Val).map asInt = [300, 5, 4095].map (fun (k : Nat) => some (k : Int)) ∧
    ∀ k ∈ [300, 5, 4095], k < 4096 := ⟨rfl, by decide⟩

/-! ## C13 -/

/-- **C13 (decode).** Every byte is a retransmit value: count in the low three bits, `(high five bits + 1)` interval steps. -/
theorem C13_decode {step : Nat} (hst : 0 < step) (L : Lib) (ctx : Dict) (x : UInt8) (rest : List UInt8) :
    (Config.retransmit step).parse L ctx (x :: rest) =
      .ok (.dict [("count", .int ((x.toNat % 8 : Nat) : Int)), ("interval", .int (((x.toNat / 8 + 1) * step : Nat) : Int))], rest) := by
  have hx := x.toNat_lt
  have hM := meets_retransmit (M := ⟨False, True, True, True⟩) (e := false) hst
  have hG : F.retransmit step (.dict [("count", .int ((x.toNat % 8 : Nat) : Int)), ("interval", .int (((x.toNat / 8 + 1) * step : Nat) : Int))]) [x]
      (.dict [("count", .int ((x.toNat % 8 : Nat) : Int)), ("interval", .int (((x.toNat / 8 + 1) * step : Nat) : Int))]) := by
    refine ⟨_, _, _, x.toNat % 8, x.toNat / 8, rfl, rfl, rfl, rfl, by omega, ?_, by omega, ?_, rfl⟩
    · exact rfl
    · congr 1
      rw [show 8 * (x.toNat / 8) + x.toNat % 8 = x.toNat by omega]; simp
  exact hM.dec hG L ctx rest (by simp)

/-- **C13 (build).** Building accepts exactly counts up to 7 and intervals of 1 to 32 whole steps, and emits the byte above. -/
theorem C13_build {step : Nat} (hst : 0 < step) (L : Lib) (ctx : Dict) {d : Dict} {uc ui : Val} (hc : dget d "count" = some uc)
    (hi : dget d "interval" = some ui) (b : List UInt8) :
    (∃ r, (Config.retransmit step).build L ctx (.dict d) = .ok (b, r)) ↔
    ∃ c s : Nat, asInt uc = some (c : Int) ∧ c ≤ 7 ∧ asNum ui = some (((s + 1) * step : Nat) : Rat) ∧ s < 32 ∧ b = [UInt8.ofNat (8 * s + c)] := by
  have hM := meets_retransmit (M := ⟨False, False, True, True⟩) (e := false) hst
  constructor
  · rintro ⟨r, hr⟩
    obtain ⟨v, d', uc', ui', c, s, hd, h1, h2, h3, h4, h5, h6, h7, -⟩ := hM.sound False.elim hr
    cases hd
    rw [hc] at h1; rw [hi] at h2; cases h1; cases h2
    exact ⟨c, s, h3, h4, h5, h6, h7⟩
  · rintro ⟨c, s, h3, h4, h5, h6, rfl⟩
    exact hM.enc (v := _) ⟨d, uc, ui, c, s, rfl, hc, hi, h3, h4, h5, h6, rfl, rfl⟩ L ctx False.elim

/-- **C13 (bytes).** Every byte decodes and re-encodes to itself. -/
theorem C13_bytes {step : Nat} (hst : 0 < step) (L : Lib) (ctx : Dict) (x : UInt8) {v : Val} {rest : List UInt8}
    (h : (Config.retransmit step).parse L ctx [x] = .ok (v, rest)) : ∃ r, (Config.retransmit step).build L ctx v = .ok ([x], r) := by
  have hM := meets_retransmit (M := ⟨False, True, True, True⟩) (e := false) hst
  obtain ⟨b, hs, hG⟩ := hM.exact trivial h
  have hl : b.length = 1 := by obtain ⟨d, uc, ui, c, s, -, -, -, -, -, -, -, rfl, -⟩ := hG; rfl
  have : b = [x] := by
    match b, hl with
    | [y], _ => simp at hs; rw [hs.1]
  subst this
  exact hM.enc hG L ctx False.elim

/-! ## C19 -/

/-- **C19 (round trip).** Building a set of integers and parsing the bytes returns exactly the members 0 … `8n - 1`; the others are
dropped silently.  Member `i` is bit `i`, counted from the most significant bit of the first byte. -/
theorem C19_roundtrip (n : Nat) (L : Lib) (ctx : Dict) (l : List Int) (rest : List UInt8) :
    ∃ b l', (bitList n).build L ctx (.set l) = .ok (b, .set l) ∧ b.length = n ∧
      (∀ i : Nat, i < 8 * n → ((bytesBits b)[i]? = some true ↔ (i : Int) ∈ l)) ∧
      (bitList n).parse L ctx (b ++ rest) = .ok (.set l', rest) ∧ ∀ x, x ∈ l' ↔ x ∈ l ∧ 0 ≤ x ∧ x < 8 * n := by
  obtain ⟨b, hb, hl⟩ : ∃ b, bitListBits (.set l) 0 (8 * n) = .ok (bytesBits b) ∧ b.length = n := by
    have : ∀ m i, ∃ bs, bitListBits (.set l) i m = .ok bs ∧ bs.length = m := by
      intro m
      induction m with
      | zero => intro i; exact ⟨[], rfl, rfl⟩
      | succ m ih =>
        intro i
        obtain ⟨bs, h1, h2⟩ := ih (i + 1)
        exact ⟨l.contains (i : Int) :: bs, by simp [bitListBits, containsInt, h1], by simp [h2]⟩
    obtain ⟨bs, h1, h2⟩ := this (8 * n) 0
    obtain ⟨b, hb, hl⟩ := bitsBytes_of_length h2
    exact ⟨b, by rw [bytesBits_bitsBytes hb]; exact h1, hl⟩
  have hbit : ∀ j < 8 * n, l.contains (j : Int) = (bytesBits b)[j]?.getD false := by
    intro j hj
    have := (bitListBits_ok.1 hb).2 j hj
    simpa [containsInt] using this
  have h8 : (bytesBits b).length = 8 * n := by rw [bytesBits_length, hl]
  refine ⟨b, bitIndices 0 (bytesBits b), ?_, hl, ?_, ?_, ?_⟩
  · simp only [bitList, hb, ok_bind, bitsBytes_bytesBits]
  · intro i hi
    rw [← List.contains_iff_mem, hbit i hi]
    have : i < (bytesBits b).length := by omega
    rw [List.getElem?_eq_getElem this]; simp
  · simp only [bitList, takeN_append hl, ok_bind]
  · intro x
    rw [bitIndices_eq, List.mem_filterMap, h8]
    constructor
    · rintro ⟨j, hj, h⟩
      rw [List.mem_range] at hj
      split at h
      · rename_i hb
        simp only [Nat.zero_add, Option.some.injEq] at h
        subst h
        rw [← hbit j hj, List.contains_iff_mem] at hb
        exact ⟨hb, by omega, by omega⟩
      · simp at h
    · rintro ⟨hx, h0, h1⟩
      obtain ⟨j, rfl⟩ : ∃ j : Nat, x = j := ⟨x.toNat, by omega⟩
      refine ⟨j, by rw [List.mem_range]; omega, ?_⟩
      rw [← hbit j (by omega), List.contains_iff_mem.2 hx]; simp

/-- **C19 (bytes).** Every byte string of the right length parses to a set that builds back to the same bytes. -/
theorem C19_bytes (n : Nat) (L : Lib) (ctx : Dict) {b : List UInt8} (hl : b.length = n) :
    ∃ l, (bitList n).parse L ctx b = .ok (.set l, []) ∧ (bitList n).build L ctx (.set l) = .ok (b, .set l) := by
  have hM := meets_bitset (M := ⟨False, True, True, True⟩) (e := false) n
  have hp : (bitList n).parse L ctx b = .ok (.set (bitIndices 0 (bytesBits b)), []) := by
    have := takeN_append (rest := []) hl
    rw [List.append_nil] at this
    simp only [bitList, this, ok_bind]
  refine ⟨_, hp, ?_⟩
  obtain ⟨b', hs, hG⟩ := hM.exact trivial hp
  rw [List.append_nil] at hs; subst hs
  obtain ⟨-, hc, -⟩ := hG
  have : bitListBits (.set (bitIndices 0 (bytesBits b))) 0 (8 * n) = .ok (bytesBits b) := by
    rw [bitListBits_ok]
    exact ⟨by rw [bytesBits_length, hl], fun j hj => by simpa using containsInt_iff.2 (hc j hj)⟩
  simp only [bitList, this, ok_bind, bitsBytes_bytesBits]

example (L : Lib) : ∃ l', (bitList 2).build L [] (.set [0, 3, 16]) = .ok ([0x90, 0x00], .set [0, 3, 16]) ∧
    (bitList 2).parse L [] [0x90, 0x00] = .ok (.set l', []) ∧ l' = [0, 3] := ⟨_, rfl, rfl, rfl⟩

/-! ## C26 -/

/-- **C26 (members).** A number of the enumeration parses to the member, and the member, its number and its name are all built to
the same bytes. -/
theorem C26_members {E : EnumDef} {n : Nat} {name : String} {k : Nat} (hm : lookupName E.members name = some (k : Int)) (hk : k < 256 ^ n)
    (L : Lib) (ctx : Dict) (rest : List UInt8) :
    let c := enumAdapter (uintLE n) E
    c.parse L ctx (leBytes n k ++ rest) = .ok (.enum E.cls k, rest) ∧
    (∀ u, u = .enum E.cls k ∨ u = .int k ∨ u = .str name → c.build L ctx u = .ok (leBytes n k, u)) := by
  have hin : (name, (k : Int)) ∈ E.members := by
    have : ∀ ms : List (String × Int), lookupName ms name = some (k : Int) → (name, (k : Int)) ∈ ms := by
      intro ms
      induction ms with
      | nil => simp [lookupName]
      | cons x ms ih =>
        obtain ⟨a, b⟩ := x
        simp only [lookupName]
        split
        · rename_i h; subst h; intro h'; cases h'; exact .head _
        · intro h'; exact .tail _ (ih h')
    exact this _ hm
  have hhas : E.has k = true := by
    simp only [EnumDef.has, List.any_eq_true, beq_iff_eq]; exact ⟨_, hin, rfl⟩
  have hb : (uintLE n).build L ctx (.enum E.cls k) = .ok (leBytes n k, .enum E.cls k) :=
    uint_build rfl (leBytes_length _ _) (leNat_leBytes _ _ hk) L ctx
  constructor
  · simp only [enumAdapter, adapter, uintLE, takeN_append (leBytes_length n k), ok_bind, leNat_leBytes n k hk, enumDecode, hashInt, asInt,
      hhas, if_true]
  · rintro u (rfl | rfl | rfl) <;>
      simp only [enumAdapter, adapter, enumEncode, hashInt, asInt, hhas, if_true, ok_bind, hm, hb]

/-- **C26 (non-members on the wire).** A number outside the enumeration is rejected. -/
theorem C26_parse_only {E : EnumDef} {n : Nat} {L : Lib} {ctx : Dict} {s rest : List UInt8} {v : Val}
    (h : (enumAdapter (uintLE n) E).parse L ctx s = .ok (v, rest)) :
    ∃ k : Nat, k < 256 ^ n ∧ (∃ m ∈ E.members, m.2 = (k : Int)) ∧ v = .enum E.cls k ∧ s = leBytes n k ++ rest := by
  simp only [enumAdapter, adapter, uintLE, bind_ok] at h
  obtain ⟨⟨w, r⟩, ⟨⟨b, r'⟩, hb, h1⟩, v', h2, h3⟩ := h
  simp only [Except.ok.injEq, Prod.mk.injEq] at h1 h3
  obtain ⟨rfl, rfl⟩ := h1
  obtain ⟨rfl, rfl⟩ := h3
  obtain ⟨rfl, hl⟩ := takeN_ok hb
  simp only [enumDecode, hashInt, asInt] at h2
  split at h2
  · rename_i hh
    simp only [EnumDef.has, List.any_eq_true, beq_iff_eq] at hh
    cases h2
    exact ⟨leNat b, by rw [← hl]; exact leNat_lt b, hh, rfl, by rw [← hl, leBytes_leNat]⟩
  · simp at h2

/-- **C26 (non-members on building).** Only names of members and objects equal to a member's number are accepted, and they are built
to that number. -/
theorem C26_build_only {E : EnumDef} {n : Nat} {L : Lib} {ctx : Dict} {u : Val} {b : List UInt8} {r : Val}
    (h : (enumAdapter (uintLE n) E).build L ctx u = .ok (b, r)) :
    ∃ k : Nat, k < 256 ^ n ∧ b = leBytes n k ∧
      ((∃ name, u = .str name ∧ lookupName E.members name = some (k : Int)) ∨
       (hashInt u = some (k : Int) ∧ ∃ m ∈ E.members, m.2 = (k : Int))) := by
  obtain ⟨v, k, w, hm, hG, -⟩ := (meets_enum_uint (M := ⟨False, False, True, True⟩) (e := false) n E).sound False.elim h
  obtain ⟨k', hk', -, hu, rfl, -⟩ := uintWhere_bytes hG
  have : k = k' := by simpa [asInt] using hu
  subst this
  exact ⟨k', hk', rfl, hm⟩

example : lookupName E.StatusCode.members "INVALID_ADDRESS" = some ((1 : Nat) : Int) ∧ 1 < 256 ^ 1 := by decide

end BM.Props
