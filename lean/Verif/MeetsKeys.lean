import Verif.MeetsLeaf
/-!
# Key index lists
-/
namespace BM
open F Config

theorem bitsNat_rev (b : List UInt8) : bitsNat (bytesBits b.reverse) = leNat b := by
  induction b with
  | nil => rfl
  | cons x t ih =>
    rw [List.reverse_cons, bytesBits_append, bitsNat_append, ih, bytesBits_length]
    have hx := x.toNat_lt
    rw [show bytesBits [x] = natBits 8 x.toNat by simp [bytesBits], bitsNat_natBits 8 _ hx]
    simp [leNat]; omega

theorem bytesBits_rev_leBytes {n k : Nat} (h : k < 256 ^ n) : bytesBits (leBytes n k).reverse = natBits (8 * n) k := by
  refine bitsNat_inj (by rw [bytesBits_length, List.length_reverse, leBytes_length, natBits_length]) ?_
  rw [bitsNat_rev, leNat_leBytes n k h, bitsNat_natBits]
  rw [Nat.pow_mul]; exact h

abbrev fmtPair : Fmt UInt8 := F.packedLE 3 (F.record [F.fld "first" (F.bitsU 12), F.fld "second" (F.bitsU 12)])
abbrev fmtLast : Fmt UInt8 := F.packedLE 2 (F.record [F.zeros false 4, F.fld "last" (F.bitsU 12)])

abbrev conPair : Con UInt8 := reversed 3 (bitwise 3 (struct [field "first" (ubits 12), field "second" (ubits 12)]))
abbrev conLast : Con UInt8 := reversed 2 (bitwise 2 (struct [anon (padding false 4), field "last" (ubits 12)]))

theorem meets_pair : Meets ⟨False, True, True, True⟩ false conPair fmtPair := by
  refine meets_reversed (meets_bitwise (meets_struct (.cons (meetsI_field rfl (meets_ubits 12 trivial))
    (.last (meetsI_field rfl (meets_ubits 12 trivial)))) (by decide)) ?_)
  exact (lenEq_record (.cons (lenEqI_fld (lenEq_bitsU 12)) (.cons (lenEqI_fld (lenEq_bitsU 12)) .nil))).cast rfl

theorem meets_lastKey : Meets ⟨False, True, True, False⟩ false conLast fmtLast := by
  refine meets_reversed (meets_bitwise (meets_struct (.cons (meetsI_zeros _ _ (by simp))
    (.last (meetsI_field rfl (meets_ubits 12 trivial)))) (by decide)) ?_)
  exact (lenEq_record (.cons (lenEqI_zeros _ _) (.cons (lenEqI_fld (lenEq_bitsU 12)) .nil))).cast rfl

abbrev pairDict (a b : Nat) : Val := .dict [("first", .int a), ("second", .int b)]
abbrev lastDict (a : Nat) : Val := .dict [("last", .int a)]

theorem fmtPair_intro {a b : Nat} (ha : a < 4096) (hb : b < 4096) {ua ub : Val} (hua : asInt ua = some (a : Int))
    (hub : asInt ub = some (b : Int)) :
    fmtPair (.dict [("first", ua), ("second", ub)]) (leBytes 3 (b + 4096 * a)) (pairDict a b) := by
  refine ⟨leBytes_length _ _, _, _, rfl, ⟨natBits 12 a, natBits 12 b, [("first", .int a)], [("second", .int b)], ?_, rfl,
    ⟨ua, _, rfl, ⟨a, hua, natBits_length _ _, bitsNat_natBits _ _ ha, rfl⟩, rfl⟩,
    natBits 12 b, [], [("second", .int b)], [], by simp, rfl,
    ⟨ub, _, by simp [dget], ⟨b, hub, natBits_length _ _, bitsNat_natBits _ _ hb, rfl⟩, rfl⟩, rfl, rfl⟩, rfl⟩
  rw [bytesBits_rev_leBytes (by omega), ← natBits_add (n := 12) (m := 12) ha hb]
  congr 1; omega

theorem fmtPair_elim {d : Dict} {b : List UInt8} {v : Val} (h : fmtPair (.dict d) b v) :
    ∃ ua ub, ∃ a c : Nat, dget d "first" = some ua ∧ dget d "second" = some ub ∧ asInt ua = some (a : Int) ∧ asInt ub = some (c : Int) ∧
      a < 4096 ∧ c < 4096 ∧ b = leBytes 3 (c + 4096 * a) ∧ v = pairDict a c := by
  obtain ⟨hl, du, dv, hd, ⟨b1, b2, d1, d2, hb, rfl, ⟨ua, va, h1, ⟨a, hua, hla, hba, rfl⟩, rfl⟩,
    ⟨b3, b4, d3, d4, rfl, rfl, ⟨ub, vb, h2, ⟨c, hub, hlb, hbb, rfl⟩, rfl⟩, rfl, rfl⟩⟩, rfl⟩ := h
  cases hd
  have ha : a < 4096 := by have := bitsNat_lt b1; rw [hla, hba] at this; exact this
  have hc : c < 4096 := by have := bitsNat_lt b3; rw [hlb, hbb] at this; exact this
  refine ⟨ua, ub, a, c, h1, h2, hua, hub, ha, hc, ?_, rfl⟩
  refine leNat_inj (by rw [hl, leBytes_length]) ?_
  rw [leNat_leBytes _ _ (by omega), ← bitsNat_rev, hb, List.append_nil, bitsNat_append, hlb, hba, hbb]
  omega

theorem fmtLast_intro {a : Nat} (ha : a < 4096) {ua : Val} (hua : asInt ua = some (a : Int)) :
    fmtLast (.dict [("last", ua)]) (leBytes 2 a) (lastDict a) := by
  refine ⟨leBytes_length _ _, _, _, rfl, ⟨List.replicate 4 false, natBits 12 a, [], [("last", .int a)], ?_, rfl,
    ⟨rfl, rfl⟩, natBits 12 a, [], [("last", .int a)], [], by simp, rfl,
    ⟨ua, _, rfl, ⟨a, hua, natBits_length _ _, bitsNat_natBits _ _ ha, rfl⟩, rfl⟩, rfl, rfl⟩, rfl⟩
  rw [bytesBits_rev_leBytes (by omega), show List.replicate 4 false = natBits 4 0 by rfl, ← natBits_add (n := 4) (m := 12) (by omega) ha]
  simp

theorem fmtLast_elim {d : Dict} {b : List UInt8} {v : Val} (h : fmtLast (.dict d) b v) :
    ∃ ua, ∃ a : Nat, dget d "last" = some ua ∧ asInt ua = some (a : Int) ∧ a < 4096 ∧ b = leBytes 2 a ∧ v = lastDict a := by
  obtain ⟨hl, du, dv, hd, ⟨b1, b2, d1, d2, hb, rfl, ⟨rfl, rfl⟩,
    ⟨b3, b4, d3, d4, rfl, rfl, ⟨ub, vb, h2, ⟨c, hub, hlb, hbb, rfl⟩, rfl⟩, rfl, rfl⟩⟩, rfl⟩ := h
  cases hd
  have hc : c < 4096 := by have := bitsNat_lt b3; rw [hlb, hbb] at this; exact this
  refine ⟨ub, c, h2, hub, hc, ?_, rfl⟩
  refine leNat_inj (by rw [hl, leBytes_length]) ?_
  rw [leNat_leBytes _ _ (by omega), ← bitsNat_rev, hb, List.append_nil, bitsNat_append, hlb, hbb]
  simp [bitsNat]

theorem item_parse3 {a b : Nat} (ha : a < 4096) (hb : b < 4096) (L ctx rest) :
    keyIndicesItem.parse L ctx (leBytes 3 (b + 4096 * a) ++ rest) = .ok (pairDict a b, rest) := by
  have := meets_pair.dec (fmtPair_intro ha hb (ua := .int a) (ub := .int b) rfl rfl) L ctx rest (by simp)
  simp only [keyIndicesItem, select, selectParse]
  rw [this]

theorem reversed_short {c : Con UInt8} {n : Nat} {L ctx s} (h : s.length < n) : (reversed n c).parse L ctx s = .error .stream := by
  simp [reversed, takeN_short h]

theorem item_parse2 {a : Nat} (ha : a < 4096) (L ctx) : keyIndicesItem.parse L ctx (leBytes 2 a) = .ok (lastDict a, []) := by
  have := meets_lastKey.dec (fmtLast_intro ha (ua := .int a) rfl) L ctx [] (by simp)
  rw [List.append_nil] at this
  simp only [keyIndicesItem, select, selectParse]
  rw [reversed_short (by simp [leBytes_length]), this]
  simp

theorem item_parse_inv {L ctx s v rest} (h : keyIndicesItem.parse L ctx s = .ok (v, rest)) :
    (∃ a b : Nat, a < 4096 ∧ b < 4096 ∧ v = pairDict a b) ∨ (∃ a : Nat, a < 4096 ∧ v = lastDict a) := by
  simp only [keyIndicesItem, select, selectParse] at h
  split at h
  · rename_i r hr
    cases h
    obtain ⟨b, hb⟩ := meets_pair.inv trivial hr
    have hd : ∃ d, v = .dict d := by obtain ⟨_, _, dv, _, _, rfl⟩ := hb; exact ⟨_, rfl⟩
    obtain ⟨d, rfl⟩ := hd
    obtain ⟨ua, ub, a, c, -, -, -, -, ha, hc, -, hv⟩ := fmtPair_elim hb
    exact .inl ⟨a, c, ha, hc, hv⟩
  · split at h
    · simp at h
    · split at h
      · rename_i r hr
        cases h
        obtain ⟨b, hb⟩ := meets_lastKey.inv trivial hr
        have hd : ∃ d, v = .dict d := by obtain ⟨_, _, dv, _, _, rfl⟩ := hb; exact ⟨_, rfl⟩
        obtain ⟨d, rfl⟩ := hd
        obtain ⟨ua, a, -, -, ha, -, hv⟩ := fmtLast_elim hb
        exact .inr ⟨a, ha, hv⟩
      · split at h <;> simp at h

theorem minLen_item : MinLen keyIndicesItem 1 := by
  intro L ctx s v rest h
  simp only [keyIndicesItem, select, selectParse] at h
  split at h
  · rename_i r hr; cases h
    have := minLen_reversed _ _ hr; omega
  · split at h
    · simp at h
    · split at h
      · rename_i r hr; cases h
        have := minLen_reversed _ _ hr; omega
      · split at h <;> simp at h

theorem item_nodiv (L ctx s) : keyIndicesItem.parse L ctx s ≠ .error .diverge := by
  intro h
  simp only [keyIndicesItem, select, selectParse] at h
  split at h
  · simp at h
  · rename_i er her
    split at h
    · rename_i he; subst he; exact meets_pair.nodiv _ _ _ her
    · split at h
      · simp at h
      · rename_i er' her'
        split at h
        · rename_i he; subst he; exact meets_lastKey.nodiv _ _ _ her'
        · simp at h

def keyItems : List Nat → List Val
  | a :: b :: r => pairDict a b :: keyItems r
  | [a] => [lastDict a]
  | [] => []

theorem keyBytes_length_pos (a : Nat) (r : List Nat) : 0 < (keyBytes (a :: r)).length := by
  cases r <;> simp [keyBytes, leBytes_length] <;> omega

theorem greedy_keys (L ctx) : ∀ (ss : List Nat), (∀ k ∈ ss, k < 4096) → ∀ fuel, (keyBytes ss).length ≤ fuel →
    greedyLoop (keyIndicesItem.parse L ctx) fuel (keyBytes ss) = .ok (keyItems ss, [])
  | [], _, fuel, _ => by
    obtain ⟨er, her⟩ := minLen_item.stop L ctx
    have hne : er ≠ .diverge := by rintro rfl; exact item_nodiv _ _ _ her
    unfold greedyLoop
    simp only [keyBytes, her, hne, if_false, keyItems]
  | [a], h, fuel, hf => by
    have ha : a < 4096 := h a (by simp)
    obtain ⟨er, her⟩ := minLen_item.stop L ctx
    have hne : er ≠ .diverge := by rintro rfl; exact item_nodiv _ _ _ her
    unfold greedyLoop
    simp only [keyBytes, item_parse2 ha, keyItems]
    simp only [keyBytes, leBytes_length] at hf ⊢
    obtain ⟨f, rfl⟩ : ∃ f, fuel = f + 1 := ⟨fuel - 1, by omega⟩
    simp only [List.length_nil, Nat.zero_lt_succ, if_true]
    unfold greedyLoop
    simp [her, hne]
  | a :: b :: r, h, fuel, hf => by
    have ha : a < 4096 := h a (by simp)
    have hb : b < 4096 := h b (by simp)
    have hl : (keyBytes (a :: b :: r)).length = 3 + (keyBytes r).length := by simp [keyBytes, leBytes_length]
    obtain ⟨f, rfl⟩ : ∃ f, fuel = f + 1 := ⟨fuel - 1, by omega⟩
    have ih := greedy_keys L ctx r (fun k hk => h k (by simp [hk])) f (by omega)
    show greedyLoop _ _ (leBytes 3 (b + 4096 * a) ++ keyBytes r) = _
    have hlt : (keyBytes r).length < (leBytes 3 (b + 4096 * a) ++ keyBytes r).length := by
      simp [leBytes_length]
    unfold greedyLoop
    simp only [item_parse3 ha hb, keyItems]
    rw [if_pos hlt]
    simp [ih]

theorem flatten_keyItems : ∀ ss : List Nat, flattenItems (keyItems ss) = .ok (ss.map fun (k : Nat) => Val.int k)
  | [] => rfl
  | [a] => by simp [keyItems, flattenItems, dget]
  | a :: b :: r => by
    have ih := flatten_keyItems r
    simp [keyItems, flattenItems, ih, dget, dgetE]

theorem greedy_items_inv {L ctx} : ∀ fuel {s vs rest}, greedyLoop (keyIndicesItem.parse L ctx) fuel s = .ok (vs, rest) →
    ∀ v ∈ vs, (∃ a b : Nat, a < 4096 ∧ b < 4096 ∧ v = pairDict a b) ∨ (∃ a : Nat, a < 4096 ∧ v = lastDict a) := by
  intro fuel
  induction fuel with
  | zero =>
    intro s vs rest h
    unfold greedyLoop at h
    split at h
    · split at h
      · simp at h
      · cases h; simp
    · split at h <;> simp at h
  | succ f ih =>
    intro s vs rest h
    unfold greedyLoop at h
    split at h
    · split at h
      · simp at h
      · cases h; simp
    · rename_i v' r' hp
      split at h
      · simp only [bind_ok] at h
        obtain ⟨⟨vs', r''⟩, h1, h2⟩ := h
        cases h2
        intro v hv
        rcases List.mem_cons.1 hv with rfl | hv
        · exact item_parse_inv hp
        · exact ih h1 v hv
      · simp at h

theorem flatten_inv : ∀ {vs : List Val} {r}, (∀ v ∈ vs, (∃ a b : Nat, a < 4096 ∧ b < 4096 ∧ v = pairDict a b) ∨ (∃ a : Nat, a < 4096 ∧ v = lastDict a)) →
    flattenItems vs = .ok r → ∃ ks : List Nat, (∀ k ∈ ks, k < 4096) ∧ r = ks.map fun (k : Nat) => Val.int k
  | [], r, _, h => by cases h; exact ⟨[], by simp, rfl⟩
  | v :: vs, r, hv, h => by
    rcases hv v (by simp) with ⟨a, b, ha, hb, rfl⟩ | ⟨a, ha, rfl⟩
    · simp only [flattenItems, bind_ok] at h
      obtain ⟨rs, h1, h2⟩ := h
      obtain ⟨ks, hk, rfl⟩ := flatten_inv (fun v hv' => hv v (by simp [hv'])) h1
      simp [dget, dgetE] at h2
      subst h2
      exact ⟨a :: b :: ks, by simpa [ha, hb] using hk, rfl⟩
    · simp only [flattenItems, bind_ok] at h
      obtain ⟨rs, h1, h2⟩ := h
      obtain ⟨ks, hk, rfl⟩ := flatten_inv (fun v hv' => hv v (by simp [hv'])) h1
      simp [dget] at h2
      subst h2
      exact ⟨a :: ks, by simpa [ha] using hk, rfl⟩

/-! ### Sorting -/

theorem insertVal_perm (x : Int × Val) : ∀ l, (insertVal x l).Perm (x :: l)
  | [] => List.Perm.refl _
  | y :: ys => by
    unfold insertVal
    split
    · exact List.Perm.refl _
    · exact ((insertVal_perm x ys).cons y).trans (List.Perm.swap x y ys)

theorem sortVals_perm : ∀ l, (sortVals l).Perm l
  | [] => List.Perm.refl _
  | x :: xs => (insertVal_perm x _).trans ((sortVals_perm xs).cons x)

theorem insertVal_sorted (x : Int × Val) : ∀ l : List (Int × Val), l.Pairwise (fun a b => a.1 ≤ b.1) → (insertVal x l).Pairwise (fun a b => a.1 ≤ b.1)
  | [], _ => by simp [insertVal]
  | y :: ys, h => by
    unfold insertVal
    rw [List.pairwise_cons] at h
    split
    · rename_i hxy
      refine List.pairwise_cons.2 ⟨?_, List.pairwise_cons.2 h⟩
      intro z hz
      rcases List.mem_cons.1 hz with rfl | hz
      · exact hxy
      · exact Int.le_trans hxy (h.1 z hz)
    · rename_i hxy
      refine List.pairwise_cons.2 ⟨?_, insertVal_sorted x ys h.2⟩
      intro z hz
      rcases List.mem_cons.1 ((insertVal_perm x ys).mem_iff.1 hz) with rfl | hz
      · omega
      · exact h.1 z hz

theorem sortVals_sorted : ∀ l : List (Int × Val), (sortVals l).Pairwise (fun a b => a.1 ≤ b.1)
  | [] => List.Pairwise.nil
  | x :: xs => insertVal_sorted x _ (sortVals_sorted xs)

theorem withKeys_ok : ∀ {vs : List Val} {l}, withKeys vs = .ok l → l.map (·.2) = vs ∧ ∀ x ∈ l, asInt x.2 = some x.1
  | [], l, h => by cases h; simp
  | v :: vs, l, h => by
    simp only [withKeys] at h
    split at h
    · rename_i n hn
      simp only [bind_ok] at h
      obtain ⟨r, h1, h2⟩ := h
      cases h2
      obtain ⟨h3, h4⟩ := withKeys_ok h1
      refine ⟨by simp [h3], ?_⟩
      intro x hx
      rcases List.mem_cons.1 hx with rfl | hx
      · exact hn
      · exact h4 x hx
    · simp at h

theorem withKeys_of : ∀ {vs : List Val} {ks : List Nat}, vs.map asInt = ks.map (fun (k : Nat) => some (k : Int)) →
    ∃ l, withKeys vs = .ok l ∧ l.map (·.1) = ks.map (fun (k : Nat) => (k : Int))
  | [], ks, h => by
    cases ks with
    | nil => exact ⟨[], rfl, rfl⟩
    | cons k ks => simp at h
  | v :: vs, ks, h => by
    cases ks with
    | nil => simp at h
    | cons k ks =>
      simp only [List.map_cons, List.cons.injEq] at h
      obtain ⟨l, h1, h2⟩ := withKeys_of h.2
      exact ⟨((k : Int), v) :: l, by simp [withKeys, h.1, h1], by simp [h2]⟩

/-- Sorting a list of values with integer keys yields a sorted list of natural numbers if the keys are natural numbers. -/
theorem sorted_nats {l : List (Int × Val)} {ks : List Nat} (h : l.map (·.1) = ks.map (fun (k : Nat) => (k : Int))) :
    ∃ ss : List Nat, ss.Perm ks ∧ ss.Pairwise (· ≤ ·) ∧ (sortVals l).map (·.1) = ss.map (fun (k : Nat) => (k : Int)) := by
  refine ⟨(sortVals l).map (fun x => x.1.toNat), ?_, ?_, ?_⟩
  · have h1 : ((sortVals l).map (fun x => x.1.toNat)).Perm (l.map (fun x => x.1.toNat)) := (sortVals_perm l).map _
    have h2 : l.map (fun x => x.1.toNat) = ks := by
      have := congrArg (List.map Int.toNat) h
      simpa [Function.comp_def] using this
    rw [h2] at h1; exact h1
  · have := sortVals_sorted l
    rw [List.pairwise_map]
    exact this.imp (fun hab => by omega)
  · rw [List.map_map]
    refine List.map_congr_left fun x hx => ?_
    have hx' : x.1 ∈ l.map (·.1) := List.mem_map.2 ⟨x, (sortVals_perm l).mem_iff.1 hx, rfl⟩
    rw [h, List.mem_map] at hx'
    obtain ⟨k, -, hk⟩ := hx'
    simp only [Function.comp]; omega

/-! ### Building -/

theorem conPair_last (L ctx ua) : ∃ er, conPair.build L ctx (.dict [("last", ua)]) = .error er :=
  ⟨.key, by simp [conPair, reversed, bitwise, struct, asDict, buildItems, field, dgetE, dget, ubits]⟩

theorem item_build_pair {a b : Nat} (ha : a < 4096) (hb : b < 4096) {ua ub : Val} (hua : asInt ua = some (a : Int))
    (hub : asInt ub = some (b : Int)) (L ctx) :
    keyIndicesItem.build L ctx (.dict [("first", ua), ("second", ub)]) = .ok (leBytes 3 (b + 4096 * a), .dict [("first", ua), ("second", ub)]) := by
  obtain ⟨r, hr⟩ := meets_pair.enc (fmtPair_intro ha hb hua hub) L ctx (by simp)
  simp only [keyIndicesItem, select, selectBuild]
  rw [hr]

theorem item_build_last {a : Nat} (ha : a < 4096) {ua : Val} (hua : asInt ua = some (a : Int)) (L ctx) :
    keyIndicesItem.build L ctx (.dict [("last", ua)]) = .ok (leBytes 2 a, .dict [("last", ua)]) := by
  obtain ⟨r, hr⟩ := meets_lastKey.enc (fmtLast_intro ha hua) L ctx (by simp)
  obtain ⟨er, her⟩ := conPair_last L ctx ua
  simp only [keyIndicesItem, select, selectBuild]
  rw [her]; simp only; rw [hr]

theorem build_keys (L ctx) : ∀ {vs : List Val} {ss : List Nat}, vs.map asInt = ss.map (fun (k : Nat) => some (k : Int)) →
    (∀ k ∈ ss, k < 4096) → buildMany (keyIndicesItem.build L ctx) (pairUp vs) = .ok (keyBytes ss)
  | [], [], _, _ => rfl
  | [], _ :: _, h, _ => by simp at h
  | _ :: _, [], h, _ => by simp at h
  | [v], [k], h, hk => by
    simp only [List.map_cons, List.map_nil, List.cons.injEq, and_true] at h
    simp [pairUp, buildMany, item_build_last (hk k (by simp)) h, keyBytes]
  | [_], _ :: _ :: _, h, _ => by simp at h
  | _ :: _ :: _, [_], h, _ => by simp at h
  | v :: w :: vs, k :: j :: ss, h, hk => by
    simp only [List.map_cons, List.cons.injEq] at h
    have ih := build_keys L ctx h.2.2 (fun x hx => hk x (by simp [hx]))
    simp [pairUp, buildMany, item_build_pair (hk k (by simp)) (hk j (by simp)) h.1 h.2.1, keyBytes, ih]

theorem item_build_inv {L ctx d b r} (hL : L.Strict) (h : keyIndicesItem.build L ctx (.dict d) = .ok (b, r)) :
    (∃ ua ub, ∃ a c : Nat, dget d "first" = some ua ∧ dget d "second" = some ub ∧ asInt ua = some (a : Int) ∧ asInt ub = some (c : Int) ∧
      a < 4096 ∧ c < 4096 ∧ b = leBytes 3 (c + 4096 * a)) ∨
    (∃ ua, ∃ a : Nat, dget d "last" = some ua ∧ asInt ua = some (a : Int) ∧ a < 4096 ∧ b = leBytes 2 a) := by
  simp only [keyIndicesItem, select, selectBuild] at h
  split at h
  · rename_i b' r' hr
    cases h
    obtain ⟨v, hv⟩ := meets_pair.sound (fun _ => hL) hr
    obtain ⟨ua, ub, a, c, h1, h2, h3, h4, h5, h6, h7, -⟩ := fmtPair_elim hv
    exact .inl ⟨ua, ub, a, c, h1, h2, h3, h4, h5, h6, h7⟩
  · split at h
    · rename_i b' r' hr
      cases h
      obtain ⟨v, hv⟩ := meets_lastKey.sound (fun _ => hL) hr
      obtain ⟨ua, a, h1, h2, h3, h4, -⟩ := fmtLast_elim hv
      exact .inr ⟨ua, a, h1, h2, h3, h4⟩
    · simp at h

theorem build_keys_inv {L ctx} (hL : L.Strict) : ∀ {vs : List Val} {b}, buildMany (keyIndicesItem.build L ctx) (pairUp vs) = .ok b →
    ∃ ss : List Nat, vs.map asInt = ss.map (fun (k : Nat) => some (k : Int)) ∧ (∀ k ∈ ss, k < 4096) ∧ b = keyBytes ss
  | [], b, h => by cases h; exact ⟨[], rfl, by simp, rfl⟩
  | [v], b, h => by
    simp only [pairUp, buildMany, bind_ok, ok_bind] at h
    obtain ⟨⟨b1, r1⟩, h1, h2⟩ := h
    simp at h2; subst h2
    rcases item_build_inv hL h1 with ⟨ua, ub, a, c, hd, -⟩ | ⟨ua, a, hd, ha, hlt, rfl⟩
    · simp [dget] at hd
    · simp [dget] at hd; subst hd
      exact ⟨[a], by simp [ha], by simpa using hlt, rfl⟩
  | v :: w :: vs, b, h => by
    simp only [pairUp, buildMany, bind_ok] at h
    obtain ⟨⟨b1, r1⟩, h1, bs, h2, h3⟩ := h
    simp at h3; subst h3
    obtain ⟨ss, hs1, hs2, rfl⟩ := build_keys_inv hL h2
    rcases item_build_inv hL h1 with ⟨ua, ub, a, c, hd, hd2, ha, hc, hlt, hlt2, rfl⟩ | ⟨ua, a, hd, -⟩
    · simp [dget] at hd hd2; subst hd; subst hd2
      exact ⟨a :: c :: ss, by simp [ha, hc, hs1], by simpa [hlt, hlt2] using hs2, rfl⟩
    · simp [dget] at hd

theorem map_asInt_of_keys {l : List (Int × Val)} (h : ∀ x ∈ l, asInt x.2 = some x.1) :
    (l.map (·.2)).map asInt = (l.map (·.1)).map some := by
  rw [List.map_map, List.map_map]
  exact List.map_congr_left fun x hx => h x hx

theorem ints_of_keys {l : List (Int × Val)} {ss : List Nat} (h : l.map (·.1) = ss.map (fun (k : Nat) => (k : Int)))
    (hv : ∀ x ∈ l, x.2 = .int x.1) : l.map (·.2) = ss.map (fun (k : Nat) => Val.int k) := by
  have h1 : l.map (·.2) = (l.map (·.1)).map Val.int := by
    rw [List.map_map]; exact List.map_congr_left fun x hx => hv x hx
  rw [h1, h, List.map_map]; rfl

theorem withKeys_ints (ks : List Nat) : withKeys (ks.map fun (k : Nat) => Val.int k) = .ok (ks.map fun (k : Nat) => ((k : Int), Val.int k)) := by
  induction ks with
  | nil => rfl
  | cons k ks ih => simp [withKeys, asInt, ih]

/-- The sorted values of a list of integers. -/
theorem sorted_ints (ks : List Nat) : ∃ ss : List Nat, ss.Perm ks ∧ ss.Pairwise (· ≤ ·) ∧
    (sortVals (ks.map fun (k : Nat) => ((k : Int), Val.int k))).map (·.2) = ss.map (fun (k : Nat) => Val.int k) := by
  obtain ⟨ss, h1, h2, h3⟩ := sorted_nats (l := ks.map fun (k : Nat) => ((k : Int), Val.int k)) (ks := ks) (by simp [Function.comp_def])
  refine ⟨ss, h1, h2, ints_of_keys h3 ?_⟩
  intro x hx
  have := (sortVals_perm _).mem_iff.1 hx
  rw [List.mem_map] at this
  obtain ⟨k, -, rfl⟩ := this
  rfl

theorem sorted_unique {a b : List Nat} (h : a.Perm b) (ha : a.Pairwise (· ≤ ·)) (hb : b.Pairwise (· ≤ ·)) : a = b :=
  h.eq_of_pairwise (fun _ _ _ _ h1 h2 => Nat.le_antisymm h1 h2) ha hb

variable {M : Mode}

theorem meets_keyIndices (hU : M.U) (hX : ¬ M.X) : Meets M true keyIndices F.keyList where
  enc := by
    rintro u b v ⟨us, ks, ss, rfl, hus, hk, hp, hs, rfl, rfl⟩ L ctx _
    obtain ⟨l, hl, hl2⟩ := withKeys_of hus
    obtain ⟨ss', hp', hs', h3⟩ := sorted_nats hl2
    have he : ss' = ss := sorted_unique (hp'.trans hp.symm) hs' hs
    subst he
    have hb := build_keys L ctx (vs := (sortVals l).map (·.2)) (ss := ss') (by
      rw [map_asInt_of_keys (fun x hx => (withKeys_ok hl).2 x ((sortVals_perm l).mem_iff.1 hx)), h3, List.map_map]; rfl)
      (fun k hk' => hk k (hp.mem_iff.1 hk'))
    exact ⟨.list [], by simp [keyIndices, keyIndicesEncode, hl, greedyRange, iter, hb]⟩
  dec := by
    rintro u b v ⟨us, ks, ss, rfl, hus, hk, hp, hs, rfl, rfl⟩ L ctx rest hr
    rw [hr rfl, List.append_nil]
    have hg := greedy_keys L ctx ss (fun k hk' => hk k (hp.mem_iff.1 hk')) _ (Nat.le_refl _)
    obtain ⟨ss', hp', hs', h3⟩ := sorted_ints ss
    have he : ss' = ss := sorted_unique hp' hs' hs
    subst he
    simp only [keyIndices, greedyRange, hg, ok_bind, flatten_keyItems, withKeys_ints, h3]
  sound := by
    intro L ctx u b r hL h
    simp only [keyIndices] at h
    split at h
    · rename_i us
      simp only [keyIndicesEncode, bind_ok] at h
      obtain ⟨⟨items, x⟩, ⟨l, hl, hi⟩, ⟨b', r'⟩, hb, h⟩ := h
      cases hi
      simp only [greedyRange, iter, ok_bind, bind_ok] at hb
      obtain ⟨b'', hb, h'⟩ := hb
      cases h'; cases h
      obtain ⟨ss, h1, h2, rfl⟩ := build_keys_inv (hL hU) hb
      have hkeys := withKeys_ok hl
      have hm := map_asInt_of_keys (l := sortVals l) (fun x hx => hkeys.2 x ((sortVals_perm l).mem_iff.1 hx))
      rw [hm] at h1
      have h1' : (sortVals l).map (·.1) = ss.map (fun (k : Nat) => (k : Int)) := by
        have := congrArg (List.map (fun o : Option Int => o.getD 0)) h1
        simpa [Function.comp_def] using this
      -- the keys of the unsorted list
      have hlk : ∃ ks : List Nat, l.map (·.1) = ks.map (fun (k : Nat) => (k : Int)) := by
        refine ⟨l.map (fun x => x.1.toNat), ?_⟩
        rw [List.map_map]
        refine List.map_congr_left fun x hx => ?_
        have hx' : x.1 ∈ (sortVals l).map (·.1) := List.mem_map.2 ⟨x, (sortVals_perm l).mem_iff.2 hx, rfl⟩
        rw [h1', List.mem_map] at hx'
        obtain ⟨k, -, hk⟩ := hx'
        simp only [Function.comp]; omega
      obtain ⟨ks, hks⟩ := hlk
      have hperm : ss.Perm ks := by
        have h5 : ((sortVals l).map (·.1)).Perm (l.map (·.1)) := (sortVals_perm l).map _
        rw [h1', hks] at h5
        have h6 := h5.map Int.toNat
        simpa [Function.comp_def] using h6
      refine ⟨_, us, ks, ss, rfl, ?_, fun k hk => h2 k (hperm.mem_iff.2 hk), hperm, ?_, rfl, rfl⟩
      · rw [← hkeys.1, map_asInt_of_keys hkeys.2, hks, List.map_map]; rfl
      · have h7 := sortVals_sorted l
        rw [← List.pairwise_map (f := fun x : Int × Val => x.1), h1', List.pairwise_map] at h7
        exact h7.imp (fun h => by omega)
    · simp at h
  refl := by
    rintro _ u b v ⟨us, ks, ss, rfl, hus, hk, hp, hs, rfl, rfl⟩
    exact ⟨_, ss, ss, rfl, by simp [Function.comp_def, asInt], fun k hk' => hk k (hp.mem_iff.1 hk'), .refl _, hs, rfl, rfl⟩
  inv := by
    intro _ L ctx s v rest h
    simp only [keyIndices, greedyRange, bind_ok] at h
    obtain ⟨⟨v', r'⟩, ⟨⟨vs, r''⟩, hg, h1⟩, h2⟩ := h
    cases h1
    simp only [bind_ok] at h2
    obtain ⟨fs, hf, l, hl, h3⟩ := h2
    cases h3
    obtain ⟨ks, hk, rfl⟩ := flatten_inv (greedy_items_inv _ hg) hf
    rw [withKeys_ints] at hl
    cases hl
    obtain ⟨ss, hp, hs, h4⟩ := sorted_ints ks
    exact ⟨keyBytes ss, _, ss, ss, rfl, by rw [h4]; simp [Function.comp_def, asInt], fun k hk' => hk k (hp.mem_iff.1 hk'), .refl _, hs, rfl, by rw [h4]⟩
  exact := fun h => absurd h hX
  nodiv := by
    intro L ctx s h
    simp only [keyIndices, greedyRange, bind_err] at h
    rcases h with (h | ⟨⟨_, _⟩, -, h⟩) | ⟨⟨v, r⟩, hv, h⟩
    · exact greedy_nodiv item_nodiv minLen_item _ _ (Nat.le_refl _) h
    · simp at h
    · simp only [bind_ok] at hv
      obtain ⟨⟨vs, r''⟩, hg, h1⟩ := hv
      cases h1
      simp only [bind_err] at h
      rcases h with h | ⟨fs, hf, h⟩
      · -- flattening parsed items never fails
        have hinv := greedy_items_inv _ hg
        clear hg
        induction vs with
        | nil => simp [flattenItems] at h
        | cons v vs ih =>
          have ih' := fun h => ih h (fun v hv => hinv v (by simp [hv]))
          rcases hinv v (by simp) with ⟨a, b, ha, hb, rfl⟩ | ⟨a, ha, rfl⟩ <;>
            simp only [flattenItems, bind_err] at h <;>
            rcases h with h | ⟨rs, h1, h⟩
          · exact ih' h
          · simp [dget, dgetE] at h
          · exact ih' h
          · simp [dget] at h
      · obtain ⟨ks, hk, rfl⟩ := flatten_inv (greedy_items_inv _ hg) hf
        rw [withKeys_ints] at h
        rcases h with h | ⟨_, _, h⟩ <;> simp at h

end BM
