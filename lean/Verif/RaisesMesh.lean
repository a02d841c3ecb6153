import Verif.Raises
/-!
# Which exceptions decoding can raise (C48): the constructs of the repository
-/
namespace BM
open Config

/-- The exceptions every decoder may raise: the stream ends too early, a value is not allowed, no alternative fits (and the model's
marker for loops, excluded by `C31_terminates`). -/
class Base (P : Err → Prop) : Prop where
  stream : P .stream
  validation : P .validation
  select : P .select
  diverge : P .diverge

section
variable {P : Err → Prop} [hB : Base P]

theorem rs_uint (n) : Raises P IsInt (uintLE n) := raises_uint hB.stream n
theorem rs_sint (n) : Raises P IsInt (sintLE n) := raises_sint hB.stream n
theorem rs_bytesInt (n) : Raises P IsInt (bytesIntLE n) := raises_bytesInt hB.stream n
theorem rs_bytesSInt (n) : Raises P IsInt (bytesSIntLE n) := raises_bytesSInt hB.stream n
theorem rs_ubits (n) : Raises P IsInt (ubits n) := raises_ubits hB.stream n
theorem rs_sbits (n) : Raises P IsInt (sbits n) := raises_sbits hB.stream n
theorem rs_flag : Raises P IsInt flag := raises_flag hB.stream
theorem rs_flagBit : Raises P IsInt flagBit := raises_flagBit hB.stream
theorem rs_bytesN (n) : Raises P anyV (bytesN n) := (raises_bytesN hB.stream n).any
theorem rs_bitList (n) : Raises P anyV (bitList n) := raises_bitList hB.stream n
theorem rs_padding {α : Type} (z : α) (n) : Raises P anyV (padding z n) := raises_padding hB.stream z n
theorem rs_enum {α : Type} {c : Con α} (E : EnumDef) (h : Raises P anyV c) : Raises P IsInt (enumAdapter c E) := raises_enum E h hB.validation
theorem rs_range {α : Type} {c : Con α} {mn mx : Option Int} (h : Raises P IsInt c) : Raises P IsInt (rangeValidator c mn mx) :=
  raises_range h hB.validation
theorem rs_reversed {α : Type} {c : Con α} {n} (h : Raises P anyV c) : Raises P anyV (reversed n c) := raises_reversed hB.stream h
theorem rs_bitwise {c : Con Bool} {n} (h : Raises P anyV c) : Raises P anyV (bitwise n c) := raises_bitwise hB.stream h
theorem rs_greedy {α : Type} {c : Con α} : Raises P anyV (greedyRange c) := raises_greedyRange hB.diverge
theorem rs_select {α : Type} {cs : List (Con α)} : Raises P anyV (select cs) := raises_select hB.select hB.diverge
theorem rs_named {α : Type} {cs : List (String × Con α)} : Raises P anyV (namedSelect cs) := raises_named hB.select hB.diverge
theorem rs_prefixedArray {c : Con UInt8} {n} (h : Raises P anyV c) : Raises P anyV (prefixedArray (uintLE n) c) := raises_prefixedArray (rs_uint n) h
theorem rs_struct {α : Type} {its : List (Item α)} (h : RaisesIs P anyD anyD its) : Raises P anyV (struct its) := (raises_struct h).any
theorem rs_field {α : Type} {k : String} {c : Con α} (h : Raises P anyV c) : RaisesI P anyD anyD (field k c) := raisesI_field h
theorem rs_anon {α : Type} {c : Con α} (h : Raises P anyV c) : RaisesI P anyD anyD (anon c) := raisesI_anon h
theorem rs_embedded {α : Type} {its : List (Item α)} (h : RaisesIs P anyD anyD its) : RaisesI P anyD anyD (embedded its) := raisesI_embedded h
theorem rs_bits {name n rev} {its : List (Item Bool)} (h : RaisesIs P anyD anyD its) : RaisesI P anyD anyD (embeddedBitStruct name n rev its) :=
  raisesI_bits hB.stream h

/-- An address. -/
theorem rs_address (f : AddressType → Bool) : Raises P anyV (validator (uintLE 2) (addressCheck f)) := by
  refine (raises_validator (rs_uint 2) hB.validation ?_).any
  rintro v ⟨n, hn⟩
  exact ⟨_, by simp only [addressCheck, hn]; rfl⟩

theorem rs_int12 : Raises P anyV int12ul := by
  refine (raises_validator (rs_uint 2) hB.validation ?_).any
  rintro v ⟨n, hn⟩
  exact ⟨_, by simp only [hn]; rfl⟩

theorem rs_scene : Raises P anyV Scene.sceneNumber := by
  refine (raises_validator (rs_uint 2) hB.validation ?_).any
  rintro v ⟨n, hn⟩
  exact ⟨_, by simp only [asNum_of_asInt hn]; rfl⟩

omit hB in
/-- A decoder that accepts every integer. -/
theorem rs_total {α : Type} {c : Con α} {dec enc : Lib → Val → R Val} (h : Raises P IsInt c) (hd : ∀ L v, IsInt v → ∃ v', dec L v = .ok v') :
    Raises P anyV (adapter c dec enc) := by
  refine raises_adapter h fun L v hv => ?_
  obtain ⟨v', h'⟩ := hd L v hv
  exact ⟨(by intro e he; rw [h'] at he; cases he), fun _ _ => trivial⟩

theorem rs_delay : Raises P anyV delay := by
  refine rs_total (rs_uint 1) ?_
  rintro L v ⟨n, hn⟩
  exact ⟨_, by simp only [delayDecode, hn]; rfl⟩

theorem rs_count {c : Con UInt8} {w r res u} (h : Raises P IsInt c) : Raises P anyV (defaultCount c w r res u) := by
  refine rs_total h ?_
  rintro L v ⟨n, hn⟩
  simp only [countDecode, hn]
  split
  · exact ⟨_, rfl⟩
  · split <;> exact ⟨_, rfl⟩

theorem rs_log [Platform] {mx inf} : Raises P anyV (logAdapter mx inf) := by
  refine raises_adapter (rs_uint 1) ?_
  rintro L v ⟨n, hn⟩
  refine ⟨fun e h => ?_, fun _ _ => trivial⟩
  simp only [logDecode, hn] at h
  split at h
  · cases h
  · split at h
    · cases h
    · split at h
      · cases h; exact hB.validation
      · cases h

/-- Two bit fields. -/
theorem raises_two {a b : String} {m n k : Nat} (hab : a ≠ b) :
    Raises P (fun v => ∃ x y : Nat, x < 2 ^ m ∧ y < 2 ^ n ∧ v = .dict [(a, .int x), (b, .int y)]) (bitwise k (struct [field a (ubits m), field b (ubits n)])) := by
  refine raises_bitwise hB.stream ?_
  intro L ctx s _
  simp only [struct, parseItems, field, ubits, takeN]
  split
  · simp only [ok_bind]
    split
    · simp only [ok_bind]
      refine ⟨(by intro e h; cases h), ?_⟩
      intro v r h
      injection h with h; injection h with h _; subst h
      refine ⟨bitsNat (s.take m), bitsNat ((s.drop m).take n), ?_, ?_, ?_⟩
      rotate_left 2
      · simp only [dset, hab, if_false]
      · have := bitsNat_lt (s.take m)
        rwa [List.length_take, Nat.min_eq_left ‹m ≤ s.length›] at this
      · have := bitsNat_lt ((s.drop m).take n)
        rwa [List.length_take, Nat.min_eq_left ‹n ≤ (s.drop m).length›] at this
    · exact ⟨(by intro e h; cases h; exact hB.stream), (by intro v r h; cases h)⟩
  · exact ⟨(by intro e h; cases h; exact hB.stream), (by intro v r h; cases h)⟩

theorem rs_transition (b : Bool) : Raises P anyV (transitionTime b) := by
  refine raises_adapter (raises_two (by decide)) ?_
  rintro L v ⟨x, y, hx, hy, rfl⟩
  refine ⟨fun e h => ?_, fun _ _ => trivial⟩
  have hx' : x = 0 ∨ x = 1 ∨ x = 2 ∨ x = 3 := by omega
  rcases hx' with rfl | rfl | rfl | rfl <;> cases h

theorem rs_retransmit (i : Nat) : Raises P anyV (retransmit i) := by
  refine raises_adapter (raises_two (by decide)) ?_
  rintro L v ⟨x, y, hx, hy, rfl⟩
  exact ⟨(by intro e h; cases h), fun _ _ => trivial⟩

omit hB in
theorem flatten_ok : ∀ {vs : List Val}, (∀ v ∈ vs, (∃ a b : Nat, a < 4096 ∧ b < 4096 ∧ v = pairDict a b) ∨ (∃ a : Nat, a < 4096 ∧ v = lastDict a)) →
    ∃ r, flattenItems vs = .ok r
  | [], _ => ⟨_, rfl⟩
  | v :: vs, h => by
    obtain ⟨r, hr⟩ := flatten_ok (vs := vs) (fun v hv => h v (by simp [hv]))
    rcases h v (by simp) with ⟨a, b, ha, hb, rfl⟩ | ⟨a, ha, rfl⟩
    · exact ⟨_, by simp only [flattenItems, hr, ok_bind]; rfl⟩
    · exact ⟨_, by simp only [flattenItems, hr, ok_bind]; rfl⟩

theorem rs_keyIndices : Raises P anyV keyIndices := by
  intro L ctx s _
  refine ⟨fun e h => ?_, fun _ _ _ => trivial⟩
  simp only [keyIndices, greedyRange] at h
  cases hg : greedyLoop (keyIndicesItem.parse L ctx) s.length s with
  | error e' => rw [hg] at h; cases h; rw [greedyLoop_err _ _ _ hg]; exact hB.diverge
  | ok r =>
    obtain ⟨vs, t⟩ := r
    have hi := greedy_items_inv _ hg
    obtain ⟨r, hr⟩ := flatten_ok hi
    obtain ⟨ks, -, rfl⟩ := flatten_inv hi hr
    rw [hg] at h
    simp only [ok_bind, hr, withKeys_ints] at h
    cases h

/-! ### Vendor constructs -/

theorem rs_mac : Raises P anyV macAddress := by
  refine raises_adapter (raises_bytesN hB.stream 6) ?_
  rintro L v ⟨b, rfl⟩
  exact ⟨(by intro e h; cases h), fun _ _ => trivial⟩

theorem rs_ip : Raises P anyV ipAddress := by
  refine raises_adapter (raises_bytesN hB.stream 4) ?_
  rintro L v ⟨b, rfl⟩
  exact ⟨(by intro e h; cases h), fun _ _ => trivial⟩

theorem rs_prefixed {n} {c : Con UInt8} (h : Raises P anyV c) : Raises P anyV (prefixed (uintLE n) c) := by
  intro L ctx s _
  refine ⟨fun e he => ?_, fun _ _ _ => trivial⟩
  simp only [prefixed] at he
  cases hp : (uintLE n).parse L ctx s with
  | error e' => rw [hp] at he; cases he; exact (rs_uint n L ctx s trivial).1 _ hp
  | ok r =>
    obtain ⟨v, t⟩ := r
    obtain ⟨k, hk⟩ := (rs_uint (P := P) n L ctx s trivial).2 _ _ hp
    rw [hp] at he
    simp only [ok_bind, hk, takeN] at he
    split at he
    · simp only [ok_bind] at he
      cases hq : c.parse L ctx (t.take k.toNat) with
      | error e' => rw [hq] at he; cases he; exact (h _ _ _ trivial).1 _ hq
      | ok r => rw [hq] at he; cases he
    · cases he; exact hB.stream

omit hB in
theorem intSet_total : ∀ {vs : List Val}, (∀ v ∈ vs, IsInt v) → ∃ l, intSet vs = .ok l
  | [], _ => ⟨_, rfl⟩
  | v :: vs, h => by
    obtain ⟨l, hl⟩ := intSet_total (vs := vs) (fun v hv => h v (by simp [hv]))
    obtain ⟨n, hn⟩ := h v (by simp)
    exact ⟨_, by simp only [intSet, hn, hl, ok_bind]; rfl⟩

theorem rs_set {c : Con UInt8} (h : Raises P IsInt c) : Raises P anyV (setAdapter (greedyRange c)) := by
  refine raises_adapter (raises_greedy (Q := IsInt) hB.diverge (fun L ctx s v r hv => (h L ctx s trivial).2 v r hv)) ?_
  rintro L v ⟨l, rfl, hl⟩
  obtain ⟨r, hr⟩ := intSet_total hl
  simp only [hr, ok_bind]
  exact ⟨(by intro e h; cases h), fun _ _ => trivial⟩

omit hB in
theorem rs_switchStruct {k sw : String} {kc : Con UInt8} {E : EnumDef} {cases : List (Int × Con UInt8)}
    (hk : ∀ L ctx s e, kc.parse L ctx s = .error e → P e) (hm : ∀ L ctx s v r, kc.parse L ctx s = .ok (v, r) → ∃ n N, asInt v = some n ∧ lookupValue E.members n = some N)
    (h : ∀ q ∈ cases, Raises P anyV q.2) : Raises P anyV (switchStruct k kc E sw cases) := by
  intro L ctx s _
  refine ⟨fun e he => ?_, fun _ _ _ => trivial⟩
  simp only [switchStruct] at he
  cases hp : kc.parse L ctx s with
  | error e' => rw [hp] at he; cases he; exact hk _ _ _ _ hp
  | ok r =>
    obtain ⟨v, t⟩ := r
    obtain ⟨n, N, hn, hN⟩ := hm _ _ _ _ _ hp
    rw [hp] at he
    simp only [ok_bind, hn, hN] at he
    cases hc : (caseOf v cases passC).parse L [(k, v)] t with
    | error e' => rw [hc] at he; cases he; exact (raises_caseOf v h L _ _ trivial).1 _ hc
    | ok r => rw [hc] at he; cases he
end

/-- Solves `Raises P anyV c` for constructs without text, dates and properties. -/
syntax "raises" : tactic
macro_rules
  | `(tactic| raises) => `(tactic| repeat' (first
      | exact raisesIs_nil
      | refine raisesIs_cons (J := anyD) ?_ ?_
      | refine rs_field ?_
      | refine rs_embedded ?_
      | refine rs_bits ?_
      | refine rs_anon ?_
      | refine rs_struct ?_
      | exact (rs_uint _).any | exact rs_uint _
      | exact (rs_sint _).any | exact rs_sint _
      | exact (rs_bytesInt _).any | exact rs_bytesInt _
      | exact (rs_bytesSInt _).any | exact rs_bytesSInt _
      | exact (rs_ubits _).any | exact (rs_sbits _).any | exact rs_flag.any | exact rs_flagBit.any
      | exact rs_bytesN _ | exact rs_bitList _ | exact rs_padding _ _ | exact raises_greedyBytes
      | refine (rs_enum _ ?_).any | refine (rs_enum _ ?_)
      | refine (rs_range ?_).any
      | refine rs_reversed ?_ | refine rs_bitwise ?_
      | exact rs_greedy | exact rs_select | exact rs_named
      | refine rs_prefixedArray ?_ | refine rs_prefixed ?_ | refine rs_set ?_
      | exact rs_address _ | exact rs_int12 | exact rs_scene | exact rs_delay | refine rs_count ?_ | exact rs_log
      | exact rs_transition _ | exact rs_retransmit _ | exact rs_keyIndices | exact rs_mac | exact rs_ip
      | refine raises_default ?_ | refine raises_rebuild ?_))

/-! ### Properties -/

/-- Dates and text raise further exceptions. -/
class BaseProp (P : Err → Prop) : Prop extends Base P where
  overflow : P .overflow
  string : P .string

theorem all_nil {β} {p : β → Prop} : ∀ q ∈ ([] : List β), p q := by simp
theorem all_cons {β} {p : β → Prop} {x : β} {l : List β} (h : p x) (hs : ∀ q ∈ l, p q) : ∀ q ∈ x :: l, p q := by
  intro q hq
  rcases List.mem_cons.1 hq with rfl | hq
  · exact h
  · exact hs q hq

section
variable {P : Err → Prop} [hB : BaseProp P] [Platform]

omit [Platform] in
theorem rs_text {n} : Raises P anyV (paddedString n) := by
  intro L ctx s _
  refine ⟨fun e h => ?_, fun _ _ _ => trivial⟩
  simp only [paddedString, takeN] at h
  split at h
  · simp only [ok_bind, bytesStr, utf8Decode] at h
    split at h <;> cases h
    exact hB.string
  · cases h; exact hB.toBase.stream

omit [Platform] in
theorem rs_fixedString (n) : Raises P anyV (Property.fixedString n) :=
  raises_adapter rs_text fun _ _ _ => ⟨(by intro e h; cases h), fun _ _ => trivial⟩

omit [Platform] in
theorem rs_greedyString : Raises P anyV greedyString := by
  intro L ctx s _
  refine ⟨fun e h => ?_, fun _ _ _ => trivial⟩
  simp only [greedyString, bytesStr, utf8Decode] at h
  split at h <;> cases h
  exact hB.string

omit [Platform] in
theorem rs_date : Raises P anyV Property.dateC := by
  refine raises_adapter (raises_take (f := fun b => .int (leNat b)) (Q := fun v => ∃ n : Int, v = .int n) hB.toBase.stream (fun _ => ⟨_, rfl⟩) (fun _ _ _ => rfl)) ?_
  rintro L v ⟨n, rfl⟩
  refine ⟨fun e h => ?_, fun _ _ => trivial⟩
  simp only [Property.dateDecode, asInt] at h
  split at h <;> cases h
  exact hB.overflow

theorem rs_timeExp : Raises P anyV Property.timeExp := by
  have hu : Raises P (fun v => ∃ n : Nat, n < 256 ∧ v = .int n) (uintLE 1) := by
    intro L ctx s _
    simp only [uintLE, takeN]
    split
    · refine ⟨(by intro e h; cases h), ?_⟩
      intro v r h
      injection h with h; injection h with h _; subst h
      refine ⟨_, ?_, rfl⟩
      have := leNat_lt (s.take 1)
      rw [List.length_take, Nat.min_eq_left ‹1 ≤ s.length›] at this
      simpa using this
    · exact ⟨(by intro e h; cases h; exact hB.toBase.stream), (by intro v r h; cases h)⟩
  refine raises_adapter hu ?_
  rintro L v ⟨n, hn, rfl⟩
  refine ⟨fun e h => ?_, fun _ _ => trivial⟩
  simp only [Property.timeExpDecode, asInt] at h
  split at h
  · cases h
  · obtain ⟨x, hx, -⟩ := Platform.pow11 ((n : Int) - 64) (by omega) (by omega)
    rw [hx] at h
    cases h

set_option maxRecDepth 100000 in
set_option maxHeartbeats 4000000 in
/-- Every property. -/
theorem rs_properties : ∀ q ∈ Property.propertyDict, Raises P anyV q.2 := by
  unfold Property.propertyDict
  repeat' (first
    | exact all_nil
    | refine all_cons ?_ ?_
    | exact rs_fixedString _ | exact rs_date | exact rs_timeExp
    | refine raisesIs_cons (J := anyD) ?_ ?_
    | refine rs_field ?_
    | refine rs_embedded ?_
    | refine rs_struct ?_
    | raises)
end
end BM
