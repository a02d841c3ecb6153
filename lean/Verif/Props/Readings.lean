import Verif.Props.Relay
import Verif.Props.Values
import Verif.Props.Sensors
/-!
# C44: values of properties, and sensor values that are sent again
-/
namespace BM.Props
open Tables F Spec

/-! ### Specification -/

/-- The number of bytes of the value of each device property. -/
def propertySizes : List (Nat × Nat) := [
  (0x01, 3), (0x02, 3), (0x03, 3), (0x04, 3), (0x05, 3), (0x06, 2), (0x07, 1), (0x08, 1), (0x09, 1), (0x0A, 2), (0x0B, 2), (0x0C, 3),
  (0x0D, 3), (0x0E, 8), (0x0F, 6), (0x10, 16), (0x11, 36), (0x12, 24), (0x13, 2), (0x14, 9), (0x15, 6), (0x16, 9), (0x17, 3), (0x18, 3),
  (0x19, 16), (0x1A, 8), (0x1B, 6), (0x1C, 5), (0x1D, 4), (0x1E, 2), (0x1F, 2), (0x20, 2), (0x21, 6), (0x22, 9), (0x23, 6), (0x24, 6),
  (0x25, 6), (0x26, 6), (0x27, 6), (0x28, 6), (0x29, 1), (0x2A, 9), (0x2B, 3), (0x2C, 3), (0x2D, 3), (0x2E, 2), (0x2F, 2), (0x30, 2),
  (0x31, 1), (0x32, 4), (0x33, 4), (0x34, 4), (0x35, 4), (0x36, 3), (0x37, 3), (0x38, 3), (0x39, 3), (0x3A, 3), (0x3B, 3), (0x3C, 3),
  (0x3D, 1), (0x3E, 2), (0x3F, 3), (0x40, 3), (0x41, 4), (0x42, 1), (0x43, 1), (0x44, 6), (0x45, 5), (0x46, 4), (0x47, 9), (0x48, 1),
  (0x49, 6), (0x4A, 9), (0x4B, 6), (0x4C, 2), (0x4D, 1), (0x4E, 3), (0x4F, 1), (0x50, 4), (0x51, 2), (0x52, 3), (0x53, 1), (0x54, 2),
  (0x55, 3), (0x56, 1), (0x57, 2), (0x58, 1), (0x59, 2), (0x5A, 2), (0x5B, 1), (0x5C, 2), (0x5D, 2), (0x5E, 2), (0x5F, 1), (0x60, 5),
  (0x61, 5), (0x62, 7), (0x63, 3), (0x64, 5), (0x65, 5), (0x66, 5), (0x67, 6), (0x68, 2), (0x69, 2), (0x6A, 3), (0x6B, 3), (0x6C, 3),
  (0x6D, 3), (0x6E, 3), (0x6F, 3), (0x70, 3), (0x72, 4), (0x73, 1), (0x88, 3), (0x89, 2), (0x8C, 1), (0x8D, 3), (0x8E, 4), (0x8F, 4),
  (0x90, 6), (0x91, 6), (0x92, 6), (0x93, 3), (0x94, 2), (0x95, 6), (0x96, 6), (0x97, 3), (0x98, 3), (0x99, 24), (0x9A, 24), (0x9C, 3),
  (0x9D, 2), (0x9E, 2), (0x9F, 3), (0xA0, 3), (0xA4, 3), (0xA5, 6), (0xAB, 3), (0xAC, 3), (0xAD, 2), (0xAE, 3), (0xB4, 64), (0xB5, 6),
  (0xB6, 6), (0xB7, 1), (0x9B, 6), (0x83, 4), (0x84, 3), (0x80, 4), (0x81, 3), (0xB3, 1), (0x71, 1), (0x74, 4), (0x75, 2)]

/-- The properties that hold text, and the two that hold a date. -/
def textProperties : List Nat := [0x0E, 0x10, 0x11, 0x12, 0x19, 0x1A, 0x99, 0x9A, 0xB4]
def dayProperties : List Nat := [0x0C, 0xA0]

/-- `b` is text in UTF-8, padded with zero bytes. -/
noncomputable def isText (b : List UInt8) : Bool := by
  classical exact decide (∃ t : String, ∃ k : Nat, b = t.toByteArray.data.toList ++ List.replicate k 0)

/-- The bytes that are a value of the property, among those of the right number: text must be UTF-8, dates must be at most the last day
of the year 9999, light distributions and light sources must be known. -/
noncomputable def valueValid (id : Nat) (b : List UInt8) : Bool :=
  if id ∈ textProperties then isText b
  else if id ∈ dayProperties then leNat b ≤ 2932896
  else if id = 0x8C then leNat b ≤ 5
  else if id = 0xB3 then leNat b ≤ 6 || 253 ≤ leNat b
  else true

/-- What is sent for the bytes of a value that was received: the presence of someone is sent as 1. -/
def valueSent (id : Nat) (b : List UInt8) : List UInt8 := if id = 0x4D then [if b = [0] then 0 else 1] else b

/-! ### Reading values -/

theorem ReadsIs.struct {P its n ks} (h : ReadsIs P its n ks) : ReadsC P (struct its) n := by
  intro L ctx s
  obtain ⟨h1, h2⟩ := h L [] s
  constructor
  · intro hn hP
    obtain ⟨d, hd, -⟩ := h1 hn hP
    exact ⟨_, by simp [struct_parse, hd]; rfl⟩
  · intro hn
    obtain ⟨e, he, hd⟩ := h2 hn
    exact ⟨e, by simp [struct_parse, he], hd⟩

theorem readsC_bytesInt (n : Nat) : ReadsC always (bytesIntLE n) n := by
  intro L ctx s
  constructor
  · intro hn _
    have := takeN_append (b := s.take n) (n := n) (rest := s.drop n) (by simp [hn])
    rw [List.take_append_drop] at this
    exact ⟨_, by simp [bytesIntLE, this]; rfl⟩
  · intro h
    rcases h with h | h
    · exact ⟨.stream, by simp [bytesIntLE, takeN_short h], by simp⟩
    · cases h

/-- An adapter that accepts everything the construct below it reads. -/
theorem ReadsC.adapter {P c n} {dec enc} (h : ReadsC P c n) (hd : ∀ L ctx s v rest, c.parse L ctx s = .ok (v, rest) → ∀ L', ∃ w, dec L' v = .ok w) :
    ReadsC P (adapter c dec enc) n := by
  intro L ctx s
  obtain ⟨h1, h2⟩ := h L ctx s
  constructor
  · intro hn hP
    obtain ⟨v, hv⟩ := h1 hn hP
    obtain ⟨w, hw⟩ := hd _ _ _ _ _ hv L
    exact ⟨w, by simp [BM.adapter, hv, hw]⟩
  · intro hn
    obtain ⟨e, he, hde⟩ := h2 hn
    exact ⟨e, by simp [BM.adapter, he], hde⟩

/-- Constructs that read integers. -/
def ReadsInt (c : Con UInt8) : Prop := ∀ L ctx s v rest, c.parse L ctx s = .ok (v, rest) → ∃ n, v = .int n
theorem readsInt_u (n : Nat) : ReadsInt (uintLE n) := by
  intro L ctx s v rest h
  simp only [uintLE, bind_ok] at h
  obtain ⟨⟨b, r⟩, -, h2⟩ := h
  cases h2; exact ⟨_, rfl⟩
theorem readsInt_s (n : Nat) : ReadsInt (sintLE n) := by
  intro L ctx s v rest h
  simp only [sintLE, bind_ok] at h
  obtain ⟨⟨b, r⟩, -, h2⟩ := h
  cases h2; exact ⟨_, rfl⟩
theorem readsInt_b (n : Nat) : ReadsInt (bytesIntLE n) := by
  intro L ctx s v rest h
  simp only [bytesIntLE, bind_ok] at h
  obtain ⟨⟨b, r⟩, -, h2⟩ := h
  cases h2; exact ⟨_, rfl⟩

theorem ReadsC.count {P c n} (h : ReadsC P c n) (hi : ReadsInt c) {w d res unk} : ReadsC P (defaultCount c w d res unk) n := by
  refine ReadsC.adapter h fun L ctx s v rest hv _ => ?_
  obtain ⟨k, rfl⟩ := hi _ _ _ _ _ hv
  simp only [countDecode, asInt]
  split_ifs
  all_goals first | exact ⟨_, rfl⟩ | (cases res <;> exact ⟨_, rfl⟩)

theorem readsC_timeExp [Platform] : ReadsC always Property.timeExp 1 := by
  refine ReadsC.adapter (readsC_uint 1) fun L ctx s v rest hv _ => ?_
  match s with
  | [] => simp [uintLE, takeN] at hv
  | x :: s =>
    simp only [uintLE, takeN_one, ok_bind, Except.ok.injEq, Prod.mk.injEq, leNat] at hv
    obtain ⟨rfl, -⟩ := hv
    simp only [Property.timeExpDecode, asInt]
    split_ifs
    · exact ⟨_, rfl⟩
    · have := x.toNat_lt
      obtain ⟨y, hy, -⟩ := Platform.pow11 (((x.toNat + 256 * 0 : Nat) : Int) - 64) (by omega) (by omega)
      exact ⟨_, by rw [hy]; rfl⟩

theorem readsC_flag : ReadsC always flag 1 := by
  intro L ctx s
  match s with
  | [] => exact ⟨fun h => by simp at h, fun _ => ⟨.stream, rfl, by simp⟩⟩
  | x :: s => exact ⟨fun _ _ => ⟨_, rfl⟩, fun h => by simp at h⟩


/-- One member, whose bytes are checked by an adapter. -/
theorem ReadsC.check {c n} {dec enc} {P : List UInt8 → Bool} (h : ReadsC always c n)
    (hd : ∀ L ctx s v, c.parse L ctx s = .ok (v, s.drop n) → n ≤ s.length → ∀ L',
      (P (s.take n) = true → ∃ w, dec L' v = .ok w) ∧ (P (s.take n) = false → ∃ e, dec L' v = .error e ∧ e ≠ .diverge)) :
    ReadsC (fun s => P (s.take n)) (BM.adapter c dec enc) n := by
  intro L ctx s
  obtain ⟨h1, h2⟩ := h L ctx s
  constructor
  · intro hn hP
    obtain ⟨v, hv⟩ := h1 hn rfl
    obtain ⟨w, hw⟩ := (hd _ _ _ _ hv hn L).1 hP
    exact ⟨w, by simp [BM.adapter, hv, hw]⟩
  · intro hn
    by_cases hs : s.length < n
    · obtain ⟨e, he, hde⟩ := h2 (.inl hs)
      exact ⟨e, by simp [BM.adapter, he], hde⟩
    · obtain ⟨v, hv⟩ := h1 (by omega) rfl
      obtain ⟨e, he, hde⟩ := (hd _ _ _ _ hv (by omega) L).2 (hn.resolve_left hs)
      exact ⟨e, by simp [BM.adapter, hv, he], hde⟩

theorem bytesInt_read {n : Nat} {L ctx s v} (h : (bytesIntLE n).parse L ctx s = .ok (v, s.drop n)) (hn : n ≤ s.length) : v = .int (leNat (s.take n)) := by
  have := takeN_append (b := s.take n) (n := n) (rest := s.drop n) (by simp [hn])
  rw [List.take_append_drop] at this
  simp [bytesIntLE, this] at h
  exact h.symm

theorem uint_read {n : Nat} {L ctx s v} (h : (uintLE n).parse L ctx s = .ok (v, s.drop n)) (hn : n ≤ s.length) : v = .int (leNat (s.take n)) := by
  have := takeN_append (b := s.take n) (n := n) (rest := s.drop n) (by simp [hn])
  rw [List.take_append_drop] at this
  simp [uintLE, this] at h
  exact h.symm

theorem readsC_date : ReadsC (fun s => decide (leNat (s.take 3) ≤ 2932896)) Property.dateC 3 := by
  refine ReadsC.check (P := fun b => decide (leNat b ≤ 2932896)) (readsC_bytesInt 3) fun L ctx s v hv hn L' => ?_
  obtain rfl := bytesInt_read hv hn
  simp only [Property.dateDecode, asInt]
  constructor
  · intro h
    rw [decide_eq_true_eq] at h
    rw [if_pos (by unfold Property.lastDay; omega)]; exact ⟨_, rfl⟩
  · intro h
    rw [decide_eq_false_iff_not] at h
    rw [if_neg (by unfold Property.lastDay; omega)]; exact ⟨_, rfl, by simp⟩

theorem readsC_enum (E : EnumDef) (P : List UInt8 → Bool) (h : ∀ x : UInt8, E.has x.toNat = P [x]) :
    ReadsC (fun s => P (s.take 1)) (enumAdapter (uintLE 1) E) 1 := by
  refine ReadsC.check (P := P) (readsC_uint 1) fun L ctx s v hv hn L' => ?_
  match s with
  | [] => simp at hn
  | x :: s =>
    obtain rfl := uint_read hv hn
    have e : leNat ((x :: s).take 1) = x.toNat := by simp [leNat]
    have e' : (x :: s).take 1 = [x] := rfl
    rw [e, e', ← h x]
    simp only [enumDecode, hashInt, asInt]
    constructor
    · intro h; rw [if_pos h]; exact ⟨_, rfl⟩
    · intro h; rw [if_neg (by simp [h])]; exact ⟨_, rfl, by simp⟩

theorem isText_iff {b : List UInt8} : isText b = true ↔ ∃ s, bytesStr (rstrip0 b) = .ok (.str s) := by
  classical
  unfold isText
  rw [decide_eq_true_eq]
  constructor
  · rintro ⟨t, k, rfl⟩; exact ⟨_, rstrip0_utf8_pad t k⟩
  · rintro ⟨s, hs⟩
    obtain ⟨s', h1, h2⟩ := bytesStr_ok hs
    exact ⟨s', _, by rw [show s'.toByteArray.data.toList = utf8 s' from rfl, h2]; exact (rstrip0_pad b).1.symm⟩

theorem readsC_text (n : Nat) : ReadsC (fun s => isText (s.take n)) (Property.fixedString n) n := by
  intro L ctx s
  constructor
  · intro hn hP
    have := takeN_append (b := s.take n) (n := n) (rest := s.drop n) (by simp [hn])
    rw [List.take_append_drop] at this
    obtain ⟨t, ht⟩ := isText_iff.1 hP
    exact ⟨_, by simp [Property.fixedString, adapter, paddedString, this, ht]; rfl⟩
  · intro h
    by_cases hs : s.length < n
    · exact ⟨.stream, by simp [Property.fixedString, adapter, paddedString, takeN_short hs], by simp⟩
    · have h := h.resolve_left hs
      have := takeN_append (b := s.take n) (n := n) (rest := s.drop n) (by simp; omega)
      rw [List.take_append_drop] at this
      cases ht : bytesStr (rstrip0 (s.take n)) with
      | ok v =>
        obtain ⟨t, rfl, -⟩ := bytesStr_ok ht
        exact absurd (isText_iff.2 ⟨t, ht⟩) (by simp [h])
      | error e =>
        refine ⟨e, by simp [Property.fixedString, adapter, paddedString, this, ht], ?_⟩
        rintro rfl
        unfold bytesStr utf8Decode at ht
        split_ifs at ht <;> simp at ht

theorem readsC_appearance : ReadsC always (struct Property.appearance) 2 := by
  intro L ctx s
  match s with
  | [] => exact ⟨fun h => by simp at h, fun _ => ⟨.stream, rfl, by simp⟩⟩
  | [_] => exact ⟨fun h => by simp at h, fun _ => ⟨.stream, rfl, by simp⟩⟩
  | x :: y :: s =>
    refine ⟨fun _ _ => ?_, fun h => by simp at h; omega⟩
    have t : takeN 2 (x :: y :: s) = .ok ([x, y], s) := by simp [takeN]
    exact ⟨_, by simp [struct_parse, Property.appearance, parseItems, embeddedBitStruct]; rfl⟩


/-- The entries of a dictionary read values of the given sizes. -/
inductive ReadsDict : List (Int × Con UInt8) → List (Nat × Nat) → Prop
  | nil : ReadsDict [] []
  | cons {c D i n P S} (h : ReadsC P c n) (hP : P = fun s => valueValid i (s.take n)) (t : ReadsDict D S) :
      ReadsDict (((i : Nat), c) :: D) ((i, n) :: S)

theorem valid_plain {i n : Nat} (h : (i ∈ textProperties ∨ i ∈ dayProperties ∨ i = 0x8C ∨ i = 0xB3) = False) :
    always = fun s => valueValid i (s.take n) := by
  funext s
  simp only [eq_iff_iff, iff_false, not_or] at h
  obtain ⟨h1, h2, h3, h4⟩ := h
  simp only [valueValid, if_neg h1, if_neg h2, if_neg h3, if_neg h4]

theorem light_distributions (x : UInt8) : E.LightDistributionField.has x.toNat = decide (leNat [x] ≤ 5) := by
  simp only [EnumDef.has, E.LightDistributionField, List.any_cons, List.any_nil, Bool.or_false, leNat]
  rw [Bool.eq_iff_iff]
  simp
  omega

theorem light_sources (x : UInt8) : E.LightSourceTypeField.has x.toNat = (decide (leNat [x] ≤ 6) || decide (253 ≤ leNat [x])) := by
  have := x.toNat_lt
  simp only [EnumDef.has, E.LightSourceTypeField, List.any_cons, List.any_nil, Bool.or_false, leNat]
  rw [Bool.eq_iff_iff]
  simp
  omega

macro "readsprop" : tactic => `(tactic| repeat' with_reducible first
  | exact readsC_appearance | exact readsC_text _ | exact readsC_date | exact readsC_timeExp | exact readsC_flag
  | exact readsIs_nil | exact readsC_uint _ | exact readsC_sint _ | exact readsC_bytesInt _ | exact readsInt_u _ | exact readsInt_s _ | exact readsInt_b _
  | exact readsC_enum E.LightDistributionField (fun b => decide (leNat b ≤ 5)) light_distributions
  | exact readsC_enum E.LightSourceTypeField (fun b => leNat b ≤ 6 || 253 ≤ leNat b) light_sources
  | apply ReadsIs.struct | apply ReadsC.count
  | apply ReadsIf.cons | apply ReadsC.field | apply ReadsIs.embedded | with_unfolding_all decide)

theorem ReadsDict.step {c D k i m n P S} (hk : k = ((i : Nat) : Int)) (h : ReadsC P c m) (hn : m = n) (hP : P = fun s => valueValid i (s.take n)) (t : ReadsDict D S) :
    ReadsDict ((k, c) :: D) ((i, n) :: S) := by
  subst hn hk; exact .cons h hP t

variable [Platform]
set_option maxRecDepth 100000 in
set_option maxHeartbeats 4000000 in
theorem readsDict : ReadsDict Property.propertyDict propertySizes := by
  unfold Property.propertyDict propertySizes
  dsimp only
  repeat' first
    | exact ReadsDict.nil
    | (apply ReadsDict.step
       · rfl
       · readsprop
       · rfl
       · first
         | exact valid_plain (by decide)
         | rfl)

theorem ReadsDict.find {D S} (h : ReadsDict D S) : ∀ {i n}, (i, n) ∈ S → (S.map Prod.fst).Nodup →
    ∃ c, findCase (i : Nat) D = some c ∧ ReadsC (fun s => valueValid i (s.take n)) c n := by
  induction h with
  | nil => intro i n h; cases h
  | @cons c D i' n' P S h hP t ih =>
    intro i n hi hnd
    simp only [List.map_cons, List.nodup_cons] at hnd
    rcases List.mem_cons.1 hi with e | hi'
    · cases e
      exact ⟨c, by simp [findCase], hP ▸ h⟩
    · have : i ≠ i' := by
        rintro rfl
        exact hnd.1 (List.mem_map.2 ⟨(i, n), hi', rfl⟩)
      obtain ⟨c, h1, h2⟩ := ih hi' hnd.2
      exact ⟨c, by rw [findCase, if_neg (by omega)]; exact h1, h2⟩

set_option maxRecDepth 100000 in
theorem sizes_nodup : (propertySizes.map Prod.fst).Nodup := by with_unfolding_all decide

set_option maxRecDepth 100000 in
theorem sizes_ids : (propertySizes.all fun x => Spec.properties.any fun p => p.id == x.1) = true ∧
    (Spec.properties.all fun p => propertySizes.any fun x => x.1 == p.id) = true := by
  constructor <;> with_unfolding_all exact (Eq.refl true)

theorem spec_of_size {i n : Nat} (h : (i, n) ∈ propertySizes) : ∃ p ∈ Spec.properties, p.id = i := by
  have := List.any_eq_true.1 (List.all_eq_true.1 sizes_ids.1 _ h)
  obtain ⟨p, hp, he⟩ := this
  exact ⟨p, hp, by simpa using he⟩

theorem size_of_spec {p : PropSpec} (hp : p ∈ Spec.properties) : ∃ n, (p.id, n) ∈ propertySizes := by
  obtain ⟨⟨i, n⟩, hx, he⟩ := List.any_eq_true.1 (List.all_eq_true.1 sizes_ids.2 _ hp)
  have : i = p.id := by simpa using he
  exact ⟨n, this ▸ hx⟩

set_option maxRecDepth 100000 in
theorem sizes_presence : ∀ x ∈ propertySizes, x.1 = 0x4D → x.2 = 1 := by with_unfolding_all decide

/-- **C44 (values).** The value of a property is read if there are as many bytes as the property's size and they are valid, whatever
follows, and is not read otherwise; sending what was read gives these bytes again (and 1 for any presence). -/
theorem C44_value {i n : Nat} (h : (i, n) ∈ propertySizes) :
    ∃ c, findCase (i : Nat) Property.propertyDict = some c ∧ ∀ L ctx (s : List UInt8),
      (n ≤ s.length → valueValid i (s.take n) = true → ∃ v, c.parse L ctx s = .ok (v, s.drop n) ∧
        ∀ L' ctx', ∃ o, c.build L' ctx' v = .ok (valueSent i (s.take n), o)) ∧
      (s.length < n ∨ valueValid i (s.take n) = false → ∃ e, c.parse L ctx s = .error e ∧ e ≠ .diverge) := by
  obtain ⟨c, hc, hr⟩ := readsDict.find h sizes_nodup
  refine ⟨c, hc, fun L ctx s => ⟨fun hn hv => ?_, (hr L ctx s).2⟩⟩
  obtain ⟨v, hp⟩ := (hr L ctx s).1 hn hv
  refine ⟨v, hp, ?_⟩
  by_cases hi : i = 0x4D
  · subst hi
    have hn : n = 1 := sizes_presence _ h rfl
    subst hn
    obtain ⟨c', hc', h1, h2⟩ := C17_presence
    obtain rfl : c' = c := by
      have := hc'.symm.trans hc
      injection this
    match s with
    | [] => simp at hn
    | x :: s =>
      rw [h1] at hp
      simp only [Except.ok.injEq, Prod.mk.injEq] at hp
      obtain ⟨rfl, -⟩ := hp
      intro L' ctx'
      obtain ⟨o, ho⟩ := h2 L' ctx' (x != 0)
      refine ⟨o, ?_⟩
      rw [ho]
      have : (if (x != 0) = true then (1 : UInt8) else 0) = if [x] = [0] then 0 else 1 := by
        by_cases hx : x = 0 <;> simp [hx]
      rw [this]; rfl
  · obtain ⟨p, hp', rfl⟩ := spec_of_size h
    obtain ⟨c', hc', h1⟩ := C17_properties hp' hi
    obtain rfl : c' = c := by
      have := hc'.symm.trans hc
      injection this
    obtain ⟨b, hs, hb⟩ := h1 hp
    intro L' ctx'
    obtain ⟨o, ho⟩ := hb L' ctx'
    refine ⟨o, ?_⟩
    rw [ho, valueSent, if_neg hi]
    have : s.take n = b := List.append_cancel_right (show s.take n ++ s.drop n = b ++ s.drop n by rw [List.take_append_drop]; exact hs)
    rw [this]

/-! ### Sensor values -/

/-- One value of a sensor status message as received: the format, length and identifier of its header, and the data. -/
structure Reading where
  formatB : Bool
  length : Nat
  id : Nat
  data : List UInt8

/-- The header can be written in its format. -/
def Reading.Fits (r : Reading) : Prop :=
  1 ≤ r.length ∧ if r.formatB then r.length ≤ 128 ∧ r.id < 65536 else r.length ≤ 16 ∧ r.id < 2048

def Reading.header (r : Reading) : List UInt8 := if r.formatB then headerB r.length r.id else headerA r.length r.id

/-- The data can be read: the identifier is not that of a known property, or the data begin with a value of it. -/
def Reading.Readable (r : Reading) : Prop :=
  ∀ n, (r.id, n) ∈ propertySizes → n ≤ r.data.length ∧ valueValid r.id (r.data.take n) = true

/-- The next value of `s` is `r`, and `rest` follows it.  At the end of the message the data may be shorter than the header says. -/
def Next (s : List UInt8) (r : Reading) (rest : List UInt8) : Prop :=
  r.Fits ∧ r.Readable ∧ ∃ t, s = r.header ++ t ∧ r.data = t.take r.length ∧ rest = t.drop r.length

/-- All values of `s`, up to the first that cannot be read. -/
inductive Readings : List UInt8 → List Reading → List UInt8 → Prop
  | stop {s} (h : ∀ r rest, ¬ Next s r rest) : Readings s [] s
  | next {s r t rs rest} (h : Next s r t) (hs : Readings t rs rest) : Readings s (r :: rs) rest

/-- `b` is what is sent for a value that was received: the header as it was, then the value without the bytes that followed it. -/
def Reading.Sent (r : Reading) (b : List UInt8) : Prop :=
  (∀ n, (r.id, n) ∈ propertySizes → b = r.header ++ valueSent r.id (r.data.take n)) ∧
  ((∀ n, (r.id, n) ∉ propertySizes) → b = r.header ++ r.data)

/-- What the application sees of a value. -/
def Reading.Shown (r : Reading) (v : Val) : Prop :=
  ∃ d, v = .dict d ∧ dget d "format" = some (.int (if r.formatB then 1 else 0)) ∧ dget d "length" = some (.int r.length) ∧
    (∀ n, (r.id, n) ∈ propertySizes → dget d "sensor_setting_property_id" = some (.enum "PropertyID" r.id)) ∧
    ((∀ n, (r.id, n) ∉ propertySizes) → dget d "sensor_setting_property_id" = some (.int r.id) ∧
      dget d "sensor_setting_raw" = some (.list (r.data.map fun x => .int x.toNat)))

open Sensor in
theorem header_read {r : Reading} (h : r.Fits) (t : List UInt8) :
    mpidParse (r.header ++ t) = .ok ((if r.formatB then 1 else 0, r.length, r.id), t) ∧
    ∀ {uid : Val}, asInt uid = some (r.id : Int) → mpidBuild (.int (if r.formatB then 1 else 0)) (.int r.length) uid = .ok r.header := by
  obtain ⟨f, l, i, d⟩ := r
  obtain ⟨h1, h2⟩ := h
  cases f with
  | true =>
    obtain ⟨h2, h3⟩ := h2
    exact ⟨(C20_formatB h1 h2 h3 (uf := .int 1) (ul := .int l) (uid := .int i) rfl rfl rfl t).2,
      fun {uid} hu => (C20_formatB h1 h2 h3 (uf := .int 1) (ul := .int l) (uid := uid) rfl rfl hu t).1⟩
  | false =>
    obtain ⟨h2, h3⟩ := h2
    exact ⟨(C20_formatA h1 h2 h3 (uf := .int 0) (ul := .int l) (uid := .int i) rfl rfl rfl t).2,
      fun {uid} hu => (C20_formatA h1 h2 h3 (uf := .int 0) (ul := .int l) (uid := uid) rfl rfl hu t).1⟩

theorem header_of_parse {s t : List UInt8} {f l i : Nat} (h : Sensor.mpidParse s = .ok ((f, l, i), t)) (d : List UInt8) :
    let r : Reading := ⟨decide (f = 1), l, i, d⟩
    r.Fits ∧ s = r.header ++ t ∧ f = if r.formatB then 1 else 0 := by
  rcases C20_received h with ⟨rfl, h1, h2, h3, h4⟩ | ⟨rfl, h1, h2, h3, h4⟩
  · exact ⟨⟨h1, h2, h3⟩, h4, rfl⟩
  · exact ⟨⟨h1, h2, h3⟩, h4, rfl⟩

omit [Platform] in
theorem mpidParse_err {s e} (h : Sensor.mpidParse s = .error e) : e ≠ .diverge := by
  match s with
  | [] => simp [Sensor.mpidParse, takeN] at h; subst h; simp
  | [_] => simp [Sensor.mpidParse, takeN] at h; subst h; simp
  | b0 :: b1 :: s =>
    have t : takeN 2 (b0 :: b1 :: s) = .ok ([b0, b1], s) := by simp [takeN]
    simp only [Sensor.mpidParse, t, ok_bind] at h
    split_ifs at h
    match s with
    | [] => simp [takeN] at h; subst h; simp
    | b2 :: s =>
      have t : takeN 1 (b2 :: s) = .ok ([b2], s) := by simp [takeN]
      simp [t] at h

theorem unknown_has {i : Nat} (h : ∀ n, (i, n) ∉ propertySizes) : E.PropertyID.has (i : Int) = false := by
  refine not_has fun p hp he => ?_
  obtain ⟨n, hn⟩ := size_of_spec hp
  have : p.id = i := by exact_mod_cast he
  exact h n (this ▸ hn)

theorem data_build {d : Dict} {r : Reading} (hf : r.Fits) {id : Val} (h1 : dget d "sensor_setting_property_id" = some id)
    (h2 : dget d "format" = some (.int (if r.formatB then 1 else 0))) (h3 : dget d "length" = some (.int r.length))
    (hid : asInt id = some (r.id : Int)) {L ctx b} (hb : Sensor.buildSetting L ctx d id = .ok b) :
    Sensor.data.build L ctx (.dict d) = .ok (r.header ++ b, .dict d) := by
  simp only [Sensor.data, dgetE_eq h1, dgetE_eq h2, dgetE_eq h3, ok_bind, (header_read hf []).2 hid, hb]

theorem listBytes_map (b : List UInt8) : Sensor.listBytes (b.map fun x => .int x.toNat) = .ok b := by
  induction b with
  | nil => rfl
  | cons x b ih =>
    have := x.toNat_lt
    simp only [List.map_cons, Sensor.listBytes, asInt]
    rw [if_pos (by omega), ih]
    simp

theorem next_read {s r t} (h : Next s r t) (L : Lib) (ctx : Dict) :
    ∃ v, Sensor.data.parse L ctx s = .ok (v, t) ∧ r.Shown v ∧ ∃ b, r.Sent b ∧ ∀ L' ctx', ∃ o, Sensor.data.build L' ctx' v = .ok (b, o) := by
  obtain ⟨hf, hr, s', rfl, hd, rfl⟩ := h
  obtain ⟨h1, h2⟩ := header_read hf s'
  by_cases hk : ∃ n, (r.id, n) ∈ propertySizes
  · obtain ⟨n, hn⟩ := hk
    obtain ⟨p, hp, hpid⟩ := spec_of_size hn
    obtain ⟨c, hc, hcc⟩ := C44_value hn
    obtain ⟨hl, hv⟩ := hr n hn
    obtain ⟨v, hv1, hv2⟩ := (hcc L ctx r.data).1 hl hv
    have hname := property_names p hp
    have hkey : ∀ {i : Val}, hashInt i = some (r.id : Int) → Sensor.settingKey i = (.enum E.PropertyID.cls r.id, p.name) := by
      intro i hi; rw [← hpid] at hi ⊢; exact settingKey_known hp hi
    simp only [List.mem_cons, List.not_mem_nil, or_false, not_or] at hname
    obtain ⟨-, -, -, n4, -, n6, n7⟩ := hname
    have hu : ∀ m, (r.id, m) ∈ propertySizes → m = n := by
      intro m hm
      have := List.inj_on_of_nodup_map sizes_nodup hm hn rfl
      exact (Prod.mk.inj this).2
    refine ⟨.dict (dset (dset [("format", .int (if r.formatB then 1 else 0)), ("length", .int r.length)] "sensor_setting_property_id" (.enum E.PropertyID.cls r.id)) p.name v),
      ?_, ⟨_, rfl, ?_, ?_, ?_, ?_⟩, r.header ++ valueSent r.id (r.data.take n), ⟨?_, ?_⟩, ?_⟩
    · simp only [Sensor.data, h1, ok_bind, Sensor.parseSetting, hkey (i := .int r.id) rfl, dictGet_eq hc, ← hd, hv1]
      cases r.formatB <;> rfl
    · rw [dget_dset_ne _ _ n6]; rfl
    · rw [dget_dset_ne _ _ n7]; rfl
    · intro _ _; rw [dget_dset_ne _ _ n4]; rfl
    · intro h; exact absurd hn (h n)
    · intro m hm; rw [hu m hm]
    · intro h; exact absurd hn (h n)
    · intro L' ctx'
      obtain ⟨o, ho⟩ := hv2 L' ctx'
      refine ⟨_, data_build hf (id := .enum E.PropertyID.cls r.id) ?_ ?_ ?_ rfl ?_⟩
      · rw [dget_dset_ne _ _ n4]; rfl
      · rw [dget_dset_ne _ _ n6]; rfl
      · rw [dget_dset_ne _ _ n7]; rfl
      · simp only [Sensor.buildSetting, hkey (i := .enum E.PropertyID.cls r.id) rfl, dictGet_eq hc, ok_bind, dget_dset_self,
          Option.some_or, Option.getD_some, ho]
  · have hk : ∀ n, (r.id, n) ∉ propertySizes := fun n hn => hk ⟨n, hn⟩
    have hh := unknown_has hk
    have hkey : Sensor.settingKey (.int r.id) = (.int r.id, "sensor_setting_raw") := settingKey_unknown (i := .int r.id) (k := (r.id : Int)) rfl hh
    have hg : dictGet Property.propertyDict (.int r.id) = .error .key := dictGet_none (i := .int r.id) (k := (r.id : Int)) rfl hh
    refine ⟨.dict (dset (dset [("format", .int (if r.formatB then 1 else 0)), ("length", .int r.length)] "sensor_setting_property_id" (.int r.id)) "sensor_setting_raw"
      (.list (r.data.map fun x => .int x.toNat))), ?_, ⟨_, rfl, rfl, rfl, ?_, ?_⟩, r.header ++ r.data, ⟨?_, ?_⟩, ?_⟩
    · simp only [Sensor.data, h1, ok_bind, Sensor.parseSetting, hkey, hg, ← hd]
      cases r.formatB <;> rfl
    · intro n hn; exact absurd hn (hk n)
    · intro _; exact ⟨rfl, rfl⟩
    · intro n hn; exact absurd hn (hk n)
    · intro _; rfl
    · intro L' ctx'
      refine ⟨_, data_build hf (id := .int r.id) rfl rfl rfl rfl ?_⟩
      simp only [Sensor.buildSetting, hkey, hg, error_bind, dget_dset_self, Option.some_or, Option.getD_some, Sensor.pyBytes, asInt, iter, ok_bind, listBytes_map]

theorem next_fails {s} (h : ∀ r t, ¬ Next s r t) (L : Lib) (ctx : Dict) : ∃ e, Sensor.data.parse L ctx s = .error e ∧ e ≠ .diverge := by
  cases hm : Sensor.mpidParse s with
  | error e => exact ⟨e, by simp [Sensor.data, hm], mpidParse_err hm⟩
  | ok x =>
    obtain ⟨⟨f, l, i⟩, t⟩ := x
    obtain ⟨h1, h2, h3⟩ := header_of_parse hm (t.take l)
    have hr := h ⟨decide (f = 1), l, i, t.take l⟩ (t.drop l)
    have hr : ¬ Reading.Readable ⟨decide (f = 1), l, i, t.take l⟩ := fun hx => hr ⟨h1, hx, t, h2, rfl, rfl⟩
    unfold Reading.Readable at hr
    push_neg at hr
    obtain ⟨n, hn, hbad⟩ := hr
    dsimp only at hn hbad
    obtain ⟨c, hc, hcc⟩ := C44_value hn
    obtain ⟨p, hp, hpid⟩ := spec_of_size hn
    obtain ⟨e, he, hde⟩ := (hcc L ctx (t.take l)).2 (by
      by_cases hl : n ≤ (t.take l).length
      · exact .inr (by simpa using hbad hl)
      · exact .inl (by omega))
    refine ⟨e, ?_, hde⟩
    have hkey : Sensor.settingKey (.int i) = (.enum E.PropertyID.cls i, p.name) := by
      rw [← hpid]; exact settingKey_known hp (i := .int p.id) rfl
    simp only [Sensor.data, hm, ok_bind, Sensor.parseSetting, hkey, dictGet_eq hc, he, error_bind]

theorem Next.shorter {s r t} (h : Next s r t) : t.length < s.length := by
  obtain ⟨hf, -, s', rfl, -, rfl⟩ := h
  have : 0 < r.header.length := by
    unfold Reading.header
    split <;> simp [headerA, headerB, leBytes_length]
  simp; omega

theorem Next.unique {s r t r' t'} (h : Next s r t) (h' : Next s r' t') : r' = r ∧ t' = t := by
  obtain ⟨hf, -, s1, rfl, hd, rfl⟩ := h
  obtain ⟨hf', -, s2, he, hd', rfl⟩ := h'
  have h1 := (header_read hf s1).1
  rw [he, (header_read hf' s2).1] at h1
  simp only [Except.ok.injEq, Prod.mk.injEq] at h1
  obtain ⟨⟨h1, h2, h3⟩, rfl⟩ := h1
  obtain ⟨f, l, i, d⟩ := r
  obtain ⟨f', l', i', d'⟩ := r'
  dsimp only at *
  subst h2 h3
  have : f' = f := by cases f <;> cases f' <;> simp at h1 <;> rfl
  subst this hd hd'
  exact ⟨rfl, rfl⟩

/-- **C44 (which values).** Every payload is one list of values followed by bytes that cannot be read. -/
theorem C44_readings (s : List UInt8) : ∃ rs rest, Readings s rs rest ∧ ∀ rs' rest', Readings s rs' rest' → rs' = rs ∧ rest' = rest := by
  induction hn : s.length using Nat.strong_induction_on generalizing s with
  | _ n ih =>
    by_cases h : ∃ r t, Next s r t
    · obtain ⟨r, t, h⟩ := h
      obtain ⟨rs, rest, h1, h2⟩ := ih t.length (hn ▸ h.shorter) t rfl
      refine ⟨r :: rs, rest, .next h h1, fun rs' rest' h' => ?_⟩
      cases h' with
      | stop h' => exact absurd h (h' r t)
      | next h3 h4 =>
        obtain ⟨rfl, rfl⟩ := h.unique h3
        obtain ⟨rfl, rfl⟩ := h2 _ _ h4
        exact ⟨rfl, rfl⟩
    · push_neg at h
      refine ⟨[], s, .stop h, fun rs' rest' h' => ?_⟩
      cases h' with
      | stop h' => exact ⟨rfl, rfl⟩
      | next h3 h4 => exact absurd h3 (h _ _)

theorem readings_elements {s rs rest} (h : Readings s rs rest) (L : Lib) (ctx : Dict) :
    ∃ vs bs, Elements Sensor.data L ctx s vs rest ∧ List.Forall₂ Reading.Shown rs vs ∧ List.Forall₂ Reading.Sent rs bs ∧
      (∀ L' ctx', buildMany (Sensor.data.build L' ctx') vs = .ok bs.flatten) ∧ ∀ r t, ¬ Next rest r t := by
  induction h with
  | stop h => exact ⟨[], [], .nil _, .nil, .nil, fun _ _ => rfl, h⟩
  | next h _ ih =>
    obtain ⟨v, h1, h2, b, h3, h4⟩ := next_read h L ctx
    obtain ⟨vs, bs, i1, i2, i3, i4, i5⟩ := ih
    refine ⟨v :: vs, b :: bs, .cons h1 i1, .cons h2 i2, .cons h3 i3, fun L' ctx' => ?_, i5⟩
    obtain ⟨o, ho⟩ := h4 L' ctx'
    simp [buildMany, ho, i4 L' ctx']

/-- **C44 (sensor values sent again).** Every sensor status message is read: the application sees its values up to the first that cannot be
read.  Sending what was read sends each of them with its header as it was and the value without any bytes that followed it. -/
theorem C44_status (L : Lib) (s : List UInt8) : ∃ rs rest vs bs, Readings s rs rest ∧
    accessParse registry L (0x52 :: s) = .ok (.dict [("opcode", .enum "SensorOpcode" 0x52), ("sensor_status", .list vs)], rest) ∧
    List.Forall₂ Reading.Shown rs vs ∧ List.Forall₂ Reading.Sent rs bs ∧
    ∀ L', (accessBuild registry L' (.dict [("opcode", .enum "SensorOpcode" 0x52), ("sensor_status", .list vs)])).map Prod.fst =
      .ok (0x52 :: bs.flatten) := by
  obtain ⟨rs, rest, hr, -⟩ := C44_readings s
  obtain ⟨vs, bs, h1, h2, h3, h4, h5⟩ := readings_elements hr L [("opcode", .enum "SensorOpcode" 0x52)]
  have he : (E.SensorOpcode, sensorCases) ∈ registry := by inreg
  have hN : ("SENSOR_STATUS", ((0x52 : Nat) : Int)) ∈ E.SensorOpcode.members := List.mem_of_getElem? (i := 3) rfl
  refine ⟨rs, rest, vs, bs, hr, ?_, h2, h3, fun L' => ?_⟩
  · have := C04_parse he hN L s
    obtain ⟨e, he, hde⟩ := next_fails h5 L [("opcode", .enum "SensorOpcode" 0x52)]
    have hlt : ∀ s v t, Sensor.data.parse L [("opcode", .enum "SensorOpcode" 0x52)] s = .ok (v, t) → t.length < s.length := by
      intro s v t h
      have := minLen_sensorData h
      omega
    have hg := C21_exactly hlt h1 he hde
    have hw : wireOpcode 0x52 = [0x52] := by decide
    have hcase : findCase ((0x52 : Nat) : Int) sensorCases = some Sensor.status := rfl
    have hlow : lower "SENSOR_STATUS" = "sensor_status" := by decide
    rw [hw] at this
    simp only [hcase, Option.getD_some, hlow] at this
    rw [show (0x52 : UInt8) :: s = [0x52] ++ s from rfl, this]
    have : E.SensorOpcode.cls = "SensorOpcode" := rfl
    rw [this]
    rw [show ((0x52 : Nat) : Int) = 0x52 from rfl, hg]
    rfl
  · have := C04_build he hN (by decide) L' (d := [("opcode", .enum "SensorOpcode" 0x52), ("sensor_status", .list vs)]) (k := .enum "SensorOpcode" 0x52)
      rfl (.inl rfl)
    rw [this]
    have hlow : lower "SENSOR_STATUS" = "sensor_status" := by decide
    have hcase : findCase ((0x52 : Nat) : Int) sensorCases = some Sensor.status := rfl
    have hw : wireOpcode 0x52 = [0x52] := by decide
    have hg : dget [("opcode", .enum "SensorOpcode" 0x52), ("sensor_status", .list vs)] "sensor_status" = some (.list vs) := rfl
    simp only [hlow, hg, Option.some_or, hcase, Option.getD_some, hw, Sensor.status, greedyRange, iter, ok_bind, h4]
    rfl

/-- The header says how long the value is, and presence is 0 or 1. -/
def Reading.Exact (r : Reading) : Prop :=
  r.data.length = r.length ∧ (∀ n, (r.id, n) ∈ propertySizes → r.length = n) ∧ (r.id = 0x4D → r.data = [0] ∨ r.data = [1])

omit [Platform] in
/-- **C44 (unchanged).** If the header of every value says the property's size then what is sent again is what was read. -/
theorem C44_unchanged {s rs rest} (h : Readings s rs rest) (hx : ∀ r ∈ rs, r.Exact) {bs} (hb : List.Forall₂ Reading.Sent rs bs) :
    bs.flatten ++ rest = s := by
  induction h generalizing bs with
  | stop h => cases hb; rfl
  | @next s r t rs rest h _ ih =>
    cases hb with
    | @cons _ b _ bs h1 h2 =>
      have := ih (fun r hr => hx r (List.mem_cons_of_mem _ hr)) h2
      obtain ⟨hf, hr, s', rfl, hd, rfl⟩ := h
      obtain ⟨x1, x2, x3⟩ := hx r List.mem_cons_self
      have hbb : b = r.header ++ r.data := by
        by_cases hk : ∃ n, (r.id, n) ∈ propertySizes
        · obtain ⟨n, hn⟩ := hk
          have hl := x2 n hn
          rw [h1.1 n hn, List.take_of_length_le (by omega)]
          congr 1
          unfold valueSent
          split_ifs with h1 h2
          · exact h2.symm
          · rcases x3 h1 with h | h
            · exact absurd h h2
            · exact h.symm
          · rfl
        · exact h1.2 fun n hn => hk ⟨n, hn⟩
      rw [List.flatten_cons, hbb, List.append_assoc, List.append_assoc, this, hd, List.take_append_drop]

/-! ### Generic properties -/

/-- The messages that carry the value of a property: name, opcode, and the number of bytes of the access field. -/
def propertyMessages : List (String × Nat × Nat) := [
  ("GENERIC_USER_PROPERTY_SET", 0x4C, 0), ("GENERIC_USER_PROPERTY_SET_UNACKNOWLEDGED", 0x4D, 0), ("GENERIC_USER_PROPERTY_STATUS", 0x4E, 1),
  ("GENERIC_ADMIN_PROPERTY_SET", 0x48, 1), ("GENERIC_ADMIN_PROPERTY_SET_UNACKNOWLEDGED", 0x49, 1), ("GENERIC_ADMIN_PROPERTY_STATUS", 0x4A, 1),
  ("GENERIC_MANUFACTURER_PROPERTY_STATUS", 0x46, 1)]

/-- A header with the identifier of a property and `a` more bytes. -/
def PropHeader (hdr : List (Item UInt8)) (a : Nat) : Prop :=
  ∀ (hd : List UInt8), hd.length = 2 + a → ∃ d, (∀ L s, parseItems L hdr [] (hd ++ s) = .ok (d, s)) ∧
    dget d "property_id" = some (idValue (hd.take 2)) ∧ ∀ L' name v, name ≠ "property_id" → name ≠ "access" → E.PropertyID.has (leNat (hd.take 2)) = true →
      ∃ c, buildItems L' (dset (dset (dpop d "property_id") "property_id" (idValue (hd.take 2))) name v) hdr
        (dset (dset (dpop d "property_id") "property_id" (idValue (hd.take 2))) name v) = .ok (hd, c)

theorem uint_of_bytes {n : Nat} {p : List UInt8} (hp : p.length = n) {u : Val} (hu : asInt u = some (leNat p : Int)) (L ctx) :
    (uintLE n).build L ctx u = .ok (p, u) := by
  subst hp
  have h1 : leNat p < 256 ^ p.length := leNat_lt p
  simp only [uintLE, hu, Int.toNat_natCast, leBytes_leNat]
  rw [if_pos ⟨by omega, h1⟩]

theorem propertyId_build {p : List UInt8} (hp : p.length = 2) (hh : E.PropertyID.has (leNat p) = true) (L ctx) :
    Sensor.propertyId.build L ctx (idValue p) = .ok (p, idValue p) := by
  have h1 := uint_of_bytes hp (u := .enum E.PropertyID.cls (leNat p)) rfl L ctx
  have h2 : idValue p = .enum E.PropertyID.cls (leNat p) := by simp only [idValue, hh, if_true]; rfl
  rw [h2]
  simp only [Sensor.propertyId, select, selectBuild, enumAdapter, adapter, hh, if_true, enumEncode, hashInt, asInt, ok_bind, h1]

theorem idField_build {d ctx : Dict} {p : List UInt8} (hp : p.length = 2) (hh : E.PropertyID.has (leNat p) = true)
    (h : dget d "property_id" = some (idValue p)) (L) : ∃ c, (field "property_id" Sensor.propertyId).build L d ctx = .ok (p, c) := by
  have hb : Sensor.propertyId.buildNone = false := rfl
  simp only [field, hb, Bool.false_eq_true, if_false, dgetE_eq h, ok_bind, propertyId_build hp hh]
  exact ⟨_, rfl⟩

theorem propHeader_user : PropHeader GenericProperty.propertyGet 0 := by
  intro hd hl
  have ht : hd.take 2 = hd := List.take_of_length_le (by omega)
  refine ⟨[("property_id", idValue hd)], fun L s => ?_, by rw [ht]; rfl, fun L' name v h1 h2 hh => ?_⟩
  · simp only [GenericProperty.propertyGet, parseItems, field, (readsAll_propertyId L []).1 hd s hl, ok_bind]
    rfl
  · rw [ht] at hh ⊢
    generalize hg : dset (dset (dpop [("property_id", idValue hd)] "property_id") "property_id" (idValue hd)) name v = d
    have hd' : dget d "property_id" = some (idValue hd) := by rw [← hg, dget_dset_ne _ _ h1]; rfl
    obtain ⟨c, hc⟩ := idField_build (d := d) (ctx := d) hl hh hd' L'
    simp only [GenericProperty.propertyGet, buildItems, hc, ok_bind, List.append_nil]
    exact ⟨_, rfl⟩

theorem propHeader_access : PropHeader [embedded GenericProperty.propertyGet, field "access" (uintLE 1)] 1 := by
  intro hd hl
  match hd, hl with
  | [x, y, z], _ =>
    refine ⟨[("property_id", idValue [x, y]), ("access", .int z.toNat)], fun L s => ?_, rfl, fun L' name v h1 h2 hh => ?_⟩
    · have e : [x, y, z] ++ s = [x, y] ++ (z :: s) := rfl
      rw [e]
      simp only [GenericProperty.propertyGet, parseItems, embedded, field, (readsAll_propertyId L []).1 [x, y] (z :: s) rfl, ok_bind, uintLE, takeN_one, leNat]
      rfl
    · rw [show [x, y, z].take 2 = [x, y] from rfl] at hh ⊢
      generalize hg : dset (dset (dpop [("property_id", idValue [x, y]), ("access", .int z.toNat)] "property_id") "property_id" (idValue [x, y])) name v = d
      have hd' : dget d "property_id" = some (idValue [x, y]) := by rw [← hg, dget_dset_ne _ _ h1]; rfl
      have hd'' : dget d "access" = some (.int z.toNat) := by rw [← hg, dget_dset_ne _ _ h2]; rfl
      obtain ⟨c, hc⟩ := idField_build (d := d) (ctx := d) (p := [x, y]) rfl hh hd' L'
      have hb : (uintLE 1).buildNone = false := rfl
      have hz : ∀ ctx, (uintLE 1).build L' ctx (.int z.toNat) = .ok ([z], .int z.toNat) := fun ctx => uint_of_bytes (p := [z]) rfl (by simp [asInt, leNat]) L' ctx
      simp only [buildItems, embedded, GenericProperty.propertyGet, hc, ok_bind]
      simp only [field, hb, Bool.false_eq_true, if_false, dgetE_eq hd'', ok_bind, hz]
      exact ⟨_, rfl⟩

/-- Header and value. -/
theorem mixin_reads {hdr a} (h : PropHeader hdr a) {hd : List UInt8} (hl : hd.length = 2 + a) :
    (∀ m, (leNat (hd.take 2), m) ∈ propertySizes → ∀ L ctx (s : List UInt8),
      (m ≤ s.length → valueValid (leNat (hd.take 2)) (s.take m) = true → ∃ d,
        (propertyMixin E.PropertyID Property.propertyDict hdr).parse L ctx (hd ++ s) = .ok (.dict d, s.drop m) ∧
        dget d "property_id" = some (.enum "PropertyID" (leNat (hd.take 2))) ∧ ∀ L' ctx', ∃ o,
          (propertyMixin E.PropertyID Property.propertyDict hdr).build L' ctx' (.dict d) = .ok (hd ++ valueSent (leNat (hd.take 2)) (s.take m), o)) ∧
      (s.length < m ∨ valueValid (leNat (hd.take 2)) (s.take m) = false →
        ∃ e, (propertyMixin E.PropertyID Property.propertyDict hdr).parse L ctx (hd ++ s) = .error e)) ∧
    ((∀ m, (leNat (hd.take 2), m) ∉ propertySizes) → ∀ L ctx s,
      ∃ e, (propertyMixin E.PropertyID Property.propertyDict hdr).parse L ctx (hd ++ s) = .error e) := by
  obtain ⟨d, h1, h2, h3⟩ := h hd hl
  unfold idValue at h2 h3
  generalize leNat (hd.take 2) = i at *
  constructor
  · intro m hm L ctx s
    obtain ⟨p, hp, rfl⟩ := spec_of_size hm
    obtain ⟨N, hN, hlow, -⟩ := properties_cover p hp
    obtain ⟨c, hc, hcc⟩ := C44_value hm
    have hh : E.PropertyID.has (p.id : Int) = true := lookupValue_has hN
    rw [if_pos hh] at h2 h3
    have hcall : E.PropertyID.call (.enum "PropertyID" p.id) = .ok (.enum E.PropertyID.cls p.id) := call_eq rfl hh
    have hname := property_names p hp
    simp only [List.mem_cons, List.not_mem_nil, or_false, not_or] at hname
    obtain ⟨n1, n2, -⟩ := hname
    constructor
    · intro hn hv
      obtain ⟨v, hv1, hv2⟩ := (hcc L ctx s).1 hn hv
      refine ⟨dset (dset (dpop d "property_id") "property_id" (.enum "PropertyID" p.id)) p.name v, ?_, ?_, fun L' ctx' => ?_⟩
      · simp only [propertyMixin, h1, ok_bind, dgetE_eq h2, hcall, memberKey_eq hN, hlow, dictGet_eq hc, hv1]
        rfl
      · rw [dget_dset_ne _ _ n1, dget_dset_self]
      · obtain ⟨o, ho⟩ := hv2 L' ctx'
        obtain ⟨c', hb⟩ := h3 L' p.name v n1 n2 hh
        have hid : dget (dset (dset (dpop d "property_id") "property_id" (.enum "PropertyID" p.id)) p.name v) "property_id" = some (.enum "PropertyID" p.id) := by
          rw [dget_dset_ne _ _ n1, dget_dset_self]
        simp only [propertyMixin, asDict, ok_bind, hb, dgetE_eq hid, hcall, memberKey_eq hN, hlow, dictGet_eq hc, dget_dset_self, Option.getD_some, ho]
        exact ⟨_, rfl⟩
    · intro hn
      obtain ⟨e, he, -⟩ := (hcc L ctx s).2 hn
      exact ⟨e, by simp only [propertyMixin, h1, ok_bind, dgetE_eq h2, hcall, memberKey_eq hN, hlow, dictGet_eq hc, he]; rfl⟩
  · intro hm L ctx s
    have hh := unknown_has hm
    rw [if_neg (by simp [hh])] at h2
    have hcall : E.PropertyID.call (.int i) = .error .value := by simp [EnumDef.call, hashInt, asInt, hh]
    exact ⟨.value, by simp only [propertyMixin, h1, ok_bind, dgetE_eq h2, hcall]; rfl⟩

/-- **C44 (properties in messages).** A generic property message with the identifier of a known property is read if and only if a value of
that property follows; what was read is sent again as it was, without the bytes that followed the value. -/
theorem C44_property {N : String} {n a : Nat} (h : (N, n, a) ∈ propertyMessages) {hd : List UInt8} (hl : hd.length = 2 + a) (L : Lib) (s : List UInt8) :
    (∀ m, (leNat (hd.take 2), m) ∈ propertySizes →
      (m ≤ s.length → valueValid (leNat (hd.take 2)) (s.take m) = true → ∃ d,
        accessParse registry L (wireOpcode n ++ (hd ++ s)) = .ok (.dict [("opcode", .enum "GenericPropertyOpcode" n), (lower N, .dict d)], s.drop m) ∧
        dget d "property_id" = some (.enum "PropertyID" (leNat (hd.take 2))) ∧
        ∀ L', (accessBuild registry L' (.dict [("opcode", .enum "GenericPropertyOpcode" n), (lower N, .dict d)])).map Prod.fst =
          .ok (wireOpcode n ++ (hd ++ valueSent (leNat (hd.take 2)) (s.take m)))) ∧
      (s.length < m ∨ valueValid (leNat (hd.take 2)) (s.take m) = false → ∃ e, accessParse registry L (wireOpcode n ++ (hd ++ s)) = .error e)) ∧
    ((∀ m, (leNat (hd.take 2), m) ∉ propertySizes) → ∃ e, accessParse registry L (wireOpcode n ++ (hd ++ s)) = .error e) := by
  have he : (E.GenericPropertyOpcode, genericPropertyCases) ∈ registry := by inreg
  obtain ⟨hdr, hh, hc, hN, hlow⟩ : ∃ hdr, PropHeader hdr a ∧ findCase (n : Int) genericPropertyCases = some (propertyMixin E.PropertyID Property.propertyDict hdr) ∧
      (N, (n : Int)) ∈ E.GenericPropertyOpcode.members ∧ lower N ≠ "opcode" := by
    simp only [propertyMessages, List.mem_cons, Prod.mk.injEq, List.not_mem_nil, or_false] at h
    rcases h with h | h | h | h | h | h | h <;> obtain ⟨rfl, rfl, rfl⟩ := h
    · exact ⟨_, propHeader_user, rfl, List.mem_of_getElem? (i := 3) rfl, by decide⟩
    · exact ⟨_, propHeader_user, rfl, List.mem_of_getElem? (i := 4) rfl, by decide⟩
    · exact ⟨_, propHeader_access, rfl, List.mem_of_getElem? (i := 5) rfl, by decide⟩
    · exact ⟨_, propHeader_access, rfl, List.mem_of_getElem? (i := 9) rfl, by decide⟩
    · exact ⟨_, propHeader_access, rfl, List.mem_of_getElem? (i := 10) rfl, by decide⟩
    · exact ⟨_, propHeader_access, rfl, List.mem_of_getElem? (i := 11) rfl, by decide⟩
    · exact ⟨_, propHeader_access, rfl, List.mem_of_getElem? (i := 17) rfl, by decide⟩
  have hp := C04_parse he hN L (hd ++ s)
  rw [hc, Option.getD_some] at hp
  obtain ⟨h1, h2⟩ := mixin_reads hh hl
  refine ⟨fun m hm => ⟨fun hs hv => ?_, fun hs => ?_⟩, fun hm => ?_⟩
  · obtain ⟨d, hd1, hd2, hd3⟩ := (h1 m hm L [("opcode", .enum E.GenericPropertyOpcode.cls n)] s).1 hs hv
    refine ⟨d, by rw [hp, hd1]; rfl, hd2, fun L' => ?_⟩
    have hb := C04_build he hN hlow L' (d := [("opcode", .enum "GenericPropertyOpcode" n), (lower N, .dict d)]) (k := .enum "GenericPropertyOpcode" n) rfl (.inl rfl)
    have hg : dget [("opcode", .enum "GenericPropertyOpcode" (n : Int)), (lower N, .dict d)] (lower N) = some (.dict d) := by
      simp [dget, hlow.symm]
    obtain ⟨o, ho⟩ := hd3 L' [("opcode", .enum E.GenericPropertyOpcode.cls n), ("params", .dict d)]
    rw [hb, hg, Option.some_or, hc, Option.getD_some]
    simp only [ho]
    rfl
  · obtain ⟨e, he⟩ := (h1 m hm L [("opcode", .enum E.GenericPropertyOpcode.cls n)] s).2 hs
    exact ⟨e, by rw [hp, he]; rfl⟩
  · obtain ⟨e, he⟩ := h2 hm L [("opcode", .enum E.GenericPropertyOpcode.cls n)] s
    exact ⟨e, by rw [hp, he]; rfl⟩

omit [Platform] in
set_option maxRecDepth 100000 in
theorem sizes_temperature : ∀ x ∈ propertySizes, x.1 = 0x4F → x.2 = 1 := by with_unfolding_all decide

/-! Examples: a temperature of 23 °C and a presence, read and sent again unchanged; a temperature whose header says two bytes is sent with
one byte, so that the next value is damaged; a presence of 7 becomes 1. -/

example : Readings [0xE0, 0x09, 0x2E, 0xA0, 0x09, 0x07, 0x11] [⟨false, 1, 0x4F, [0x2E]⟩, ⟨false, 1, 0x4D, [7]⟩] [0x11] := by
  refine .next (t := [0xA0, 0x09, 0x07, 0x11]) ⟨by unfold Reading.Fits; decide, ?_, [0x2E, 0xA0, 0x09, 0x07, 0x11], by decide, rfl, rfl⟩
    (.next (t := [0x11]) ⟨by unfold Reading.Fits; decide, ?_, [7, 0x11], by decide, rfl, rfl⟩ (.stop ?_))
  · intro n hn
    obtain rfl : n = 1 := sizes_temperature _ hn rfl
    exact ⟨by decide, by simp [valueValid, textProperties, dayProperties]⟩
  · intro n hn
    obtain rfl : n = 1 := sizes_presence _ hn rfl
    exact ⟨by decide, by simp [valueValid, textProperties, dayProperties]⟩
  · rintro r rest ⟨-, -, t, ht, -⟩
    have := congrArg List.length ht
    unfold Reading.header at this
    split at this <;> simp [headerA, headerB, leBytes_length] at this <;> omega

example : Reading.Sent ⟨false, 2, 0x4F, [0x2E, 0x00]⟩ [0xE2, 0x09, 0x2E] := by
  constructor
  · intro n hn
    obtain rfl : n = 1 := sizes_temperature _ hn rfl
    with_unfolding_all rfl
  · intro h; exact absurd (List.mem_of_getElem? (i := 78) rfl) (h 1)

end BM.Props
