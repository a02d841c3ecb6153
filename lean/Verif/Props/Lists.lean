import Verif.Props.Coverage
import Verif.Props.Opcodes
import Verif.Props.Fields
/-!
# Lists up to the end of the message (C21)
-/
namespace BM.Props
open Tables F Spec

/-- `vs` are the values of consecutive elements of `s`, and `rest` is what follows them. -/
inductive Elements {α} (c : Con α) (L : Lib) (ctx : Dict) : List α → List Val → List α → Prop
  | nil (s) : Elements c L ctx s [] s
  | cons {s v t vs rest} : c.parse L ctx s = .ok (v, t) → Elements c L ctx t vs rest → Elements c L ctx s (v :: vs) rest

theorem greedy_elements {α} {c : Con α} {L ctx} : ∀ {fuel s vs rest}, greedyLoop (c.parse L ctx) fuel s = .ok (vs, rest) →
    Elements c L ctx s vs rest ∧ ∃ e, c.parse L ctx rest = .error e
  | fuel, s, vs, rest, h => by
    unfold greedyLoop at h
    cases hp : c.parse L ctx s with
    | error e =>
      simp only [hp] at h
      split at h
      · cases h
      · cases h; exact ⟨.nil s, e, hp⟩
    | ok r =>
      obtain ⟨v, t⟩ := r
      simp only [hp] at h
      split at h
      · match fuel with
        | 0 => cases h
        | fuel + 1 =>
          simp only [bind_ok] at h
          obtain ⟨⟨vs', r⟩, h1, h2⟩ := h
          cases h2
          obtain ⟨h3, h4⟩ := greedy_elements h1
          exact ⟨.cons hp h3, h4⟩
      · cases h

/-- **C21 (everything well-formed).** What a list up to the end of the message reports are the values of consecutive elements; what it
leaves is not the beginning of another element. -/
theorem C21_maximal {α} {c : Con α} {L ctx s v rest} (h : (greedyRange c).parse L ctx s = .ok (v, rest)) :
    ∃ vs, v = .list vs ∧ Elements c L ctx s vs rest ∧ ∃ e, c.parse L ctx rest = .error e := by
  simp only [greedyRange, bind_ok] at h
  obtain ⟨⟨vs, r⟩, h1, h2⟩ := h
  cases h2
  obtain ⟨h3, h4⟩ := greedy_elements h1
  exact ⟨vs, rfl, h3, h4⟩

theorem elements_greedy {α} {c : Con α} {L ctx} (hc : ∀ s v t, c.parse L ctx s = .ok (v, t) → t.length < s.length) {s vs rest}
    (h : Elements c L ctx s vs rest) : ∀ {fuel e}, c.parse L ctx rest = .error e → e ≠ .diverge → s.length ≤ fuel →
    greedyLoop (c.parse L ctx) fuel s = .ok (vs, rest) := by
  induction h with
  | nil s =>
    intro fuel e he hd _
    unfold greedyLoop
    simp [he, hd]
  | @cons s v t vs rest hp _ ih =>
    intro fuel e he hd hf
    have hlt := hc _ _ _ hp
    unfold greedyLoop
    simp only [hp, if_pos hlt]
    match fuel with
    | 0 => omega
    | fuel + 1 => simp [ih (fuel := fuel) he hd (by omega)]

/-- **C21 (nothing less).** Conversely, if every element takes at least one byte, then a byte string that consists of elements and something
that is not the beginning of an element is read as the list of these elements. -/
theorem C21_exactly {α} {c : Con α} {L ctx} (hc : ∀ s v t, c.parse L ctx s = .ok (v, t) → t.length < s.length) {s vs rest}
    (h : Elements c L ctx s vs rest) {e} (he : c.parse L ctx rest = .error e) (hd : e ≠ .diverge) :
    (greedyRange c).parse L ctx s = .ok (.list vs, rest) := by
  simp [greedyRange, elements_greedy hc h he hd le_rfl]

/-- **C21 (termination).** If every element takes at least one byte, reading a list always succeeds and takes a prefix of the bytes. -/
theorem C21_succeeds {α} {c : Con α} {L ctx} (hc : ∀ s v t, c.parse L ctx s = .ok (v, t) → ∃ p, p ≠ [] ∧ s = p ++ t)
    (hd : ∀ s, c.parse L ctx s ≠ .error .diverge) (s : List α) : ∃ vs p rest, (greedyRange c).parse L ctx s = .ok (.list vs, rest) ∧ s = p ++ rest := by
  have hlt : ∀ s v t, c.parse L ctx s = .ok (v, t) → t.length < s.length := by
    intro s v t h
    obtain ⟨p, hp, rfl⟩ := hc s v t h
    have := List.length_pos_iff.2 hp
    simp; omega
  have key : ∀ (n : Nat) (s : List α), s.length ≤ n → ∃ vs rest, Elements c L ctx s vs rest ∧ ∃ e, c.parse L ctx rest = .error e := by
    intro n
    induction n with
    | zero =>
      intro s hs
      cases hp : c.parse L ctx s with
      | error e => exact ⟨[], s, .nil s, e, hp⟩
      | ok r => have := hlt s r.1 r.2 hp; omega
    | succ n ih =>
      intro s hs
      cases hp : c.parse L ctx s with
      | error e => exact ⟨[], s, .nil s, e, hp⟩
      | ok r =>
        have := hlt s r.1 r.2 hp
        obtain ⟨vs, rest, h1, h2⟩ := ih r.2 (by omega)
        exact ⟨r.1 :: vs, rest, .cons hp h1, h2⟩
  obtain ⟨vs, rest, h1, e, he⟩ := key s.length s le_rfl
  have hp : ∃ p, s = p ++ rest := by
    clear he
    induction h1 with
    | nil => exact ⟨[], rfl⟩
    | cons hp _ ih =>
      obtain ⟨p, -, rfl⟩ := hc _ _ _ hp
      obtain ⟨q, rfl⟩ := ih
      exact ⟨p ++ q, by simp⟩
  obtain ⟨p, hp⟩ := hp
  exact ⟨vs, p, rest, C21_exactly hlt h1 he (fun h => hd rest (h ▸ he)), hp⟩

/-! ### Elements of a fixed size -/

/-- The pieces of `n` bytes of `s`, but for a shorter last one. -/
def pieces (n : Nat) (s : List UInt8) : List (List UInt8) := (List.range (s.length / n)).map fun k => (s.drop (n * k)).take n

theorem pieces_short {n : Nat} {s : List UInt8} (h : s.length < n) : pieces n s = [] := by
  simp [pieces, Nat.div_eq_of_lt h]

theorem pieces_cons {n : Nat} (hn : 0 < n) {s : List UInt8} (h : n ≤ s.length) : pieces n s = s.take n :: pieces n (s.drop n) := by
  have e : s.length / n = (s.length - n) / n + 1 := by
    rw [← Nat.add_div_right _ hn]; congr 1; omega
  simp only [pieces, e, List.length_drop, List.range_succ_eq_map, List.map_cons, List.map_map]
  congr 1
  apply List.map_congr_left
  intro k _
  simp only [Function.comp, List.drop_drop]
  congr 2
  rw [Nat.mul_succ]; omega

/-- `c` reads `n` bytes, whatever they are, as the value `f` gives. -/
def ReadsAll (c : Con UInt8) (L : Lib) (ctx : Dict) (n : Nat) (f : List UInt8 → Val) : Prop :=
  (∀ p t, p.length = n → c.parse L ctx (p ++ t) = .ok (f p, t)) ∧ ∀ s, s.length < n → ∃ e, c.parse L ctx s = .error e ∧ e ≠ .diverge

/-- **C21 (fixed sizes).** A list of elements of `n` bytes is read as the pieces of `n` bytes; only an incomplete last piece is left. In
particular nothing is left if the number of bytes is a multiple of `n`. -/
theorem C21_fixed {c : Con UInt8} {L ctx n f} (hn : 0 < n) (h : ReadsAll c L ctx n f) (s : List UInt8) :
    (greedyRange c).parse L ctx s = .ok (.list ((pieces n s).map f), s.drop (s.length / n * n)) := by
  have hc : ∀ s v t, c.parse L ctx s = .ok (v, t) → t.length < s.length := by
    intro s v t hp
    by_cases hs : n ≤ s.length
    · have := h.1 (s.take n) (s.drop n) (by simp [hs])
      rw [List.take_append_drop, hp] at this
      cases this
      simp; omega
    · obtain ⟨e, he, -⟩ := h.2 s (by omega)
      rw [he] at hp; cases hp
  have key : ∀ (m : Nat) (s : List UInt8), s.length ≤ m → Elements c L ctx s ((pieces n s).map f) (s.drop (s.length / n * n)) ∧
      (s.drop (s.length / n * n)).length < n := by
    intro m
    induction m with
    | zero =>
      intro s hs
      have : s = [] := List.length_eq_zero_iff.1 (by omega)
      subst this
      rw [pieces_short (by simpa using hn)]
      exact ⟨by simpa using Elements.nil _, by simpa using hn⟩
    | succ m ih =>
      intro s hs
      by_cases hle : n ≤ s.length
      · have hp := h.1 (s.take n) (s.drop n) (by simp [hle])
        rw [List.take_append_drop] at hp
        obtain ⟨h1, h2⟩ := ih (s.drop n) (by simp; omega)
        have e : s.length / n = (s.length - n) / n + 1 := by
          rw [← Nat.add_div_right _ hn]; congr 1; omega
        have e2 : (s.drop n).drop ((s.drop n).length / n * n) = s.drop (s.length / n * n) := by
          rw [List.drop_drop, List.length_drop, e, Nat.succ_mul]; congr 1; omega
        rw [e2] at h1 h2
        rw [pieces_cons hn hle]
        exact ⟨.cons hp h1, h2⟩
      · rw [pieces_short (by omega), Nat.div_eq_of_lt (by omega)]
        simp only [Nat.zero_mul, List.drop_zero, List.map_nil]
        exact ⟨.nil _, by omega⟩
  obtain ⟨h1, h2⟩ := key s.length s le_rfl
  obtain ⟨e, he, hd⟩ := h.2 _ h2
  exact C21_exactly hc h1 he hd

theorem readsAll_uint (n : Nat) (L ctx) : ReadsAll (uintLE n) L ctx n (fun p => .int (leNat p)) := by
  constructor
  · intro p t hp
    simp [uintLE, takeN_append hp]
  · intro s hs
    refine ⟨.stream, ?_, by simp⟩
    simp [uintLE, takeN_short hs]

/-- A property identifier: a known one as member of the enumeration. -/
def idValue (p : List UInt8) : Val := if E.PropertyID.has (leNat p) then .enum "PropertyID" (leNat p) else .int (leNat p)

theorem readsAll_propertyId (L ctx) : ReadsAll Sensor.propertyId L ctx 2 idValue := by
  constructor
  · intro p t hp
    simp only [Sensor.propertyId, select, selectParse, enumAdapter, adapter, uintLE, takeN_append hp, ok_bind, enumDecode, hashInt, asInt, idValue]
    cases E.PropertyID.has (leNat p : Int) <;> rfl
  · intro s hs
    refine ⟨.select, ?_, by simp⟩
    simp [Sensor.propertyId, select, selectParse, enumAdapter, adapter, uintLE, takeN_short hs]

theorem struct_parse {α} (its : List (Item α)) (L ctx s) : (struct its).parse L ctx s = (do
    let (d, rest) ← parseItems L its [] s
    .ok (.dict d, rest)) := rfl

variable [Platform]

/-- **C21 (property lists).** In the four "properties status" messages any bytes are read as a list of two-byte identifiers; only an odd
last byte is left. -/
theorem C21_property_ids {N : String} {n : Nat} (h : (N, n) ∈ [("GENERIC_USER_PROPERTIES_STATUS", 0x4B), ("GENERIC_ADMIN_PROPERTIES_STATUS", 0x47),
      ("GENERIC_MANUFACTURER_PROPERTIES_STATUS", 0x43), ("GENERIC_CLIENT_PROPERTIES_STATUS", 0x50)]) (L : Lib) (s : List UInt8) :
    accessParse registry L (UInt8.ofNat n :: s) = .ok (.dict [("opcode", .enum "GenericPropertyOpcode" n),
      (lower N, .dict [("property_ids", .list ((pieces 2 s).map idValue))])], s.drop (s.length / 2 * 2)) := by
  have he : (E.GenericPropertyOpcode, genericPropertyCases) ∈ registry := by inreg
  have key : ∀ {n : Nat}, wireOpcode n = [UInt8.ofNat n] → (N, (n : Int)) ∈ E.GenericPropertyOpcode.members →
      findCase n genericPropertyCases = some (struct GenericProperty.propertiesStatus) →
      accessParse registry L (UInt8.ofNat n :: s) = .ok (.dict [("opcode", .enum "GenericPropertyOpcode" n),
        (lower N, .dict [("property_ids", .list ((pieces 2 s).map idValue))])], s.drop (s.length / 2 * 2)) := by
    intro n h1 h2 h3
    have := C04_parse he h2 L s
    rw [h1, h3] at this
    simp only [List.singleton_append] at this
    rw [this]
    simp only [Option.getD_some, struct, GenericProperty.propertiesStatus, parseItems, field, C21_fixed (by decide) (readsAll_propertyId L _) s, ok_bind]
    rfl
  simp only [List.mem_cons, Prod.mk.injEq, List.not_mem_nil, or_false] at h
  rcases h with ⟨rfl, rfl⟩ | ⟨rfl, rfl⟩ | ⟨rfl, rfl⟩ | ⟨rfl, rfl⟩ <;>
    exact key rfl (by simp [E.GenericPropertyOpcode]) rfl

/-- **C21 (subscription lists).** After a success status, a unicast address and a model identifier, any bytes are read as a list of
two-byte addresses; only an odd last byte is left. -/
theorem C21_subscription_list {a m : List UInt8} (ha : a.length = 2) (hm : m.length = 2) (h1 : 1 ≤ leNat a) (h2 : leNat a ≤ 0x7FFF)
    (L : Lib) (s : List UInt8) :
    accessParse registry L (0x80 :: 0x2A :: 0x00 :: (a ++ (m ++ s))) = .ok (.dict [("opcode", .enum "ConfigOpcode" 0x802A),
      ("config_sig_model_subscription_list", .dict [("status", .enum "StatusCode" 0), ("element_address", .int (leNat a)),
        ("model", .dict [("model_id", .int (leNat m))]), ("addresses", .list ((pieces 2 s).map fun p => .int (leNat p)))])],
      s.drop (s.length / 2 * 2)) := by
  have he : (E.ConfigOpcode, configCases) ∈ registry := by inreg
  have h2 : ("CONFIG_SIG_MODEL_SUBSCRIPTION_LIST", ((0x802A : Nat) : Int)) ∈ E.ConfigOpcode.members := by simp [E.ConfigOpcode]
  have := C04_parse he h2 L (0x00 :: (a ++ (m ++ s)))
  have hc : findCase (0x802A : Nat) configCases = some Config.sigModelSubscriptionList := rfl
  rw [show wireOpcode 0x802A = [0x80, 0x2A] from rfl, hc] at this
  simp only [List.cons_append, List.nil_append] at this
  rw [this]
  have hstat : ∀ ctx t, Config.statusCode.parse L ctx (0x00 :: t) = .ok (.enum "StatusCode" 0, t) := fun _ _ => rfl
  have hadr : ∀ ctx t, Config.unicastAddress.parse L ctx (a ++ t) = .ok (.int (leNat a), t) := by
    intro ctx t
    have := C09_unicast.parse L ctx (leNat a) t (by omega) ⟨h1, by omega⟩
    rwa [← ha, leBytes_leNat] at this
  have hmod : ∀ ctx t, (struct Config.sigModelId).parse L ctx (m ++ t) = .ok (.dict [("model_id", .int (leNat m))], t) := by
    intro ctx t
    simp [struct, Config.sigModelId, parseItems, field, uintLE, takeN_append hm, dset]
  rw [Option.getD_some, show Config.sigModelSubscriptionList = struct _ from rfl, struct_parse]
  simp only [parseItems, field, hstat, hadr, hmod, C21_fixed (by decide) (readsAll_uint 2 L _) s, ok_bind]
  rfl

end BM.Props
