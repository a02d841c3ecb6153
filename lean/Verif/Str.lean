import Verif.Construct
/-!
# Strings

`str` values are Unicode scalar sequences (no lone surrogates).  `encode`/`decode` are UTF-8.
-/
namespace BM

/-- `s.encode("utf8")`. -/
def utf8 (s : String) : List UInt8 := s.toByteArray.data.toList

/-- `b.decode("utf8")`. -/
def utf8Decode (b : List UInt8) : R String :=
  if h : (ByteArray.mk b.toArray).IsValidUTF8 then .ok (String.ofByteArray _ h) else .error .string

/-- `b.rstrip(b"\x00")`. -/
def rstrip0 : List UInt8 → List UInt8
  | [] => []
  | x :: b =>
    match rstrip0 b with
    | [] => if x = 0 then [] else [x]
    | y :: r => x :: y :: r

/-- `s.encode("utf8")` as construct's `StringEncoded._encode` does it: only `str` objects. -/
def strBytes : Val → R (List UInt8)
  | .str s => .ok (utf8 s)
  | _ => .error .string

/-- `StringEncoded._decode`. -/
def bytesStr (b : List UInt8) : R Val := do
  let s ← utf8Decode b
  .ok (.str s)

/-- `PaddedString(n, "utf8")` (properties.py:284): `n` bytes, trailing NULs stripped on parse, padded with NULs on build. -/
def paddedString (n : Nat) : Con UInt8 where
  parse _ _ s := do
    let (b, rest) ← takeN n s
    let v ← bytesStr (rstrip0 b)
    .ok (v, rest)
  build _ _ u := do
    let b ← strBytes u
    if b.length ≤ n then .ok (b ++ List.replicate (n - b.length) 0, u) else .error .padding

/-- `GreedyString("utf8")`. -/
def greedyString : Con UInt8 where
  parse _ _ s := do
    let v ← bytesStr s
    .ok (v, [])
  build _ _ u := do
    let b ← strBytes u
    .ok (b, u)

/-- `PascalString(Int8ul, "utf8")`. -/
def pascalString : Con UInt8 where
  parse _ _ s := do
    let (l, s) ← takeN 1 s
    let (b, rest) ← takeN (leNat l) s
    let v ← bytesStr b
    .ok (v, rest)
  build _ _ u := do
    let b ← strBytes u
    if b.length < 256 then .ok (UInt8.ofNat b.length :: b, u) else .error .formatField

/-! ### Lemmas -/

theorem utf8_toList (s : String) : utf8 s = s.toList.flatMap String.utf8EncodeChar := by
  have h : s = String.ofList s.toList := by simp
  conv => lhs; rw [h]
  unfold utf8
  simp [String.ofList, List.utf8Encode]

theorem utf8Decode_utf8 (s : String) : utf8Decode (utf8 s) = .ok s := by
  have e : ByteArray.mk (utf8 s).toArray = s.toByteArray := by
    unfold utf8; simp
  unfold utf8Decode
  simp only [e]
  rw [dif_pos s.isValidUTF8]

theorem utf8_of_decode {b : List UInt8} {s : String} (h : utf8Decode b = .ok s) : utf8 s = b := by
  unfold utf8Decode at h
  split at h
  · cases h; simp [utf8]
  · cases h

theorem utf8_inj {s t : String} (h : utf8 s = utf8 t) : s = t := by
  have := utf8Decode_utf8 s
  rw [h, utf8Decode_utf8] at this
  cases this; rfl

theorem utf8_nul : String.utf8EncodeChar (Char.ofNat 0) = [0] := by decide

theorem rstrip0_append_zero (b : List UInt8) : rstrip0 (b ++ [0]) = rstrip0 b := by
  induction b with
  | nil => rfl
  | cons x b ih => simp [rstrip0, ih]

theorem rstrip0_append_zeros (b : List UInt8) (n : Nat) : rstrip0 (b ++ List.replicate n 0) = rstrip0 b := by
  induction n with
  | zero => simp
  | succ n ih => rw [List.replicate_succ', ← List.append_assoc, rstrip0_append_zero, ih]

theorem rstrip0_append_ne (b : List UInt8) {x : UInt8} (h : x ≠ 0) : rstrip0 (b ++ [x]) = b ++ [x] := by
  induction b with
  | nil => simp [rstrip0, h]
  | cons y b ih =>
    simp only [List.cons_append, rstrip0, ih]
    cases b <;> simp

/-- Padding stripped and put back. -/
theorem rstrip0_pad (b : List UInt8) : rstrip0 b ++ List.replicate (b.length - (rstrip0 b).length) 0 = b ∧ (rstrip0 b).length ≤ b.length := by
  induction b with
  | nil => simp [rstrip0]
  | cons x b ih =>
    simp only [rstrip0]
    split
    · rename_i h
      rw [h] at ih
      simp at ih
      split
      · rename_i hx; subst hx
        simp only [List.nil_append, List.length_nil, Nat.sub_zero, List.length_cons, List.replicate_succ]
        exact ⟨by rw [ih], by simp⟩
      · simp [ih]
    · rename_i y r h
      rw [h] at ih
      simp only [List.cons_append, List.length_cons] at ih ⊢
      refine ⟨?_, by omega⟩
      have : b.length + 1 - (r.length + 1 + 1) = b.length - (r.length + 1) := by omega
      rw [this, ih.1]

theorem rstrip0_idem (b : List UInt8) : rstrip0 (rstrip0 b) = rstrip0 b := by
  have h := (rstrip0_pad b).1
  have := rstrip0_append_zeros (rstrip0 b) (b.length - (rstrip0 b).length)
  rw [h] at this; exact this.symm

/-- The last byte of a character other than NUL is not zero. -/
theorem utf8EncodeChar_last (c : Char) (hc : c ≠ Char.ofNat 0) : ∃ b x, String.utf8EncodeChar c = b ++ [x] ∧ x ≠ 0 := by
  have hv : c.val.toNat ≠ 0 := by
    intro h; apply hc
    apply Char.ext
    apply UInt32.toNat_inj.1
    simpa using h
  have key : ∀ k, k < 64 → UInt8.ofNat (k + 128) ≠ 0 := by
    intro k hk h
    have := congrArg UInt8.toNat h
    simp at this; omega
  simp only [String.utf8EncodeChar]
  split
  · refine ⟨[], _, rfl, ?_⟩
    rename_i h
    intro h'
    have := congrArg UInt8.toNat h'
    rw [UInt8.toNat_ofNat'] at this
    have h0 : (0 : UInt8).toNat = 0 := rfl
    rw [h0] at this; omega
  · split
    · exact ⟨[_], _, rfl, key _ (Nat.mod_lt _ (by decide))⟩
    · split
      · exact ⟨[_, _], _, rfl, key _ (Nat.mod_lt _ (by decide))⟩
      · exact ⟨[_, _, _], _, rfl, key _ (Nat.mod_lt _ (by decide))⟩

/-- Trailing NUL characters removed. -/
def stripNul : List Char → List Char
  | [] => []
  | c :: cs =>
    match stripNul cs with
    | [] => if c = Char.ofNat 0 then [] else [c]
    | d :: r => c :: d :: r

theorem utf8_stripNul (cs : List Char) : rstrip0 (cs.flatMap String.utf8EncodeChar) = (stripNul cs).flatMap String.utf8EncodeChar ∧
    (stripNul cs ≠ [] → ∃ b x, (stripNul cs).flatMap String.utf8EncodeChar = b ++ [x] ∧ x ≠ 0) := by
  induction cs with
  | nil => simp [stripNul, rstrip0]
  | cons c cs ih =>
    have happ : ∀ (a b : List UInt8), rstrip0 b ≠ [] → rstrip0 (a ++ b) = a ++ rstrip0 b := by
      intro a b hb
      induction a with
      | nil => rfl
      | cons y a iha =>
        rw [List.cons_append, rstrip0, iha]
        cases hab : a ++ rstrip0 b with
        | nil => simp at hab; exact absurd hab.2 hb
        | cons z r => simp [hab]
    have happ0 : ∀ (a b : List UInt8), rstrip0 b = [] → rstrip0 (a ++ b) = rstrip0 a := by
      intro a b hb
      have := (rstrip0_pad b).1
      rw [hb] at this; simp at this
      rw [← this, rstrip0_append_zeros]
    simp only [List.flatMap_cons, stripNul]
    cases hs : stripNul cs with
    | nil =>
      rw [hs] at ih
      simp only [List.flatMap_nil] at ih
      rw [happ0 _ _ ih.1]
      by_cases hc : c = Char.ofNat 0
      · subst hc; simp [utf8_nul, rstrip0]
      · obtain ⟨b, x, hb, hx⟩ := utf8EncodeChar_last c hc
        simp only [hc, if_false, List.flatMap_cons, List.flatMap_nil, List.append_nil, hb, rstrip0_append_ne _ hx]
        exact ⟨trivial, fun _ => ⟨b, x, rfl, hx⟩⟩
    | cons d r =>
      rw [hs] at ih
      obtain ⟨b, x, hb, hx⟩ := ih.2 (by simp)
      rw [happ _ _ (by rw [ih.1, hb]; simp), ih.1]
      refine ⟨by simp, fun _ => ⟨String.utf8EncodeChar c ++ b, x, ?_, hx⟩⟩
      rw [List.flatMap_cons, hb, List.append_assoc]

/-- `s.rstrip("\0")`. -/
def rstripNul (s : String) : String := String.ofList (stripNul s.toList)

theorem utf8_rstripNul (s : String) : utf8 (rstripNul s) = rstrip0 (utf8 s) := by
  rw [utf8_toList, utf8_toList, (utf8_stripNul s.toList).1]; simp [rstripNul]

theorem utf8Decode_rstrip (s : String) : utf8Decode (rstrip0 (utf8 s)) = .ok (rstripNul s) := by
  rw [← utf8_rstripNul, utf8Decode_utf8]

end BM
