/-!
# Numbers as byte and bit strings

Pure arithmetic: little/big-endian byte strings, most-significant-bit-first bit strings, two's complement.
`leNat`, `bitsNat` and `toSigned` give the *meaning* of a string and are what the specification uses; the
generating functions `leBytes`, `natBits` are what the model of `struct.pack` / `integer2bits` uses.
-/
namespace BM

/-- Value of a little-endian byte string. -/
def leNat : List UInt8 → Nat
  | [] => 0
  | b :: bs => b.toNat + 256 * leNat bs

/-- `n`-byte little-endian representation of `k`. -/
def leBytes : Nat → Nat → List UInt8
  | 0, _ => []
  | n + 1, k => UInt8.ofNat (k % 256) :: leBytes n (k / 256)

/-- Value of a bit string, most significant bit first. -/
def bitsNat (bs : List Bool) : Nat := bs.foldl (fun a b => 2 * a + b.toNat) 0

/-- `n`-bit representation of `k`, most significant bit first. -/
def natBits : Nat → Nat → List Bool
  | 0, _ => []
  | n + 1, k => natBits n (k / 2) ++ [k % 2 == 1]

/-- Two's complement reading of an unsigned value below `m = 2 ^ bits`. -/
def toSigned (m k : Nat) : Int := if 2 * k < m then k else (k : Int) - m

/-- Two's complement writing. -/
def ofSigned (m : Nat) (k : Int) : Nat := (if 0 ≤ k then k else k + m).toNat

theorem leBytes_length (n k : Nat) : (leBytes n k).length = n := by
  induction n generalizing k with
  | zero => rfl
  | succ n ih => simp [leBytes, ih]

theorem leNat_leBytes (n k : Nat) (h : k < 256 ^ n) : leNat (leBytes n k) = k := by
  induction n generalizing k with
  | zero => simp at h; simp [leBytes, leNat, h]
  | succ n ih =>
    have h1 : k / 256 < 256 ^ n := by
      rw [Nat.pow_succ] at h; omega
    simp only [leBytes, leNat, ih _ h1]
    have : (UInt8.ofNat (k % 256)).toNat = k % 256 := by simp
    omega

theorem leNat_lt (b : List UInt8) : leNat b < 256 ^ b.length := by
  induction b with
  | nil => simp [leNat]
  | cons x b ih =>
    have := x.toNat_lt
    simp only [leNat, List.length_cons, Nat.pow_succ]; omega

theorem leBytes_leNat (b : List UInt8) : leBytes b.length (leNat b) = b := by
  induction b with
  | nil => rfl
  | cons x b ih =>
    have := x.toNat_lt
    have h1 : (x.toNat + 256 * leNat b) % 256 = x.toNat := by omega
    have h2 : (x.toNat + 256 * leNat b) / 256 = leNat b := by omega
    simp [leNat, leBytes, h1, h2, ih]

theorem bitsNat_snoc (bs : List Bool) (x : Bool) : bitsNat (bs ++ [x]) = 2 * bitsNat bs + x.toNat := by
  simp [bitsNat]

theorem bitsNat_foldl (bs : List Bool) (a : Nat) :
    bs.foldl (fun a b => 2 * a + b.toNat) a = a * 2 ^ bs.length + bitsNat bs := by
  induction bs generalizing a with
  | nil => simp [bitsNat]
  | cons x bs ih =>
    have h1 : bitsNat (x :: bs) = (2 * 0 + x.toNat) * 2 ^ bs.length + bitsNat bs := by
      rw [← ih]; rfl
    rw [List.foldl_cons, ih, h1, List.length_cons, Nat.pow_succ]
    grind

theorem bitsNat_cons (x : Bool) (bs : List Bool) : bitsNat (x :: bs) = x.toNat * 2 ^ bs.length + bitsNat bs := by
  have := bitsNat_foldl bs (2 * 0 + x.toNat)
  simpa [bitsNat] using this

theorem bitsNat_append (a b : List Bool) : bitsNat (a ++ b) = bitsNat a * 2 ^ b.length + bitsNat b := by
  simp only [bitsNat, List.foldl_append]
  exact bitsNat_foldl b _

theorem natBits_length (n k : Nat) : (natBits n k).length = n := by
  induction n generalizing k with
  | zero => rfl
  | succ n ih => simp [natBits, ih]

theorem bitsNat_natBits (n k : Nat) (h : k < 2 ^ n) : bitsNat (natBits n k) = k := by
  induction n generalizing k with
  | zero => simp at h; simp [natBits, bitsNat, h]
  | succ n ih =>
    have h1 : k / 2 < 2 ^ n := by rw [Nat.pow_succ] at h; omega
    rw [natBits, bitsNat_snoc, ih _ h1]
    rcases Nat.mod_two_eq_zero_or_one k with h2 | h2 <;> simp [h2] <;> omega

theorem bitsNat_lt (bs : List Bool) : bitsNat bs < 2 ^ bs.length := by
  induction bs with
  | nil => simp [bitsNat]
  | cons x bs ih =>
    rw [bitsNat_cons, List.length_cons, Nat.pow_succ]
    cases x <;> simp <;> omega

theorem bitsNat_inj {a b : List Bool} (hl : a.length = b.length) (h : bitsNat a = bitsNat b) : a = b := by
  induction a generalizing b with
  | nil => cases b with
    | nil => rfl
    | cons y b => simp at hl
  | cons x a ih =>
    cases b with
    | nil => simp at hl
    | cons y b =>
      simp only [List.length_cons, Nat.add_right_cancel_iff] at hl
      rw [bitsNat_cons, bitsNat_cons, hl] at h
      have h1 := bitsNat_lt a
      have h2 := bitsNat_lt b
      rw [hl] at h1
      have : x = y ∧ bitsNat a = bitsNat b := by
        cases x <;> cases y <;> simp at h ⊢ <;> omega
      rw [this.1, ih hl this.2]

theorem natBits_bitsNat (bs : List Bool) : natBits bs.length (bitsNat bs) = bs :=
  bitsNat_inj (natBits_length _ _) (bitsNat_natBits _ _ (bitsNat_lt bs))

theorem leNat_inj {a b : List UInt8} (hl : a.length = b.length) (h : leNat a = leNat b) : a = b := by
  rw [← leBytes_leNat a, ← leBytes_leNat b, hl, h]

/-! ### Signed values -/

theorem ofSigned_lt {m : Nat} {k : Int} (h1 : -(m : Int) ≤ 2 * k) (h2 : 2 * k < m) : ofSigned m k < m := by
  unfold ofSigned; split <;> omega

theorem toSigned_ofSigned {m : Nat} {k : Int} (h1 : -(m : Int) ≤ 2 * k) (h2 : 2 * k < m) :
    toSigned m (ofSigned m k) = k := by
  unfold toSigned ofSigned; split <;> split <;> omega

theorem ofSigned_toSigned {m k : Nat} (h : k < m) : ofSigned m (toSigned m k) = k := by
  unfold toSigned ofSigned; split <;> split <;> omega

theorem toSigned_range {m k : Nat} (hm : m % 2 = 0) (h : k < m) :
    -(m : Int) ≤ 2 * toSigned m k ∧ 2 * toSigned m k < m := by
  unfold toSigned; split <;> omega

/-! ### Bytes as bits -/

/-- The bits of a byte string, each byte most significant bit first (`construct.bytes2bits`). -/
def bytesBits (b : List UInt8) : List Bool := b.flatMap fun x => natBits 8 x.toNat

/-- Regroup bits into bytes (`construct.bits2bytes`); `none` if the number of bits is not a multiple of 8. -/
def bitsBytes : List Bool → Option (List UInt8)
  | [] => some []
  | a :: b :: c :: d :: e :: f :: g :: h :: bs =>
    (bitsBytes bs).map (UInt8.ofNat (bitsNat [a, b, c, d, e, f, g, h]) :: ·)
  | _ => none

theorem bytesBits_length (b : List UInt8) : (bytesBits b).length = 8 * b.length := by
  induction b with
  | nil => rfl
  | cons x b ih =>
    simp only [bytesBits, List.flatMap_cons, List.length_append, natBits_length, List.length_cons] at *
    omega

theorem bytesBits_cons (x : UInt8) (b : List UInt8) : bytesBits (x :: b) = natBits 8 x.toNat ++ bytesBits b := rfl

theorem bytesBits_append (a b : List UInt8) : bytesBits (a ++ b) = bytesBits a ++ bytesBits b := by
  simp [bytesBits]

theorem bitsBytes_cons8 (x : List Bool) (hx : x.length = 8) (bs : List Bool) :
    bitsBytes (x ++ bs) = (bitsBytes bs).map (UInt8.ofNat (bitsNat x) :: ·) := by
  match x, hx with
  | [a, b, c, d, e, f, g, h], _ => rfl

theorem bitsBytes_bytesBits (b : List UInt8) : bitsBytes (bytesBits b) = some b := by
  induction b with
  | nil => rfl
  | cons x b ih =>
    rw [bytesBits_cons, bitsBytes_cons8 _ (natBits_length 8 _), ih,
      bitsNat_natBits 8 x.toNat (by have := x.toNat_lt; simpa using this)]
    simp

theorem bytesBits_bitsBytes {bs : List Bool} {b : List UInt8} (h : bitsBytes bs = some b) : bytesBits b = bs := by
  induction b generalizing bs with
  | nil =>
    unfold bitsBytes at h
    split at h <;> simp_all [bytesBits]
  | cons x b ih =>
    unfold bitsBytes at h
    split at h
    · simp at h
    · rename_i a1 a2 a3 a4 a5 a6 a7 a8 bs
      simp only [Option.map_eq_some_iff, List.cons.injEq] at h
      obtain ⟨b', hb', hx, rfl⟩ := h
      rw [bytesBits_cons, ih hb', ← hx]
      have hlt := bitsNat_lt [a1, a2, a3, a4, a5, a6, a7, a8]
      have : (UInt8.ofNat (bitsNat [a1, a2, a3, a4, a5, a6, a7, a8])).toNat
          = bitsNat [a1, a2, a3, a4, a5, a6, a7, a8] := by
        simp at hlt ⊢; omega
      rw [this]
      have := natBits_bitsNat [a1, a2, a3, a4, a5, a6, a7, a8]
      simp only [List.length_cons, List.length_nil] at this
      rw [this]; rfl
    · simp at h

theorem bitsBytes_of_length {bs : List Bool} {n : Nat} (h : bs.length = 8 * n) : ∃ b, bitsBytes bs = some b ∧ b.length = n := by
  induction n generalizing bs with
  | zero => exact ⟨[], by have := List.length_eq_zero_iff.1 h; subst this; rfl, rfl⟩
  | succ n ih =>
    have hs : bs = bs.take 8 ++ bs.drop 8 := (List.take_append_drop 8 bs).symm
    have h8 : (bs.take 8).length = 8 := by rw [List.length_take]; omega
    obtain ⟨b, hb, hl⟩ := ih (bs := bs.drop 8) (by rw [List.length_drop]; omega)
    refine ⟨UInt8.ofNat (bitsNat (bs.take 8)) :: b, ?_, by simp [hl]⟩
    rw [hs, bitsBytes_cons8 _ h8, hb]
    simp

end BM
