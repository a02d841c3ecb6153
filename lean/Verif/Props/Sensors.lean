import Verif.MeetsSensorMsg
/-!
# Marshalled sensor values (C20)
-/
namespace BM.Props
open F Spec Sensor

/-- The two bytes of format A: a zero bit, the length less one in four bits, the identifier in eleven bits. -/
def headerA (length id : Nat) : List UInt8 := leBytes 2 ((length - 1) * 2 + id * 32)
/-- The three bytes of format B: a one bit, the length less one in seven bits, the identifier in sixteen bits. -/
def headerB (length id : Nat) : List UInt8 := leBytes 3 (1 + (length - 1) * 2 + id * 256)

theorem mpidA_mk {l n : Nat} (h1 : 1 ≤ l) (h2 : l ≤ 16) (h3 : n < 2048) : Mpid false l n (headerA l n) :=
  ⟨h1, h2, h3, leBytes_length _ _, leNat_leBytes _ _ (by norm_num; omega)⟩
theorem mpidB_mk {l n : Nat} (h1 : 1 ≤ l) (h2 : l ≤ 128) (h3 : n < 65536) : Mpid true l n (headerB l n) :=
  ⟨h1, h2, h3, leBytes_length _ _, leNat_leBytes _ _ (by norm_num; omega)⟩

/-- **C20 (format A).** Lengths 1 to 16 and eleven-bit identifiers have a two-byte header and are read back from it. -/
theorem C20_formatA {l n : Nat} (h1 : 1 ≤ l) (h2 : l ≤ 16) (h3 : n < 2048) {uf ul uid : Val} (hf : truthy uf = false)
    (hl : asInt ul = some (l : Int)) (hn : asInt uid = some (n : Int)) (rest : List UInt8) :
    mpidBuild uf ul uid = .ok (headerA l n) ∧ mpidParse (headerA l n ++ rest) = .ok ((0, l, n), rest) := by
  refine ⟨(mpid_build ?_).2 ⟨l, n, hl, hn, hf ▸ mpidA_mk h1 h2 h3⟩, mpid_parse (mpidA_mk h1 h2 h3) rest⟩
  intro _ l' hl'; rw [hl] at hl'; injection hl' with hl'; omega

/-- **C20 (format B).** Lengths 1 to 128 and sixteen-bit identifiers have a three-byte header and are read back from it. -/
theorem C20_formatB {l n : Nat} (h1 : 1 ≤ l) (h2 : l ≤ 128) (h3 : n < 65536) {uf ul uid : Val} (hf : truthy uf = true)
    (hl : asInt ul = some (l : Int)) (hn : asInt uid = some (n : Int)) (rest : List UInt8) :
    mpidBuild uf ul uid = .ok (headerB l n) ∧ mpidParse (headerB l n ++ rest) = .ok ((1, l, n), rest) :=
  ⟨(mpid_build (by simp [hf])).2 ⟨l, n, hl, hn, hf ▸ mpidB_mk h1 h2 h3⟩, mpid_parse (mpidB_mk h1 h2 h3) rest⟩

/-- **C20 (rejected).** No other length or identifier is written: an identifier that does not fit, a length of less than 1 or more than
128 is rejected - but see `C20_corrupt`. -/
theorem C20_reject {uf ul uid : Val} {l n : Int} (hl : asInt ul = some l) (hn : asInt uid = some n)
    (h : l < 1 ∨ 128 < l ∨ n < 0 ∨ (if truthy uf then 65536 else 2048) ≤ n) : ∃ e, mpidBuild uf ul uid = .error e := by
  cases hb : mpidBuild uf ul uid with
  | error e => exact ⟨e, rfl⟩
  | ok b =>
    exfalso
    cases hf : truthy uf with
    | true =>
      obtain ⟨l', n', h1, h2, h3⟩ := (mpid_build (by simp [hf])).1 hb
      rw [hf] at h3 h
      obtain ⟨h4, h5, h6, -⟩ := h3
      rw [hl] at h1; rw [hn] at h2
      injection h1; injection h2; simp at h; omega
    | false =>
      unfold mpidBuild at hb
      rw [hl, hn, hf] at hb
      rw [hf] at h
      simp only [Bool.false_eq_true, if_false, bind_ok] at h hb
      obtain ⟨b0, hb0, b1, hb1, -⟩ := hb
      obtain ⟨m2, hm2, hm2', -⟩ := oneByte_ok hb1
      split at hb0 <;> [skip; cases hb0]
      obtain ⟨m1, hm1, hm1', -⟩ := oneByte_ok hb0
      have h4 : (l - 1).toNat <<< 1 ≤ (l - 1).toNat <<< 1 ||| (n % 8).toNat <<< 5 := Nat.left_le_or
      have h5 : (l - 1).toNat <<< 1 = (l - 1).toNat * 2 := by rw [Nat.shiftLeft_eq]
      omega

/-- **C20 (lengths 17 to 128 in format A).** These are accepted on building and silently corrupted: the header written says another
length. -/
theorem C20_corrupt {l n : Nat} (h1 : 17 ≤ l) (h2 : l ≤ 128) (h3 : n < 2048) {uf ul uid : Val} (hf : truthy uf = false)
    (hl : asInt ul = some (l : Int)) (hn : asInt uid = some (n : Int)) :
    ∃ b, mpidBuild uf ul uid = .ok b ∧ b.length = 2 ∧ ∃ l' n', l' ≠ l ∧ ∀ rest, mpidParse (b ++ rest) = .ok ((0, l', n'), rest) := by
  set x : Nat := (l - 1) <<< 1 ||| (n % 8) <<< 5 with hx
  have hx8 : x < 256 := by
    refine Nat.or_lt_two_pow (n := 8) ?_ ?_ <;> rw [Nat.shiftLeft_eq] <;> omega
  have hx1 : x &&& 1 = 0 := by
    rw [Nat.and_one_is_mod, hx, Nat.or_mod_two_pow (n := 1), Nat.shiftLeft_eq, Nat.shiftLeft_eq]
    have a1 : (l - 1) * 2 ^ 1 % 2 ^ 1 = 0 := by omega
    have a2 : n % 8 * 2 ^ 5 % 2 ^ 1 = 0 := by omega
    rw [a1, a2]; rfl
  refine ⟨[UInt8.ofNat x, UInt8.ofNat (n / 8)], ?_, rfl, ((x >>> 1) &&& 15) + 1, ((x >>> 5) &&& 7) ||| ((n / 8) <<< 3), ?_, ?_⟩
  · have e1 : ((l : Int) - 1).toNat = l - 1 := by omega
    have e2 : ((n : Int) % 8).toNat = n % 8 := by omega
    have e3 : (n : Int) / 8 = ((n / 8 : Nat) : Int) := by omega
    unfold mpidBuild
    rw [hl, hn, hf]
    simp only [Bool.false_eq_true, if_false]
    rw [if_pos (by omega), e1, e2, e3, ← hx, oneByte_eq hx8, oneByte_eq (by omega)]
    rfl
  · have : (x >>> 1) &&& 15 ≤ 15 := Nat.and_le_right
    omega
  · intro rest
    have e0 : (UInt8.ofNat x).toNat = x := by simp; omega
    have e1 : (UInt8.ofNat (n / 8)).toNat = n / 8 := by simp; omega
    have t : takeN 2 ([UInt8.ofNat x, UInt8.ofNat (n / 8)] ++ rest) = .ok ([UInt8.ofNat x, UInt8.ofNat (n / 8)], rest) := takeN_append rfl
    simp only [mpidParse, t, ok_bind, e0, e1, hx1]
    rfl

/-- **C20 (received).** Every header that is read consists of the bytes of format A or B for the values reported. -/
theorem C20_received {s rest : List UInt8} {f l n : Nat} (h : mpidParse s = .ok ((f, l, n), rest)) :
    (f = 0 ∧ 1 ≤ l ∧ l ≤ 16 ∧ n < 2048 ∧ s = headerA l n ++ rest) ∨ (f = 1 ∧ 1 ≤ l ∧ l ≤ 128 ∧ n < 65536 ∧ s = headerB l n ++ rest) := by
  match s with
  | [] => simp [mpidParse, takeN] at h
  | [_] => simp [mpidParse, takeN] at h
  | b0 :: b1 :: s =>
    have t : takeN 2 (b0 :: b1 :: s) = .ok ([b0, b1], s) := by simp [takeN]
    have l0 := b0.toNat_lt
    have l1 := b1.toNat_lt
    simp only [mpidParse, t, ok_bind] at h
    by_cases hb : b0.toNat &&& 1 = 1
    · rw [if_pos hb] at h
      rw [Nat.and_one_is_mod] at hb
      match s with
      | [] => simp [takeN] at h
      | b2 :: s =>
        have l2 := b2.toNat_lt
        have t : takeN 1 (b2 :: s) = .ok ([b2], s) := by simp [takeN]
        simp only [t, ok_bind, Except.ok.injEq, Prod.mk.injEq] at h
        obtain ⟨⟨rfl, rfl, rfl⟩, rfl⟩ := h
        have e : b1.toNat ||| b2.toNat <<< 8 = b1.toNat + 256 * b2.toNat := by
          rw [Nat.or_comm, ← Nat.shiftLeft_add_eq_or_of_lt (by omega), Nat.shiftLeft_eq]; omega
        rw [e, Nat.shiftRight_eq_div_pow]
        refine .inr ⟨rfl, by omega, by omega, by omega, ?_⟩
        have : headerB (b0.toNat / 2 ^ 1 + 1) (b1.toNat + 256 * b2.toNat) = [b0, b1, b2] := by
          unfold headerB
          have : 1 + (b0.toNat / 2 ^ 1 + 1 - 1) * 2 + (b1.toNat + 256 * b2.toNat) * 256 = leNat [b0, b1, b2] := by simp [leNat]; omega
          rw [this]; exact leBytes_leNat [b0, b1, b2]
        rw [this]; rfl
    · rw [if_neg hb] at h
      rw [Nat.and_one_is_mod] at hb
      simp only [Except.ok.injEq, Prod.mk.injEq] at h
      obtain ⟨⟨rfl, rfl, rfl⟩, rfl⟩ := h
      have e1 : b0.toNat >>> 1 &&& 0b1111 = b0.toNat / 2 % 16 := by
        rw [Nat.shiftRight_eq_div_pow]; exact Nat.and_two_pow_sub_one_eq_mod _ 4
      have e2 : (b0.toNat >>> 5 &&& 0b111) ||| b1.toNat <<< 3 = b0.toNat / 32 + 8 * b1.toNat := by
        have : b0.toNat >>> 5 &&& 0b111 = b0.toNat / 32 := by
          rw [Nat.shiftRight_eq_div_pow, show (0b111 : Nat) = 2 ^ 3 - 1 from rfl, Nat.and_two_pow_sub_one_eq_mod]; omega
        rw [this, Nat.or_comm, ← Nat.shiftLeft_add_eq_or_of_lt (by omega), Nat.shiftLeft_eq]; omega
      rw [e1, e2]
      refine .inl ⟨rfl, by omega, by omega, by omega, ?_⟩
      have : headerA (b0.toNat / 2 % 16 + 1) (b0.toNat / 32 + 8 * b1.toNat) = [b0, b1] := by
        unfold headerA
        have : (b0.toNat / 2 % 16 + 1 - 1) * 2 + (b0.toNat / 32 + 8 * b1.toNat) * 32 = leNat [b0, b1] := by simp [leNat]; omega
        rw [this]; exact leBytes_leNat [b0, b1]
      rw [this]; rfl

example : headerA 2 0x4D = [0xA2, 0x09] ∧ headerB 1 0x4D = [0x01, 0x4D, 0x00] := by decide

end BM.Props
