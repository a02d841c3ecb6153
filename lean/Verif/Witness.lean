import Verif.Construct
import Verif.FloatLemmas
/-!
# Witnesses: the assumptions about the library and the platform are satisfiable

Used by the non-vacuity examples beside the theorems.
-/
namespace BM

/-- A library that rejects integers that do not fit. -/
def strictLib : Lib where
  bitsOvf _ _ _ := .error .integer
  bytesOvf _ _ _ := .error .integer
  bits_neg _ _ _ := ⟨_, rfl⟩
  bytes_neg _ _ _ := ⟨_, rfl⟩

theorem strictLib_strict : strictLib.Strict := ⟨fun _ _ _ => ⟨_, rfl⟩, fun _ _ _ => ⟨_, rfl⟩⟩

/-- A library that keeps the low bits (what construct 2.9.45 is believed to do). -/
def truncLib : Lib where
  bitsOvf n s k := if k < 0 ∧ s = false then .error .integer else .ok (natBits n (k % (2 ^ n : Nat)).toNat)
  bytesOvf n s k := if k < 0 ∧ s = false then .error .integer else .ok (leBytes n (k % (256 ^ n : Nat)).toNat)
  bits_neg n k h := ⟨_, if_pos ⟨h, rfl⟩⟩
  bytes_neg n k h := ⟨_, if_pos ⟨h, rfl⟩⟩

/-- A logarithm to base 2 that is exact on powers of two and half-way in between otherwise. -/
def someLog2 (q : Rat) : R Rat :=
  if q.num = ((2 ^ q.num.toNat.log2 : Nat) : Int) then .ok (q.num.toNat.log2 : Rat) else .ok ((q.num.toNat.log2 : Rat) + 1 / 2)

/-- `q` is within 2.5 % of `1.1 ^ k`. -/
def NearPow11 (q : Rat) (k : Int) : Prop := (11 / 10 : Rat) ^ k * (39 / 40) ≤ q ∧ q ≤ (11 / 10 : Rat) ^ k * (41 / 40)

theorem nearPow11_le {q : Rat} {k l : Int} (hk : NearPow11 q k) (hl : NearPow11 q l) : l ≤ k := by
  by_contra h
  have h1 : k + 1 ≤ l := by omega
  have h2 : (11 / 10 : Rat) ^ (k + 1) ≤ (11 / 10 : Rat) ^ l := zpow_le_zpow_right₀ (by norm_num) h1
  rw [zpow_add_one₀ (by norm_num)] at h2
  have h3 : (0 : Rat) < (11 / 10 : Rat) ^ k := zpow_pos (by norm_num) _
  have := hk.2
  have := hl.1
  linarith

theorem nearPow11_unique {q : Rat} {k l : Int} (hk : NearPow11 q k) (hl : NearPow11 q l) : k = l :=
  le_antisymm (nearPow11_le hl hk) (nearPow11_le hk hl)

theorem rnd11_ne : rnd (11 / 10) ≠ 2 := by decide +kernel

instance (q : Rat) (k : Int) : Decidable (NearPow11 q k) := by unfold NearPow11; infer_instance

/-- The exponents that occur. -/
def exponents11 : List Int := (List.range 256).map fun (i : Nat) => (i : Int) - 64

theorem mem_exponents11 {k : Int} (h1 : -64 ≤ k) (h2 : k ≤ 191) : k ∈ exponents11 := by
  have h3 : (k + 64).toNat < 256 := by omega
  unfold exponents11
  rw [List.mem_map]
  refine ⟨(k + 64).toNat, ?_, ?_⟩
  · rw [List.mem_range]; exact h3
  · omega

set_option warn.classDefReducibility false in
/-- A computable platform: powers of 1.1 are exact, logarithms to base 1.1 are exact near the powers of 1.1 that occur. -/
def somePlatform : Platform where
  mlog q b := if b = 2 then someLog2 q else
    match exponents11.find? (fun k => decide (NearPow11 q k)) with
    | some k => .ok (k : Rat)
    | none => .error .overflow
  mpow _ k := .ok ((11 / 10 : Rat) ^ k)
  packF w u := match u with
    | .fbits w' n => if w = w' then .ok (leBytes w n) else .error .overflow
    | _ => .error .overflow
  packF_len w u b h := by
    split at h
    · split at h
      · cases h; exact leBytes_length _ _
      · cases h
    · cases h
  packF_bits w n _ _ _ := if_pos rfl
  log_pow k _ := by
    have h1 : (((2 ^ k : Nat) : Rat)).num = ((2 ^ k : Nat) : Int) := Rat.num_natCast _
    have h2 : (2 ^ k : Nat).log2 = k := by simp
    simp only [if_true, someLog2, h1, Int.toNat_natCast, h2]
  log_between k v _ h1 h2 := by
    have e : (v : Rat).num = (v : Int) := Rat.num_natCast _
    have hv : v ≠ 0 := by have := Nat.two_pow_pos k; omega
    have hl : v.log2 = k := (Nat.log2_eq_iff hv).2 ⟨h1.le, h2⟩
    refine ⟨(k : Rat) + 1 / 2, ?_, ?_, ?_⟩
    · simp only [if_true, someLog2, e, Int.toNat_natCast, hl]
      rw [if_neg]
      intro h
      have : v = 2 ^ k := by exact_mod_cast h
      omega
    · have : (1 : Rat) / 2 ^ 20 ≤ 1 / 2 := by norm_num
      linarith
    · have : (1 : Rat) / 2 ^ 20 ≤ 1 / 2 := by norm_num
      linarith
  log_large v h := by
    have e : (v : Rat).num = (v : Int) := Rat.num_natCast _
    have hv : v ≠ 0 := by omega
    have hl : 17 ≤ v.log2 := (Nat.le_log2 hv).2 h
    have hl' : (17 : Rat) ≤ (v.log2 : Rat) := by exact_mod_cast hl
    simp only [if_true, someLog2, e, Int.toNat_natCast]
    split
    · exact ⟨_, rfl, hl'⟩
    · exact ⟨_, rfl, by linarith⟩
  pow11 k _ _ := by
    have h3 : (0 : Rat) < (11 / 10 : Rat) ^ k := zpow_pos (by norm_num) _
    refine ⟨_, rfl, ?_, ?_⟩ <;> norm_num <;> linarith
  log11 k q hk1 hk2 h1 h2 := by
    refine ⟨k, ?_, by linarith, by linarith⟩
    rw [if_neg rnd11_ne]
    have hf : exponents11.find? (fun k => decide (NearPow11 q k)) = some k := by
      rcases hf : exponents11.find? (fun k => decide (NearPow11 q k)) with _ | l
      · have := List.find?_eq_none.1 hf k (mem_exponents11 hk1 hk2)
        exact absurd (decide_eq_true (⟨h1, h2⟩ : NearPow11 q k)) this
      · have hl : NearPow11 q l := by
          have := List.find?_some hf
          simpa using this
        rw [nearPow11_unique hl ⟨h1, h2⟩]
    simp only [hf]

end BM
