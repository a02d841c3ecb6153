import Verif.SchemaAll
import Verif.Spec
import Verif.Meets
import Mathlib.Tactic.IntervalCases
import Mathlib.Data.List.Nodup
/-!
# C35–C37: the Cap'n Proto schema
-/
namespace BM.Props
open BM.Schema

/-! ## Specification -/

/-- The integer types of Cap'n Proto: name, signed, bits. -/
def capnpInts : List (String × Bool × Nat) :=
  [("Int8", true, 8), ("Int16", true, 16), ("Int32", true, 32), ("Int64", true, 64),
   ("UInt8", false, 8), ("UInt16", false, 16), ("UInt32", false, 32), ("UInt64", false, 64)]

/-- The types of Cap'n Proto the generator uses. -/
def capnpTypes : List String := capnpInts.map Prod.fst ++ ["Bool", "Float32", "Float64", "Text", "Data"]

/-- `k` is a value of an integer of `w` bits. -/
def fits (signed : Bool) (w : Nat) (k : Int) : Prop :=
  if signed then -(2 ^ (w - 1) : Int) ≤ k ∧ k < 2 ^ (w - 1) else 0 ≤ k ∧ k < 2 ^ w

/-- The integers an integer construct of `n` bits holds are those of `fits signed n`; `t` is a type for it: it holds them all, and no
smaller type does. -/
def TypeFor (signed : Bool) (n : Nat) (t : String) : Prop :=
  ∃ w, (t, signed, w) ∈ capnpInts ∧ (∀ k, fits signed n k → fits signed w k) ∧
    ∀ t' w', (t', signed, w') ∈ capnpInts → (∀ k, fits signed n k → fits signed w' k) → w ≤ w'

/-- The integer constructs of the library, with the signedness and the number of bits of their numbers (the characters are those of the
module `struct`). -/
def intLeaf : Leaf → Option (Bool × Nat)
  | .format 'b' => some (true, 8) | .format 'h' => some (true, 16) | .format 'i' => some (true, 32) | .format 'l' => some (true, 32)
  | .format 'q' => some (true, 64)
  | .format 'B' => some (false, 8) | .format 'H' => some (false, 16) | .format 'I' => some (false, 32) | .format 'L' => some (false, 32)
  | .format 'Q' => some (false, 64)
  | .bits n s => some (s, n)
  | .bytesInt n s => some (s, n * 8)
  | _ => none

/-- The ordinals in a list of lines. -/
def ordinals : List Line → List Nat
  | [] => []
  | .field _ k _ :: ls => k :: ordinals ls
  | .openUnion _ :: ls => ordinals ls
  | .close :: ls => ordinals ls

/-- The names and types in a list of lines. -/
def printedFields : List Line → List (Option String × String)
  | [] => []
  | .field n _ t :: ls => (n, t) :: printedFields ls
  | .openUnion _ :: ls => printedFields ls
  | .close :: ls => printedFields ls

/-- The number of unions that are open after the lines, if no brace is closed that is not open. -/
def openAfter : Nat → List Line → Option Nat
  | n, [] => some n
  | n, .field _ _ _ :: ls => openAfter n ls
  | n, .openUnion _ :: ls => openAfter (n + 1) ls
  | n + 1, .close :: ls => openAfter n ls
  | 0, .close :: _ => none

mutual
/-- The names and types in a tree, from left to right. -/
def treeFields : List Tree → List (Option String × String)
  | [] => []
  | t :: ts => treeField t ++ treeFields ts
/-- The names and types in an entry. -/
def treeField : Tree → List (Option String × String)
  | .field n t => [(n, t)]
  | .union _ fs => treeFields fs
end

/-- The name of an entry. -/
def entryName : Tree → Option String
  | .field n _ => n
  | .union n _ => n

/-- In every union, and outside the unions, the names are distinct. -/
inductive Distinct : List Tree → Prop
  | mk {ts} : (ts.map entryName).Nodup → (∀ n fs, .union n fs ∈ ts → Distinct fs) → Distinct ts

/-- The lines of a struct with the given fields and unions, if the first ordinal is `k`. -/
def Prints (ts : List Tree) (lines : List Line) : Prop := lines = (describe ts 0).1

/-! ## Proofs -/

theorem fits_mono {s : Bool} {n w : Nat} (h : n ≤ w) {k : Int} (hk : fits s n k) : fits s w k := by
  unfold fits at *
  have h1 : (2 : Int) ^ n ≤ 2 ^ w := pow_le_pow_right₀ (by decide) h
  have h2 : (2 : Int) ^ (n - 1) ≤ 2 ^ (w - 1) := pow_le_pow_right₀ (by decide) (by omega)
  cases s
  · simp only [Bool.false_eq_true, if_false] at *; omega
  · simp only [if_true] at *; omega

theorem le_of_fits {s : Bool} {n w : Nat} (hw : 0 < w) (h : ∀ k, fits s n k → fits s w k) : n ≤ w := by
  by_contra hc
  have hc : w < n := by omega
  cases s
  · have h1 : (2 : Int) ^ w < 2 ^ n := pow_lt_pow_right₀ (by decide) hc
    have := h (2 ^ w) (by simp only [fits, Bool.false_eq_true, if_false]; exact ⟨by positivity, h1⟩)
    simp only [fits, Bool.false_eq_true, if_false] at this; omega
  · have h1 : (2 : Int) ^ (w - 1) < 2 ^ (n - 1) := pow_lt_pow_right₀ (by decide) (by omega)
    have := h (2 ^ (w - 1)) (by
      simp only [fits, if_true]
      have : (0 : Int) ≤ 2 ^ (w - 1) := by positivity
      have : (0 : Int) ≤ 2 ^ (n - 1) := by positivity
      omega)
    simp only [fits, if_true] at this; omega

theorem typeFor_of {s : Bool} {n w : Nat} {t : String} (hm : (t, s, w) ∈ capnpInts) (hn : n ≤ w)
    (hl : ∀ t' w', (t', s, w') ∈ capnpInts → n ≤ w' → w ≤ w') : TypeFor s n t :=
  ⟨w, hm, fun _ hk => fits_mono hn hk, fun t' w' h' hk => hl t' w' h' (le_of_fits (by
    simp only [capnpInts, List.mem_cons, Prod.mk.injEq, List.not_mem_nil, or_false] at h'; omega) hk)⟩

theorem width_eq {n : Nat} (h0 : 0 < n) (hn : n ≤ 64) :
    width n = .ok (if n ≤ 8 then 8 else if n ≤ 16 then 16 else if n ≤ 32 then 32 else 64) := by
  interval_cases n <;> decide +kernel

theorem typeFor_width {s : Bool} {n : Nat} (h0 : 0 < n) (hn : n ≤ 64) :
    ∃ w, width n = .ok w ∧ TypeFor s n ((if s then "Int" else "UInt") ++ toString w) ∧ ((if s then "Int" else "UInt") ++ toString w) ∈ capnpTypes := by
  have key : ∀ w ∈ [8, 16, 32, 64], ((if s then "Int" else "UInt") ++ toString w, s, w) ∈ capnpInts ∧ ((if s then "Int" else "UInt") ++ toString w) ∈ capnpTypes := by
    cases s <;> decide +kernel
  have low : ∀ t' w', (t', s, w') ∈ capnpInts → w' = 8 ∨ w' = 16 ∨ w' = 32 ∨ w' = 64 := by
    intro t' w' h
    simp only [capnpInts, List.mem_cons, Prod.mk.injEq, List.not_mem_nil, or_false] at h; omega
  obtain ⟨w, hw, hm, hle, hmin⟩ : ∃ w, width n = .ok w ∧ w ∈ [8, 16, 32, 64] ∧ n ≤ w ∧ ∀ w', w' = 8 ∨ w' = 16 ∨ w' = 32 ∨ w' = 64 → n ≤ w' → w ≤ w' := by
    refine ⟨_, width_eq h0 hn, ?_, ?_, ?_⟩
    · split_ifs <;> decide
    · split_ifs <;> omega
    · intro w'; split_ifs <;> omega
  exact ⟨w, hw, typeFor_of (key w hm).1 hle (fun t' w' h hn' => hmin w' (low t' w' h) hn'), (key w hm).2⟩

theorem typeFor_format {c : Char} {s : Bool} {n : Nat} (h : intLeaf (.format c) = some (s, n)) :
    ∃ t, formatType c = some t ∧ TypeFor s n t ∧ t ∈ capnpTypes := by
  unfold intLeaf at h
  have low : ∀ s t' w', (t', s, w') ∈ capnpInts → w' = 8 ∨ w' = 16 ∨ w' = 32 ∨ w' = 64 := by
    intro s t' w' h
    simp only [capnpInts, List.mem_cons, Prod.mk.injEq, List.not_mem_nil, or_false] at h; omega
  split at h <;> first
    | (simp only [Option.some.injEq, Prod.mk.injEq] at h; obtain ⟨rfl, rfl⟩ := h)
    | (cases h)
  all_goals
    rename_i heq
    cases heq
    try exact ⟨_, rfl, typeFor_of (by simp [capnpInts]) (le_refl _) (fun t' w' h hh => hh), by decide⟩

/-- **C35**.  An integer construct of at most 64 bits gets a type that holds all its numbers, and the smallest one. -/
theorem C35_width {l : Leaf} {s : Bool} {n : Nat} (h : intLeaf l = some (s, n)) (h0 : 0 < n) (hn : n ≤ 64) :
    ∃ t, makeType l = .ok (some t) ∧ t ∈ capnpTypes ∧ TypeFor s n t := by
  cases l with
  | format c =>
    obtain ⟨t, h1, h2, h3⟩ := typeFor_format h
    exact ⟨t, by simp [makeType, h1], h3, h2⟩
  | bits m s' =>
    cases h
    obtain ⟨w, h1, h2, h3⟩ := typeFor_width (s := s) h0 hn
    exact ⟨_, by simp [makeType, h1, bind, Except.bind, pure, Except.pure], h3, h2⟩
  | bytesInt m s' =>
    cases h
    obtain ⟨w, h1, h2, h3⟩ := typeFor_width (s := s) h0 hn
    exact ⟨_, by simp [makeType, h1, bind, Except.bind, pure, Except.pure], h3, h2⟩
  | _ => simp [intLeaf] at h

theorem clog_gt {n : Nat} (h : 64 < n) : 128 ≤ 2 ^ Nat.clog 2 n := by
  have : 6 < Nat.clog 2 n := (Nat.lt_clog_iff_pow_lt (by decide)).2 (by simpa using h)
  calc 128 = 2 ^ 7 := rfl
    _ ≤ _ := Nat.pow_le_pow_right (by decide) this

theorem digit_of_pow {w : Nat} (h : 128 ≤ w) (s : Bool) : ((if s then "Int" else "UInt") ++ toString w) ∉ capnpTypes := by
  intro hm
  have hx : 2 < (toString w).toList.length := by
    rw [Nat.toString_eq_repr, Nat.toList_repr]
    have := (Nat.length_toDigits_le_iff (b := 10) (n := w) (k := 2) (by decide) (by decide)).not.2 (by omega)
    omega
  have hm := List.mem_map_of_mem (f := String.toList) hm
  rw [String.toList_append] at hm
  generalize (toString w).toList = x at *
  have el : capnpTypes.map String.toList = [['I', 'n', 't', '8'], ['I', 'n', 't', '1', '6'], ['I', 'n', 't', '3', '2'], ['I', 'n', 't', '6', '4'],
      ['U', 'I', 'n', 't', '8'], ['U', 'I', 'n', 't', '1', '6'], ['U', 'I', 'n', 't', '3', '2'], ['U', 'I', 'n', 't', '6', '4'],
      ['B', 'o', 'o', 'l'], ['F', 'l', 'o', 'a', 't', '3', '2'], ['F', 'l', 'o', 'a', 't', '6', '4'], ['T', 'e', 'x', 't'], ['D', 'a', 't', 'a']] := by
    decide
  rw [el] at hm
  have eI : "Int".toList = ['I', 'n', 't'] := by decide
  have eU : "UInt".toList = ['U', 'I', 'n', 't'] := by decide
  cases s
  · simp [eU] at hm
    rcases hm with rfl | rfl | rfl | rfl <;> simp at hx
  · simp [eI] at hm
    rcases hm with rfl | rfl | rfl | rfl <;> simp at hx

/-- An integer construct of more than 64 bits gets a type that does not exist. -/
theorem C35_too_wide {n : Nat} (h : 64 < n) (s : Bool) : ∃ t, makeType (.bits n s) = .ok (some t) ∧ t ∉ capnpTypes := by
  refine ⟨(if s then "Int" else "UInt") ++ toString (max (2 ^ Nat.clog 2 n) 8), by
    simp [makeType, width, show n ≠ 0 by omega, bind, Except.bind, pure, Except.pure], ?_⟩
  exact digit_of_pow (by have := clog_gt h; omega) s

/-- `c` reads the integers of `n` bits, and no others. -/
def ReadsInts {α : Type} (c : BM.Con α) (s : Bool) (n : Nat) : Prop :=
  (∀ L ctx b v rest, c.parse L ctx b = .ok (v, rest) → ∃ k, v = .int k ∧ fits s n k) ∧
  (∀ k, fits s n k → ∀ L ctx, ∃ b, c.parse L ctx b = .ok (.int k, []))

theorem fits_nat {n k : Nat} : fits false n k ↔ k < 2 ^ n := by
  simp only [fits, Bool.false_eq_true, if_false]
  constructor
  · rintro ⟨-, h⟩; exact_mod_cast h
  · intro h; exact ⟨by omega, by exact_mod_cast h⟩

theorem fits_signed {n : Nat} (hn : 0 < n) {k : Int} : fits true n k ↔ -((2 ^ n : Nat) : Int) ≤ 2 * k ∧ 2 * k < ((2 ^ n : Nat) : Int) := by
  obtain ⟨m, rfl⟩ : ∃ m, n = m + 1 := ⟨n - 1, by omega⟩
  simp only [fits, if_true, Nat.add_sub_cancel]
  push_cast
  rw [pow_succ]
  constructor <;> intro h <;> omega

theorem nat_of_fits {n : Nat} {k : Int} (h : fits false n k) : ∃ m : Nat, k = m ∧ m < 2 ^ n := by
  simp only [fits, Bool.false_eq_true, if_false] at h
  refine ⟨k.toNat, by omega, ?_⟩
  have : ((k.toNat : Nat) : Int) < ((2 ^ n : Nat) : Int) := by push_cast; omega
  exact_mod_cast this

theorem takeN_all {α : Type} (b : List α) : takeN b.length b = .ok (b, []) := by
  simp [takeN]

theorem takeN_length {α : Type} {n : Nat} {s b r : List α} (h : takeN n s = .ok (b, r)) : b.length = n := by
  unfold takeN at h
  split at h
  · cases h; simp; omega
  · cases h

theorem p256 (n : Nat) : 256 ^ n = 2 ^ (n * 8) := by
  rw [Nat.mul_comm, Nat.pow_mul]

/-- **C35**.  What the integer constructs read: all the integers of their width, and no others. -/
theorem C35_values (n : Nat) (h0 : 0 < n) :
    ReadsInts (ubits n) false n ∧ ReadsInts (sbits n) true n ∧ ReadsInts (uintLE n) false (n * 8) ∧ ReadsInts (sintLE n) true (n * 8) ∧
    ReadsInts (bytesIntLE n) false (n * 8) ∧ ReadsInts (bytesIntBE n) false (n * 8) ∧ ReadsInts (bytesSIntLE n) true (n * 8) := by
  have pb : ∀ {α : Type} {s r : List α} (f : List α → Val) {v : Val}, (do let (b, rest) ← takeN n s; (Except.ok (f b, rest) : R (Val × List α))) = .ok (v, r) →
      ∃ b, b.length = n ∧ v = f b := by
    intro α s r f v h
    rcases ht : takeN n s with e | ⟨b, r'⟩
    · rw [ht] at h; cases h
    · rw [ht] at h; cases h; exact ⟨b, takeN_length ht, rfl⟩
  have pf : ∀ {α : Type} (b : List α) (f : List α → Val), b.length = n → (do let (b, rest) ← takeN n b; (Except.ok (f b, rest) : R (Val × List α))) = .ok (f b, []) := by
    intro α b f h
    rw [← h, takeN_all]; rfl
  have ulow : ∀ b : List UInt8, b.length = n → fits false (n * 8) (leNat b) := by
    intro b hl
    rw [fits_nat, ← p256, ← hl]; exact leNat_lt b
  have slow : ∀ b : List UInt8, b.length = n → fits true (n * 8) (toSigned (256 ^ n) (leNat b)) := by
    intro b hl
    rw [fits_signed (by omega), ← p256]; exact sint_range h0 hl
  have uhigh : ∀ k, fits false (n * 8) k → ∃ b : List UInt8, b.length = n ∧ ((leNat b : Nat) : Int) = k := by
    intro k hk
    obtain ⟨m, rfl, hm⟩ := nat_of_fits hk
    rw [← p256] at hm
    exact ⟨leBytes n m, leBytes_length n m, by rw [leNat_leBytes n m hm]⟩
  have shigh : ∀ k, fits true (n * 8) k → ∃ b : List UInt8, b.length = n ∧ toSigned (256 ^ n) (leNat b) = k := by
    intro k hk
    rw [fits_signed (by omega), ← p256] at hk
    exact ⟨leBytes n (ofSigned (256 ^ n) k), leBytes_length _ _, by rw [leNat_leBytes _ _ (ofSigned_lt hk.1 hk.2), toSigned_ofSigned hk.1 hk.2]⟩
  refine ⟨⟨?_, ?_⟩, ⟨?_, ?_⟩, ⟨?_, ?_⟩, ⟨?_, ?_⟩, ⟨?_, ?_⟩, ⟨?_, ?_⟩, ⟨?_, ?_⟩⟩
  · intro L ctx s v r h
    obtain ⟨b, hl, rfl⟩ := pb (fun b => .int (bitsNat b)) h
    exact ⟨_, rfl, by rw [fits_nat, ← hl]; exact bitsNat_lt b⟩
  · intro k hk L ctx
    obtain ⟨m, rfl, hm⟩ := nat_of_fits hk
    refine ⟨natBits n m, ?_⟩
    have := pf (natBits n m) (fun b => .int (bitsNat b)) (natBits_length n m)
    rw [bitsNat_natBits n m hm] at this; exact this
  · intro L ctx s v r h
    obtain ⟨b, hl, rfl⟩ := pb (fun b => .int (toSigned (2 ^ n) (bitsNat b))) h
    refine ⟨_, rfl, ?_⟩
    rw [fits_signed h0]
    exact toSigned_range (even_pow (by decide) h0) (by rw [← hl]; exact bitsNat_lt b)
  · intro k hk L ctx
    rw [fits_signed h0] at hk
    refine ⟨natBits n (ofSigned (2 ^ n) k), ?_⟩
    have := pf (natBits n (ofSigned (2 ^ n) k)) (fun b => .int (toSigned (2 ^ n) (bitsNat b))) (natBits_length n _)
    rw [bitsNat_natBits n _ (ofSigned_lt hk.1 hk.2), toSigned_ofSigned hk.1 hk.2] at this; exact this
  · intro L ctx s v r h
    obtain ⟨b, hl, rfl⟩ := pb (fun b => .int (leNat b)) h
    exact ⟨_, rfl, ulow b hl⟩
  · intro k hk L ctx
    obtain ⟨b, hl, rfl⟩ := uhigh k hk
    exact ⟨b, pf b (fun b => .int (leNat b)) hl⟩
  · intro L ctx s v r h
    obtain ⟨b, hl, rfl⟩ := pb (fun b => .int (toSigned (256 ^ n) (leNat b))) h
    exact ⟨_, rfl, slow b hl⟩
  · intro k hk L ctx
    obtain ⟨b, hl, rfl⟩ := shigh k hk
    exact ⟨b, pf b (fun b => .int (toSigned (256 ^ n) (leNat b))) hl⟩
  · intro L ctx s v r h
    obtain ⟨b, hl, rfl⟩ := pb (fun b => .int (leNat b)) h
    exact ⟨_, rfl, ulow b hl⟩
  · intro k hk L ctx
    obtain ⟨b, hl, rfl⟩ := uhigh k hk
    exact ⟨b, pf b (fun b => .int (leNat b)) hl⟩
  · intro L ctx s v r h
    obtain ⟨b, hl, rfl⟩ := pb (fun b => .int (leNat b.reverse)) h
    exact ⟨_, rfl, ulow b.reverse (by simpa using hl)⟩
  · intro k hk L ctx
    obtain ⟨b, hl, rfl⟩ := uhigh k hk
    refine ⟨b.reverse, ?_⟩
    have := pf b.reverse (fun b => .int (leNat b.reverse)) (by simpa using hl)
    simp only [List.reverse_reverse] at this
    exact this
  · intro L ctx s v r h
    obtain ⟨b, hl, rfl⟩ := pb (fun b => .int (toSigned (256 ^ n) (leNat b))) h
    exact ⟨_, rfl, slow b hl⟩
  · intro k hk L ctx
    obtain ⟨b, hl, rfl⟩ := shigh k hk
    exact ⟨b, pf b (fun b => .int (toSigned (256 ^ n) (leNat b))) hl⟩

/-- A count in a heartbeat message is not one of the numbers of its construct, and does not fit the type of the schema: the generator only looks
at the byte it is read from. -/
theorem C35_logarithm [Platform] (L : Lib) (ctx : Dict) :
    (logAdapter 0x10 true).parse L ctx [0x10] = .ok (.int 32768, []) ∧ makeType (.format 'B') = .ok (some "UInt8") ∧ ¬ fits false 8 32768 := by
  refine ⟨?_, rfl, by simp [fits]⟩
  rfl

/-- C35 for the index of a key: 12 bits, in 16. -/
example : makeType (.bits 12 false) = .ok (some "UInt16") ∧ TypeFor false 12 "UInt16" := by
  obtain ⟨t, h1, -, h3⟩ := C35_width (l := .bits 12 false) rfl (by decide) (by decide)
  have : makeType (.bits 12 false) = .ok (some "UInt16") := by decide +kernel
  rw [this] at h1; cases h1
  exact ⟨this, h3⟩

/-! ## C36: ordinals -/

theorem ordinals_append (a b : List Line) : ordinals (a ++ b) = ordinals a ++ ordinals b := by
  induction a with
  | nil => rfl
  | cons x a ih => cases x <;> simp [ordinals, ih]

theorem printedFields_append (a b : List Line) : printedFields (a ++ b) = printedFields a ++ printedFields b := by
  induction a with
  | nil => rfl
  | cons x a ih => cases x <;> simp [printedFields, ih]

theorem openAfter_append (n : Nat) (a b : List Line) : openAfter n (a ++ b) = (openAfter n a).bind fun m => openAfter m b := by
  induction a generalizing n with
  | nil => rfl
  | cons x a ih =>
    cases x with
    | field _ _ _ => simp [openAfter, ih]
    | openUnion _ => simp [openAfter, ih]
    | close =>
      cases n with
      | zero => rfl
      | succ n => simp [openAfter, ih]

mutual
theorem describe_spec (ts : List Tree) (k : Nat) :
    ordinals (describe ts k).1 = List.range' k (treeFields ts).length ∧ (describe ts k).2 = k + (treeFields ts).length ∧
    printedFields (describe ts k).1 = treeFields ts ∧ ∀ n, openAfter n (describe ts k).1 = some n := by
  cases ts with
  | nil => simp [describe, treeFields, ordinals, printedFields, openAfter]
  | cons t ts =>
    obtain ⟨h1, h2, h3, h4⟩ := describeOne_spec t k
    obtain ⟨g1, g2, g3, g4⟩ := describe_spec ts (describeOne t k).2
    simp only [describe, treeFields, ordinals_append, printedFields_append, List.length_append, h1, g1, h3, g3, g2]
    rw [h2]
    refine ⟨?_, by omega, trivial, ?_⟩
    · rw [List.range'_append_1]
    · intro n
      rw [openAfter_append, h4, Option.bind_some, ← h2, g4]
theorem describeOne_spec (t : Tree) (k : Nat) :
    ordinals (describeOne t k).1 = List.range' k (treeField t).length ∧ (describeOne t k).2 = k + (treeField t).length ∧
    printedFields (describeOne t k).1 = treeField t ∧ ∀ n, openAfter n (describeOne t k).1 = some n := by
  cases t with
  | field n t => simp [describeOne, treeField, ordinals, printedFields, openAfter]
  | union n fs =>
    obtain ⟨h1, h2, h3, h4⟩ := describe_spec fs k
    refine ⟨?_, ?_, ?_, ?_⟩
    · simp [describeOne, treeField, ordinals, ordinals_append, h1]
    · simp [describeOne, treeField, h2]
    · simp [describeOne, treeField, printedFields, printedFields_append, h3]
    · intro m
      simp [describeOne, openAfter, openAfter_append, h4]
end

/-- **C36**.  In every struct of the schema the ordinals are 0, 1, 2, …, in the order of the lines, through all the unions, and every brace that is
opened is closed. -/
theorem C36_ordinals {ms : List (Option String × Schema.Con)} {out : List (String × List Line)} (h : generate ms = .ok out) {name : String} {lines : List Line}
    (hm : (name, lines) ∈ out) : ordinals lines = List.range (printedFields lines).length ∧ openAfter 0 lines = some 0 := by
  unfold generate at h
  rcases hc : collect ms with e | v
  · rw [hc] at h; cases h
  · rw [hc] at h; cases h
    obtain ⟨e, -, he⟩ := List.mem_map.1 hm
    cases he
    obtain ⟨h1, -, h3, h4⟩ := describe_spec (tree v.heap (v.heap.length + 2) e.2) 0
    exact ⟨by rw [h1, h3, List.range_eq_range'], h4 0⟩

/-- No ordinal occurs twice. -/
theorem C36_distinct {ms : List (Option String × Schema.Con)} {out : List (String × List Line)} (h : generate ms = .ok out) {name : String} {lines : List Line}
    (hm : (name, lines) ∈ out) : (ordinals lines).Nodup := by
  rw [(C36_ordinals h hm).1]; exact List.nodup_range

/-! ## C37: the traversal -/

theorem mem_level {f : Nat → List Tree} {d : Fields} {x : Option String × String} (h : x ∈ treeFields (level f d)) :
    (x.1, FieldType.ty x.2) ∈ d ∨ ∃ k r, (k, FieldType.ref r) ∈ d ∧ x ∈ treeFields (f r) := by
  induction d with
  | nil => simp [level, treeFields] at h
  | cons e d ih =>
    obtain ⟨k, t⟩ := e
    simp only [level, List.map_cons, treeFields, List.mem_append] at h
    rcases h with h | h
    · cases t with
      | ty t => simp [treeField] at h; subst h; exact .inl (List.mem_cons_self ..)
      | ref r => exact .inr ⟨k, r, List.mem_cons_self .., h⟩
    · rcases ih h with h | ⟨k, r, h1, h2⟩
      · exact .inl (List.mem_cons_of_mem _ h)
      · exact .inr ⟨k, r, List.mem_cons_of_mem _ h1, h2⟩

theorem tree_mem {heap : List Fields} (f a : Nat) {x : Option String × String} (h : x ∈ treeFields (tree heap f a)) : ∃ d ∈ heap, (x.1, FieldType.ty x.2) ∈ d := by
  induction f generalizing a with
  | zero => simp [tree, treeFields] at h
  | succ f ih =>
    rw [tree_succ] at h
    rcases mem_level h with h | ⟨k, r, -, h⟩
    · by_cases ha : a < heap.length
      · exact ⟨_, List.mem_of_getElem? (getD_of ha), h⟩
      · simp [List.getD, ha] at h
    · exact ih r h

/-- **C37**.  If every field has a type, the only error is a union under the name of a field, and every type that the schema mentions is one of Cap'n
Proto, a struct of the schema, or a list of these (the struct of a message itself is not printed: its union is part of `AccessMessage`). -/
theorem C37_types {ms : List (Option String × Schema.Con)} (hm : ∀ m ∈ ms, m.2.Typed capnpTypes) :
    generate ms = .error .type ∨ ∃ out, generate ms = .ok out ∧
      ∀ name lines, (name, lines) ∈ out → ∀ n t, (n, t) ∈ printedFields lines →
        TypeOK capnpTypes (fun s => s ∈ out.map Prod.fst ∨ ∃ m ∈ ms, m.2.nm = some s) t := by
  rcases collect_late (B := capnpTypes) (by decide) hm with ⟨v, u, hc, hl⟩ | hc
  · right
    refine ⟨printed v, by simp only [generate, hc, bind, Except.bind, pure, Except.pure], ?_⟩
    intro name lines hmem n t hn
    obtain ⟨e, -, he⟩ := List.mem_map.1 hmem
    cases he
    rw [(describe_spec _ 0).2.2.1] at hn
    obtain ⟨d, hd, ht⟩ := tree_mem _ _ hn
    refine (hl.types d hd n t ht).mono ?_
    rintro s (h | h)
    · left
      have : (printed v).map Prod.fst = (v.types ++ v.structs).map Prod.fst := by simp [printed, Function.comp_def]
      rw [this, List.map_append, List.mem_append]; exact h
    · exact .inr h
  · left
    simp only [generate, hc, bind, Except.bind]

theorem tree_distinct {heap : List Fields} (h : ∀ d ∈ heap, (d.map Prod.fst).Nodup) (f a : Nat) : Distinct (tree heap f a) := by
  induction f generalizing a with
  | zero => exact .mk (by simp [tree]) (by simp [tree])
  | succ f ih =>
    rw [tree_succ]
    refine .mk ?_ ?_
    · have : (level (tree heap f) (heap.getD a [])).map entryName = (heap.getD a []).map Prod.fst := by
        simp only [level, List.map_map]
        refine List.map_congr_left fun e _ => ?_
        obtain ⟨k, t⟩ := e
        cases t <;> rfl
      rw [this]
      by_cases ha : a < heap.length
      · exact h _ (List.mem_of_getElem? (getD_of ha))
      · simp [List.getD, ha]
    · intro n fs hm
      obtain ⟨e, -, he⟩ := List.mem_map.1 hm
      obtain ⟨k, t⟩ := e
      cases t with
      | ty t => cases he
      | ref r => injection he with h1 h2; subst h2; exact ih r

/-- **C37**.  The names of the fields of a struct, and of the fields of a union, are distinct; so are the names of the structs, except that a
struct can occur once among the first ones (those that are not part of a union) and once among the others. -/
theorem C37_names {ms : List (Option String × Schema.Con)} (hm : ∀ m ∈ ms, m.2.Typed capnpTypes) {out : List (String × List Line)} (h : generate ms = .ok out) :
    (∀ name lines, (name, lines) ∈ out → ∃ ts, Distinct ts ∧ Prints ts lines) ∧
    ∃ first second, out = first ++ second ∧ (first.map Prod.fst).Nodup ∧ (second.map Prod.fst).Nodup := by
  rcases collect_late (B := capnpTypes) (by decide) hm with ⟨v, u, hc, hl⟩ | hc
  · simp only [generate, hc, bind, Except.bind, pure, Except.pure, Except.ok.injEq] at h
    subst h
    constructor
    · intro name lines hmem
      obtain ⟨e, -, he⟩ := List.mem_map.1 hmem
      cases he
      exact ⟨_, tree_distinct hl.nodup _ _, rfl⟩
    · refine ⟨_, _, List.map_append, ?_, ?_⟩
      · simpa [Function.comp_def] using hl.typesNodup
      · simpa [Function.comp_def] using hl.structsNodup
  · simp [generate, hc, bind, Except.bind] at h

/-! ### Messages with an opcode and a union -/

/-- The type of a field: that of the innermost construct, and a list if there is a repetition. -/
def simpleType : Schema.Con → Bool → Option String
  | .leaf _ l, many =>
    match makeType l with
    | .ok (some t) => some (if many then "List(" ++ t ++ ")" else t)
    | _ => none
  | .text _, false => some "Text"
  | .wrap _ c, many => simpleType c many
  | .many _ c, _ => simpleType c true
  | _, _ => none

/-- The fields of a struct that are shown: those with public names, under their names in camel case. -/
def shown : List (String × Schema.Con) → List (Option String × String)
  | [] => []
  | (n, c) :: fs => if Case.isPrivate n then shown fs else (some (Case.camelcase n), (simpleType c false).getD "") :: shown fs

/-- Lines with consecutive ordinals. -/
def numbered (k : Nat) : List (Option String × String) → List Line
  | [] => []
  | (n, t) :: fs => .field n k t :: numbered (k + 1) fs

/-- A `SwitchStruct`: the name of the variable that holds it, the name and the construct of the opcode, and for each opcode its name, the name of the
struct of its payload, and the fields of this struct. -/
def switchStruct (M : String) (key : String × Schema.Con) (cases : List (String × String × List (String × Schema.Con))) : Schema.Con :=
  .wrap (some M) (.struct none [.renamed none key.1 key.2,
    .switch none (cases.map fun c => (c.1, .struct (some c.2.1) (c.2.2.map fun f => .renamed none f.1 f.2))) none])

/-- What is required of the fields of a struct: their names in camel case are distinct, and each public one has a type. -/
def FieldsOK (fs : List (String × Schema.Con)) : Prop :=
  ((shown fs).map Prod.fst).Nodup ∧ ∀ f ∈ fs, Case.isPrivate f.1 = false → (simpleType f.2 false).isSome

theorem simple_convert {c : Schema.Con} {many : Bool} {t : String} (h : simpleType c many = some t) (v : Visitor) (n : String) (hn : Case.isPrivate n = false)
    (given message : Option String) : convert c v (some n) given many message = v.assign (some (Case.camelcase n)) (.ty t) := by
  match c, many, h with
  | .leaf nm l, many, h =>
    rw [convert]
    simp only [Option.any_some, hn, Bool.false_eq_true, if_false]
    rcases hl : makeType l with e | o
    · simp [simpleType, hl] at h
    · rcases o with _ | t'
      · simp [simpleType, hl] at h
      · simp only [simpleType, hl, Option.some.injEq] at h
        subst h
        simp [Visitor.field, hl, bind, Except.bind, fieldName]
  | .text nm, false, h =>
    rw [convert]
    simp only [Option.any_some, hn, Bool.false_eq_true, if_false]
    cases h
    simp [Visitor.field, makeType, bind, Except.bind, fieldName]
  | .wrap nm c, many, h =>
    rw [convert]
    simp only [Option.any_some, hn, Bool.false_eq_true, if_false]
    exact simple_convert (c := c) h v n hn _ _
  | .many nm c, many, h =>
    rw [convert]
    simp only [Option.any_some, hn, Bool.false_eq_true, if_false]
    exact simple_convert (c := c) h v n hn _ _

/-- Shown fields as entries of a dictionary. -/
def asFields (l : List (Option String × String)) : Fields := l.map fun e => (e.1, .ty e.2)

theorem setField_new {d : Fields} {k : Option String} (h : k ∉ d.map Prod.fst) (t : FieldType) : setField d k t = d ++ [(k, t)] := by
  induction d with
  | nil => rfl
  | cons e d ih =>
    obtain ⟨k', t'⟩ := e
    simp only [List.map_cons, List.mem_cons, not_or] at h
    simp only [setField, if_neg (Ne.symm h.1), ih h.2, List.cons_append]

theorem update_new {d e : Fields} (h : ((d ++ e).map Prod.fst).Nodup) : update d e = d ++ e := by
  induction e generalizing d with
  | nil => simp [update]
  | cons x e ih =>
    have hk : x.1 ∉ d.map Prod.fst := by
      intro hm
      simp only [List.map_append, List.map_cons] at h
      exact (List.nodup_append.1 h).2.2 x.1 hm x.1 (List.mem_cons_self ..) rfl
    have : update d (x :: e) = update (setField d x.1 x.2) e := rfl
    rw [this, setField_new hk, ih (by simpa using h)]
    simp

theorem fields_loop (fs : List (String × Schema.Con)) (hf : ∀ f ∈ fs, Case.isPrivate f.1 = false → (simpleType f.2 false).isSome)
    (heap : List Fields) (types structs : List (String × Nat)) (x : Option String) (a : Nat) (rest : List (Option String × Nat)) (u : Bool) (message : Option String) :
    convertAll (fs.map fun f => .renamed none f.1 f.2) ⟨heap, types, structs, (x, a) :: rest, u⟩ message =
      .ok ⟨heap.modify a fun d => update d (asFields (shown fs)), types, structs, (x, a) :: rest, u⟩ := by
  induction fs generalizing heap with
  | nil =>
    simp only [List.map_nil, convertAll, shown, asFields, update, List.foldl_nil]
    have : heap.modify a (fun d => d) = heap := List.modify_id ..
    rw [this]
  | cons f fs ih =>
    obtain ⟨n, c⟩ := f
    have ih := ih (fun f h => hf f (List.mem_cons_of_mem _ h))
    rw [List.map_cons, convertAll, convert]
    simp only [Option.any_none, Bool.false_eq_true, if_false]
    by_cases hn : Case.isPrivate n = true
    · have : convert c ⟨heap, types, structs, (x, a) :: rest, u⟩ (some n) none false message = .ok ⟨heap, types, structs, (x, a) :: rest, u⟩ := by
        rw [convert.eq_def]; simp [hn]
      rw [this]
      simp only [shown, hn, if_true]
      exact ih heap
    · have hn : Case.isPrivate n = false := by simpa using hn
      obtain ⟨t, ht⟩ := Option.isSome_iff_exists.1 (hf (n, c) (List.mem_cons_self ..) hn)
      rw [simple_convert ht _ n hn]
      simp only [Visitor.assign, Visitor.current, bind, Except.bind, pure, Except.pure]
      rw [ih]
      simp only [shown, hn, Bool.false_eq_true, if_false, asFields, List.map_cons, ht, Option.getD_some]
      congr 2
      rw [List.modify_modify_eq]
      rfl

theorem case_step {K S : String} {fs : List (String × Schema.Con)} (hK : Case.isPrivate K = false) (hf : FieldsOK fs)
    {d0 d1 U : Fields} {Ds : List Fields} {types structs : List (String × Nat)} (hS : S ∉ structs.map Prod.fst) {x y z : Option String × Nat} (hx : x.2 = 2)
    {u : Bool} {message : Option String} (hU : some (Case.camelcase K) ∉ U.map Prod.fst) :
    convert (.struct (some S) (fs.map fun f => .renamed none f.1 f.2)) ⟨d0 :: d1 :: U :: Ds, types, structs, [x, y, z], u⟩ (some K) none false message =
      .ok ⟨d0 :: d1 :: (U ++ [(some (Case.camelcase K), .ty S)]) :: (Ds ++ [asFields (shown fs)]), types, structs ++ [(S, Ds.length + 3)], [x, y, z], u⟩ := by
  obtain ⟨xn, xa⟩ := x
  simp only at hx
  subst hx
  have hg : getAddr structs S = none := by
    cases h : getAddr structs S with
    | none => rfl
    | some a => exact absurd (List.mem_map.2 ⟨_, getAddr_some h, rfl⟩) hS
  rw [convert]
  simp only [Option.any_some, hK, Bool.false_eq_true, if_false, show ∀ cs, structNameOf none (.struct (some S) cs) message = S from fun _ => rfl, Visitor.enterStruct,
    Visitor.assign, Visitor.current, bind, Except.bind, pure, Except.pure, hg, fieldName, Option.map_some]
  rw [fields_loop fs hf.2]
  have e1 : (d0 :: d1 :: U :: Ds).modify 2 (fun d => setField d (some (Case.camelcase K)) (.ty S)) = d0 :: d1 :: (U ++ [(some (Case.camelcase K), .ty S)]) :: Ds := by
    show d0 :: d1 :: setField U _ _ :: Ds = _
    rw [setField_new hU]
  rw [e1]
  have e2 : ((d0 :: d1 :: (U ++ [(some (Case.camelcase K), FieldType.ty S)]) :: Ds) ++ [[]]).modify (d0 :: d1 :: (U ++ [(some (Case.camelcase K), FieldType.ty S)]) :: Ds).length
      (fun d => update d (asFields (shown fs))) = d0 :: d1 :: (U ++ [(some (Case.camelcase K), .ty S)]) :: (Ds ++ [asFields (shown fs)]) := by
    have h0 : update [] (asFields (shown fs)) = asFields (shown fs) := by
      rw [update_new]
      · rfl
      · simpa [asFields, Function.comp_def] using hf.1
    have : ∀ l : List Fields, (l ++ [[]]).modify l.length (fun d => update d (asFields (shown fs))) = l ++ [asFields (shown fs)] := by
      intro l
      induction l with
      | nil => show [update [] _] = _; rw [h0]; rfl
      | cons a l ih => show a :: ((l ++ [[]]).modify l.length _) = _; rw [ih]; rfl
    exact this _
  rw [e2]
  simp only [Visitor.exit, List.length_cons, List.length_nil]
  rfl

/-- The union of a list of cases. -/
def unionOf (cases : List (String × String × List (String × Schema.Con))) : List (Option String × String) := cases.map fun c => (some (Case.camelcase c.1), c.2.1)

/-- The table of the structs of a list of cases, if the first address is `a`. -/
def tableOf (a : Nat) : List (String × String × List (String × Schema.Con)) → List (String × Nat)
  | [] => []
  | c :: cs => (c.2.1, a) :: tableOf (a + 1) cs

theorem cases_loop (cases : List (String × String × List (String × Schema.Con))) (hc : ∀ c ∈ cases, Case.isPrivate c.1 = false ∧ FieldsOK c.2.2)
    {d0 d1 U : Fields} {Ds : List Fields} {types structs : List (String × Nat)} {x y z : Option String × Nat} (hx : x.2 = 2) {u : Bool} {message : Option String}
    (hS : (structs.map Prod.fst ++ cases.map (·.2.1)).Nodup) (hU : (U.map Prod.fst ++ (unionOf cases).map Prod.fst).Nodup) :
    convertCases (cases.map fun c => (c.1, .struct (some c.2.1) (c.2.2.map fun f => .renamed none f.1 f.2))) ⟨d0 :: d1 :: U :: Ds, types, structs, [x, y, z], u⟩ message =
      .ok ⟨d0 :: d1 :: (U ++ asFields (unionOf cases)) :: (Ds ++ cases.map fun c => asFields (shown c.2.2)), types, structs ++ tableOf (Ds.length + 3) cases, [x, y, z], u⟩ := by
  induction cases generalizing U Ds structs with
  | nil => simp [convertCases, unionOf, asFields, tableOf]
  | cons c cs ih =>
    obtain ⟨K, S, fs⟩ := c
    have hc0 := hc _ (List.mem_cons_self ..)
    rw [List.map_cons, convertCases]
    rw [case_step hc0.1 hc0.2 ?_ hx ?_]
    · simp only [bind, Except.bind]
      rw [ih (fun c h => hc c (List.mem_cons_of_mem _ h))]
      · simp [unionOf, asFields, tableOf, Nat.add_right_comm]
      · simpa using hS
      · simpa [unionOf] using hU
    · intro hm
      exact (List.nodup_append.1 hS).2.2 S hm S (by simp) rfl
    · intro hm
      exact (List.nodup_append.1 hU).2.2 _ hm (some (Case.camelcase K)) (by simp [unionOf]) rfl

theorem visit_switch {M : String} {key : String × Schema.Con} {cases : List (String × String × List (String × Schema.Con))} {kt : String}
    (hk : Case.isPrivate key.1 = false) (hkt : simpleType key.2 false = some kt)
    (hc : ∀ c ∈ cases, Case.isPrivate c.1 = false ∧ FieldsOK c.2.2)
    (hS : ("AccessMessage" :: M :: cases.map (·.2.1)).Nodup) (hU : ((unionOf cases).map Prod.fst).Nodup) :
    visitAll [(none, switchStruct M key cases)] (Visitor.init "AccessMessage") =
      .ok ⟨[(none, .ty M)] :: [(some (Case.camelcase key.1), .ty kt), (none, .ref 2)] :: asFields (unionOf cases) :: cases.map (fun c => asFields (shown c.2.2)), [],
        ("AccessMessage", 0) :: (M, 1) :: tableOf 3 cases, [(some "AccessMessage", 0)], false⟩ := by
  have hM : ("AccessMessage" == M) = false := by
    have := (List.nodup_cons.1 hS).1
    simp at this
    simpa using this.1
  have hg : getAddr [("AccessMessage", 0)] M = none := by simp [getAddr, hM]
  set cs := cases.map fun c => (c.1, Schema.Con.struct (some c.2.1) (c.2.2.map fun f => .renamed none f.1 f.2)) with hcs
  have e1 : (Visitor.init "AccessMessage").enterStruct none M false =
      .ok ⟨[[(none, .ty M)], []], [], [("AccessMessage", 0), (M, 1)], [(some M, 1), (some "AccessMessage", 0)], false⟩ := by
    simp only [Visitor.enterStruct, Visitor.assign, Visitor.current, Visitor.init, bind, Except.bind, pure, Except.pure, hg, Bool.false_eq_true, if_false]
    rfl
  have e2 : convert (.renamed none key.1 key.2) ⟨[[(none, .ty M)], []], [], [("AccessMessage", 0), (M, 1)], [(some M, 1), (some "AccessMessage", 0)], false⟩ none none false (some M) =
      .ok ⟨[[(none, .ty M)], [(some (Case.camelcase key.1), .ty kt)]], [], [("AccessMessage", 0), (M, 1)], [(some M, 1), (some "AccessMessage", 0)], false⟩ := by
    rw [convert]
    simp only [Option.any_none, Bool.false_eq_true, if_false]
    rw [simple_convert hkt _ _ hk]
    rfl
  have e3 : convert (.switch none cs none) ⟨[[(none, .ty M)], [(some (Case.camelcase key.1), .ty kt)]], [], [("AccessMessage", 0), (M, 1)], [(some M, 1), (some "AccessMessage", 0)], false⟩
      none none false (some M) =
      .ok ⟨[(none, .ty M)] :: [(some (Case.camelcase key.1), .ty kt), (none, .ref 2)] :: asFields (unionOf cases) :: cases.map (fun c => asFields (shown c.2.2)), [],
        ("AccessMessage", 0) :: (M, 1) :: tableOf 3 cases, [(some M, 1), (some "AccessMessage", 0)], false⟩ := by
    rw [convert]
    simp only [Option.any_none, Bool.false_eq_true, if_false]
    have : Visitor.enterUnion ⟨[[(none, .ty M)], [(some (Case.camelcase key.1), .ty kt)]], [], [("AccessMessage", 0), (M, 1)], [(some M, 1), (some "AccessMessage", 0)], false⟩ none =
        .ok ⟨[[(none, .ty M)], [(some (Case.camelcase key.1), .ty kt), (none, .ref 2)], []], [], [("AccessMessage", 0), (M, 1)], [(none, 2), (some M, 1), (some "AccessMessage", 0)], true⟩ := rfl
    rw [this]
    simp only [bind, Except.bind]
    rw [hcs, cases_loop cases hc (U := []) (Ds := []) rfl (by simpa using hS) (by simpa using hU)]
    rfl
  show (do
    let v ← (do
      let v ← (Visitor.init "AccessMessage").enterStruct none M false
      let v ← convertAll [.renamed none key.1 key.2, .switch none cs none] v (some M)
      v.exit)
    visitAll [] v) = _
  rw [e1]
  simp only [bind, Except.bind, convertAll]
  rw [e2]
  simp only
  rw [e3]
  rfl

theorem describe_fields (l : List (Option String × String)) (k : Nat) :
    describe (l.map fun e => Tree.field e.1 e.2) k = (numbered k l, k + l.length) := by
  induction l generalizing k with
  | nil => rfl
  | cons e l ih =>
    simp only [List.map_cons, describe, describeOne, ih, numbered, List.length_cons]
    exact Prod.ext rfl (by simp; omega)

theorem tree_simple (heap : List Fields) (f a : Nat) (l : List (Option String × String)) (h : heap.getD a [] = asFields l) :
    tree heap (f + 1) a = l.map fun e => Tree.field e.1 e.2 := by
  rw [tree_succ, h]
  simp [level, asFields]

theorem tableOf_map (a : Nat) (cases : List (String × String × List (String × Schema.Con))) (hS : (cases.map (·.2.1)).Nodup) {β : Type} (f : Nat → β)
    (g : List (String × Schema.Con) → β) (h : ∀ i c, cases[i]? = some c → f (a + i) = g c.2.2) :
    (tableOf a cases).map (fun e => (e.1, f e.2)) = cases.map fun c => (c.2.1, g c.2.2) := by
  induction cases generalizing a with
  | nil => rfl
  | cons c cs ih =>
    simp only [tableOf, List.map_cons]
    rw [ih (a + 1) (List.nodup_cons.1 hS).2 fun i c' hc' => by rw [← h (i + 1) c' (by simpa using hc')]; congr 1; omega]
    rw [show f a = g c.2.2 from by have := h 0 c rfl; simpa using this]

/-- **C37**.  The schema of a `SwitchStruct` is what its declaration says: `AccessMessage` has the opcode and a union with one field for each opcode, whose type
is the struct of the payload of this opcode; this struct has the public fields of the payload, in order, in camel case, with their types. -/
theorem C37_switch {M : String} {key : String × Schema.Con} {cases : List (String × String × List (String × Schema.Con))} {kt : String}
    (hk : Case.isPrivate key.1 = false) (hkt : simpleType key.2 false = some kt)
    (hc : ∀ c ∈ cases, Case.isPrivate c.1 = false ∧ FieldsOK c.2.2)
    (hS : ("AccessMessage" :: M :: cases.map (·.2.1)).Nodup) (hU : (cases.map fun c => Case.camelcase c.1).Nodup) :
    generate [(none, switchStruct M key cases)] = .ok (
      ("AccessMessage", .field (some "opcode") 0 "UInt32" :: .openUnion none :: (numbered 1 (cases.map fun c => (some (Case.camelcase c.1), c.2.1)) ++ [.close])) ::
      cases.map fun c => (c.2.1, numbered 0 (shown c.2.2))) := by
  have hU' : ((unionOf cases).map Prod.fst).Nodup := by
    have : (unionOf cases).map Prod.fst = (cases.map fun c => Case.camelcase c.1).map some := by simp [unionOf, Function.comp_def]
    rw [this]; exact List.Nodup.map (Option.some_injective _) hU
  have hA : ∀ e ∈ tableOf 3 cases, e.1 ∈ cases.map (·.2.1) := by
    have : ∀ (cs : List (String × String × List (String × Schema.Con))) a, ∀ e ∈ tableOf a cs, e.1 ∈ cs.map (·.2.1) := by
      intro cs
      induction cs with
      | nil => simp [tableOf]
      | cons c cs ih =>
        intro a e he
        rcases List.mem_cons.1 he with rfl | he
        · simp
        · exact List.mem_cons_of_mem _ (ih _ e he)
    exact this cases 3
  have hS1 := List.nodup_cons.1 hS
  have hS2 := List.nodup_cons.1 hS1.2
  have hAM : ("AccessMessage" == M) = false := by
    have := hS1.1
    simp at this
    simpa using this.1
  have hMC : M ∉ cases.map (·.2.1) := hS2.1
  set d0 : Fields := [(none, .ty M)] with hd0
  set d1 : Fields := [(some (Case.camelcase key.1), .ty kt), (none, .ref 2)] with hd1
  set U : Fields := asFields (unionOf cases) with hUdef
  set Ds : List Fields := cases.map (fun c => asFields (shown c.2.2)) with hDs
  set len := Ds.length + 3 with hlen
  set top : Fields := [(some "opcode", .ty "UInt32"), (none, .ref len)] with htop
  have hupd : update [] U = U := by
    rw [update_new]
    · rfl
    · simpa [hUdef, asFields, Function.comp_def] using hU'
  have hmod : (d0 :: d1 :: U :: (Ds ++ [[], top])).modify len (fun d => update d U) = d0 :: d1 :: U :: (Ds ++ [U, top]) := by
    have : ∀ l : List Fields, (l ++ [[], top]).modify l.length (fun d => update d U) = l ++ [U, top] := by
      intro l
      induction l with
      | nil => show update [] U :: _ = _; rw [hupd]; rfl
      | cons a l ih => show a :: ((l ++ [[], top]).modify l.length _) = _; rw [ih]; rfl
    exact this (d0 :: d1 :: U :: Ds)
  have hfilter : (("AccessMessage", len + 1) :: (M, 1) :: tableOf 3 cases).filter (fun e => e.1 != M) = ("AccessMessage", len + 1) :: tableOf 3 cases := by
    rw [List.filter_cons_of_pos (by simp [bne, hAM]), List.filter_cons_of_neg (by simp)]
    congr 1
    refine List.filter_eq_self.2 fun e he => ?_
    have := hA e he
    simp only [bne_iff_ne, ne_eq]
    rintro rfl
    exact hMC this
  have hget : getAddr (("AccessMessage", len + 1) :: (M, 1) :: tableOf 3 cases) M = some 1 := by simp [getAddr, hAM]
  have hcollect : collect [(none, switchStruct M key cases)] =
      .ok ⟨d0 :: d1 :: U :: (Ds ++ [U, top]), [], ("AccessMessage", len + 1) :: tableOf 3 cases, [(some "AccessMessage", 0)], false⟩ := by
    simp only [collect, visit_switch hk hkt hc hS hU', bind, Except.bind, pure, Except.pure, List.foldl_cons, List.foldl_nil]
    have hl' : (d0 :: d1 :: U :: Ds).length = len := rfl
    rw [← hd0, ← hd1, ← hUdef, ← hDs, hl']
    have hset : setAddr (("AccessMessage", 0) :: (M, 1) :: tableOf 3 cases) "AccessMessage" (len + 1) = ("AccessMessage", len + 1) :: (M, 1) :: tableOf 3 cases := by
      simp [setAddr]
    rw [hset]
    unfold gather
    simp only [show (switchStruct M key cases).nm = some M from rfl, hget, Option.some_or, hfilter]
    have h1 : getField ((d0 :: d1 :: U :: Ds ++ [[], top]).getD 1 []) none = some (.ref 2) := by
      show getField d1 none = _
      simp [getField, hd1]
    rw [← htop, h1]
    simp only
    rw [show (d0 :: d1 :: U :: Ds ++ [[], top]).getD 2 [] = U from rfl]
    rw [show d0 :: d1 :: U :: Ds ++ [[], top] = d0 :: d1 :: U :: (Ds ++ [[], top]) from rfl, hmod]
  have htopget : (d0 :: d1 :: U :: (Ds ++ [U, top])).getD (len + 1) [] = top := by
    show (Ds ++ [U, top]).getD (Ds.length + 1) [] = top
    simp [List.getD]
  have huget : (d0 :: d1 :: U :: (Ds ++ [U, top])).getD len [] = asFields (unionOf cases) := by
    show (Ds ++ [U, top]).getD Ds.length [] = U
    simp [List.getD]
  simp only [generate, hcollect, bind, Except.bind, pure, Except.pure, printed, List.nil_append, List.map_cons]
  congr 2
  · congr 1
    rw [show (d0 :: d1 :: U :: (Ds ++ [U, top])).length + 2 = (len + 1 + 2) + 1 from by simp [hlen], tree_succ, htopget, htop]
    simp only [level, List.map_cons, List.map_nil]
    rw [show len + 1 + 2 = (len + 2) + 1 from rfl, tree_simple _ _ _ _ huget]
    simp only [describe, describeOne, describe_fields]
    simp [unionOf]
  · rw [tableOf_map 3 cases hS2.2 (fun a => (describe (tree (d0 :: d1 :: U :: (Ds ++ [U, top])) ((d0 :: d1 :: U :: (Ds ++ [U, top])).length + 2) a) 0).1) (fun fs => numbered 0 (shown fs))]
    intro i c hi
    have : (d0 :: d1 :: U :: (Ds ++ [U, top])).getD (3 + i) [] = asFields (shown c.2.2) := by
      rw [Nat.add_comm]
      show (Ds ++ [U, top]).getD i [] = _
      have : Ds[i]? = some (asFields (shown c.2.2)) := by simp [hDs, hi]
      have hil := (List.getElem?_eq_some_iff.1 this).1
      simp [List.getD, List.getElem?_append_left hil, this]
    rw [show (d0 :: d1 :: U :: (Ds ++ [U, top])).length + 2 = ((d0 :: d1 :: U :: (Ds ++ [U, top])).length + 1) + 1 from rfl, tree_simple _ _ _ _ this, describe_fields]

/-! ### Cases -/

/-- Two messages of the kind of `ConfigMessage`: a status with two numbers, a private field and a list, and one with a text. -/
def sample : Schema.Con :=
  switchStruct "ConfigMessage" ("opcode", .wrap none (.leaf none (.format 'H')))
    [("APP_STATUS", "AppStatus", [("net_key_index", .leaf none (.bits 12 false)), ("_rfu", .leaf none .other), ("items", .many none (.leaf none (.bytesInt 3 true)))]),
     ("NAME_SET", "NameSet", [("name", .text none)])]

/-- **C37** on a concrete message. -/
theorem C37_sample : generate [(none, sample)] = .ok [
    ("AccessMessage", [.field (some "opcode") 0 "UInt32", .openUnion none, .field (some "appStatus") 1 "AppStatus", .field (some "nameSet") 2 "NameSet", .close]),
    ("AppStatus", [.field (some "netKeyIndex") 0 "UInt16", .field (some "items") 1 "List(Int32)"]),
    ("NameSet", [.field (some "name") 0 "Text"])] := by
  decide +kernel

/-- The hypotheses of C37 hold of it (the private field has no type, which does not matter for the first, but does for the second). -/
example : ∀ f ∈ [("net_key_index", Schema.Con.leaf none (.bits 12 false)), ("_rfu", .leaf none .other), ("items", .many none (.leaf none (.bytesInt 3 true)))],
    Case.isPrivate f.1 = false → (simpleType f.2 false).isSome := by decide +kernel

example : Schema.Con.Typed capnpTypes (switchStruct "M" ("opcode", .leaf none (.format 'H')) [("A", "S", [("x", .leaf none (.bits 12 false))])]) := by
  refine ⟨⟨"UInt16", rfl, by decide⟩, ⟨⟨⟨?_, trivial⟩, trivial⟩, trivial⟩, trivial⟩
  exact ⟨"UInt16", by decide +kernel, by decide⟩

/-- Structs of a message that are not held by a variable all have one name, and their fields are put together. -/
theorem C37_anonymous : generate [(none, .wrap (some "M") (.struct none [.switch none
      [("A", .struct none [.renamed none "x" (.leaf none (.format 'B'))]), ("B", .struct none [.renamed none "y" (.leaf none (.format 'H'))])] none]))] = .ok [
    ("AccessMessage", [.field (some "opcode") 0 "UInt32", .openUnion none, .field (some "a") 1 "MParams", .field (some "b") 2 "MParams", .close]),
    ("MParams", [.field (some "x") 0 "UInt8", .field (some "y") 1 "UInt16"])] := by
  decide +kernel

/-- A struct inside and outside of unions is printed twice. -/
theorem C37_twice : (generate [
      (none, .struct (some "M") [.renamed none "s" (.struct (some "S") [.renamed none "x" (.leaf none (.format 'B'))])]),
      (none, .struct (some "N") [.switch none [("A", .struct (some "S") [.renamed none "x" (.leaf none (.format 'B'))])] none])]).map (List.map Prod.fst) =
    .ok ["S", "AccessMessage", "S"] := by
  decide +kernel

/-- A union under the name of a field is an error. -/
theorem C37_clash : generate [(none, .struct (some "M") [.renamed none "x" (.leaf none (.format 'B')), .renamed none "x" (.switch none [("A", .leaf none (.format 'B'))] none)])] = .error .type := by
  decide +kernel

end BM.Props
