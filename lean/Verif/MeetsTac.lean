import Verif.MeetsKeys
import Verif.MeetsFloat
/-!
# A tactic that assembles `Meets` proofs from the combinator lemmas
-/
namespace BM
open F Config

theorem LenEqIs.cast {α} {rs : List (RI α)} {m m'} (h : LenEqIs rs m) (e : m = m') : LenEqIs rs m' := e ▸ h
theorem lenEq_retransmit (s) : LenEq (F.retransmit s) 1 := by
  rintro u b v ⟨d, uc, ui, c, s, -, -, -, -, -, -, -, rfl, -⟩; rfl
theorem lenEq_log2 [Platform] (m i) : LenEq (F.log2 m i) 1 := by
  rintro u b v (⟨-, -, rfl, -⟩ | ⟨-, rfl, -⟩ | ⟨q, l, n, -, -, -, -, -, rfl, -⟩) <;> rfl
theorem lenEq_bitset (n) : LenEq (F.bitset n) n := by rintro u b v ⟨hl, -⟩; exact hl

theorem minLen_transitionTime (u) : MinLen (BM.transitionTime u) 1 := minLen_adapter (minLen_bitwise _ _)
theorem minLen_delay : MinLen BM.delay 1 := minLen_adapter (minLen_uint 1)
theorem minLen_count {c : Con UInt8} {m} (h : MinLen c m) {w d res u} : MinLen (defaultCount c w d res u) m := minLen_adapter h

/-- Solve a goal `LenEq`, `LenEqI` or `LenEqIs` whose length is still open. -/
macro "lens" : tactic => `(tactic| repeat' with_reducible first
  | exact LenEqIs.nil | apply LenEqIs.cons
  | apply lenEqI_fld | apply lenEqI_embed | apply lenEqI_bitGroup | exact lenEqI_zeros _ _
  | exact lenEq_uintWhere _ _ | exact lenEq_uint _ | exact lenEq_sint _ | exact lenEq_uintBE _ | exact lenEq_bitsU _ | exact lenEq_bitsS _
  | exact lenEq_bit | exact lenEq_byteFlag | exact lenEq_bytes _ | apply lenEq_enumOf
  | exact lenEq_packed _ _ | exact lenEq_packedLE _ _ | apply lenEq_record
  | exact lenEq_transitionTime _ | exact lenEq_delay | apply lenEq_count | exact lenEq_retransmit _ | exact lenEq_log2 _ _ | exact lenEq_bitset _)

/-- The same with a known length. -/
macro "lensc" : tactic => `(tactic| ((first | apply LenEqIs.cast | apply LenEq.cast) <;> [lens; decide; skip]))

macro "mins" : tactic => `(tactic| repeat' with_reducible first
  | exact MinLenIs.nil | apply MinLenIs.cons
  | apply minLenI_field | apply minLenI_embedded | exact minLenI_bitGroup _ _ _ _
  | exact minLen_uint _ | exact minLen_sint _ | exact minLen_bytesInt _ | exact minLen_ubits _ | exact minLen_bytesN _ | exact minLen_flag
  | exact minLen_transitionTime _ | exact minLen_delay | apply minLen_count
  | exact minLen_bitwise _ _ | exact minLen_reversed _ _ | apply minLen_enum | apply minLen_validator | apply minLen_struct)

/-- Find a key that is needed. -/
syntax "needs" : tactic
macro_rules | `(tactic| needs) => `(tactic| with_reducible first
  | exact needsI_fld | (apply needsI_embed; needs) | (apply Needs.here; needs) | (apply Needs.there; needs))

/-- Side conditions on modes. -/
macro "modes" : tactic => `(tactic| first | exact trivial | exact fun h => h | exact fun _ => trivial | exact False.elim)

theorem meets_tt63 {M : Mode} {e} (hS : ¬ M.S) (hX : ¬ M.X) : Meets M e (BM.transitionTime true) (F.transitionTime 63) :=
  meets_transitionTime true hS hX
theorem meets_tt62 {M : Mode} {e} (hS : ¬ M.S) (hX : ¬ M.X) : Meets M e (BM.transitionTime false) (F.transitionTime 62) :=
  meets_transitionTime false hS hX

theorem has_bits {E : EnumDef} (h : E.members.all (fun m => m.2 == 0 || m.2 == 1) = true) (k : Int) (hk : E.has k = true) :
    k = 0 ∨ k = 1 := by
  simp only [EnumDef.has, List.any_eq_true, beq_iff_eq] at hk
  obtain ⟨m, hm, rfl⟩ := hk
  have := List.all_eq_true.1 h m hm
  simpa using this

/-- Decide a closed fact about field names; the formats may mention the platform. -/
macro "keys" : tactic => `(tactic| first | decide | with_unfolding_all exact of_decide_eq_true (Eq.refl true))

syntax "meets1" : tactic
macro_rules | `(tactic| meets1) => `(tactic| fail "no rule")
macro_rules | `(tactic| meets1) => `(tactic| with_reducible first
  | exact meets_uint _ | exact meets_sint _ (by decide)
  | exact meets_enum_uint _ _ | exact meets_flagBit
  | exact meets_bytesInt _ trivial | exact meets_bytesIntBE _ trivial | exact meets_bytesSInt _ (by decide) trivial
  | exact meets_ubits _ trivial | exact meets_sbits _ (by decide) trivial
  | exact meets_bytesN _ trivial | exact meets_greedyBytes trivial
  | exact meets_enum_bits _ _ trivial | exact meets_enum_bit _ (has_bits (by decide))
  | exact meets_flag (fun h => h)
  | exact meets_sevenBit
  | exact meets_unicast | exact meets_notVirtual | exact meets_subscription | exact meets_statusSubscription
  | exact meets_unicastUnassigned | exact meets_unicastUnassignedGroup
  | exact meets_retransmit (by decide) | exact meets_log2 (by decide) | exact meets_bitset _
  | exact meets_keyIndices trivial (fun h => h)
  | exact meets_tt63 (fun h => h) (fun h => h) | exact meets_tt62 (fun h => h) (fun h => h)
  | exact meets_delay (fun h => h) (fun h => h))
macro_rules | `(tactic| meets1) => `(tactic| with_reducible first
  | exact MeetsIs.nil | apply MeetsIs.last | apply MeetsIs.cons
  | (refine meetsI_field rfl ?_) | exact meetsI_zeros _ _ (fun h => h)
  | (refine meetsI_embedded ?_ (by keys))
  | (refine meetsI_bitGroup ?_ (by lensc) (by keys)))
macro_rules | `(tactic| meets1) => `(tactic| with_reducible first
  | (refine meets_struct ?_ (by keys))
  | (refine meets_bitwise ?_ (by lensc))
  | (refine meets_reversed ?_))

macro "meets" : tactic => `(tactic| repeat' meets1)

end BM
