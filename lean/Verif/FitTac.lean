import Verif.FitMesh
import Verif.FlatAll
/-!
# Decoded values and the schema (C50): the tactic
-/
namespace BM.Capnp
open BM.Schema BM.Case Config

section
variable {α : Type} {us : List Tree}
/-- A variant with a name, whose type is found by its position. -/
theorem alts_at (i : Nat) {fs : List Tree} {n T : String} {its : List (Item α)} {alts : List (String × Con α)} (hm : us[i]? = some (.field (some n) T)) (hn : n ≠ "") [hT : IsPlain T fs]
    (h : FitIs fs its) (hs : Alts us alts) : Alts us ((n, struct its) :: alts) := alts_cons hn (List.mem_of_getElem? hm) h hs
end

/-- Goals `Fit (.type T) c`, `FitInt (.type T) c`, `FitIs fs its`, `FitI fs it`. -/
syntax "fit" : tactic
macro_rules | `(tactic| fit) => `(tactic| repeat' (first
  | with_reducible exact fitIs_nil
  | with_reducible refine fitIs_cons ?_ ?_
  | with_reducible refine fitI_field ?_
  | with_reducible refine FitInt.fit (fit_uint ?_ ?_) | with_reducible refine FitInt.fit (fit_ubits ?_ ?_)
  | with_reducible refine fit_enum _ ?_
  | with_reducible refine fit_uint ?_ ?_ | with_reducible refine fit_ubits ?_ ?_
  | with_reducible refine fitI_bits ?_ ?_ ?_ | with_reducible refine fitI_embedded ?_
  | with_reducible refine fit_struct ?_
  | with_reducible exact fit_flag | with_reducible exact fit_flagBit | with_reducible exact fit_bytesN | with_reducible exact fit_greedyBytes
  | with_reducible exact fit_delay | with_reducible exact fit_count | with_reducible exact fit_transition _
  | with_reducible exact fit_timeExp | with_reducible exact fit_float _ | with_reducible exact fit_text | with_reducible exact fit_fixedString _
  | with_reducible exact fit_greedyString | with_reducible exact fit_mac | with_reducible exact fit_date
  | with_reducible exact fit_keyIndices | with_reducible refine fit_retransmit _ ?_ | with_reducible refine fit_bitList ?_ ?_
  | with_reducible refine fit_sint ?_ ?_ | with_reducible refine fit_sbits ?_ ?_ | with_reducible refine fit_bytesIntBE ?_ ?_
  | with_reducible refine fit_bytesInt ?_ ?_ | with_reducible refine fit_bytesSInt ?_ ?_
  | with_reducible refine fit_int12 ?_ | with_reducible refine FitInt.fit (fit_int12 ?_)
  | with_reducible refine fit_scene ?_ | with_reducible refine FitInt.fit (fit_scene ?_)
  | with_reducible refine FitInt.fit (fit_sint ?_ ?_) | with_reducible refine FitInt.fit (fit_sbits ?_ ?_) | with_reducible refine FitInt.fit (fit_bytesIntBE ?_ ?_)
  | with_reducible refine FitInt.fit (fit_bytesInt ?_ ?_) | with_reducible refine FitInt.fit (fit_bytesSInt ?_ ?_)
  | with_reducible refine FitInt.fit (fit_range ?_) | with_reducible refine fit_range ?_
  | with_reducible refine fit_greedy ?_ | with_reducible refine fit_array ?_ | with_reducible refine fit_prefixedArray ?_
  | with_reducible refine fit_set ?_
  | with_reducible refine fit_reversed ?_ | with_reducible refine fit_bitwise ?_
  | with_reducible refine fit_alts ?_
  | with_reducible exact alts_nil
  | refine alts_at 0 rfl ?_ ?_ ?_ | refine alts_at 1 rfl ?_ ?_ ?_ | refine alts_at 2 rfl ?_ ?_ ?_ | refine alts_at 3 rfl ?_ ?_ ?_
  | with_reducible refine fit_select ?_
  | with_reducible refine all_cons ?_ ?_ | with_reducible exact all_nil
  | with_reducible refine fitInt_default ?_ | with_reducible refine fitInt_rebuild ?_ | with_reducible refine fitInt_validator ?_
  | with_reducible refine fit_default ?_ | with_reducible refine fit_rebuild ?_ | with_reducible refine fit_validator ?_
  | with_reducible refine fitI_private ?_ ?_
  | with_reducible exact fitI_anon
  | decide +kernel))

end BM.Capnp
