import Verif.FitRowBase
/-!
# Decoded values and the schema (C50): facts about the opcodes
-/
namespace BM.Capnp
open BM.Schema BM.Case BM.Props Config Tables
variable [Platform]

/-- Every registered opcode has a row or is listed. -/
theorem registry_known : ∀ e ∈ registry, known e.1 e.2 (fun k => wireOpcode k.toNat) = true := by
  unfold registry
  repeat' (first | with_reducible exact all_nil | refine all_cons (by with_unfolding_all exact (Eq.refl true)) ?_)

/-- No opcode has the name the conversion treats specially. -/
theorem registry_names : ∀ e ∈ registry, goodNames e.1 = true ∧ small e.1 32 = true := by
  unfold registry
  repeat' (first | with_reducible exact all_nil | refine all_cons (by dsimp only; decide +kernel) ?_)

end BM.Capnp
