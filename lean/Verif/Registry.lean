import Verif.AccessLemmas
import Verif.Names
/-!
# The concrete registry is free of clashes
-/
namespace BM

theorem registry_enums [Platform] : Tables.registry.map Prod.fst = Tables.opcodeEnums := rfl

theorem enums_numbers : (allNumbers Tables.opcodeEnums).Nodup := by decide +kernel
theorem enums_chars : allNames Tables.opcodeEnums = nameChars.map String.ofList := nameChars_eq
theorem enums_names : (allNames Tables.opcodeEnums).Nodup := by
  rw [enums_chars]
  exact List.Nodup.map (fun _ _ h => String.ofList_injective h) (by decide +kernel)
theorem enums_wf : ∀ n ∈ allNumbers Tables.opcodeEnums, ∃ k : Nat, n = k ∧ WellFormed k := by
  have : (allNumbers Tables.opcodeEnums).all (fun n => decide (0 ≤ n) && decide (WellFormed n.toNat)) = true := by decide +kernel
  intro n hn
  have := List.all_eq_true.1 this n hn
  simp only [Bool.and_eq_true, decide_eq_true_eq] at this
  exact ⟨n.toNat, by omega, this.2⟩

theorem registry_ok [Platform] : RegOK Tables.registry :=
  ⟨registry_enums ▸ enums_numbers, registry_enums ▸ enums_names, registry_enums ▸ enums_wf⟩

/-- Membership in the registry. -/
macro "inreg" : tactic => `(tactic| (unfold Tables.registry; repeat' first | exact List.Mem.head _ | apply List.Mem.tail))

end BM
