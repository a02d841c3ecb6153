import Verif.MeetsTac
/-!
# Building instances of formats
-/
namespace BM
open F

theorem F.uint_mk {n k : Nat} (h : k < 256 ^ n) : uint n (.int k) (leBytes n k) (.int k) :=
  ⟨k, rfl, trivial, leBytes_length n k, leNat_leBytes n k h, rfl⟩

theorem F.enumOf_mk {E : EnumDef} {n k : Nat} (h : k < 256 ^ n) (hm : E.has k = true) {u : Val} (hu : hashInt u = some (k : Int)) :
    enumOf (uint n) E u (leBytes n k) (.enum E.cls k) := by
  refine ⟨k, .int k, .inr ⟨hu, ?_⟩, ⟨k, rfl, trivial, leBytes_length n k, leNat_leBytes n k h, rfl⟩, rfl⟩
  simp only [EnumDef.has, List.any_eq_true, beq_iff_eq] at hm
  exact hm

theorem F.fld_mk {α} {k : String} {G : Fmt α} {du : Dict} {u b v} (hd : dget du k = some u) (h : G u b v) :
    (fld k G).rel du b [(k, v)] := ⟨u, v, hd, h, rfl⟩

theorem F.seq_nil {α} {du : Dict} : seqRel ([] : List (RI α)) du [] [] := ⟨rfl, rfl⟩
theorem F.seq_cons {α} {r : RI α} {rs : List (RI α)} {du : Dict} {b₁ b₂ d₁ d₂} (h : r.rel du b₁ d₁) (hs : seqRel rs du b₂ d₂) :
    seqRel (r :: rs) du (b₁ ++ b₂) (d₁ ++ d₂) := ⟨b₁, b₂, d₁, d₂, rfl, rfl, h, hs⟩
theorem F.seq_one {α} {r : RI α} {du : Dict} {b d} (h : r.rel du b d) : seqRel [r] du b d :=
  ⟨b, [], d, [], by simp, by simp, h, rfl, rfl⟩
theorem F.record_mk {α} {rs : List (RI α)} {du : Dict} {b dv} (h : seqRel rs du b dv) : record rs (.dict du) b (.dict dv) :=
  ⟨du, dv, rfl, h, rfl⟩

theorem F.many_map {α β} {G : Fmt α} (f : β → Val) (w : β → List α) (g : β → Val) :
    ∀ (xs : List β), (∀ x ∈ xs, G (f x) (w x) (g x)) → manyRel G (xs.map f) (xs.flatMap w) (xs.map g)
  | [], _ => ⟨rfl, rfl⟩
  | x :: xs, h => ⟨w x, xs.flatMap w, g x, xs.map g, by simp, rfl, h x (by simp), F.many_map f w g xs (fun y hy => h y (by simp [hy]))⟩

theorem F.listOf_map {α β} {G : Fmt α} (f : β → Val) (w : β → List α) (g : β → Val) (xs : List β) (h : ∀ x ∈ xs, G (f x) (w x) (g x)) :
    listOf G (.list (xs.map f)) (xs.flatMap w) (.list (xs.map g)) :=
  ⟨_, _, rfl, F.many_map f w g xs h, rfl⟩

end BM
