import Verif.SpecCapnp
import Verif.CapnpSchema
/-!
# Values that the generated schema does not take (proof device for C50)

`may` over-approximates `Accepts` by a computation: if it is `false`, then the value is not accepted.
-/
namespace BM.Capnp
open BM.Schema


instance (s : Bool) (w : Nat) (k : Int) : Decidable (Holds s w k) := by unfold Holds; infer_instance

mutual
/-- A field of type `T` may accept the value (no statement if there is no fuel left). -/
def may (S : List (String × List Tree)) : Nat → String → Val → Bool
  | 0, _, _ => true
  | f + 1, T, v => match v with
    | .int n => intTypes.any (fun t => t.1 == T && decide (Holds t.2.1 t.2.2 n)) || ["Float32", "Float64"].contains T
    | .flt _ => true
    | .fbits _ _ => true
    | .inf => true
    | .bool _ => T == "Bool"
    | .str _ => ["Text", "Data"].contains T
    | .list _ => true
    | .dict d => S.any fun e => e.1 == T && d.all fun m => mayMember S f e.2 m.1 m.2
    | _ => false
/-- An entry may be accepted. -/
def mayMember (S : List (String × List Tree)) : Nat → List Tree → String → Val → Bool
  | 0, _, _, _ => true
  | f + 1, fs, k, v => fs.any fun t => match t with
    | .field (some n) T => n == k && may S f T v
    | .field none _ => false
    | .union (some n) us => n == k && (match v with | .dict d => d.all fun m => mayMember S f us m.1 m.2 | _ => false)
    | .union none us => mayMember S f us k v
end

theorem may_ok {S : List (String × List Tree)} (f : Nat) :
    (∀ T v, Accepts S T v → may S f T v = true) ∧ (∀ fs k v, Member S fs k v → mayMember S f fs k v = true) := by
  induction f with
  | zero => exact ⟨fun _ _ _ => by simp [may], fun _ _ _ _ => by simp [mayMember]⟩
  | succ f ih =>
    constructor
    · intro T v h
      cases h with
      | int hm hh => rw [may, Bool.or_eq_true]; exact .inl (List.any_eq_true.2 ⟨_, hm, by simpa using hh⟩)
      | floatInt hm => rw [may, Bool.or_eq_true]; exact .inr (List.contains_iff_mem.2 hm)
      | whole hm hh => rw [may]
      | float hm => rw [may]
      | floatBits hm => rw [may]
      | floatInf hm => rw [may]
      | bool => rw [may]; decide
      | text hm => rw [may]; exact List.contains_iff_mem.2 hm
      | list h => rw [may]
      | struct hm h =>
        cases h with
        | mk h _ =>
          rw [may]
          refine List.any_eq_true.2 ⟨_, hm, ?_⟩
          simp only [beq_self_eq_true, Bool.true_and]
          exact List.all_eq_true.2 fun m hm => ih.2 _ _ _ (h _ _ hm)
    · intro fs k v h
      rw [mayMember]
      cases h with
      | field hm h => exact List.any_eq_true.2 ⟨_, hm, by simpa using ih.1 _ _ h⟩
      | group hm h =>
        cases h with
        | mk h _ =>
          refine List.any_eq_true.2 ⟨_, hm, ?_⟩
          simp only [beq_self_eq_true, Bool.true_and]
          refine List.all_eq_true.2 fun ⟨k', v'⟩ hm => ?_
          have := h _ _ hm
          dsimp only
          generalize v' = w at this ⊢
          cases this with
          | field h _ => simp at h
          | group h _ => simp at h
          | inUnion h h' =>
            simp only [List.mem_singleton, Tree.union.injEq, true_and] at h
            subst h
            exact ih.2 _ _ _ h'
      | inUnion hm h => exact List.any_eq_true.2 ⟨_, hm, ih.2 _ _ _ h⟩

/-- A value that is not accepted. -/
theorem not_accepts {S : List (String × List Tree)} {T : String} {v : Val} (f : Nat) (h : may S f T v = false) : ¬ Accepts S T v :=
  fun ha => by rw [(may_ok f).1 T v ha] at h; cases h

/-- `k` may be the name of a member (no statement if there is no fuel left). -/
def nameMay : Nat → List Tree → String → Bool
  | 0, _, _ => true
  | f + 1, fs, k => fs.any fun t => match t with
    | .field (some n) _ => n == k
    | .field none _ => false
    | .union (some n) _ => n == k
    | .union none us => nameMay f us k

theorem name_may {S : List (String × List Tree)} (f : Nat) : ∀ {fs : List Tree} {k : String} {v : Val}, Member S fs k v → nameMay f fs k = true := by
  induction f with
  | zero => intro fs k v _; rfl
  | succ f ih =>
    intro fs k v h
    rw [nameMay]
    cases h with
    | field hm h => exact List.any_eq_true.2 ⟨_, hm, by simp⟩
    | group hm h => exact List.any_eq_true.2 ⟨_, hm, by simp⟩
    | inUnion hm h => exact List.any_eq_true.2 ⟨_, hm, ih h⟩

/-- A dictionary with a key that is no member. -/
theorem not_member {S : List (String × List Tree)} {T : String} {d : Dict} {k : String} {v : Val} (f : Nat) (hk : (k, v) ∈ d)
    (h : (S.all fun e => e.1 != T || !nameMay f e.2 k) = true) : ¬ Accepts S T (.dict d) := by
  intro ha
  cases ha with
  | struct hm hd =>
    cases hd with
    | mk hd _ =>
      have := List.all_eq_true.1 h _ hm
      simp [name_may f (hd _ _ hk)] at this

end BM.Capnp
