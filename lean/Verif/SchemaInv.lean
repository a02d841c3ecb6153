import Verif.Schema
import Mathlib.Tactic.Set
/-!
# Invariants of the visitor of the schema generator
-/
namespace BM.Schema

/-- A struct of this name is in one of the tables. -/
def Visitor.Defined (v : Visitor) (n : String) : Prop := n ∈ v.types.map Prod.fst ∨ n ∈ v.structs.map Prod.fst

/-- `t` is the name of a type, built from the given ones. -/
inductive TypeOK (builtin : List String) (defined : String → Prop) : String → Prop
  | builtin {t} : t ∈ builtin → TypeOK builtin defined t
  | named {n} : defined n → TypeOK builtin defined n
  | list {t} : TypeOK builtin defined t → TypeOK builtin defined ("List(" ++ t ++ ")")

theorem TypeOK.mono {B : List String} {P Q : String → Prop} (h : ∀ n, P n → Q n) {t : String} (ht : TypeOK B P t) : TypeOK B Q t := by
  induction ht with
  | builtin h => exact .builtin h
  | named h' => exact .named (h _ h')
  | list _ ih => exact .list ih

/-- `make_type` gives a type of the list. -/
def Typed (B : List String) (l : Leaf) : Prop := ∃ t, makeType l = .ok (some t) ∧ t ∈ B

mutual
/-- Every field of the construct has a type of the list. -/
def Con.Typed (B : List String) : Con → Prop
  | .struct _ cs => TypedAll B cs
  | .switch _ cs d => TypedCases B cs ∧ TypedDefault B d
  | .select _ cs => TypedAll B cs
  | .renamed _ _ c => c.Typed B
  | .ifThen _ l => Schema.Typed B l
  | .text _ => "Text" ∈ B
  | .many _ c => c.Typed B
  | .focused _ c => c.Typed B
  | .skip _ => True
  | .leaf _ l => Schema.Typed B l
  | .wrap _ c => c.Typed B
/-- The same for all of a list. -/
def TypedAll (B : List String) : List Con → Prop
  | [] => True
  | c :: cs => c.Typed B ∧ TypedAll B cs
/-- The same for the cases of a switch. -/
def TypedCases (B : List String) : List (String × Con) → Prop
  | [] => True
  | (_, c) :: cs => c.Typed B ∧ TypedCases B cs
/-- The same for the default of a switch. -/
def TypedDefault (B : List String) : Option (String × Con) → Prop
  | none => True
  | some (_, c) => c.Typed B
end

/-- What holds of the dictionaries: their names are distinct, their types exist, their unions are later objects. -/
structure DictsOK (B : List String) (defined : String → Prop) (heap : List Fields) : Prop where
  nodup : ∀ d ∈ heap, (d.map Prod.fst).Nodup
  types : ∀ d ∈ heap, ∀ k t, (k, FieldType.ty t) ∈ d → TypeOK B defined t
  refs : ∀ a d, heap[a]? = some d → ∀ k r, (k, FieldType.ref r) ∈ d → a < r ∧ r < heap.length

/-- The third entry of the stack, from the bottom, is a union or a struct of the table. -/
def Third (stack : List (Option String × Nat)) (hasUnion : Bool) (structs : List (String × Nat)) : Prop :=
  ∀ e, stack.reverse[2]? = some e → hasUnion = true ∨ ∃ n, e.1 = some n ∧ n ∈ structs.map Prod.fst

/-- The invariant of the visitor. -/
structure Inv (B : List String) (v : Visitor) : Prop where
  dicts : DictsOK B v.Defined v.heap
  some : v.stack ≠ []
  stack : ∀ e ∈ v.stack, e.2 < v.heap.length
  structs : ∀ e ∈ v.structs, e.2 < v.heap.length
  types : ∀ e ∈ v.types, e.2 < v.heap.length
  structsNodup : (v.structs.map Prod.fst).Nodup
  typesNodup : (v.types.map Prod.fst).Nodup
  third : Third v.stack v.hasUnion v.structs

/-- What a later state of the visitor keeps. -/
structure Grows (v v' : Visitor) : Prop where
  defined : ∀ n, v.Defined n → v'.Defined n
  heap : v.heap.length ≤ v'.heap.length
  union : 3 ≤ v.stack.length → v.hasUnion = true → v'.hasUnion = true
  structs : 3 ≤ v.stack.length → ∀ n, n ∈ v.structs.map Prod.fst → n ∈ v'.structs.map Prod.fst

theorem Grows.refl (v : Visitor) : Grows v v := ⟨fun _ h => h, le_refl _, fun _ h => h, fun _ _ h => h⟩

/-! ### Dictionaries -/

theorem setField_keys (d : Fields) (k : Option String) (t : FieldType) :
    (setField d k t).map Prod.fst = if k ∈ d.map Prod.fst then d.map Prod.fst else d.map Prod.fst ++ [k] := by
  induction d with
  | nil => simp [setField]
  | cons e d ih =>
    obtain ⟨k', t'⟩ := e
    by_cases h : k' = k
    · subst h; simp [setField]
    · simp only [setField, if_neg h, List.map_cons, ih, List.mem_cons, Ne.symm h, false_or]
      split_ifs <;> rfl

theorem setField_nodup {d : Fields} (h : (d.map Prod.fst).Nodup) (k : Option String) (t : FieldType) : ((setField d k t).map Prod.fst).Nodup := by
  rw [setField_keys]
  split_ifs with hk
  · exact h
  · exact List.nodup_append.2 ⟨h, by simp, by rintro a ha b hb rfl; simp at hb; subst hb; exact hk ha⟩

theorem setField_mem {d : Fields} {k k' : Option String} {t t' : FieldType} (h : (k', t') ∈ setField d k t) : (k', t') ∈ d ∨ (k' = k ∧ t' = t) := by
  induction d with
  | nil => simp [setField] at h; exact .inr h
  | cons e d ih =>
    obtain ⟨k'', t''⟩ := e
    simp only [setField] at h
    split_ifs at h with hk
    · rcases List.mem_cons.1 h with h | h
      · cases h; exact .inr ⟨rfl, rfl⟩
      · exact .inl (List.mem_cons_of_mem _ h)
    · rcases List.mem_cons.1 h with h | h
      · exact .inl (h ▸ List.mem_cons_self ..)
      · rcases ih h with h | h
        · exact .inl (List.mem_cons_of_mem _ h)
        · exact .inr h

theorem setAddr_keys (d : List (String × Nat)) (k : String) (a : Nat) :
    (setAddr d k a).map Prod.fst = if k ∈ d.map Prod.fst then d.map Prod.fst else d.map Prod.fst ++ [k] := by
  induction d with
  | nil => simp [setAddr]
  | cons e d ih =>
    obtain ⟨k', t'⟩ := e
    by_cases h : k' = k
    · subst h; simp [setAddr]
    · simp only [setAddr, if_neg h, List.map_cons, ih, List.mem_cons, Ne.symm h, false_or]
      split_ifs <;> rfl

theorem setAddr_nodup {d : List (String × Nat)} (h : (d.map Prod.fst).Nodup) (k : String) (a : Nat) : ((setAddr d k a).map Prod.fst).Nodup := by
  rw [setAddr_keys]
  split_ifs with hk
  · exact h
  · exact List.nodup_append.2 ⟨h, by simp, by rintro a ha b hb rfl; simp at hb; subst hb; exact hk ha⟩

theorem setAddr_mem {d : List (String × Nat)} {k : String} {a : Nat} {e : String × Nat} (h : e ∈ setAddr d k a) : e ∈ d ∨ e = (k, a) := by
  induction d with
  | nil => simp [setAddr] at h; exact .inr h
  | cons x d ih =>
    obtain ⟨k'', t''⟩ := x
    simp only [setAddr] at h
    split_ifs at h with hk
    · rcases List.mem_cons.1 h with h | h
      · exact .inr h
      · exact .inl (List.mem_cons_of_mem _ h)
    · rcases List.mem_cons.1 h with h | h
      · exact .inl (h ▸ List.mem_cons_self ..)
      · rcases ih h with h | h
        · exact .inl (List.mem_cons_of_mem _ h)
        · exact .inr h

theorem mem_setAddr_key (d : List (String × Nat)) (k : String) (a : Nat) (n : String) :
    n ∈ (setAddr d k a).map Prod.fst ↔ n ∈ d.map Prod.fst ∨ n = k := by
  rw [setAddr_keys]
  split_ifs with h
  · constructor
    · exact .inl
    · rintro (h' | rfl)
      · exact h'
      · exact h
  · simp

theorem getAddr_some {d : List (String × Nat)} {k : String} {a : Nat} (h : getAddr d k = some a) : (k, a) ∈ d := by
  simp only [getAddr, Option.map_eq_some_iff] at h
  obtain ⟨e, he, rfl⟩ := h
  have h1 := List.find?_some he
  have h2 := List.mem_of_find?_eq_some he
  simp only [beq_iff_eq] at h1
  subst h1; exact h2

theorem getAddr_none {d : List (String × Nat)} {k : String} (h : getAddr d k = none) : k ∉ d.map Prod.fst := by
  simp only [getAddr, Option.map_eq_none_iff, List.find?_eq_none] at h
  intro hm
  obtain ⟨e, he, rfl⟩ := List.mem_map.1 hm
  exact h e he (by simp)

theorem getField_some {d : Fields} {k : Option String} {a : FieldType} (h : getField d k = some a) : (k, a) ∈ d := by
  simp only [getField, Option.map_eq_some_iff] at h
  obtain ⟨e, he, rfl⟩ := h
  have h1 := List.find?_some he
  have h2 := List.mem_of_find?_eq_some he
  simp only [beq_iff_eq] at h1
  subst h1; exact h2

/-! ### Steps -/

theorem DictsOK.mono {B : List String} {P Q : String → Prop} {heap : List Fields} (h : DictsOK B P heap) (hm : ∀ n, P n → Q n) : DictsOK B Q heap :=
  ⟨h.nodup, fun d hd k t ht => (h.types d hd k t ht).mono hm, h.refs⟩

theorem DictsOK.push {B : List String} {P : String → Prop} {heap : List Fields} (h : DictsOK B P heap) : DictsOK B P (heap ++ [[]]) := by
  refine ⟨?_, ?_, ?_⟩
  · intro d hd
    rcases List.mem_append.1 hd with hd | hd
    · exact h.nodup d hd
    · simp at hd; subst hd; simp
  · intro d hd k t ht
    rcases List.mem_append.1 hd with hd | hd
    · exact h.types d hd k t ht
    · simp at hd; subst hd; simp at ht
  · intro a d hd k r hr
    rw [List.getElem?_append] at hd
    split_ifs at hd with hl
    · have := h.refs a d hd k r hr
      simp; omega
    · rcases hx : a - heap.length with _ | n
      · rw [hx] at hd; simp at hd; subst hd; simp at hr
      · rw [hx] at hd; simp at hd

theorem mem_modify {heap : List Fields} {a : Nat} {f : Fields → Fields} {d : Fields} (h : d ∈ heap.modify a f) :
    d ∈ heap ∨ ∃ d₀, heap[a]? = some d₀ ∧ d = f d₀ := by
  obtain ⟨i, hi⟩ := List.getElem?_of_mem h
  rw [List.getElem?_modify] at hi
  by_cases hai : a = i
  · subst hai
    simp only [if_true] at hi
    cases hh : heap[a]? with
    | none => rw [hh] at hi; simp at hi
    | some d₀ => rw [hh] at hi; simp at hi; exact .inr ⟨d₀, rfl, hi.symm⟩
  · simp only [if_neg hai] at hi
    cases hh : heap[i]? with
    | none => rw [hh] at hi; simp at hi
    | some d₀ => rw [hh] at hi; simp at hi; subst hi; exact .inl (List.mem_of_getElem? hh)

theorem DictsOK.setType {B : List String} {P : String → Prop} {heap : List Fields} (h : DictsOK B P heap) (a : Nat) (k : Option String) {t : String} (ht : TypeOK B P t) :
    DictsOK B P (heap.modify a fun d => setField d k (.ty t)) := by
  refine ⟨?_, ?_, ?_⟩
  · intro d hd
    rcases mem_modify hd with hd | ⟨d₀, h0, rfl⟩
    · exact h.nodup d hd
    · exact setField_nodup (h.nodup d₀ (List.mem_of_getElem? h0)) _ _
  · intro d hd k' t' ht'
    rcases mem_modify hd with hd | ⟨d₀, h0, rfl⟩
    · exact h.types d hd k' t' ht'
    · rcases setField_mem ht' with h' | ⟨-, h'⟩
      · exact h.types d₀ (List.mem_of_getElem? h0) k' t' h'
      · cases h'; exact ht
  · intro i d hd k' r hr
    rw [List.getElem?_modify] at hd
    simp only [List.length_modify]
    by_cases hai : a = i
    · subst hai
      simp only [if_true] at hd
      cases hh : heap[a]? with
      | none => rw [hh] at hd; simp at hd
      | some d₀ =>
        rw [hh] at hd; simp at hd; subst hd
        rcases setField_mem hr with h' | ⟨-, h'⟩
        · exact h.refs a d₀ hh k' r h'
        · cases h'
    · simp only [if_neg hai] at hd
      cases hh : heap[i]? with
      | none => rw [hh] at hd; simp at hd
      | some d₀ => rw [hh] at hd; simp at hd; subst hd; exact h.refs i d₀ hh k' r hr

theorem DictsOK.setUnion {B : List String} {P : String → Prop} {heap : List Fields} (h : DictsOK B P heap) {a : Nat} (k : Option String) (ha : a < heap.length) :
    DictsOK B P ((heap.modify a fun d => setField d k (.ref heap.length)) ++ [[]]) := by
  refine ⟨?_, ?_, ?_⟩
  · intro d hd
    rcases List.mem_append.1 hd with hd | hd
    · rcases mem_modify hd with hd | ⟨d₀, h0, rfl⟩
      · exact h.nodup d hd
      · exact setField_nodup (h.nodup d₀ (List.mem_of_getElem? h0)) _ _
    · simp at hd; subst hd; simp
  · intro d hd k' t' ht'
    rcases List.mem_append.1 hd with hd | hd
    · rcases mem_modify hd with hd | ⟨d₀, h0, rfl⟩
      · exact h.types d hd k' t' ht'
      · rcases setField_mem ht' with h' | ⟨-, h'⟩
        · exact h.types d₀ (List.mem_of_getElem? h0) k' t' h'
        · cases h'
    · simp at hd; subst hd; simp at ht'
  · intro i d hd k' r hr
    simp only [List.length_append, List.length_modify, List.length_singleton]
    rw [List.getElem?_append, List.length_modify] at hd
    split_ifs at hd with hl
    · rw [List.getElem?_modify] at hd
      by_cases hai : a = i
      · subst hai
        simp only [if_true] at hd
        cases hh : heap[a]? with
        | none => rw [hh] at hd; simp at hd
        | some d₀ =>
          rw [hh] at hd; simp at hd; subst hd
          rcases setField_mem hr with h' | ⟨-, h'⟩
          · have := h.refs a d₀ hh k' r h'; omega
          · cases h'; omega
      · simp only [if_neg hai] at hd
        cases hh : heap[i]? with
        | none => rw [hh] at hd; simp at hd
        | some d₀ => rw [hh] at hd; simp at hd; subst hd; have := h.refs i d₀ hh k' r hr; omega
    · rcases hx : i - heap.length with _ | n
      · rw [hx] at hd; simp at hd; subst hd; simp at hr
      · rw [hx] at hd; simp at hd

theorem third_cons {x : Option String × Nat} {s : List (Option String × Nat)} {u : Bool} {S : List (String × Nat)} :
    Third (x :: s) u S ↔ (if s.length < 2 then True else if s.length = 2 then u = true ∨ ∃ n, x.1 = some n ∧ n ∈ S.map Prod.fst else Third s u S) := by
  unfold Third
  simp only [List.reverse_cons, List.getElem?_append, List.length_reverse]
  by_cases h1 : s.length < 2
  · rw [if_pos h1]
    simp only [iff_true]
    intro e he
    rw [if_neg (by omega)] at he
    rcases hx : 2 - s.length with _ | n
    · omega
    · rw [hx] at he; simp at he
  · rw [if_neg h1]
    by_cases h2 : s.length = 2
    · rw [if_pos h2]
      rw [if_neg (by omega)]
      simp [h2]
    · rw [if_neg h2, if_pos (by omega)]

theorem third_mono {s : List (Option String × Nat)} {u u' : Bool} {S S' : List (String × Nat)} (h : Third s u S) (hu : 3 ≤ s.length → u = true → u' = true)
    (hS : 3 ≤ s.length → ∀ n, n ∈ S.map Prod.fst → n ∈ S'.map Prod.fst) : Third s u' S' := by
  intro e he
  have hl : 3 ≤ s.length := by
    have := (List.getElem?_eq_some_iff.1 he).1
    simp at this; omega
  rcases h e he with h | ⟨n, h1, h2⟩
  · exact .inl (hu hl h)
  · exact .inr ⟨n, h1, hS hl n h2⟩

theorem third_short {s : List (Option String × Nat)} {u : Bool} {S : List (String × Nat)} (h : s.length < 3) : Third s u S := by
  intro e he
  have := (List.getElem?_eq_some_iff.1 he).1
  simp at this; omega

theorem current_ok {B : List String} {v : Visitor} (h : Inv B v) : ∃ a, v.current = .ok a ∧ a < v.heap.length := by
  rcases hs : v.stack with _ | ⟨e, rest⟩
  · exact absurd hs h.some
  · exact ⟨e.2, by simp [Visitor.current, hs], h.stack e (by simp [hs])⟩

theorem assign_ok {B : List String} {v : Visitor} (h : Inv B v) (k : Option String) {t : String} (ht : TypeOK B v.Defined t) :
    ∃ v', v.assign k (.ty t) = .ok v' ∧ Inv B v' ∧ v'.stack = v.stack ∧ v'.structs = v.structs ∧ v'.types = v.types ∧ v'.hasUnion = v.hasUnion ∧
      v'.heap.length = v.heap.length := by
  obtain ⟨a, ha, -⟩ := current_ok h
  refine ⟨{ v with heap := v.heap.modify a fun d => setField d k (.ty t) }, by simp only [Visitor.assign, ha, bind, Except.bind, pure, Except.pure], ?_, rfl, rfl, rfl, rfl, by simp⟩
  exact ⟨h.dicts.setType a k ht, h.some, by simpa using h.stack, by simpa using h.structs, by simpa using h.types, h.structsNodup, h.typesNodup, h.third⟩

theorem grows_of_eq {v v' : Visitor} (h1 : v'.structs = v.structs) (h2 : v'.types = v.types) (h3 : v'.hasUnion = v.hasUnion) (h4 : v'.heap.length = v.heap.length) : Grows v v' :=
  ⟨fun n h => by simpa [Visitor.Defined, h1, h2] using h, h4.ge, fun _ h => by rw [h3]; exact h, fun _ n h => by rw [h1]; exact h⟩

/-- A field of a construct with a type. -/
theorem field_ok {B : List String} {v : Visitor} (h : Inv B v) {l : Leaf} (hl : Typed B l) (field name : Option String) (many : Bool) :
    ∃ v', v.field l field name many = .ok v' ∧ Inv B v' ∧ v'.stack = v.stack ∧ Grows v v' := by
  obtain ⟨t, h1, h2⟩ := hl
  have ht : TypeOK B v.Defined (if many then "List(" ++ t ++ ")" else t) := by
    cases many
    · exact .builtin h2
    · exact .list (.builtin h2)
  obtain ⟨v', e1, e2, e3, e4, e5, e6, e7⟩ := assign_ok h (fieldName field) ht
  exact ⟨v', by simpa [Visitor.field, h1, bind, Except.bind] using e1, e2, e3, grows_of_eq e4 e5 e6 e7⟩

/-- Entering a struct. -/
theorem enterStruct_ok {B : List String} {v : Visitor} (h : Inv B v) (field : Option String) (name : String) (many : Bool) :
    ∃ v' a, v.enterStruct field name many = .ok v' ∧ Inv B v' ∧ v'.stack = (some name, a) :: v.stack ∧ Grows v v' ∧ v'.Defined name := by
  obtain ⟨a, ha, hal⟩ := current_ok h
  set t : String := if many then "List(" ++ name ++ ")" else name with ht
  set heap' := v.heap.modify a fun d => setField d (fieldName field) (.ty t) with hheap
  have hlen : heap'.length = v.heap.length := by simp [hheap]
  have eq : v.assign (fieldName field) (.ty t) = .ok { v with heap := heap' } := by
    simp only [Visitor.assign, ha, bind, Except.bind, pure, Except.pure, hheap]
  have tok : ∀ (P : String → Prop), P name → TypeOK B P t := by
    intro P hp
    rw [ht]; cases many
    · exact .named hp
    · exact .list (.named hp)
  rcases hg : getAddr v.structs name with _ | b
  · have hn := getAddr_none hg
    have hdef : ∀ n, v.Defined n → Visitor.Defined { v with structs := v.structs ++ [(name, heap'.length)] } n := by
      rintro n (h | h)
      · exact .inl h
      · exact .inr (by simp only [List.map_append]; exact List.mem_append_left _ h)
    have hself : Visitor.Defined { v with structs := v.structs ++ [(name, heap'.length)] } name := .inr (by simp)
    refine ⟨{ v with heap := heap' ++ [[]], structs := v.structs ++ [(name, heap'.length)], stack := (some name, heap'.length) :: v.stack }, heap'.length, ?_, ?_, rfl, ?_, hself⟩
    · simp only [Visitor.enterStruct, ← ht, eq, bind, Except.bind, pure, Except.pure, hg]
    · refine ⟨((h.dicts.mono hdef).setType a _ (tok _ hself)).push, by simp, ?_, ?_, ?_, ?_, h.typesNodup, ?_⟩
      · intro e he
        simp only [List.length_append, List.length_singleton]
        rcases List.mem_cons.1 he with rfl | he
        · simp
        · have := h.stack e he; omega
      · intro e he
        simp only [List.length_append, List.length_singleton]
        rcases List.mem_append.1 he with he | he
        · have := h.structs e he; omega
        · simp at he; subst he; simp
      · intro e he
        simp only [List.length_append, List.length_singleton]
        have := h.types e he; omega
      · simp only [List.map_append]
        exact List.nodup_append.2 ⟨h.structsNodup, by simp, by rintro x hx y hy rfl; simp at hy; subst hy; exact hn hx⟩
      · rw [third_cons]
        split_ifs
        · exact .inr ⟨name, rfl, by simp⟩
        · exact third_mono h.third (fun _ h => h) (fun _ n hn => by simp only [List.map_append]; exact List.mem_append_left _ hn)
    · exact ⟨hdef, by simp [hlen], fun _ h => h, fun _ n hn => by simp only [List.map_append]; exact List.mem_append_left _ hn⟩
  · have hb := getAddr_some hg
    have hmem : name ∈ v.structs.map Prod.fst := List.mem_map.2 ⟨_, hb, rfl⟩
    refine ⟨{ v with heap := heap', stack := (some name, b) :: v.stack }, b, ?_, ?_, rfl, ?_, .inr hmem⟩
    · simp only [Visitor.enterStruct, ← ht, eq, bind, Except.bind, pure, Except.pure, hg]
    · refine ⟨h.dicts.setType a _ (tok _ (.inr hmem)), by simp, ?_, ?_, ?_, h.structsNodup, h.typesNodup, ?_⟩
      · intro e he
        rw [hlen]
        rcases List.mem_cons.1 he with rfl | he
        · exact h.structs _ hb
        · exact h.stack e he
      · intro e he; rw [hlen]; exact h.structs e he
      · intro e he; rw [hlen]; exact h.types e he
      · rw [third_cons]
        split_ifs
        · exact .inr ⟨name, rfl, hmem⟩
        · exact h.third
    · exact ⟨fun _ h => h, hlen.ge, fun _ h => h, fun _ _ h => h⟩

/-- Entering a union: an error if the name is that of a field with a type. -/
theorem enterUnion_ok {B : List String} {v : Visitor} (h : Inv B v) (field : Option String) :
    (∃ v' x, v.enterUnion field = .ok v' ∧ Inv B v' ∧ v'.stack = x :: v.stack ∧ Grows v v' ∧ v'.hasUnion = true) ∨ v.enterUnion field = .error .type := by
  obtain ⟨a, ha, hal⟩ := current_ok h
  have hget : v.heap[a]? = some (v.heap.getD a []) := by simp [List.getD, hal]
  rcases hg : getField (v.heap.getD a []) (fieldName field) with _ | (t | r)
  · left
    set heap' := (v.heap.modify a fun d => setField d (fieldName field) (.ref v.heap.length)) ++ [[]] with hheap
    have hlen : heap'.length = v.heap.length + 1 := by simp [hheap]
    refine ⟨{ v with heap := heap', stack := (fieldName field, v.heap.length) :: v.stack, hasUnion := true }, (fieldName field, v.heap.length), ?_, ?_, rfl, ?_, rfl⟩
    · simp only [Visitor.enterUnion, ha, bind, Except.bind, pure, Except.pure, hg, hheap]
    · refine ⟨h.dicts.setUnion _ hal, by simp, ?_, ?_, ?_, h.structsNodup, h.typesNodup, ?_⟩
      · intro e he
        rw [hlen]
        rcases List.mem_cons.1 he with rfl | he
        · simp
        · have := h.stack e he; omega
      · intro e he; rw [hlen]; have := h.structs e he; omega
      · intro e he; rw [hlen]; have := h.types e he; omega
      · intro e _; exact .inl rfl
    · exact ⟨fun _ h => h, by rw [hlen]; omega, fun _ _ => rfl, fun _ _ h => h⟩
  · right
    simp only [Visitor.enterUnion, ha, bind, Except.bind, hg]
  · left
    have hr := h.dicts.refs a _ hget _ _ (getField_some hg)
    refine ⟨{ v with stack := (fieldName field, r) :: v.stack, hasUnion := true }, (fieldName field, r), ?_, ?_, rfl, ?_, rfl⟩
    · simp only [Visitor.enterUnion, ha, bind, Except.bind, pure, Except.pure, hg]
    · refine ⟨h.dicts, by simp, ?_, h.structs, h.types, h.structsNodup, h.typesNodup, ?_⟩
      · intro e he
        rcases List.mem_cons.1 he with rfl | he
        · exact hr.2
        · exact h.stack e he
      · intro e _; exact .inl rfl
    · exact ⟨fun _ h => h, le_refl _, fun _ _ => rfl, fun _ _ h => h⟩

theorem mem_erase {d : List (String × Nat)} {n m : String} (h : m ∈ d.map Prod.fst) (hne : m ≠ n) : m ∈ (d.filter fun e => e.1 != n).map Prod.fst := by
  obtain ⟨e, he, rfl⟩ := List.mem_map.1 h
  exact List.mem_map.2 ⟨e, List.mem_filter.2 ⟨he, by simpa using hne⟩, rfl⟩

/-- Leaving: never an error. -/
theorem exit_ok {B : List String} {v : Visitor} (h : Inv B v) {x : Option String × Nat} {s : List (Option String × Nat)} (hs : v.stack = x :: s) (hne : s ≠ []) :
    ∃ v', v.exit = .ok v' ∧ Inv B v' ∧ v'.stack = s ∧ (∀ n, v.Defined n → v'.Defined n) ∧ v'.heap = v.heap ∧
      (3 ≤ s.length → v'.hasUnion = v.hasUnion ∧ v'.structs = v.structs) := by
  obtain ⟨name, a⟩ := x
  have hth := h.third
  rw [hs, third_cons] at hth
  have hstk : ∀ e ∈ s, e.2 < v.heap.length := fun e he => h.stack e (by rw [hs]; exact List.mem_cons_of_mem _ he)
  have ha : a < v.heap.length := h.stack (name, a) (by simp [hs])
  unfold Visitor.exit
  rw [hs]
  simp only [List.length_cons]
  by_cases h3 : s.length + 1 = 3
  · have h2 : s.length = 2 := by omega
    rw [if_pos h3]
    rw [if_neg (by omega), if_pos h2] at hth
    by_cases hu : v.hasUnion = true
    · rw [if_pos hu]
      exact ⟨_, rfl, ⟨h.dicts, hne, hstk, h.structs, h.types, h.structsNodup, h.typesNodup, third_short (show s.length < 3 by omega)⟩, rfl, fun _ h => h, rfl, fun h => absurd h (by omega)⟩
    · rw [if_neg hu]
      rcases hth with hth | ⟨n, hn, hm⟩
      · exact absurd hth hu
      · simp only at hn
        subst hn
        simp only
        have : (getAddr v.structs n).isSome = true := by
          cases hg : getAddr v.structs n with
          | none => exact absurd hm (getAddr_none hg)
          | some _ => rfl
        rw [if_pos this]
        have hdef : ∀ m, v.Defined m → Visitor.Defined { v with types := setAddr v.types n a, structs := v.structs.filter (fun e => e.1 != n) } m := by
          rintro m (hm | hm)
          · exact .inl ((mem_setAddr_key ..).2 (.inl hm))
          · by_cases hmn : m = n
            · exact .inl ((mem_setAddr_key ..).2 (.inr hmn))
            · exact .inr (mem_erase hm hmn)
        refine ⟨_, rfl, ⟨h.dicts.mono hdef, hne, hstk, ?_, ?_, ?_, setAddr_nodup h.typesNodup n a, third_short (show s.length < 3 by omega)⟩, rfl, hdef, rfl, fun h => absurd h (by omega)⟩
        · intro e he; exact h.structs e (List.mem_filter.1 he).1
        · intro e he
          rcases setAddr_mem he with he | rfl
          · exact h.types e he
          · exact ha
        · exact h.structsNodup.sublist ((List.filter_sublist).map _)
  · rw [if_neg h3]
    refine ⟨_, rfl, ⟨h.dicts, hne, hstk, h.structs, h.types, h.structsNodup, h.typesNodup, ?_⟩, rfl, fun _ h => h, rfl, fun _ => ⟨rfl, rfl⟩⟩
    by_cases h2 : s.length < 2
    · exact third_short (show s.length < 3 by omega)
    · rw [if_neg h2, if_neg (by omega)] at hth; exact hth

/-! ### The traversal -/

/-- The outcome of a part of the traversal: it leaves the stack as it was, or a union has the name of a field. -/
def Good (B : List String) (v : Visitor) (r : R Visitor) : Prop :=
  (∃ v', r = .ok v' ∧ Inv B v' ∧ v'.stack = v.stack ∧ Grows v v') ∨ r = .error .type

theorem Grows.trans {v₁ v₂ v₃ : Visitor} (h₁ : Grows v₁ v₂) (h₂ : Grows v₂ v₃) (hs : v₁.stack.length ≤ v₂.stack.length) : Grows v₁ v₃ :=
  ⟨fun n h => h₂.defined n (h₁.defined n h), le_trans h₁.heap h₂.heap, fun hl h => h₂.union (by omega) (h₁.union hl h),
    fun hl n h => h₂.structs (by omega) n (h₁.structs hl n h)⟩

theorem good_ok {B : List String} {v : Visitor} (h : Inv B v) : Good B v (.ok v) := .inl ⟨v, rfl, h, rfl, .refl v⟩

theorem good_bind {B : List String} {v : Visitor} {r : R Visitor} {f : Visitor → R Visitor} (h : Good B v r)
    (hf : ∀ v', Inv B v' → Good B v' (f v')) : Good B v (r >>= f) := by
  rcases h with ⟨v', rfl, h1, h2, h3⟩ | rfl
  · rcases hf v' h1 with ⟨v'', e, h4, h5, h6⟩ | e
    · exact .inl ⟨v'', e, h4, h5.trans h2, h3.trans h6 (by rw [h2])⟩
    · exact .inr e
  · exact .inr rfl

/-- A part between entering and leaving. -/
theorem good_block {B : List String} {v v₁ : Visitor} {x : Option String × Nat} {r : R Visitor} (hne : v.stack ≠ []) (hs : v₁.stack = x :: v.stack) (hg : Grows v v₁)
    (h : Good B v₁ r) : Good B v (r >>= Visitor.exit) := by
  rcases h with ⟨v₂, rfl, h1, h2, h3⟩ | rfl
  · obtain ⟨v₃, e, h4, h5, h6, h7, h8⟩ := exit_ok h1 (h2.trans hs) hne
    have hl : v₁.stack.length = v.stack.length + 1 := by rw [hs]; rfl
    refine .inl ⟨v₃, e, h4, h5, ⟨fun n h => h6 n (h3.defined n (hg.defined n h)), ?_, ?_, ?_⟩⟩
    · rw [h7]; exact le_trans hg.heap h3.heap
    · intro hl' hu
      rw [(h8 hl').1]; exact h3.union (by omega) (hg.union hl' hu)
    · intro hl' n hn
      rw [(h8 hl').2]; exact h3.structs (by omega) n (hg.structs hl' n hn)
  · exact .inr rfl

theorem good_struct {B : List String} {v : Visitor} (h : Inv B v) (field : Option String) (name : String) (many : Bool) {f : Visitor → R Visitor}
    (hf : ∀ v', Inv B v' → Good B v' (f v')) : Good B v (do let v ← v.enterStruct field name many; let v ← f v; v.exit) := by
  obtain ⟨v₁, a, e, h1, h2, h3, -⟩ := enterStruct_ok h field name many
  rw [e]
  exact good_block h.some h2 h3 (hf v₁ h1)

theorem good_union {B : List String} {v : Visitor} (h : Inv B v) (field : Option String) {f : Visitor → R Visitor}
    (hf : ∀ v', Inv B v' → Good B v' (f v')) : Good B v (do let v ← v.enterUnion field; let v ← f v; v.exit) := by
  rcases enterUnion_ok h field with ⟨v₁, x, e, h1, h2, h3, -⟩ | e
  · rw [e]
    exact good_block h.some h2 h3 (hf v₁ h1)
  · rw [e]; exact .inr rfl

theorem good_field {B : List String} {v : Visitor} (h : Inv B v) {l : Leaf} (hl : Typed B l) (field name : Option String) (many : Bool) :
    Good B v (v.field l field name many) := by
  obtain ⟨v', h1, h2, h3, h4⟩ := field_ok h hl field name many
  exact .inl ⟨v', h1, h2, h3, h4⟩

mutual
/-- The traversal of a construct. -/
theorem convert_good {B : List String} (c : Con) (hc : c.Typed B) (v : Visitor) (h : Inv B v) (field given : Option String) (many : Bool) (message : Option String) :
    Good B v (convert c v field given many message) := by
  cases c with
  | skip nm =>
    rw [convert]; split
    · exact good_ok h
    · exact good_ok h
  | struct nm cs =>
    rw [convert]; split
    · exact good_ok h
    · exact good_struct h field _ many (fun v' h' => convertAll_good cs hc v' h' message)
  | switch nm cs d =>
    rw [convert]; split
    · exact good_ok h
    · have body : ∀ v', Inv B v' → Good B v' (do let v ← convertCases cs v' message; convertDefault d v (structNameOf given (.switch nm cs d) message) message) :=
        fun v' h' => good_bind (convertCases_good cs hc.1 v' h' message) fun v'' h'' => convertDefault_good d hc.2 v'' h'' _ message
      split
      · have := good_struct h field (structNameOf given (.switch nm cs d) message) many (fun v' h' => good_union h' none body)
        simpa only [bind_assoc] using this
      · have := good_union h field body
        simpa only [bind_assoc] using this
  | select nm cs =>
    rw [convert]; split
    · exact good_ok h
    · split
      · have := good_struct h field (structNameOf given (.select nm cs) message) many (fun v' h' => good_union h' none (fun v'' h'' => convertAll_good cs hc v'' h'' message))
        simpa only [bind_assoc] using this
      · exact good_union h field (fun v' h' => convertAll_good cs hc v' h' message)
  | renamed nm n c =>
    rw [convert]; split
    · exact good_ok h
    · exact convert_good c hc v h _ _ many message
  | ifThen nm l =>
    rw [convert]; split
    · exact good_ok h
    · exact good_field h hc field none false
  | text nm =>
    rw [convert]; split
    · exact good_ok h
    · exact good_field h ⟨"Text", rfl, hc⟩ field _ false
  | many nm c =>
    rw [convert]; split
    · exact good_ok h
    · exact convert_good c hc v h field _ true message
  | focused nm c =>
    rw [convert]; split
    · exact good_ok h
    · exact convert_good c hc v h field _ false none
  | leaf nm l =>
    rw [convert]; split
    · exact good_ok h
    · exact good_field h hc field _ many
  | wrap nm c =>
    rw [convert]; split
    · exact good_ok h
    · exact convert_good c hc v h field _ many message
theorem convertAll_good {B : List String} (cs : List Con) (hc : TypedAll B cs) (v : Visitor) (h : Inv B v) (message : Option String) :
    Good B v (convertAll cs v message) := by
  cases cs with
  | nil => rw [convertAll]; exact good_ok h
  | cons c cs =>
    rw [convertAll]
    exact good_bind (convert_good c hc.1 v h none none false message) fun v' h' => convertAll_good cs hc.2 v' h' message
theorem convertCases_good {B : List String} (cs : List (String × Con)) (hc : TypedCases B cs) (v : Visitor) (h : Inv B v) (message : Option String) :
    Good B v (convertCases cs v message) := by
  cases cs with
  | nil => rw [convertCases]; exact good_ok h
  | cons c cs =>
    obtain ⟨k, c⟩ := c
    rw [convertCases]
    exact good_bind (convert_good c hc.1 v h (some k) none false message) fun v' h' => convertCases_good cs hc.2 v' h' message
theorem convertDefault_good {B : List String} (d : Option (String × Con)) (hc : TypedDefault B d) (v : Visitor) (h : Inv B v) (name : String) (message : Option String) :
    Good B v (convertDefault d v name message) := by
  cases d with
  | none => rw [convertDefault]; exact good_ok h
  | some c =>
    obtain ⟨k, c⟩ := c
    rw [convertDefault]
    exact convert_good c hc v h (some k) (some name) false message
end

theorem visitAll_good {B : List String} (ms : List (Option String × Con)) (hc : ∀ m ∈ ms, m.2.Typed B) (v : Visitor) (h : Inv B v) : Good B v (visitAll ms v) := by
  induction ms generalizing v with
  | nil => exact good_ok h
  | cons m ms ih =>
    exact good_bind (convert_good m.2 (hc m (by simp)) v h m.1 none false m.2.nm) fun v' h' => ih (fun m hm => hc m (by simp [hm])) v' h'

theorem init_inv (B : List String) (n : String) : Inv B (Visitor.init n) := by
  refine ⟨⟨?_, ?_, ?_⟩, by simp [Visitor.init], by simp [Visitor.init], by simp [Visitor.init], by simp [Visitor.init], by simp [Visitor.init], by simp [Visitor.init],
    third_short (by simp [Visitor.init])⟩
  · intro d hd; simp [Visitor.init] at hd; subst hd; simp
  · intro d hd k t ht; simp [Visitor.init] at hd; subst hd; simp at ht
  · intro a d hd k r hr
    rcases a with _ | a
    · simp [Visitor.init] at hd; subst hd; simp at hr
    · simp [Visitor.init] at hd

end BM.Schema
