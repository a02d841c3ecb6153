import Verif.SchemaInv
/-!
# The whole schema: the dictionaries at the time of printing
-/
namespace BM.Schema

/-! ### `update` -/

theorem update_nodup {d e : Fields} (h : (d.map Prod.fst).Nodup) : ((update d e).map Prod.fst).Nodup := by
  induction e generalizing d with
  | nil => exact h
  | cons x e ih => exact ih (setField_nodup h _ _)

theorem update_mem {d e : Fields} {x : Option String × FieldType} (h : x ∈ update d e) : x ∈ d ∨ x ∈ e := by
  induction e generalizing d with
  | nil => exact .inl h
  | cons y e ih =>
    rcases ih (d := setField d y.1 y.2) h with h | h
    · rcases setField_mem (k' := x.1) (t' := x.2) h with h | ⟨h1, h2⟩
      · exact .inl h
      · exact .inr (by rw [show x = y from Prod.ext h1 h2]; exact List.mem_cons_self ..)
    · exact .inr (List.mem_cons_of_mem _ h)

/-- What holds of the dictionaries while the unions of the messages are gathered: `u` is the address of the union of `AccessMessage`. -/
structure Late (B : List String) (P : String → Prop) (u : Nat) (v : Visitor) : Prop where
  len : v.heap.length = u + 2
  nodup : ∀ d ∈ v.heap, (d.map Prod.fst).Nodup
  types : ∀ d ∈ v.heap, ∀ k t, (k, FieldType.ty t) ∈ d → TypeOK B P t
  low : ∀ a d, a < u → v.heap[a]? = some d → ∀ k r, (k, FieldType.ref r) ∈ d → a < r ∧ r < u
  union : ∀ d, v.heap[u]? = some d → ∀ k r, (k, FieldType.ref r) ∈ d → r < u
  top : ∀ d, v.heap[u + 1]? = some d → ∀ k r, (k, FieldType.ref r) ∈ d → r = u
  structs : ∀ e ∈ v.structs, e.2 < u + 2
  tys : ∀ e ∈ v.types, e.2 < u + 2
  structsNodup : (v.structs.map Prod.fst).Nodup
  typesNodup : (v.types.map Prod.fst).Nodup

theorem getD_of {heap : List Fields} {a : Nat} (h : a < heap.length) : heap[a]? = some (heap.getD a []) := by
  simp [List.getD, h]

theorem gather_late {B : List String} {P : String → Prop} {u : Nat} {v : Visitor} (h : Late B P u v) (m : Con) : Late B P u (gather u v m) := by
  unfold gather
  cases hn : m.nm with
  | none => exact h
  | some n =>
    simp only
    have hS : ∀ e ∈ v.structs.filter (fun e => e.1 != n), e.2 < u + 2 := fun e he => h.structs e (List.mem_filter.1 he).1
    have hN : ((v.structs.filter (fun e => e.1 != n)).map Prod.fst).Nodup := h.structsNodup.sublist ((List.filter_sublist).map _)
    have base : Late B P u { v with structs := v.structs.filter (fun e => e.1 != n) } :=
      ⟨h.len, h.nodup, h.types, h.low, h.union, h.top, hS, h.tys, hN, h.typesNodup⟩
    cases hf : (getAddr v.structs n).or (getAddr v.types n) with
    | none => exact base
    | some a =>
      simp only
      have ha : a < u + 2 := by
        rcases Option.or_eq_some_iff.1 hf with h' | ⟨-, h'⟩
        · exact h.structs _ (getAddr_some h')
        · exact h.tys _ (getAddr_some h')
      cases hg : getField (v.heap.getD a []) none with
      | none => exact base
      | some t =>
        cases t with
        | ty t => exact base
        | ref r =>
          simp only
          have hr : r ≤ u := by
            have hmem := getField_some hg
            have hget := getD_of (heap := v.heap) (a := a) (by rw [h.len]; exact ha)
            rcases Nat.lt_trichotomy a u with h1 | h1 | h1
            · exact (h.low a _ h1 hget _ _ hmem).2.le
            · subst h1; exact (h.union _ hget _ _ hmem).le
            · have : a = u + 1 := by omega
              subst this; exact (h.top _ hget _ _ hmem).le
          have hgr := getD_of (heap := v.heap) (a := r) (by rw [h.len]; omega)
          refine ⟨by simp [h.len], ?_, ?_, ?_, ?_, ?_, hS, h.tys, hN, h.typesNodup⟩
          · intro d hd
            rcases mem_modify hd with hd | ⟨d₀, h0, rfl⟩
            · exact h.nodup d hd
            · exact update_nodup (h.nodup d₀ (List.mem_of_getElem? h0))
          · intro d hd k t ht
            rcases mem_modify hd with hd | ⟨d₀, h0, rfl⟩
            · exact h.types d hd k t ht
            · rcases update_mem ht with ht | ht
              · exact h.types d₀ (List.mem_of_getElem? h0) k t ht
              · exact h.types _ (List.mem_of_getElem? hgr) k t ht
          · intro a' d ha' hd k r' hr'
            rw [List.getElem?_modify] at hd
            simp only [show ¬ u = a' by omega, if_false] at hd
            exact h.low a' d ha' (by simpa using hd) k r' hr'
          · intro d hd k r' hr'
            rw [List.getElem?_modify] at hd
            simp only [if_true] at hd
            obtain ⟨d₀, h0, rfl⟩ := Option.map_eq_some_iff.1 hd
            rcases update_mem hr' with h' | h'
            · exact h.union d₀ h0 k r' h'
            · rcases Nat.lt_or_ge r u with hlt | hge
              · exact (h.low r _ hlt hgr k r' h').2
              · have : r = u := by omega
                subst this; exact h.union _ hgr k r' h'
          · intro d hd k r' hr'
            rw [List.getElem?_modify] at hd
            simp only [show ¬ u = u + 1 by omega, if_false] at hd
            exact h.top d (by simpa using hd) k r' hr'

theorem gather_types (u : Nat) (v : Visitor) (m : Con) : (gather u v m).types = v.types := by
  unfold gather
  split
  · rfl
  · simp only; split
    · rfl
    · split <;> rfl

theorem gather_structs (u : Nat) (v : Visitor) (m : Con) {n : String} (h : n ∈ v.structs.map Prod.fst) :
    n ∈ (gather u v m).structs.map Prod.fst ∨ m.nm = some n := by
  unfold gather
  split
  · exact .inl h
  · rename_i n' hn
    by_cases he : n = n'
    · exact .inr (by rw [he]; exact hn)
    · left
      simp only; split
      · exact mem_erase h he
      · split
        · exact mem_erase h he
        · exact mem_erase h he

theorem gather_struct_sub (u : Nat) (v : Visitor) (m : Con) {e : String × Nat} (h : e ∈ (gather u v m).structs) : e ∈ v.structs := by
  unfold gather at h
  split at h
  · exact h
  · simp only at h; split at h
    · exact (List.mem_filter.1 h).1
    · split at h
      · exact (List.mem_filter.1 h).1
      · exact (List.mem_filter.1 h).1

theorem gatherAll {B : List String} {P : String → Prop} {u : Nat} (ms : List (Option String × Con)) {v : Visitor} (h : Late B P u v) :
    Late B P u (ms.foldl (fun v m => gather u v m.2) v) ∧
    ∀ n, v.Defined n → (ms.foldl (fun v m => gather u v m.2) v).Defined n ∨ ∃ m ∈ ms, m.2.nm = some n := by
  induction ms generalizing v with
  | nil => exact ⟨h, fun n hn => .inl hn⟩
  | cons m ms ih =>
    obtain ⟨h1, h2⟩ := ih (gather_late h m.2)
    refine ⟨h1, fun n hn => ?_⟩
    have : (gather u v m.2).Defined n ∨ m.2.nm = some n := by
      rcases hn with hn | hn
      · exact .inl (.inl (by rw [gather_types]; exact hn))
      · rcases gather_structs u v m.2 hn with h | h
        · exact .inl (.inr h)
        · exact .inr h
    rcases this with h | h
    · rcases h2 n h with h | ⟨m', hm', h⟩
      · exact .inl h
      · exact .inr ⟨m', List.mem_cons_of_mem _ hm', h⟩
    · exact .inr ⟨m, List.mem_cons_self .., h⟩

theorem late_init {B : List String} (hB : "UInt32" ∈ B) {v : Visitor} (h : Inv B v) :
    Late B (Visitor.Defined { v with structs := setAddr v.structs "AccessMessage" (v.heap.length + 1) }) v.heap.length
      { v with heap := v.heap ++ [[], [(some "opcode", .ty "UInt32"), (none, .ref v.heap.length)]], structs := setAddr v.structs "AccessMessage" (v.heap.length + 1) } := by
  have hd : ∀ n, v.Defined n → Visitor.Defined { v with structs := setAddr v.structs "AccessMessage" (v.heap.length + 1) } n := by
    rintro n (h | h)
    · exact .inl h
    · exact .inr ((mem_setAddr_key ..).2 (.inl h))
  refine ⟨by simp, ?_, ?_, ?_, ?_, ?_, ?_, ?_, setAddr_nodup h.structsNodup _ _, h.typesNodup⟩
  · intro d hm
    rcases List.mem_append.1 hm with hm | hm
    · exact h.dicts.nodup d hm
    · simp at hm; rcases hm with rfl | rfl <;> simp
  · intro d hm k t ht
    rcases List.mem_append.1 hm with hm | hm
    · exact (h.dicts.types d hm k t ht).mono hd
    · simp at hm; rcases hm with rfl | rfl
      · simp at ht
      · simp at ht; obtain ⟨rfl, rfl⟩ := ht; exact .builtin hB
  · intro a d ha hg k r hr
    rw [List.getElem?_append_left ha] at hg
    exact h.dicts.refs a d hg k r hr
  · intro d hg k r hr
    rw [List.getElem?_append_right (le_refl _)] at hg
    simp at hg; subst hg; simp at hr
  · intro d hg k r hr
    rw [List.getElem?_append_right (by omega)] at hg
    simp at hg; subst hg; simp at hr; exact hr.2
  · intro e he
    rcases setAddr_mem he with he | rfl
    · have := h.structs e he; simp only at *; omega
    · simp
  · intro e he
    have := h.types e he; simp only at *; omega

/-- What is known when the schema is printed. -/
theorem collect_late {B : List String} (hB : "UInt32" ∈ B) {ms : List (Option String × Con)} (hm : ∀ m ∈ ms, m.2.Typed B) :
    (∃ v u, collect ms = .ok v ∧ Late B (fun n => v.Defined n ∨ ∃ m ∈ ms, m.2.nm = some n) u v) ∨ collect ms = .error .type := by
  rcases visitAll_good ms hm _ (init_inv B "AccessMessage") with ⟨v, e, h1, -, -⟩ | e
  · left
    have hl := late_init hB h1
    obtain ⟨h2, h3⟩ := gatherAll ms hl
    refine ⟨_, v.heap.length, by simp only [collect, e, bind, Except.bind, pure, Except.pure]; rfl, ?_⟩
    exact ⟨h2.len, h2.nodup, fun d hd k t ht => (h2.types d hd k t ht).mono h3, h2.low, h2.union, h2.top, h2.structs, h2.tys, h2.structsNodup, h2.typesNodup⟩
  · right
    simp only [collect, e, bind, Except.bind]

/-! ### Trees -/

/-- One level of a dictionary. -/
def level (below : Nat → List Tree) (d : Fields) : List Tree :=
  d.map fun e => match e.2 with
    | .ty t => .field e.1 t
    | .ref r => .union e.1 (below r)

theorem tree_succ (heap : List Fields) (f a : Nat) : tree heap (f + 1) a = level (tree heap f) (heap.getD a []) := rfl

theorem level_congr {f g : Nat → List Tree} {d : Fields} (h : ∀ k r, (k, FieldType.ref r) ∈ d → f r = g r) : level f d = level g d := by
  unfold level
  refine List.map_congr_left fun e he => ?_
  obtain ⟨k, t⟩ := e
  cases t with
  | ty t => rfl
  | ref r => simp only; rw [h k r he]

theorem tree_stable {heap : List Fields} (ρ : Nat → Nat) (hρ : ∀ a k r, (k, FieldType.ref r) ∈ heap.getD a [] → ρ r < ρ a) (f a : Nat) (h : ρ a < f) :
    tree heap f a = tree heap (f + 1) a := by
  induction f generalizing a with
  | zero => omega
  | succ f ih =>
    rw [tree_succ, tree_succ]
    exact level_congr fun k r hr => ih r (by have := hρ a k r hr; omega)

/-- The dictionaries below an address: the bound on the depth does not matter. -/
theorem late_tree {B : List String} {P : String → Prop} {u : Nat} {v : Visitor} (h : Late B P u v) (a : Nat) (ha : a < v.heap.length) :
    tree v.heap (v.heap.length + 2) a = level (tree v.heap (v.heap.length + 2)) (v.heap.getD a []) := by
  let ρ : Nat → Nat := fun a => if a < u then u - a else if a = u then u + 1 else if a = u + 1 then u + 2 else 0
  have hρ : ∀ a k r, (k, FieldType.ref r) ∈ v.heap.getD a [] → ρ r < ρ a := by
    intro a k r hr
    by_cases hl : a < v.heap.length
    · have hg := getD_of hl
      rw [h.len] at hl
      simp only [ρ]
      rcases Nat.lt_trichotomy a u with h1 | h1 | h1
      · have := h.low a _ h1 hg k r hr
        rw [if_pos this.2, if_pos h1]; omega
      · subst h1
        have := h.union _ hg k r hr
        rw [if_pos this, if_neg (by omega), if_pos rfl]; omega
      · have : a = u + 1 := by omega
        subst this
        have := h.top _ hg k r hr
        subst this
        simp; rw [if_neg (by omega)]; omega
    · simp [List.getD, hl] at hr
  have hb : ρ a < v.heap.length + 2 := by
    rw [h.len] at *; simp only [ρ]; split_ifs <;> omega
  rw [tree_stable ρ hρ _ a hb, tree_succ]

end BM.Schema
