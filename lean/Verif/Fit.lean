import Verif.SpecCapnp
import Verif.CapnpSchema
import Verif.RaisesTime
/-!
# Decoded values and the schema (C50): machinery

`Fit T c`: whatever the construct `c` reads, the converted value is accepted by `T`, a type of the schema or a union with a name.
-/
namespace BM.Capnp
open BM.Schema BM.Case Config

/-- Where a value goes: to a field with a type, or to a union with a name. -/
inductive Slot
  | type (T : String)
  | group (us : List Tree)

/-- The value is accepted. -/
def Slot.Takes : Slot → Val → Prop
  | .type T, v => Accepts schema T v
  | .group us, v => ∃ d, v = .dict d ∧ Members schema [.union none us] d

/-- Everything the construct reads is accepted, after conversion. -/
def Fit {α} (T : Slot) (c : Con α) : Prop := ∀ L ctx s v r, c.parse L ctx s = .ok (v, r) → T.Takes (toCamelcaseDict v)

/-- Everything the construct reads is an integer that is accepted. -/
def FitInt {α} (T : Slot) (c : Con α) : Prop := ∀ L ctx s v r, c.parse L ctx s = .ok (v, r) → ∃ n : Int, v = .int n ∧ T.Takes (.int n)

/-- The entries of a dictionary under construction are accepted. -/
def Ok (fs : List Tree) (d : Dict) : Prop := ∀ k v, (k, v) ∈ d → k ≠ "_name" ∧ (isPrivate k = true ∨ Member schema fs (camelcase k) (toCamelcaseDict v))

/-- A member of a structure adds accepted entries. -/
def FitI {α} (fs : List Tree) (it : Item α) : Prop := ∀ L acc s d r, Ok fs acc → it.parse L acc s = .ok (d, r) → Ok fs d

/-- The members of a structure. -/
def FitIs {α} (fs : List Tree) (its : List (Item α)) : Prop := ∀ L acc s d r, Ok fs acc → parseItems L its acc s = .ok (d, r) → Ok fs d

/-! ### Lemmas found by instance search -/

/-- The converted name. -/
class Camel (k : String) (k' : outParam String) : Prop where
  eq : camelcase k = k'
  pub : isPrivate k = false

/-- The converted name of an opcode. -/
class CamelName (N : String) (k' : outParam String) : Prop where
  eq : camelcase (lower N) = k'

/-- A member of a struct. -/
class HasMember (fs : List Tree) (k : String) (T : outParam Slot) : Prop where
  takes : ∀ v, T.Takes v → Member schema fs k v

/-- A struct of the schema without a union that has no name. -/
class IsPlain (T : String) (fs : outParam (List Tree)) : Prop where
  mem : (T, fs) ∈ schema
  plain : ∀ us, Tree.union none us ∉ fs

theorem member_field {fs : List Tree} {k T : String} (i : Nat) (h : fs[i]? = some (.field (some k) T)) : HasMember fs k (.type T) :=
  ⟨fun _ hv => .field (List.mem_of_getElem? h) hv⟩

theorem member_group {fs : List Tree} {k : String} {us : List Tree} (i : Nat) (h : fs[i]? = some (.union (some k) us)) : HasMember fs k (.group us) :=
  ⟨by rintro _ ⟨d, rfl, hd⟩; exact .group (List.mem_of_getElem? h) hd⟩

theorem member_inner {fs us : List Tree} {k : String} {T : Slot} (i : Nat) (h : fs[i]? = some (.union none us)) [m : HasMember us k T] : HasMember fs k T :=
  ⟨fun v hv => .inUnion (List.mem_of_getElem? h) (m.takes v hv)⟩

/-- No union without a name. -/
def noUnion : List Tree → Bool
  | [] => true
  | .union none _ :: _ => false
  | _ :: ts => noUnion ts

theorem noUnion_spec : ∀ {fs : List Tree}, noUnion fs = true → ∀ us, Tree.union none us ∉ fs
  | [], _, us, h => by cases h
  | .field n t :: ts, hn, us, h => by
    rcases List.mem_cons.1 h with h | h
    · cases h
    · exact noUnion_spec (fs := ts) (by simpa [noUnion] using hn) us h
  | .union (some n) t :: ts, hn, us, h => by
    rcases List.mem_cons.1 h with h | h
    · cases h
    · exact noUnion_spec (fs := ts) (by simpa [noUnion] using hn) us h
  | .union none t :: ts, hn, _, _ => by simp [noUnion] at hn

theorem isPlain {T : String} {fs : List Tree} (i : Nat) (h : schema[i]? = some (T, fs)) (hn : noUnion fs = true) : IsPlain T fs :=
  ⟨List.mem_of_getElem? h, noUnion_spec hn⟩

/-- The unions without a name. -/
def unionsOf : List Tree → List (List Tree)
  | [] => []
  | .union none us :: ts => us :: unionsOf ts
  | _ :: ts => unionsOf ts

theorem unionsOf_mem : ∀ {fs : List Tree} {us : List Tree}, Tree.union none us ∈ fs → us ∈ unionsOf fs
  | .union none us' :: ts, us, h => by
    rcases List.mem_cons.1 h with h | h
    · injection h with _ h; subst h; exact List.mem_cons_self
    · exact List.mem_cons_of_mem _ (unionsOf_mem h)
  | .field n t :: ts, us, h => by
    rcases List.mem_cons.1 h with h | h
    · cases h
    · exact unionsOf_mem (fs := ts) h
  | .union (some n) t :: ts, us, h => by
    rcases List.mem_cons.1 h with h | h
    · cases h
    · exact unionsOf_mem (fs := ts) h

/-- A struct of the schema with one union that has no name. -/
class IsUnion (T : String) (fs us : outParam (List Tree)) : Prop where
  mem : (T, fs) ∈ schema
  one : ∀ us', Tree.union none us' ∈ fs → us' = us

theorem isUnion {T : String} {fs us : List Tree} (i : Nat) (h : schema[i]? = some (T, fs)) (hn : unionsOf fs = [us]) : IsUnion T fs us :=
  ⟨List.mem_of_getElem? h, fun us' hm => by have := unionsOf_mem hm; rw [hn] at this; exact List.mem_singleton.1 this⟩

theorem forall_pair_nil {p : String → Val → Prop} : ∀ k v, (k, v) ∈ ([] : Dict) → p k v := by intro k v h; cases h
theorem forall_pair_cons {p : String → Val → Prop} {k₀ v₀} {d : Dict} (h : p k₀ v₀) (hs : ∀ k v, (k, v) ∈ d → p k v) : ∀ k v, (k, v) ∈ (k₀, v₀) :: d → p k v := by
  intro k v hm
  rcases List.mem_cons.1 hm with hm | hm
  · injection hm with h1 h2; subst h1 h2; exact h
  · exact hs k v hm

/-! ### Integers -/

/-- The type `T` can hold all integers of `n` bits. -/
def intOK (T : String) (s : Bool) (n : Nat) : Bool :=
  intTypes.any fun e => e.1 == T && (if s then e.2.1 && n ≤ e.2.2 else if e.2.1 then decide (n < e.2.2) else decide (n ≤ e.2.2))

theorem pow_le_int {m n : Nat} (h : m ≤ n) : (2 : Int) ^ m ≤ 2 ^ n := by
  have : (2 : Nat) ^ m ≤ 2 ^ n := Nat.pow_le_pow_right (by decide) h
  exact_mod_cast this

theorem accepts_int {T : String} {s : Bool} {n : Nat} (h : intOK T s n = true) {k : Int} (hk : Holds s n k) (hn : 0 < n) : Accepts schema T (.int k) := by
  obtain ⟨⟨T', s', w⟩, hm, he⟩ := List.any_eq_true.1 h
  simp only [Bool.and_eq_true, beq_iff_eq] at he
  obtain ⟨rfl, he⟩ := he
  refine .int hm ?_
  cases s with
  | true =>
    simp only [if_true, Bool.and_eq_true, decide_eq_true_eq] at he
    obtain ⟨rfl, he⟩ := he
    simp only [Holds, if_true] at hk ⊢
    have := pow_le_int (m := n - 1) (n := w - 1) (by omega)
    omega
  | false =>
    simp only [Bool.false_eq_true, if_false] at he
    simp only [Holds, Bool.false_eq_true, if_false] at hk
    cases s' with
    | true =>
      simp only [if_true, decide_eq_true_eq] at he
      simp only [Holds, if_true]
      have := pow_le_int (m := n) (n := w - 1) (by omega)
      have := pow_le_int (m := 0) (n := w - 1) (by omega)
      omega
    | false =>
      simp only [Bool.false_eq_true, if_false, decide_eq_true_eq] at he
      simp only [Holds, Bool.false_eq_true, if_false]
      have := pow_le_int (m := n) (n := w) he
      omega

section
variable {α : Type}

theorem FitInt.fit {T : Slot} {c : Con α} (h : FitInt T c) : Fit T c := by
  intro L ctx s v r hp
  obtain ⟨n, rfl, hn⟩ := h L ctx s v r hp
  exact hn

theorem takeN_ok {n : Nat} {s b t : List α} (h : takeN n s = .ok (b, t)) : b.length = n := by
  unfold takeN at h
  split at h
  · injection h with h; injection h with h _; subst h
    rw [List.length_take, Nat.min_eq_left (by assumption)]
  · cases h

/-- A fixed number of bytes. -/
theorem parse_take {n : Nat} {f : List α → Val} {s r : List α} {v : Val} (h : (do let (b, rest) ← takeN n s; Except.ok (f b, rest) : R (Val × List α)) = .ok (v, r)) :
    ∃ b, b.length = n ∧ v = f b := by
  cases ht : takeN n s with
  | error e => rw [ht] at h; cases h
  | ok x =>
    obtain ⟨b, t⟩ := x
    rw [ht] at h
    injection h with h; injection h with h _
    exact ⟨b, takeN_ok ht, h.symm⟩
end

theorem holds_nat {n k : Nat} (h : k < 2 ^ n) : Holds false n k := by
  simp only [Holds, Bool.false_eq_true, if_false]
  have : ((k : Nat) : Int) < ((2 ^ n : Nat) : Int) := by exact_mod_cast h
  push_cast at this
  omega

theorem pow256 (n : Nat) : 256 ^ n = 2 ^ (8 * n) := by rw [Nat.pow_mul]

theorem holds_signed {n k : Nat} (hn : 0 < n) (h : k < 2 ^ n) : Holds true n (toSigned (2 ^ n) k) := by
  simp only [Holds, if_true]
  obtain ⟨m, rfl⟩ : ∃ m, n = m + 1 := ⟨n - 1, by omega⟩
  have h1 : (2 : Int) ^ (m + 1) = 2 * 2 ^ m := by rw [Int.pow_succ]; omega
  have h2 : ((2 ^ (m + 1) : Nat) : Int) = 2 ^ (m + 1) := by push_cast; rfl
  have h3 : ((k : Nat) : Int) < ((2 ^ (m + 1) : Nat) : Int) := by exact_mod_cast h
  simp only [Nat.add_sub_cancel]
  have h5 : (0 : Int) < 2 ^ m := by positivity
  unfold toSigned
  split <;> omega

section
variable {T : String}
theorem fit_uint {n} (h : intOK T false (8 * n) = true) (h0 : 0 < n) : FitInt (.type T) (uintLE n) := by
  intro L ctx s v r hp
  obtain ⟨b, hb, rfl⟩ := parse_take (f := fun b => .int (leNat b)) hp
  refine ⟨_, rfl, accepts_int h (holds_nat ?_) (by omega)⟩
  have := leNat_lt b; rwa [hb, pow256] at this
theorem fit_bytesInt {n} (h : intOK T false (8 * n) = true) (h0 : 0 < n) : FitInt (.type T) (bytesIntLE n) := fit_uint h h0
theorem fit_bytesIntBE {n} (h : intOK T false (8 * n) = true) (h0 : 0 < n) : FitInt (.type T) (bytesIntBE n) := by
  intro L ctx s v r hp
  obtain ⟨b, hb, rfl⟩ := parse_take (f := fun b => .int (leNat b.reverse)) hp
  refine ⟨_, rfl, accepts_int h (holds_nat ?_) (by omega)⟩
  have := leNat_lt b.reverse; rwa [List.length_reverse, hb, pow256] at this
theorem fit_sint {n} (h : intOK T true (8 * n) = true) (h0 : 0 < n) : FitInt (.type T) (sintLE n) := by
  intro L ctx s v r hp
  obtain ⟨b, hb, rfl⟩ := parse_take (f := fun b => .int (toSigned (256 ^ n) (leNat b))) hp
  refine ⟨_, rfl, accepts_int h ?_ (n := 8 * n) (by omega)⟩
  have := leNat_lt b
  rw [hb, pow256] at this
  rw [pow256]
  exact holds_signed (by omega) this
theorem fit_bytesSInt {n} (h : intOK T true (8 * n) = true) (h0 : 0 < n) : FitInt (.type T) (bytesSIntLE n) := fit_sint h h0
theorem fit_ubits {n} (h : intOK T false n = true) (h0 : 0 < n) : FitInt (.type T) (ubits n) := by
  intro L ctx s v r hp
  obtain ⟨b, hb, rfl⟩ := parse_take (f := fun b => .int (bitsNat b)) hp
  refine ⟨_, rfl, accepts_int h (holds_nat ?_) (by omega)⟩
  have := bitsNat_lt b; rwa [hb] at this
theorem fit_sbits {n} (h : intOK T true n = true) (h0 : 0 < n) : FitInt (.type T) (sbits n) := by
  intro L ctx s v r hp
  obtain ⟨b, hb, rfl⟩ := parse_take (f := fun b => .int (toSigned (2 ^ n) (bitsNat b))) hp
  refine ⟨_, rfl, accepts_int h ?_ (n := n) (by omega)⟩
  have := bitsNat_lt b
  rw [hb] at this
  exact holds_signed (by omega) this
end

theorem camel_int (n : Int) : toCamelcaseDict (.int n) = .int n := rfl

theorem fit_flag : Fit (.type "Bool") flag := by
  intro L ctx s v r hp
  obtain ⟨b, hb, rfl⟩ := parse_take (f := fun b => .bool (b != [0])) hp
  exact .bool
theorem fit_flagBit : Fit (.type "Bool") flagBit := by
  intro L ctx s v r hp
  obtain ⟨b, hb, rfl⟩ := parse_take (f := fun b => .bool (b != [false])) hp
  exact .bool
theorem fit_bytesN {n} : Fit (.type "Data") (bytesN n) := by
  intro L ctx s v r hp
  obtain ⟨b, hb, rfl⟩ := parse_take (f := fun b => .bytes b) hp
  exact .text (by simp)
theorem fit_greedyBytes : Fit (.type "Data") greedyBytes := by
  intro L ctx s v r hp
  injection hp with hp; injection hp with hp _; subst hp
  exact .text (by simp)

/-! ### Adapters -/
section
variable {α : Type} {T : Slot} {c : Con α}

theorem parse_adapter {dec enc : Lib → Val → R Val} {L ctx s v r} (h : (adapter c dec enc).parse L ctx s = .ok (v, r)) :
    ∃ u, c.parse L ctx s = .ok (u, r) ∧ dec L u = .ok v := by
  simp only [adapter] at h
  cases hp : c.parse L ctx s with
  | error e => rw [hp] at h; cases h
  | ok x =>
    obtain ⟨u, t⟩ := x
    rw [hp] at h
    simp only [ok_bind] at h
    cases hd : dec L u with
    | error e => rw [hd] at h; cases h
    | ok w =>
      rw [hd] at h
      injection h with h; injection h with h1 h2
      exact ⟨u, by rw [h2], by rw [hd, h1]⟩

theorem parse_validator {p : Val → R Bool} {L ctx s v r} (h : (validator c p).parse L ctx s = .ok (v, r)) : c.parse L ctx s = .ok (v, r) ∧ p v = .ok true := by
  unfold validator at h
  obtain ⟨u, hu, hd⟩ := parse_adapter h
  cases hb : p u with
  | error e => rw [hb] at hd; cases hd
  | ok b =>
    rw [hb] at hd
    cases b
    · cases hd
    · injection hd with hd; subst hd; exact ⟨hu, hb⟩

theorem fit_validator {p} (h : Fit T c) : Fit T (validator c p) := fun L ctx s v r hp => h L ctx s v r (parse_validator hp).1
theorem fitInt_validator {p} (h : FitInt T c) : FitInt T (validator c p) := fun L ctx s v r hp => h L ctx s v r (parse_validator hp).1
theorem fit_range {mn mx} (h : FitInt T c) : FitInt T (rangeValidator c mn mx) := fitInt_validator h
theorem fit_rebuild {f} (h : Fit T c) : Fit T (rebuild c f) := h
theorem fitInt_rebuild {f} (h : FitInt T c) : FitInt T (rebuild c f) := h
theorem fit_default {v} (h : Fit T c) : Fit T (defaultC c v) := h
theorem fitInt_default {v} (h : FitInt T c) : FitInt T (defaultC c v) := h

theorem fit_enum (E : EnumDef) (h : FitInt T c) : Fit T (enumAdapter c E) := by
  intro L ctx s v r hp
  obtain ⟨u, hu, hd⟩ := parse_adapter hp
  obtain ⟨n, rfl, hn⟩ := h L ctx s u r hu
  have hh : hashInt (.int n) = some n := rfl
  simp only [enumDecode, hh] at hd
  split at hd
  · injection hd with hd; subst hd; exact hn
  · cases hd

theorem fit_reversed {n} (h : Fit T c) : Fit T (reversed n c) := by
  intro L ctx s v r hp
  simp only [reversed] at hp
  cases ht : takeN n s with
  | error e => rw [ht] at hp; cases hp
  | ok x =>
    rw [ht] at hp
    simp only [ok_bind] at hp
    cases hc : c.parse L ctx x.1.reverse with
    | error e => rw [hc] at hp; cases hp
    | ok y =>
      rw [hc] at hp
      injection hp with hp; injection hp with hp _; subst hp
      exact h _ _ _ _ _ hc

theorem fit_bitwise {n} {c : Con Bool} (h : Fit T c) : Fit T (bitwise n c) := by
  intro L ctx s v r hp
  simp only [bitwise] at hp
  cases ht : takeN n s with
  | error e => rw [ht] at hp; cases hp
  | ok x =>
    rw [ht] at hp
    simp only [ok_bind] at hp
    cases hc : c.parse L ctx (bytesBits x.1) with
    | error e => rw [hc] at hp; cases hp
    | ok y =>
      rw [hc] at hp
      injection hp with hp; injection hp with hp _; subst hp
      exact h _ _ _ _ _ hc

/-! ### Lists -/

theorem camelList_eq (l : List Val) : toCaseList camelcase l = l.map (toCase camelcase) := by
  induction l with
  | nil => rfl
  | cons v l ih => simp [toCaseList, ih]

theorem takes_list {T : String} {l : List Val} (h : ∀ v ∈ l, Accepts schema T (toCamelcaseDict v)) : Slot.Takes (.type ("List(" ++ T ++ ")")) (toCamelcaseDict (.list l)) := by
  show Accepts _ _ (.list (toCaseList camelcase l))
  rw [camelList_eq]
  refine .list ?_
  intro v hv
  obtain ⟨w, hw, rfl⟩ := List.mem_map.1 hv
  exact h w hw

/-- A type of lists. -/
class IsList (T : String) (E : outParam String) : Prop where
  eq : T = "List(" ++ E ++ ")"

theorem fit_greedy {T E : String} [hT : IsList T E] (h : Fit (.type E) c) : Fit (.type T) (greedyRange c) := by
  intro L ctx s v r hp
  simp only [greedyRange] at hp
  cases hg : greedyLoop (c.parse L ctx) s.length s with
  | error e => rw [hg] at hp; cases hp
  | ok x =>
    rw [hg] at hp
    injection hp with hp; injection hp with hp _; subst hp
    rw [hT.eq]
    exact takes_list (greedyLoop_all (Q := fun v => Accepts schema E (toCamelcaseDict v)) (fun s v r hv => h L ctx s v r hv) _ _ _ _ hg)

theorem parseMany_all {Q : Val → Prop} {p : List α → R (Val × List α)} (hp : ∀ s v r, p s = .ok (v, r) → Q v) :
    ∀ n s vs r, parseMany p n s = .ok (vs, r) → ∀ v ∈ vs, Q v := by
  intro n
  induction n with
  | zero => intro s vs r h; injection h with h; injection h with h _; subst h; simp
  | succ n ih =>
    intro s vs r h
    unfold parseMany at h
    cases hv : p s with
    | error e' => rw [hv] at h; cases h
    | ok x =>
      obtain ⟨v, t⟩ := x
      rw [hv] at h
      simp only [ok_bind] at h
      cases hr : parseMany p n t with
      | error e' => rw [hr] at h; cases h
      | ok x' =>
        rw [hr] at h
        injection h with h; injection h with h _; subst h
        intro w hw
        rcases List.mem_cons.1 hw with rfl | hw
        · exact hp _ _ _ hv
        · exact ih _ _ _ hr w hw

theorem fit_array {T E : String} [hT : IsList T E] {n} (h : Fit (.type E) c) : Fit (.type T) (arrayC n c) := by
  intro L ctx s v r hp
  simp only [arrayC] at hp
  cases hn : n ctx with
  | error e => rw [hn] at hp; cases hp
  | ok k =>
    rw [hn] at hp
    simp only [ok_bind] at hp
    cases hm : parseMany (c.parse L ctx) k s with
    | error e => rw [hm] at hp; cases hp
    | ok x =>
      rw [hm] at hp
      injection hp with hp; injection hp with hp _; subst hp
      rw [hT.eq]
      exact takes_list (parseMany_all (Q := fun v => Accepts schema E (toCamelcaseDict v)) (fun s v r hv => h L ctx s v r hv) _ _ _ _ hm)

theorem fit_prefixedArray {T E : String} [hT : IsList T E] {len : Con α} (h : Fit (.type E) c) : Fit (.type T) (prefixedArray len c) := by
  intro L ctx s v r hp
  simp only [prefixedArray] at hp
  cases hn : len.parse L ctx s with
  | error e => rw [hn] at hp; cases hp
  | ok k =>
    rw [hn] at hp
    simp only [ok_bind] at hp
    split at hp
    · rename_i m _
      cases hm : parseMany (c.parse L ctx) m.toNat k.2 with
      | error e => rw [hm] at hp; cases hp
      | ok x =>
        rw [hm] at hp
        injection hp with hp; injection hp with hp _; subst hp
        rw [hT.eq]
        exact takes_list (parseMany_all (Q := fun v => Accepts schema E (toCamelcaseDict v)) (fun s v r hv => h L ctx s v r hv) _ _ _ _ hm)
    · cases hp

/-! ### Choice -/

theorem selectParse_ok {L ctx} : ∀ {cs : List (Con α)} {s v r}, selectParse L ctx cs s = .ok (v, r) → ∃ c ∈ cs, c.parse L ctx s = .ok (v, r)
  | [], _, _, _, h => by cases h
  | c :: cs, s, v, r, h => by
    unfold selectParse at h
    split at h
    · rename_i x hx
      injection h with h; subst h
      exact ⟨c, List.mem_cons_self, hx⟩
    · split at h
      · cases h
      · obtain ⟨c', hm, hc⟩ := selectParse_ok h
        exact ⟨c', List.mem_cons_of_mem _ hm, hc⟩

theorem fit_select {cs : List (Con α)} (h : ∀ c ∈ cs, Fit T c) : Fit T (select cs) := by
  intro L ctx s v r hp
  obtain ⟨c, hm, hc⟩ := selectParse_ok hp
  exact h c hm _ _ _ _ _ hc

theorem findCase_mem {k : Int} : ∀ {cases : List (Int × Con α)} {c}, findCase k cases = some c → (k, c) ∈ cases
  | (n, c') :: cs, c, h => by
    unfold findCase at h
    split at h
    · cases h; rename_i hn; subst hn; exact List.mem_cons_self
    · exact List.mem_cons_of_mem _ (findCase_mem h)

/-! ### Structures -/

theorem items_mem {d : List (String × Val)} : ∀ {acc : Dict} {k v}, (k, v) ∈ toCaseItems camelcase acc d →
    (k, v) ∈ acc ∨ ∃ k' v', (k', v') ∈ d ∧ isPrivate k' = false ∧ k = camelcase k' ∧ v = toCamelcaseDict v' := by
  induction d with
  | nil => intro acc k v h; exact .inl h
  | cons e d ih =>
    obtain ⟨k', v'⟩ := e
    intro acc k v h
    unfold toCaseItems at h
    split at h
    · rcases ih h with h | ⟨a, b, h1, h2⟩
      · exact .inl h
      · exact .inr ⟨a, b, List.mem_cons_of_mem _ h1, h2⟩
    · rename_i hk
      rcases ih h with h | ⟨a, b, h1, h2⟩
      · rcases rt_mem_dset h with h | h
        · injection h with h1 h2
          exact .inr ⟨k', v', List.mem_cons_self, by simpa using hk, h1, h2⟩
        · exact .inl h
      · exact .inr ⟨a, b, List.mem_cons_of_mem _ h1, h2⟩

theorem Ok.noName {fs : List Tree} {d : Dict} (h : Ok fs d) : dget d "_name" = none := by
  cases hd : dget d "_name" with
  | none => rfl
  | some v => exact absurd rfl (h _ _ (rt_mem_dget hd)).1

theorem Ok.camel {fs : List Tree} {d : Dict} (h : Ok fs d) : toCamelcaseDict (.dict d) = .dict (toCaseItems camelcase [] d) := by
  simp only [toCamelcaseDict, toCase, h.noName]

theorem Ok.members {fs : List Tree} {d : Dict} (h : Ok fs d) (hu : ∀ us, Tree.union none us ∉ fs) : Members schema fs (toCaseItems camelcase [] d) := by
  refine .mk ?_ fun us hm => absurd hm (hu us)
  intro k v hm
  rcases items_mem hm with h' | ⟨k', v', hm', hp, rfl, rfl⟩
  · cases h'
  · rcases (h _ _ hm').2 with h' | h'
    · rw [hp] at h'; cases h'
    · exact h'

theorem ok_nil {fs : List Tree} : Ok fs [] := by intro k v h; cases h

theorem Ok.set {fs : List Tree} {d : Dict} (h : Ok fs d) {k : String} {v : Val} (hn : k ≠ "_name")
    (hv : isPrivate k = true ∨ Member schema fs (camelcase k) (toCamelcaseDict v)) : Ok fs (dset d k v) := by
  intro k' v' hm
  rcases rt_mem_dset hm with hm | hm
  · injection hm with h1 h2; subst h1 h2; exact ⟨hn, hv⟩
  · exact h _ _ hm

theorem Ok.merge {fs : List Tree} : ∀ {e d : Dict}, Ok fs d → Ok fs e → Ok fs (dmerge d e)
  | [], _, h, _ => h
  | (k, v) :: e, d, h, he =>
    Ok.merge (e := e) (h.set (he k v List.mem_cons_self).1 (he k v List.mem_cons_self).2) (fun k' v' hp => he k' v' (List.mem_cons_of_mem _ hp))

variable {fs : List Tree}

theorem public_ne {k : String} (h : isPrivate k = false) : k ≠ "_name" := by
  rintro rfl
  have : isPrivate "_name" = true := by decide +kernel
  rw [this] at h; cases h

theorem parse_field {k : String} {L acc s d r} (h : (field k c).parse L acc s = .ok (d, r)) : ∃ v, c.parse L acc s = .ok (v, r) ∧ d = dset acc k v := by
  simp only [field] at h
  cases hc : c.parse L acc s with
  | error e => rw [hc] at h; cases h
  | ok x =>
    obtain ⟨v, t⟩ := x
    rw [hc] at h
    injection h with h; injection h with h1 h2
    exact ⟨v, by rw [← h2], h1.symm⟩

theorem fitI_field {k k' : String} [hk : Camel k k'] [hm : HasMember fs k' T] (h : Fit T c) : FitI fs (field k c) := by
  intro L acc s d r ha hp
  obtain ⟨v, hv, rfl⟩ := parse_field hp
  refine ha.set (public_ne hk.pub) (.inr ?_)
  rw [hk.eq]
  exact hm.takes _ (h _ _ _ _ _ hv)

theorem fitI_private {k : String} (hp : isPrivate k = true) (hn : k ≠ "_name") : FitI fs (field k c) := by
  intro L acc s d r ha h
  obtain ⟨v, hv, rfl⟩ := parse_field h
  exact ha.set hn (.inl hp)

theorem fitI_anon : FitI fs (anon c) := by
  intro L acc s d r ha h
  simp only [anon] at h
  cases hc : c.parse L acc s with
  | error e => rw [hc] at h; cases h
  | ok x => rw [hc] at h; injection h with h; injection h with h _; subst h; exact ha

theorem fitIs_nil : FitIs fs ([] : List (Item α)) := by
  intro L acc s d r ha h
  injection h with h; injection h with h _; subst h; exact ha

theorem fitIs_cons {it : Item α} {its : List (Item α)} (h : FitI fs it) (hs : FitIs fs its) : FitIs fs (it :: its) := by
  intro L acc s d r ha hp
  simp only [parseItems] at hp
  cases hc : it.parse L acc s with
  | error e => rw [hc] at hp; cases hp
  | ok x =>
    obtain ⟨d', t⟩ := x
    rw [hc] at hp
    exact hs _ _ _ _ _ (h _ _ _ _ _ ha hc) hp

theorem fitI_embedded {its : List (Item α)} (h : FitIs fs its) : FitI fs (embedded its) := by
  intro L acc s d r ha hp
  simp only [embedded] at hp
  cases hc : parseItems L its [] s with
  | error e => rw [hc] at hp; cases hp
  | ok x =>
    obtain ⟨d', t⟩ := x
    rw [hc] at hp
    injection hp with hp; injection hp with hp _; subst hp
    exact ha.merge (h _ _ _ _ _ ok_nil hc)

theorem parse_struct {its : List (Item α)} {L ctx s v r} (h : (struct its).parse L ctx s = .ok (v, r)) : ∃ d, v = .dict d ∧ parseItems L its [] s = .ok (d, r) := by
  simp only [struct] at h
  cases hc : parseItems L its [] s with
  | error e => rw [hc] at h; cases h
  | ok x =>
    obtain ⟨d', t⟩ := x
    rw [hc] at h
    injection h with h; injection h with h1 h2
    exact ⟨d', h1.symm, by rw [← h2]⟩

theorem fit_struct {T : String} [hT : IsPlain T fs] {its : List (Item α)} (h : FitIs fs its) : Fit (.type T) (struct its) := by
  intro L ctx s v r hp
  obtain ⟨d, rfl, hd⟩ := parse_struct hp
  have ho := h _ _ _ _ _ ok_nil hd
  rw [ho.camel]
  exact .struct hT.mem (ho.members hT.plain)

theorem fitI_bits {name n rev} {its : List (Item Bool)} (hn : name ≠ "_name") (hp : isPrivate name = true) (h : FitIs fs its) : FitI fs (embeddedBitStruct name n rev its) := by
  have hs : ∀ {L ctx s v r}, (if rev = true then reversed n (bitwise n (struct its)) else bitwise n (struct its)).parse L ctx s = .ok (v, r) →
      ∃ d, v = .dict d ∧ Ok fs d := by
    have h1 : ∀ {L ctx s v r}, (bitwise n (struct its)).parse L ctx s = .ok (v, r) → ∃ d, v = .dict d ∧ Ok fs d := by
      intro L ctx s v r hp
      simp only [bitwise] at hp
      cases ht : takeN n s with
      | error e => rw [ht] at hp; cases hp
      | ok x =>
        rw [ht] at hp
        simp only [ok_bind] at hp
        cases hc : (struct its).parse L ctx (bytesBits x.1) with
        | error e => rw [hc] at hp; cases hp
        | ok y =>
          rw [hc] at hp
          injection hp with hp; injection hp with hp _; subst hp
          obtain ⟨d, hd, hi⟩ := parse_struct hc
          exact ⟨d, hd, h _ _ _ _ _ ok_nil hi⟩
    intro L ctx s v r hp
    split at hp
    · simp only [reversed] at hp
      cases ht : takeN n s with
      | error e => rw [ht] at hp; cases hp
      | ok x =>
        rw [ht] at hp
        simp only [ok_bind] at hp
        cases hc : (bitwise n (struct its)).parse L ctx x.1.reverse with
        | error e => rw [hc] at hp; cases hp
        | ok y =>
          rw [hc] at hp
          injection hp with hp; injection hp with hp _; subst hp
          exact h1 hc
    · exact h1 hp
  intro L acc s d r ha hp
  simp only [embeddedBitStruct] at hp
  revert hp hs
  generalize (if rev = true then reversed n (bitwise n (struct its)) else bitwise n (struct its)) = c
  intro hs hp
  cases hc : c.parse L acc s with
  | error e => rw [hc] at hp; cases hp
  | ok x =>
    obtain ⟨v, t⟩ := x
    obtain ⟨d', rfl, hd⟩ := hs hc
    rw [hc] at hp
    injection hp with hp; injection hp with hp _; subst hp
    exact (ha.set hn (.inl (by assumption))).merge hd

/-- A structure whose entries are members of a struct of the schema: the value of a variant with a name. -/
theorem fit_named {us : List Tree} {alts : List (String × Con α)}
    (h : ∀ a ∈ alts, ∀ L ctx s v r, a.2.parse L ctx s = .ok (v, r) → ∃ d T fs, v = .dict d ∧ Tree.field (some a.1) T ∈ us ∧ (T, fs) ∈ schema ∧ Ok fs d ∧ ∀ us, Tree.union none us ∉ fs)
    (hne : ∀ a ∈ alts, a.1 ≠ "") : Fit (.group us) (namedSelect alts) := by
  intro L ctx s v r hp
  obtain ⟨c, hm, hc⟩ := selectParse_ok hp
  obtain ⟨a, ha, rfl⟩ := List.mem_map.1 hm
  simp only [nameAdapter] at hc
  cases hq : a.2.parse L ctx s with
  | error e => rw [hq] at hc; cases hc
  | ok x =>
    obtain ⟨w, t⟩ := x
    obtain ⟨d, T, fs, rfl, hf, hT, ho, hu⟩ := h a ha _ _ _ _ _ hq
    rw [hq] at hc
    injection hc with hc; injection hc with hc _; subst hc
    have hpn : isPrivate "_name" = true := by decide +kernel
    have hmem := ho.members hu
    refine ⟨[(a.1, .dict (toCaseItems camelcase [] (dset d "_name" (.str a.1))))], ?_, ?_⟩
    · simp only [toCamelcaseDict, toCase, dget_dset_self, hne a ha, if_false]
    · refine .mk ?_ ?_
      · intro k v hm
        rw [List.mem_singleton] at hm
        injection hm with h1 h2; subst h1 h2
        refine .inUnion (List.mem_singleton.2 rfl) (.field hf (.struct hT (.mk ?_ fun us hm => absurd hm (hu us))))
        intro k v hm
        rcases items_mem hm with h' | ⟨k', v', hm', hp, rfl, rfl⟩
        · cases h'
        · rcases rt_mem_dset hm' with hm | hm
          · injection hm with h1 h2; subst h1; rw [hpn] at hp; cases hp
          · rcases (ho _ _ hm).2 with h' | h'
            · rw [hp] at h'; cases h'
            · exact h'
      · intro us' _
        simpa using List.length_filter_le (fun e : String × Val => (fieldNames us').contains e.1) [(a.1, Val.dict (toCaseItems camelcase [] (dset d "_name" (.str a.1))))]

/-- The variants of a choice with names. -/
def Alts (us : List Tree) (alts : List (String × Con α)) : Prop := ∀ a ∈ alts, a.1 ≠ "" ∧ ∀ L ctx s v r, a.2.parse L ctx s = .ok (v, r) →
  ∃ d T fs, v = .dict d ∧ Tree.field (some a.1) T ∈ us ∧ (T, fs) ∈ schema ∧ Ok fs d ∧ ∀ us, Tree.union none us ∉ fs

theorem alts_nil {us : List Tree} : Alts us ([] : List (String × Con α)) := by intro a h; cases h
theorem alts_cons {us : List Tree} {n T : String} {its : List (Item α)} {alts : List (String × Con α)} (hn : n ≠ "") (hm : Tree.field (some n) T ∈ us) [hT : IsPlain T fs]
    (h : FitIs fs its) (hs : Alts us alts) : Alts us ((n, struct its) :: alts) := by
  refine all_cons ⟨hn, ?_⟩ hs
  intro L ctx s v r hp
  obtain ⟨d, rfl, hd⟩ := parse_struct hp
  exact ⟨d, T, fs, rfl, hm, hT.mem, h _ _ _ _ _ ok_nil hd, hT.plain⟩

theorem fit_alts {us : List Tree} {alts : List (String × Con α)} (h : Alts us alts) : Fit (.group us) (namedSelect alts) :=
  fit_named (fun a ha => (h a ha).2) (fun a ha => (h a ha).1)

end
end BM.Capnp
