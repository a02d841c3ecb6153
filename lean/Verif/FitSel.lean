import Verif.FitTac
/-!
# Decoded values and the schema (C50): choices by a key
-/
namespace BM.Capnp
open BM.Schema BM.Case Config

/-! ### Dictionaries with one member of a union -/

/-- The entries whose keys satisfy `p`. -/
def cnt (p : String → Bool) (d : Dict) : Nat := (d.filter fun e => p e.1).length

theorem cnt_dset {p : String → Bool} {k : String} {v : Val} : ∀ {d : Dict}, cnt p (dset d k v) ≤ cnt p d + (if p k then 1 else 0)
  | [] => by
    simp only [dset, cnt]
    cases hp : p k <;> simp [hp]
  | (k', v') :: d => by
    have ih := cnt_dset (p := p) (k := k) (v := v) (d := d)
    simp only [dset, cnt] at ih ⊢
    split
    · rename_i h; subst h
      cases hp : p k' <;> simp [hp]
    · cases hp : p k' <;> simp [hp] <;> omega

theorem cnt_items {p : String → Bool} : ∀ {d : List (String × Val)} {acc : Dict}, cnt p (toCaseItems camelcase acc d) ≤ cnt p acc + cnt (fun k => !isPrivate k && p (camelcase k)) d
  | [], acc => by simp [toCaseItems, cnt]
  | (k, v) :: d, acc => by
    unfold toCaseItems
    split
    · rename_i hpr
      have := cnt_items (p := p) (d := d) (acc := acc)
      simp only [cnt, List.filter_cons, hpr, Bool.not_true, Bool.false_and, Bool.false_eq_true, if_false] at this ⊢
      exact this
    · rename_i hpr
      have := cnt_items (p := p) (d := d) (acc := dset acc (camelcase k) (toCase camelcase v))
      have h2 := cnt_dset (p := p) (k := camelcase k) (v := toCase camelcase v) (d := acc)
      simp only [Bool.not_eq_true] at hpr
      cases hp : p (camelcase k) <;> simp only [cnt, List.filter_cons, hpr, hp, Bool.not_false, Bool.and_true, Bool.and_false, Bool.false_eq_true, if_true, if_false, List.length_cons] at this h2 ⊢ <;> omega

/-- A dictionary under construction whose converted keys satisfy `p` at most once. -/
theorem takes_union {T : String} {fs us : List Tree} [hT : IsUnion T fs us] {d : Dict} (ho : Ok fs d)
    (hc : cnt (fun k => !isPrivate k && (fieldNames us).contains (camelcase k)) d ≤ 1) : Slot.Takes (.type T) (toCamelcaseDict (.dict d)) := by
  rw [ho.camel]
  refine .struct hT.mem (.mk ?_ ?_)
  · intro k v hm
    rcases items_mem hm with h' | ⟨k', v', hm', hp, rfl, rfl⟩
    · cases h'
    · rcases (ho _ _ hm').2 with h' | h'
      · rw [hp] at h'; cases h'
      · exact h'
  · intro us' hm
    rw [hT.one us' hm]
    have := cnt_items (p := fun k => (fieldNames us).contains k) (d := d) (acc := [])
    have h0 : cnt (fun k => (fieldNames us).contains k) [] = 0 := rfl
    rw [h0, Nat.zero_add] at this
    exact Nat.le_trans this hc

/-- Named alternatives as the only member of a struct. -/
theorem fit_altsIn {α : Type} {T : String} {us : List Tree} [hT : IsUnion T [.union none us] us] {alts : List (String × Con α)} (h : Alts us alts) :
    Fit (.type T) (namedSelect alts) := by
  intro L ctx s v r hp
  obtain ⟨d, hd, hm⟩ := fit_alts h L ctx s v r hp
  show Accepts _ _ _
  rw [hd]
  exact .struct hT.mem hm

/-! ### Tables -/

/-- The values of the table row are accepted in the union. -/
def Row (us : List Tree) (E : EnumDef) (q : Int × Con UInt8) : Prop := ∀ N, lookupValue E.members q.1 = some N →
  ∀ L ctx s v r, q.2.parse L ctx s = .ok (v, r) → Member schema us (camelcase (lower N)) (toCamelcaseDict v)

theorem row {us : List Tree} {E : EnumDef} {n : Int} {N k' : String} {T : Slot} {c : Con UInt8} (hN : lookupValue E.members n = some N) [hk : CamelName N k']
    [hm : HasMember us k' T] (h : Fit T c) : Row us E (n, c) := by
  intro N' hN' L ctx s v r hp
  rw [hN] at hN'
  injection hN' with hN'; subst hN'
  rw [hk.eq]
  exact hm.takes _ (h L ctx s v r hp)

/-- No member has the name the conversion treats specially. -/
def goodNames (E : EnumDef) : Bool := E.members.all fun m => lower m.1 != "_name"
/-- The numbers of the members have `w` bits. -/
def small (E : EnumDef) (w : Nat) : Bool := E.members.all fun m => decide (0 ≤ m.2 ∧ m.2 < 2 ^ w)

theorem lookup_mem {E : EnumDef} {n : Int} {N : String} (h : lookupValue E.members n = some N) : (N, n) ∈ E.members := by
  revert h
  generalize E.members = l
  induction l with
  | nil => intro h; cases h
  | cons e l ih =>
    obtain ⟨a, b⟩ := e
    intro h
    unfold lookupValue at h
    split at h
    · rename_i hb; injection h with h; subst h; rw [hb]; exact List.mem_cons_self
    · exact List.mem_cons_of_mem _ (ih h)

theorem good_ne {E : EnumDef} (h : goodNames E = true) {n : Int} {N : String} (hN : lookupValue E.members n = some N) : lower N ≠ "_name" := by
  have := List.all_eq_true.1 h _ (lookup_mem hN)
  simpa using this

theorem small_lt {E : EnumDef} {w : Nat} (h : small E w = true) {n : Int} {N : String} (hN : lookupValue E.members n = some N) : 0 ≤ n ∧ n < 2 ^ w := by
  have := List.all_eq_true.1 h _ (lookup_mem hN)
  simpa using this

/-- A structure that begins with a key, and whose second member has the name and the type that the key says. -/
theorem takes_switch {T kn kn' sw K : String} {fs us : List Tree} [hT : IsUnion T fs us] [hk : Camel kn kn'] [hm : HasMember fs kn' (.type K)] {keyCon : Con UInt8} {E : EnumDef}
    {cases : List (Int × Con UInt8)} (hkey : ∀ L ctx s v r, keyCon.parse L ctx s = .ok (v, r) → ∃ n : Int, v = .enum E.cls n ∧ Accepts schema K (.int n))
    (hg : goodNames E = true) (hd : (fieldNames us).contains kn' = false) {L : Lib} {ctx : Dict} {s : List UInt8} {v : Val} {r : List UInt8}
    (hp : (switchStruct kn keyCon E sw cases).parse L ctx s = .ok (v, r))
    (hrow : ∀ n t, keyCon.parse L ctx s = .ok (.enum E.cls n, t) → ∃ c, findCase n cases = some c ∧ ∀ N, lookupValue E.members n = some N →
      ∀ L ctx v r, c.parse L ctx t = .ok (v, r) → Member schema us (camelcase (lower N)) (toCamelcaseDict v))
    (hin : Tree.union none us ∈ fs) : Slot.Takes (.type T) (toCamelcaseDict v) := by
  simp only [switchStruct] at hp
  cases h1 : keyCon.parse L ctx s with
  | error e => rw [h1] at hp; cases hp
  | ok x =>
    obtain ⟨k, t⟩ := x
    obtain ⟨n, rfl, hn⟩ := hkey _ _ _ _ _ h1
    rw [h1] at hp
    simp only [ok_bind, asInt] at hp
    cases h2 : lookupValue E.members n with
    | none => rw [h2] at hp; cases hp
    | some N =>
      rw [h2] at hp
      obtain ⟨c, hf, hc⟩ := hrow n t h1
      simp only [caseOf, hashInt, asInt, hf, Option.getD_some] at hp
      cases h3 : c.parse L [(kn, .enum E.cls n)] t with
      | error e => rw [h3] at hp; cases hp
      | ok y =>
        obtain ⟨w, t'⟩ := y
        rw [h3] at hp
        simp only [ok_bind] at hp
        injection hp with hp; injection hp with hp _; subst hp
        refine takes_union (hT := hT) ?_ ?_
        · refine forall_pair_cons ⟨public_ne hk.pub, .inr ?_⟩ (forall_pair_cons ⟨good_ne hg h2, .inr ?_⟩ forall_pair_nil)
          · rw [hk.eq]; exact hm.takes _ hn
          · exact .inUnion hin (hc N h2 _ _ _ _ h3)
        · simp only [cnt, List.filter_cons, hk.eq, hd, Bool.and_false, Bool.false_eq_true, if_false]
          split <;> simp

theorem key_enum {K : String} {E : EnumDef} {c : Con UInt8} (h : FitInt (.type K) c) : ∀ L ctx s v r, (enumAdapter c E).parse L ctx s = .ok (v, r) →
    ∃ n : Int, v = .enum E.cls n ∧ Accepts schema K (.int n) := by
  intro L ctx s v r hp
  obtain ⟨u, hu, hd⟩ := parse_adapter hp
  obtain ⟨n, rfl, hn⟩ := h L ctx s u r hu
  have hh : hashInt (.int n) = some n := rfl
  simp only [enumDecode, hh] at hd
  split at hd
  · injection hd with hd; subst hd; exact ⟨n, rfl, hn⟩
  · cases hd

theorem key_has {E : EnumDef} {c : Con UInt8} {L ctx s n r} (hp : (enumAdapter c E).parse L ctx s = .ok (.enum E.cls n, r)) : E.has n = true := by
  obtain ⟨u, hu, hd⟩ := parse_adapter hp
  simp only [enumDecode] at hd
  split at hd
  · split at hd
    · rename_i hh; injection hd with hd; injection hd with _ hd; subst hd; exact hh
    · cases hd
  · cases hd

/-- … if there is a case for every key. -/
theorem fit_switch {T kn kn' sw : String} {fs us : List Tree} [hT : IsUnion T fs us] [hk : Camel kn kn'] [hm : HasMember fs kn' (.type "UInt8")] {E : EnumDef}
    {cases : List (Int × Con UInt8)} (hcov : covers E cases = true) (hg : goodNames E = true) (hd : (fieldNames us).contains kn' = false)
    (hin : Tree.union none us ∈ fs) (hrow : ∀ q ∈ cases, Row us E q) : Fit (.type T) (switchStruct kn (enumAdapter (uintLE 1) E) E sw cases) := by
  intro L ctx s v r hp
  refine takes_switch (hT := hT) (hk := hk) (hm := hm) (key_enum (fit_uint (by decide) (by decide))) hg hd hp ?_ hin
  intro n t hp'
  obtain ⟨c, hc⟩ := covers_find hcov (key_has hp')
  exact ⟨c, hc, fun N hN L ctx v r h => hrow _ (findCase_mem hc) N hN L ctx t v r h⟩

/-! ### A header and a member of a union -/

/-- The plain members `plain` of a struct with a union: none of them has the name of a member of the union. -/
structure Plain (fs us plain : List Tree) : Prop where
  sub : ∀ t ∈ plain, t ∈ fs
  flat : unionsOf plain = []
  apart : (fieldNames plain).all (fun k => !(fieldNames us).contains k) = true
  inner : Tree.union none us ∈ fs

theorem fieldNames_field : ∀ {fs : List Tree} {k T : String}, Tree.field (some k) T ∈ fs → k ∈ fieldNames fs
  | t :: ts, k, T, h => by
    rcases List.mem_cons.1 h with h | h
    · subst h; exact List.mem_cons_self
    · have := fieldNames_field h
      match t with
      | .field (some n) _ => exact List.mem_cons_of_mem _ this
      | .field none _ => exact this
      | .union (some n) _ => exact List.mem_cons_of_mem _ this
      | .union none _ => exact this

theorem fieldNames_group : ∀ {fs : List Tree} {k : String} {us : List Tree}, Tree.union (some k) us ∈ fs → k ∈ fieldNames fs
  | t :: ts, k, T, h => by
    rcases List.mem_cons.1 h with h | h
    · subst h; exact List.mem_cons_self
    · have := fieldNames_group h
      match t with
      | .field (some n) _ => exact List.mem_cons_of_mem _ this
      | .field none _ => exact this
      | .union (some n) _ => exact List.mem_cons_of_mem _ this
      | .union none _ => exact this

theorem member_name {fs : List Tree} {k : String} {v : Val} (h : Member schema fs k v) (hf : unionsOf fs = []) : k ∈ fieldNames fs := by
  cases h with
  | field h _ => exact fieldNames_field h
  | group h _ => exact fieldNames_group h
  | inUnion h _ => have := unionsOf_mem h; rw [hf] at this; cases this

theorem member_mono {fs fs' : List Tree} {k : String} {v : Val} (h : Member schema fs k v) (hs : ∀ t ∈ fs, t ∈ fs') : Member schema fs' k v := by
  cases h with
  | field h h2 => exact .field (hs _ h) h2
  | group h h2 => exact .group (hs _ h) h2
  | inUnion h h2 => exact .inUnion (hs _ h) h2

theorem ok_plain {fs us plain : List Tree} (hP : Plain fs us plain) {d : Dict} (ho : Ok plain d) :
    Ok fs d ∧ cnt (fun k => !isPrivate k && (fieldNames us).contains (camelcase k)) d = 0 := by
  refine ⟨fun k v hm => ⟨(ho k v hm).1, (ho k v hm).2.imp id (fun h => member_mono h hP.sub)⟩, ?_⟩
  unfold cnt
  rw [List.length_eq_zero_iff, List.filter_eq_nil_iff]
  rintro ⟨k, v⟩ hm
  simp only [Bool.and_eq_true, Bool.not_eq_true', not_and]
  intro hp
  rcases (ho k v hm).2 with h | h
  · rw [hp] at h; cases h
  · have := List.all_eq_true.1 hP.apart _ (member_name h hP.flat)
    simpa using this

theorem mem_dpop {k : String} : ∀ {d : Dict} {p}, p ∈ dpop d k → p ∈ d
  | (k', v') :: d, p, h => by
    unfold dpop at h
    split at h
    · exact List.mem_cons_of_mem _ h
    · rcases List.mem_cons.1 h with h | h
      · subst h; exact List.mem_cons_self
      · exact List.mem_cons_of_mem _ (mem_dpop h)

theorem ok_dpop {fs : List Tree} {d : Dict} (h : Ok fs d) (k : String) : Ok fs (dpop d k) := fun k' v hm => h k' v (mem_dpop hm)

/-- A header, and the member that belongs to it. -/
theorem takes_header {T : String} {fs us plain : List Tree} [hT : IsUnion T fs us] (hP : Plain fs us plain) {d : Dict} (ho : Ok plain d) {name : String} {v : Val}
    (hn : name ≠ "_name") (hv : Member schema us (camelcase name) (toCamelcaseDict v)) : Slot.Takes (.type T) (toCamelcaseDict (.dict (dset d name v))) := by
  obtain ⟨h1, h2⟩ := ok_plain hP ho
  refine takes_union (hT := hT) (h1.set hn (.inr (.inUnion hP.inner hv))) ?_
  have := cnt_dset (p := fun k => !isPrivate k && (fieldNames us).contains (camelcase k)) (k := name) (v := v) (d := d)
  rw [h2] at this
  split at this <;> omega

theorem fit_mixin {T : String} {fs us plain : List Tree} [hT : IsUnion T fs us] (hP : Plain fs us plain) [hm : HasMember plain "propertyId" (.type "UInt16")]
    {E : EnumDef} {D : List (Int × Con UInt8)} {hdr : List (Item UInt8)} (hs : small E 16 = true) (hg : goodNames E = true) (hh : FitIs plain hdr)
    (hrow : ∀ q ∈ D, Row us E q) : Fit (.type T) (propertyMixin E D hdr) := by
  intro L ctx s v r hp
  simp only [propertyMixin] at hp
  cases h1 : parseItems L hdr [] s with
  | error e => rw [h1] at hp; cases hp
  | ok x =>
    obtain ⟨d, t⟩ := x
    rw [h1] at hp
    simp only [ok_bind] at hp
    cases h2 : dgetE d "property_id" with
    | error e => rw [h2] at hp; cases hp
    | ok id =>
      rw [h2] at hp
      simp only [ok_bind] at hp
      cases h3 : E.call id with
      | error e => rw [h3] at hp; cases hp
      | ok id' =>
        obtain ⟨k, -, -, rfl⟩ := call_ok h3
        rw [h3] at hp
        simp only [ok_bind, memberKey, asInt] at hp
        cases h4 : lookupValue E.members k with
        | none => rw [h4] at hp; cases hp
        | some N =>
          rw [h4] at hp
          simp only [ok_bind, dictGet, hashInt, asInt] at hp
          cases h5 : findCase k D with
          | none => rw [h5] at hp; cases hp
          | some c =>
            rw [h5] at hp
            simp only [ok_bind] at hp
            cases h6 : c.parse L ctx t with
            | error e => rw [h6] at hp; cases hp
            | ok y =>
              rw [h6] at hp
              injection hp with hp; injection hp with hp _; subst hp
              obtain ⟨a, b⟩ := small_lt hs h4
              have hc : camelcase "property_id" = "propertyId" := by decide +kernel
              refine takes_header (hT := hT) hP ((ok_dpop (hh _ _ _ _ _ ok_nil h1) _).set (by decide) (.inr ?_)) (good_ne hg h4) (hrow _ (findCase_mem h5) N h4 _ _ _ _ _ h6)
              rw [hc]
              exact hm.takes _ (in_u16 a (by simpa using b))

end BM.Capnp
