import Verif.SpecSent
import Verif.Props.Access
import Verif.Props.Coverage
/-!
# C47: what is sent for objects outside of the formats
-/
namespace BM.Props
open Tables F Spec

/-! ### Constructs and what they send -/

/-- With a library that rejects integers that do not fit, `c` builds exactly the bytes of `G`. -/
def Writes {α : Type} (c : Con α) (G : Fmt α) : Prop := ∀ {L : Lib}, L.Strict → ∀ {ctx u b}, (∃ r, c.build L ctx u = .ok (b, r)) ↔ ∃ v, G u b v

def WritesI {α : Type} (it : Item α) (r : RI α) : Prop :=
  ∀ {L : Lib}, L.Strict → ∀ {du ctx b}, (∃ ctx', it.build L du ctx = .ok (b, ctx')) ↔ ∃ dv, r.rel du b dv

inductive WritesIs {α : Type} : List (Item α) → List (RI α) → Prop
  | nil : WritesIs [] []
  | cons {it r its rs} : WritesI it r → WritesIs its rs → WritesIs (it :: its) (r :: rs)

theorem Meets.writes {α M e} {c : Con α} {G : Fmt α} (h : Meets M e c G) : Writes c G := by
  intro L hL ctx u b
  constructor
  · rintro ⟨r, hr⟩; exact h.sound (fun _ => hL) hr
  · rintro ⟨v, hv⟩; exact h.enc hv L ctx (fun _ => hL)

theorem MeetsI.writes {α M e} {it : Item α} {r : RI α} (h : MeetsI M e it r) : WritesI it r := by
  intro L hL ctx u b
  constructor
  · rintro ⟨r, hr⟩; exact h.sound (fun _ => hL) hr
  · rintro ⟨v, hv⟩; exact h.enc hv L _ (fun _ => hL)

theorem writesI_field {α} {k : String} {c : Con α} {G : Fmt α} (hb : c.buildNone = false) (hc : Writes c G) : WritesI (field k c) (F.fld k G) := by
  intro L hL du ctx b
  simp only [field, hb, Bool.false_eq_true, if_false, bind_ok, F.fld]
  constructor
  · rintro ⟨ctx', u, h1, ⟨b', r⟩, h2, h3⟩
    simp only [Except.ok.injEq, Prod.mk.injEq] at h3
    obtain ⟨rfl, -⟩ := h3
    obtain ⟨v, hv⟩ := (hc hL).1 ⟨r, h2⟩
    exact ⟨_, u, v, dgetE_ok h1, hv, rfl⟩
  · rintro ⟨dv, u, v, h1, h2, -⟩
    obtain ⟨r, hr⟩ := (hc hL (ctx := dset ctx k u)).2 ⟨v, h2⟩
    exact ⟨_, u, dgetE_eq h1, (b, r), hr, rfl⟩

theorem writes_items {α} {its : List (Item α)} {rs : List (RI α)} (h : WritesIs its rs) {L : Lib} (hL : L.Strict) {du : Dict} :
    ∀ {ctx b}, (∃ ctx', buildItems L du its ctx = .ok (b, ctx')) ↔ ∃ dv, seqRel rs du b dv := by
  induction h with
  | nil =>
    intro ctx b
    simp only [buildItems, Except.ok.injEq, Prod.mk.injEq, seqRel]
    constructor
    · rintro ⟨_, rfl, -⟩; exact ⟨[], rfl, rfl⟩
    · rintro ⟨_, rfl, -⟩; exact ⟨ctx, rfl, rfl⟩
  | cons hi _ ih =>
    intro ctx b
    simp only [buildItems, bind_ok, seqRel]
    constructor
    · rintro ⟨ctx', ⟨b1, c1⟩, h1, ⟨b2, c2⟩, h2, h3⟩
      simp only [Except.ok.injEq, Prod.mk.injEq] at h3
      obtain ⟨rfl, -⟩ := h3
      obtain ⟨d1, hd1⟩ := (hi hL).1 ⟨c1, h1⟩
      obtain ⟨d2, hd2⟩ := ih.1 ⟨c2, h2⟩
      exact ⟨_, b1, b2, d1, d2, rfl, rfl, hd1, hd2⟩
    · rintro ⟨dv, b1, b2, d1, d2, rfl, -, h1, h2⟩
      obtain ⟨c1, hc1⟩ := (hi hL (ctx := ctx)).2 ⟨d1, h1⟩
      obtain ⟨c2, hc2⟩ := (ih (ctx := c1)).2 ⟨d2, h2⟩
      exact ⟨c2, (b1, c1), hc1, (b2, c2), hc2, rfl⟩

theorem MeetsIs.writes {α M e} {its : List (Item α)} {rs : List (RI α)} (h : MeetsIs M e its rs) : WritesIs its rs := by
  induction h with
  | nil => exact .nil
  | last h => exact .cons (MeetsI.writes h) .nil
  | cons h _ ih => exact .cons (MeetsI.writes h) ih

theorem writesI_embedded {its : List (Item UInt8)} {rs : List (RI UInt8)} (h : WritesIs its rs) : WritesI (embedded its) (embed rs) := by
  intro L hL du ctx b
  simp only [embedded, bind_ok, embed]
  rw [← writes_items h hL (ctx := du)]
  constructor
  · rintro ⟨ctx', ⟨b', c'⟩, h1, h2⟩
    simp only [Except.ok.injEq, Prod.mk.injEq] at h2
    obtain ⟨rfl, -⟩ := h2
    exact ⟨c', h1⟩
  · rintro ⟨c', h1⟩; exact ⟨_, (b, c'), h1, rfl⟩

theorem writes_struct {α} {its : List (Item α)} {rs : List (RI α)} (h : WritesIs its rs) : Writes (struct its) (record rs) := by
  intro L hL ctx u b
  simp only [struct, bind_ok, record]
  constructor
  · rintro ⟨r, d, hd, ⟨b', c'⟩, h1, h2⟩
    simp only [Except.ok.injEq, Prod.mk.injEq] at h2
    obtain ⟨rfl, -⟩ := h2
    obtain ⟨dv, hdv⟩ := (writes_items h hL).1 ⟨c', h1⟩
    exact ⟨_, d, dv, hd, hdv, rfl⟩
  · rintro ⟨v, d, dv, hd, hdv, -⟩
    obtain ⟨c', hc'⟩ := (writes_items h hL (ctx := d)).2 ⟨dv, hdv⟩
    exact ⟨_, d, hd, (b, c'), hc', rfl⟩

theorem writes_many {α} {c : Con α} {G : Fmt α} (h : Writes c G) {L : Lib} (hL : L.Strict) {ctx : Dict} :
    ∀ {us b}, buildMany (c.build L ctx) us = .ok b ↔ ∃ vs, manyRel G us b vs := by
  intro us
  induction us with
  | nil =>
    intro b
    simp only [buildMany, Except.ok.injEq, manyRel]
    constructor
    · rintro rfl; exact ⟨[], rfl, rfl⟩
    · rintro ⟨_, rfl, -⟩; rfl
  | cons u us ih =>
    intro b
    simp only [buildMany, bind_ok, manyRel]
    constructor
    · rintro ⟨⟨b1, r⟩, h1, b2, h2, h3⟩
      simp only [Except.ok.injEq] at h3
      obtain ⟨v, hv⟩ := (h hL).1 ⟨r, h1⟩
      obtain ⟨vs, hvs⟩ := ih.1 h2
      exact ⟨_, b1, b2, v, vs, h3.symm, rfl, hv, hvs⟩
    · rintro ⟨_, b1, b2, v, vs, rfl, -, hv, hvs⟩
      obtain ⟨r, hr⟩ := (h hL (ctx := ctx)).2 ⟨v, hv⟩
      exact ⟨(b1, r), hr, b2, ih.2 ⟨vs, hvs⟩, rfl⟩

theorem writes_greedy {α} {c : Con α} {G : Fmt α} (h : Writes c G) : Writes (greedyRange c) (listOf G) := by
  intro L hL ctx u b
  simp only [greedyRange, bind_ok, listOf]
  constructor
  · rintro ⟨r, us, hu, b', hb, h2⟩
    simp only [Except.ok.injEq, Prod.mk.injEq] at h2
    obtain ⟨rfl, -⟩ := h2
    obtain ⟨vs, hvs⟩ := (writes_many h hL).1 hb
    exact ⟨_, us, vs, hu, hvs, rfl⟩
  · rintro ⟨_, us, vs, hu, hvs, -⟩
    exact ⟨_, us, hu, b, (writes_many h hL).2 ⟨vs, hvs⟩, rfl⟩

theorem writes_named {name : String} {its : List (Item UInt8)} {rs : List (RI UInt8)} (h : WritesIs its rs) :
    Writes (nameAdapter name (struct its)) (named name (record rs)) := by
  intro L hL ctx u b
  constructor
  · rintro ⟨r, hr⟩
    cases u <;> simp only [nameAdapter, reduceCtorEq, bind_ok] at hr
    rename_i d
    obtain ⟨⟨b', r'⟩, h1, h2⟩ := hr
    simp only [Except.ok.injEq, Prod.mk.injEq] at h2
    obtain ⟨rfl, -⟩ := h2
    obtain ⟨v, du, dv, h3, h4, rfl⟩ := (writes_struct h hL).1 ⟨r', h1⟩
    exact ⟨_, d, dv, rfl, ⟨du, dv, h3, h4, rfl⟩, rfl⟩
  · rintro ⟨v, d, dv, rfl, hg, -⟩
    obtain ⟨r, hr⟩ := (writes_struct h hL (ctx := ctx)).2 ⟨_, hg⟩
    exact ⟨.dict d, by simp only [nameAdapter, hr, ok_bind]⟩

theorem writes_orElse {α} {c₁ c₂ : Con α} {G₁ G₂ : Fmt α} (h₁ : Writes c₁ G₁) (h₂ : Writes c₂ G₂) : Writes (select [c₁, c₂]) (orElse G₁ G₂) := by
  intro L hL ctx u b
  have key : (∃ r, (select [c₁, c₂]).build L ctx u = .ok (b, r)) ↔
      (∃ r, c₁.build L ctx u = .ok (b, r)) ∨ ((∃ e, c₁.build L ctx u = .error e) ∧ ∃ r, c₂.build L ctx u = .ok (b, r)) := by
    simp only [select, selectBuild]
    cases c₁.build L ctx u with
    | ok x =>
      obtain ⟨b', r'⟩ := x
      simp
    | error e =>
      cases c₂.build L ctx u with
      | ok x => obtain ⟨b', r'⟩ := x; simp
      | error e => simp
  have hun : (∃ e, c₁.build L ctx u = .error e) ↔ Unencodable G₁ u := by
    constructor
    · rintro ⟨e, he⟩ ⟨b, v, hv⟩
      obtain ⟨r, hr⟩ := (h₁ hL (ctx := ctx)).2 ⟨v, hv⟩
      rw [he] at hr; cases hr
    · intro hn
      cases hb : c₁.build L ctx u with
      | error e => exact ⟨e, rfl⟩
      | ok x =>
        obtain ⟨b', r'⟩ := x
        obtain ⟨v, hv⟩ := (h₁ hL).1 ⟨r', hb⟩
        exact absurd ⟨b', v, hv⟩ hn
  rw [key, h₁ hL, h₂ hL, hun]
  constructor
  · rintro (⟨v, hv⟩ | ⟨hn, v, hv⟩)
    · exact ⟨v, .inl hv⟩
    · exact ⟨v, .inr ⟨hn, hv⟩⟩
  · rintro ⟨v, hv | ⟨hn, hv⟩⟩
    · exact .inl ⟨v, hv⟩
    · exact .inr ⟨hn, v, hv⟩

theorem writes_optionalMinimal {its₁ its₂ : List (Item UInt8)} {rs₁ rs₂ : List (RI UInt8)} (h₁ : WritesIs its₁ rs₁) (h₂ : WritesIs its₂ rs₂) :
    Writes (optionalMinimal its₁ its₂) (longElseShort rs₁ rs₂) :=
  writes_orElse (writes_named h₁) (writes_named h₂)


/-! ### Values of properties -/

section
variable [Platform]

theorem findCase_pair {α} {D : List (Int × Con α)} {k c} (h : findCase k D = some c) : (k, c) ∈ D := by
  induction D with
  | nil => cases h
  | cons x D ih =>
    obtain ⟨n, c'⟩ := x
    simp only [findCase] at h
    split at h
    · rename_i hn; cases h; subst hn; exact List.mem_cons_self
    · exact List.mem_cons_of_mem _ (ih h)

/-- A property without odd values. -/
def NoOdd (p : PropSpec) : Prop := ∀ u, ¬ p.odd u
theorem noOdd_nil : ∀ p ∈ ([] : List PropSpec), NoOdd p := fun _ h => nomatch h
theorem noOdd_cons {p : PropSpec} {P : List PropSpec} (h : NoOdd p) (t : ∀ q ∈ P, NoOdd q) : ∀ q ∈ p :: P, NoOdd q := by
  intro q hq
  rcases List.mem_cons.1 hq with rfl | hq
  · exact h
  · exact t q hq

set_option maxRecDepth 100000 in
theorem noOdd_other : ∀ p ∈ Spec.otherProperties, NoOdd p := by
  unfold Spec.otherProperties
  repeat' first | exact noOdd_nil | refine noOdd_cons (fun _ h => h) ?_
theorem noOdd_flag : ∀ p ∈ Spec.flagProperties, NoOdd p := by
  unfold Spec.flagProperties
  exact noOdd_cons (fun _ h => h) noOdd_nil

set_option maxRecDepth 100000 in
set_option maxHeartbeats 4000000 in
/-- Only dates have odd values. -/
theorem odd_dates : ∀ p ∈ Spec.properties, (p.id ∉ dateIds ∧ ∀ u, ¬ p.odd u) ∨
    (p.id ∈ dateIds ∧ p.odd = OddDate ∧ p.fmt = Spec.dateUTC ∧ findCase p.id Property.propertyDict = some (struct Property.dateUTC)) := by
  have other : ∀ p ∈ Spec.otherProperties ++ Spec.flagProperties, p.id ∉ dateIds ∧ ∀ u, ¬ p.odd u := by
    have h1 : (Spec.otherProperties ++ Spec.flagProperties).all (fun p => !dateIds.contains p.id) = true := by
      with_unfolding_all exact (Eq.refl true)
    intro p hp
    refine ⟨?_, (List.mem_append.1 hp).elim (noOdd_other p) (noOdd_flag p)⟩
    have := List.all_eq_true.1 h1 p hp
    simpa using this
  intro p hp
  rcases List.mem_append.1 hp with hp | hp
  · rcases List.mem_append.1 hp with hp | hp
    · simp only [Spec.dateProperties, List.mem_cons, List.not_mem_nil, or_false] at hp
      rcases hp with rfl | rfl <;> exact .inr ⟨by decide, rfl, rfl, rfl⟩
    · exact .inl (other p (List.mem_append_left _ hp))
  · exact .inl (other p (List.mem_append_right _ hp))

theorem writes_value {p : PropSpec} (hp : p ∈ Spec.properties) {c : Con UInt8} (hc : findCase p.id Property.propertyDict = some c) :
    Writes c (F.valueSent p) := by
  obtain ⟨N, -, -, c', hc', -, hm⟩ := properties_cover p hp
  rw [hc] at hc'; cases hc'
  rcases odd_dates p hp with ⟨hid, ho⟩ | ⟨hid, ho, hf, hd⟩
  · intro L hL ctx u b
    constructor
    · rintro ⟨r, hr⟩
      obtain ⟨v, hv⟩ := hm.sound (fun _ => hL) (ho u) hr
      exact ⟨v, .inl hv⟩
    · rintro ⟨v, hv | ⟨h, -⟩⟩
      · exact hm.enc hv L ctx (fun _ => hL)
      · exact absurd h hid
  · rw [hc] at hd; cases hd
    intro L hL ctx u b
    constructor
    · rintro ⟨r, hr⟩
      by_cases hodd : OddDate u
      · obtain ⟨d, w, r', hd, hw, hb⟩ := (field1_build rfl).1 ⟨r, hr⟩
        obtain ⟨d', w', rfl, hw', n, hn, hlt⟩ := hodd
        cases hd
        rw [hw] at hw'; cases hw'
        simp only [Property.dateC, adapter, bind_ok] at hb
        obtain ⟨x, hx, ⟨b', r''⟩, hb', h2⟩ := hb
        simp only [Except.ok.injEq, Prod.mk.injEq] at h2
        obtain ⟨rfl, -⟩ := h2
        obtain ⟨v, k, hk, hk', hl, hkb, -⟩ := (meets_bytesInt (M := ⟨False, True, True, True⟩) (e := false) 3 trivial).sound (fun _ => hL) hb'
        have hxn : asInt x = some n := by
          rcases hn with hn | rfl
          · cases w <;> simp [asInt] at hn <;> simp only [Property.dateEncode, Except.ok.injEq] at hx <;> subst hx <;> simp [asInt, hn]
          · simp only [Property.dateEncode, Except.ok.injEq] at hx; subst hx; rfl
        rw [hk] at hxn
        simp only [Option.some.injEq] at hxn
        subst hxn
        refine ⟨.none, .inr ⟨hid, d, w, k, rfl, hw, hn, ?_, ?_, ?_⟩⟩
        · unfold Property.lastDay at hlt; omega
        · have := leNat_lt b'; rw [hl, hkb] at this; simpa using this
        · rw [← hkb, ← hl, leBytes_leNat]
      · obtain ⟨v, hv⟩ := hm.sound (fun _ => hL) (ho ▸ hodd) hr
        exact ⟨v, .inl hv⟩
    · rintro ⟨v, hv | ⟨-, d, w, n, rfl, hw, hn, h1, h2, rfl⟩⟩
      · exact hm.enc hv L ctx (fun _ => hL)
      · refine (field1_build rfl).2 ⟨d, w, w, rfl, hw, ?_⟩
        have : ∃ x, Property.dateEncode w = .ok x ∧ asInt x = some (n : Int) := by
          rcases hn with hn | rfl
          · refine ⟨w, ?_, hn⟩
            cases w <;> simp_all [asInt, Property.dateEncode]
          · exact ⟨_, rfl, rfl⟩
        obtain ⟨x, hx, hxn⟩ := this
        have hb3 : (bytesIntLE 3).build L (dset d "date" w) x = .ok (leBytes 3 n, x) := by
          simp only [bytesIntLE, hxn]
          rw [if_pos ⟨by omega, by simpa using h2⟩]
          simp
        simp only [Property.dateC, adapter, hx, hb3, ok_bind]

/-- The outcome of a build is a missing key. -/
def isKeyError : R (List UInt8 × Val) → Bool
  | .error .key => true
  | _ => false

set_option maxRecDepth 100000 in
set_option maxHeartbeats 4000000 in
theorem empty_table (L : Lib) (ctx : Dict) :
    (Property.propertyDict.all fun x => isKeyError (x.2.build L ctx (.dict [])) == !(textIds.map fun (i : Nat) => (i : Int)).contains x.1) = true := by
  with_unfolding_all exact (Eq.refl true)

theorem empty_build {p : PropSpec} {c : Con UInt8} (hc : findCase p.id Property.propertyDict = some c) (L : Lib) (ctx : Dict) :
    c.build L ctx (.dict []) = .error .key ↔ p.id ∉ textIds := by
  have := List.all_eq_true.1 (empty_table L ctx) _ (findCase_pair hc)
  rw [beq_iff_eq] at this
  have hk : c.build L ctx (.dict []) = .error .key ↔ isKeyError (c.build L ctx (.dict [])) = true := by
    unfold isKeyError; split
    · rename_i h; simp [h]
    · rename_i h; simp; exact h
  rw [hk]
  dsimp only at this
  rw [this]
  simp

theorem writes_property {hdr : List (Item UInt8)} {rs : List (RI UInt8)} (hh : WritesIs hdr rs) :
    Writes (propertyMixin E.PropertyID Property.propertyDict hdr) (propertySent Spec.properties rs) := by
  intro L hL ctx u b
  constructor
  · rintro ⟨r, h⟩
    simp only [propertyMixin, bind_ok] at h
    obtain ⟨d, hd, ⟨b1, c1⟩, h1, id, h2, m, h3, name, h4, c, h5, ⟨b2, r2⟩, h6, h7⟩ := h
    obtain ⟨k, hk, hhas, rfl⟩ := call_ok h3
    obtain ⟨N, hN, rfl⟩ := memberKey_ok h4
    have hc := dictGet_ok h5
    obtain ⟨p, hp, rfl⟩ := properties_all k hhas
    obtain ⟨N', hN', hl, -⟩ := properties_cover p hp
    rw [hN] at hN'; cases hN'
    cases h7
    have hid := dgetE_ok h2
    have hu : u = .dict d := by
      cases u <;> simp [asDict] at hd
      · subst hd; simp at hid
      · subst hd; rfl
    subst hu
    obtain ⟨dh, hs⟩ := (writes_items hh hL).1 ⟨c1, h1⟩
    rw [hl] at h6
    obtain ⟨v, hv⟩ := (writes_value hp hc hL).1 ⟨r2, h6⟩
    exact ⟨.none, d, id, p, b1, b2, dh, v, rfl, hid, hp, hk, hs, hv, rfl⟩
  · rintro ⟨-, d, id, p, b₁, b₂, dh, v, rfl, hid, hp, hnm, hs, hf, rfl⟩
    obtain ⟨N, hN, hl, c, hc, -⟩ := properties_cover p hp
    obtain ⟨ctx', h1⟩ := (writes_items hh hL (ctx := d)).2 ⟨dh, hs⟩
    obtain ⟨r, h2⟩ := (writes_value hp hc hL (ctx := ctx)).2 ⟨v, hf⟩
    refine ⟨.dict d, ?_⟩
    simp only [propertyMixin, asDict, ok_bind, h1, dgetE_eq hid, call_eq hnm (lookupValue_has hN), memberKey_eq hN, dictGet_eq hc, hl, h2]

/-! ### Settings and sensor values -/

theorem setting_writes {L : Lib} (hL : L.Strict) {ctx d id b} : Sensor.buildSetting L ctx d id = .ok b ↔ SettingSent Spec.properties d id b := by
  by_cases hk : ∃ p ∈ Spec.properties, Names id p
  · obtain ⟨p, hp, hn⟩ := hk
    obtain ⟨N, hN, hl, c, hc, hkd, -⟩ := properties_cover p hp
    have huniq : ∀ q ∈ Spec.properties, Names id q → q.id = p.id ∧ q.name = p.name := by
      intro q hq hq'
      have e : q.id = p.id := by
        rw [Names] at hn hq'
        rw [hn] at hq'; simp only [Option.some.injEq] at hq'; exact_mod_cast hq'.symm
      obtain ⟨N', hN', hl', -⟩ := properties_cover q hq
      rw [e, hN] at hN'; cases hN'
      exact ⟨e, by rw [← hl', hl]⟩
    have hw := writes_value hp hc hL (ctx := ctx) (u := settingValue d p.name) (b := b)
    have key : Sensor.buildSetting L ctx d id = .ok b ↔ (∃ v, F.valueSent p (settingValue d p.name) b v) ∨
        (p.id ∉ textIds ∧ settingValue d p.name = .dict [] ∧ b = []) := by
      have hv : (((dget d p.name).or (dget d "sensor_setting_raw")).getD .none) = settingValue d p.name := rfl
      rw [← hw, ← empty_build hc L ctx]
      simp only [Sensor.buildSetting, settingKey_known hp hn, dictGet_eq hc, ok_bind, hv]
      cases hb : c.build L ctx (settingValue d p.name) with
      | ok x =>
        obtain ⟨b', r⟩ := x
        simp only [Except.ok.injEq, Prod.mk.injEq]
        constructor
        · rintro rfl; exact .inl ⟨r, rfl, rfl⟩
        · rintro (⟨_, rfl, -⟩ | ⟨h1, h2, rfl⟩)
          · rfl
          · rw [h2, h1] at hb; cases hb
      | error e =>
        simp only [reduceCtorEq, exists_false, false_or]
        cases e with
        | key =>
          simp only
          rcases hkd hb with h0 | ⟨d', h0⟩
          · rw [h0]; simp [Sensor.pyBytes, asInt, iter]
          · rw [h0]
            cases d' with
            | nil =>
              rw [h0] at hb
              simp only [hb, true_and, Sensor.pyBytes, asInt, iter, List.map_nil, ok_bind, Sensor.listBytes, Except.ok.injEq]
              exact eq_comm
            | cons x d' => simp [Sensor.pyBytes, asInt, iter, Sensor.listBytes]
        | _ =>
          simp only [reduceCtorEq, false_iff, not_and]
          intro h1 h2
          rw [h2, h1] at hb; cases hb
    rw [key]
    constructor
    · intro h; exact .inl ⟨p, hp, hn, h⟩
    · rintro (⟨q, hq, hq', h⟩ | ⟨h, -⟩)
      · obtain ⟨e1, e2⟩ := huniq q hq hq'
        rw [e1, e2] at h
        rcases h with ⟨v, hv⟩ | h
        · left
          have := (writes_value hq (e1 ▸ hc) hL (ctx := ctx) (u := settingValue d p.name) (b := b)).2 ⟨v, hv⟩
          exact hw.1 this
        · exact .inr h
      · exact absurd hn (h p hp)
  · have hall : ∀ p ∈ Spec.properties, ¬ Names id p := fun p hp h => hk ⟨p, hp, h⟩
    have hsk : Sensor.settingKey id = (id, "sensor_setting_raw") ∧ dictGet Property.propertyDict id = .error .key := by
      cases hi : hashInt id with
      | none =>
        exact ⟨by simp only [Sensor.settingKey, EnumDef.call, hi], by simp only [dictGet, hi]⟩
      | some k =>
        have hh : E.PropertyID.has k = false := not_has fun p hp e => hall p hp (by rw [Names, hi, e])
        exact ⟨settingKey_unknown hi hh, dictGet_none hi hh⟩
    have key : Sensor.buildSetting L ctx d id = .ok b ↔ Raw (settingValue d rawKey) b := by
      rw [← pyBytes_iff]
      simp only [Sensor.buildSetting, hsk.1, hsk.2, error_bind]
      rfl
    rw [key]
    constructor
    · intro h; exact .inr ⟨hall, h⟩
    · rintro (⟨p, hp, hn, -⟩ | ⟨-, h⟩)
      · exact absurd hn (hall p hp)
      · exact h

theorem writes_setting {hdr : List (Item UInt8)} {rs : List (RI UInt8)} (hh : WritesIs hdr rs) :
    Writes (Sensor.settingCon hdr) (settingSent Spec.properties rs) := by
  intro L hL ctx u b
  constructor
  · rintro ⟨r, h⟩
    simp only [Sensor.settingCon, bind_ok] at h
    obtain ⟨d, hd, ⟨b1, c1⟩, h1, id, h2, b2, h3, h4⟩ := h
    cases h4
    have hid := dgetE_ok h2
    have hu : u = .dict d := by
      cases u <;> simp [asDict] at hd
      · subst hd; simp at hid
      · subst hd; rfl
    subst hu
    obtain ⟨dh, hs⟩ := (writes_items hh hL).1 ⟨c1, h1⟩
    exact ⟨.none, d, id, b1, b2, dh, rfl, hid, hs, (setting_writes hL).1 h3, rfl⟩
  · rintro ⟨-, d, id, b₁, b₂, dh, rfl, hid, hs, h2, rfl⟩
    obtain ⟨ctx', h1⟩ := (writes_items hh hL (ctx := d)).2 ⟨dh, hs⟩
    exact ⟨.dict d, by simp only [Sensor.settingCon, asDict, ok_bind, h1, dgetE_eq hid, (setting_writes hL).2 h2]⟩

end
end BM.Props
