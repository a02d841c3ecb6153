import Verif.RaisesMesh
import Verif.MeetsTime
import Verif.SpecErrors
/-!
# Which exceptions decoding can raise (C48): properties, settings, times, gateway addresses, sub-messages
-/
namespace BM
open Config

section
variable {P : Err → Prop} [hB : Base P]

theorem lookupValue_of_has {E : EnumDef} {k : Int} (h : E.has k = true) : ∃ N, lookupValue E.members k = some N := by
  obtain ⟨m, hm, rfl⟩ := (has_iff E k).1 h
  have : ∀ ms : List (String × Int), m ∈ ms → ∃ N, lookupValue ms m.2 = some N := by
    intro ms
    induction ms with
    | nil => intro h; cases h
    | cons x ms ih =>
      intro h
      unfold lookupValue
      split
      · exact ⟨_, rfl⟩
      · rcases List.mem_cons.1 h with rfl | h
        · rename_i hn; exact absurd rfl hn
        · exact ih h
  exact this _ hm

/-- `PropertyMixin`. -/
theorem rs_mixin {E : EnumDef} {D : List (Int × Con UInt8)} {hdr : List (Item UInt8)} {G : Val → Prop}
    (hh : ∀ L s, (∀ e, parseItems L hdr [] s = .error e → P e) ∧ ∀ d r, parseItems L hdr [] s = .ok (d, r) → ∃ v, dget d "property_id" = some v ∧ G v)
    (hc : ∀ v, G v → (∃ k, hashInt v = some k ∧ E.has k = true) ∨ P .value) (hD : ∀ k, E.has k = true → ∃ c, findCase k D = some c)
    (h : ∀ q ∈ D, Raises P anyV q.2) : Raises P anyV (propertyMixin E D hdr) := by
  intro L ctx s _
  refine ⟨fun e he => ?_, fun _ _ _ => trivial⟩
  obtain ⟨h1, h2⟩ := hh L s
  simp only [propertyMixin] at he
  cases hp : parseItems L hdr [] s with
  | error e' => rw [hp] at he; cases he; exact h1 _ hp
  | ok r =>
    obtain ⟨d, t⟩ := r
    obtain ⟨v, hv, hg⟩ := h2 _ _ hp
    rw [hp] at he
    simp only [ok_bind, dgetE_eq hv] at he
    cases hcall : E.call v with
    | error e' =>
      rw [hcall] at he
      cases he
      rcases hc v hg with ⟨k, hk, hh'⟩ | hval
      · rw [call_eq hk hh'] at hcall; cases hcall
      · have : e = .value := by
          unfold EnumDef.call at hcall
          split at hcall
          · split at hcall <;> cases hcall; rfl
          · cases hcall; rfl
        rw [this]; exact hval
    | ok i =>
      obtain ⟨k, hk, hE, rfl⟩ := call_ok hcall
      obtain ⟨N, hN⟩ := lookupValue_of_has hE
      obtain ⟨c, hcs⟩ := hD k hE
      rw [hcall] at he
      simp only [ok_bind, memberKey_eq hN, dictGet_eq hcs] at he
      cases hq : c.parse L ctx t with
      | error e' => rw [hq] at he; cases he; exact (h _ (findCase_raises hcs) L ctx t trivial).1 _ hq
      | ok r => rw [hq] at he; cases he

/-- A header that is an identifier. -/
theorem header_id {c : Con UInt8} {G : Val → Prop} (h : Raises P G c) (L : Lib) (s : List UInt8) :
    (∀ e, parseItems L [field "property_id" c] [] s = .error e → P e) ∧
      ∀ d r, parseItems L [field "property_id" c] [] s = .ok (d, r) → ∃ v, dget d "property_id" = some v ∧ G v := by
  obtain ⟨h1, h2⟩ := h L [] s trivial
  simp only [parseItems, field]
  cases hp : c.parse L [] s with
  | error e => exact ⟨(by intro e' h; cases h; exact h1 _ hp), (by intro d r h; cases h)⟩
  | ok r => exact ⟨(by intro e' h; cases h), (by intro d r h; injection h with h; injection h with h _; subst h; exact ⟨_, dget_dset_self _ _ _, h2 _ _ hp⟩)⟩

/-- … followed by an access byte. -/
theorem header_access {c : Con UInt8} {G : Val → Prop} (h : Raises P G c) (L : Lib) (s : List UInt8) :
    (∀ e, parseItems L [embedded [field "property_id" c], field "access" (uintLE 1)] [] s = .error e → P e) ∧
      ∀ d r, parseItems L [embedded [field "property_id" c], field "access" (uintLE 1)] [] s = .ok (d, r) → ∃ v, dget d "property_id" = some v ∧ G v := by
  obtain ⟨h1, h2⟩ := h L [] s trivial
  simp only [parseItems, field, embedded]
  cases hp : c.parse L [] s with
  | error e => exact ⟨(by intro e' h; cases h; exact h1 _ hp), (by intro d r h; cases h)⟩
  | ok r =>
    obtain ⟨v, t⟩ := r
    simp only [ok_bind, dset, dmerge]
    cases hu : (uintLE 1).parse L [("property_id", v)] t with
    | error e => exact ⟨(by intro e' h; cases h; exact (rs_uint 1 L _ _ trivial).1 _ hu), (by intro d r h; cases h)⟩
    | ok r =>
      refine ⟨(by intro e' h; cases h), ?_⟩
      intro d r' h
      injection h with h; injection h with h _; subst h
      exact ⟨v, by simp [dset, dget], h2 _ _ hp⟩

theorem raises_enumId (E : EnumDef) : Raises P (fun v => ∃ k, hashInt v = some k ∧ E.has k = true) (enumAdapter (uintLE 2) E) := by
  refine raises_adapter (rs_uint 2) ?_
  rintro L v ⟨n, hn⟩
  simp only [enumDecode]
  cases hashInt v with
  | none => exact ⟨(by intro e h; cases h; exact hB.validation), (by intro d h; cases h)⟩
  | some n =>
    dsimp only
    split
    · exact ⟨(by intro e h; cases h), (by intro d h; cases h; exact ⟨n, rfl, by assumption⟩)⟩
    · exact ⟨(by intro e h; cases h; exact hB.validation), (by intro d h; cases h)⟩

/-- Which cases there are, by number. -/
def covers (E : EnumDef) (D : List (Int × Con UInt8)) : Bool := E.members.all fun m => (D.map Prod.fst).contains m.2

omit hB in
theorem covers_find {E D} (h : covers E D = true) {k : Int} (hk : E.has k = true) : ∃ c, findCase k D = some c := by
  obtain ⟨m, hm, rfl⟩ := (has_iff E k).1 hk
  have := List.all_eq_true.1 h m hm
  simp only [List.contains_iff_mem, List.mem_map] at this
  obtain ⟨q, hq, he⟩ := this
  have : ∀ D : List (Int × Con UInt8), q ∈ D → ∃ c, findCase m.2 D = some c := by
    intro D
    induction D with
    | nil => intro h; cases h
    | cons x D ih =>
      obtain ⟨n, c⟩ := x
      intro h
      unfold findCase
      split
      · exact ⟨_, rfl⟩
      · rename_i hn
        rcases List.mem_cons.1 h with rfl | h
        · exact absurd he hn
        · exact ih h
  exact this _ hq

/-- `PaddedString` of a length found in the context. -/
theorem raises_sized {k : String} (hs : P .string) : RaisesIn (HasNat k) P anyV (Gateway.sizedString k) := by
  rintro L ctx s ⟨n, v, hv, hn, h0⟩
  refine ⟨fun e h => ?_, fun _ _ _ => trivial⟩
  simp only [Gateway.sizedString, countOf, dgetE_eq hv, ok_bind, hn, h0, if_true] at h
  simp only [paddedString, takeN] at h
  split at h
  · simp only [ok_bind, bytesStr, utf8Decode] at h
    split at h <;> cases h
    exact hs
  · cases h; exact hB.stream

theorem raisesI_len {k : String} {n : Nat} {I : Dict → Prop} : RaisesI P I (HasNat k) (field k (uintLE n)) := by
  intro L acc s _
  simp only [field, uintLE, takeN]
  split
  · refine ⟨(by intro e h; cases h), ?_⟩
    intro d r h
    injection h with h; injection h with h _; subst h
    exact ⟨_, _, dget_dset_self _ _ _, rfl, by omega⟩
  · exact ⟨(by intro e h; cases h; exact hB.stream), (by intro d r h; cases h)⟩

theorem rs_setServer (hs : P .string) : Raises P anyV Gateway.setServerAddrAndPortNr := by
  refine rs_struct ?_
  refine raisesIs_cons (J := anyD) (by raises) ?_
  refine raisesIs_cons raisesI_len ?_
  exact raisesIs_cons (raisesI_field (raises_sized hs)) raisesIs_nil

theorem rs_configurationStatus (hs : P .string) : Raises P anyV Gateway.configurationStatus := by
  have h0 : RaisesIs P anyD anyD Gateway.setMinimal := by
    refine raisesIs_cons (J := anyD) (by raises) ?_
    refine raisesIs_cons (J := anyD) (by raises) ?_
    refine raisesIs_cons (J := anyD) (by raises) ?_
    refine raisesIs_cons (J := anyD) (by raises) ?_
    refine raisesIs_cons raisesI_len ?_
    exact raisesIs_cons (raisesI_field (raises_sized hs)) raisesIs_nil
  refine rs_struct ?_
  refine raisesIs_cons (J := anyD) (by raises) ?_
  refine raisesIs_cons (J := anyD) (rs_embedded (raisesIs_cons (J := anyD) (rs_embedded (raisesIs_cons (J := anyD) (rs_embedded h0) ?_)) ?_)) ?_
  all_goals raises

/-- `Struct("subopcode" / …, "payload" / Switch(…))`. -/
theorem rs_plainSub {E : EnumDef} {cases : List (Int × Con UInt8)} (h : ∀ q ∈ cases, Raises P anyV q.2) : Raises P anyV (plainSubMessage E cases) := by
  refine rs_struct ?_
  refine raisesIs_cons (J := fun d => ∃ v, dget d "subopcode" = some v) ?_ (raisesIs_cons (J := anyD) ?_ raisesIs_nil)
  · intro L acc s _
    have hk : Raises P anyV (enumAdapter (uintLE 1) E) := by raises
    refine ⟨((rs_field hk) L acc s trivial).1, ?_⟩
    intro d r h
    simp only [field] at h
    cases hp : (enumAdapter (uintLE 1) E).parse L acc s with
    | error e => rw [hp] at h; cases h
    | ok r => rw [hp] at h; injection h with h; injection h with h _; subst h; exact ⟨_, dget_dset_self _ _ _⟩
  · refine raisesI_field (Q := anyV) ?_
    rintro L ctx s ⟨v, hv⟩
    refine ⟨fun e he => ?_, fun _ _ _ => trivial⟩
    simp only [switchC, this, dgetE_eq hv, ok_bind] at he
    exact (raises_caseOf v h L ctx s trivial).1 _ he

end

section
variable {P : Err → Prop} [hB : BaseProp P] [Platform]

theorem propertyId_any : Raises P anyV Sensor.propertyId := rs_select (hB := hB.toBase)

omit hB in
set_option maxRecDepth 100000 in
set_option maxHeartbeats 4000000 in
theorem property_found {k : Int} (hk : E.PropertyID.has k = true) : ∃ c, findCase k Property.propertyDict = some c :=
  covers_find (by with_unfolding_all exact (Eq.refl true)) hk

theorem rs_userProperty (hv : P .value) : Raises P anyV GenericProperty.userPropertySet :=
  rs_mixin (hB := hB.toBase) (G := anyV) (header_id propertyId_any) (fun _ _ => .inr hv) (fun _ => property_found) rs_properties

theorem rs_propertyStatus (hv : P .value) : Raises P anyV GenericProperty.propertyStatus :=
  rs_mixin (hB := hB.toBase) (G := anyV) (header_access (hB := hB.toBase) propertyId_any) (fun _ _ => .inr hv) (fun _ => property_found) rs_properties

theorem rs_setting {hdr : List (Item UInt8)}
    (hh : ∀ L s, (∀ e, parseItems L hdr [] s = .error e → P e) ∧ ∀ d r, parseItems L hdr [] s = .ok (d, r) → ∃ v, dget d "sensor_setting_property_id" = some v) :
    Raises P anyV (Sensor.settingCon hdr) := by
  intro L ctx s _
  refine ⟨fun e he => ?_, fun _ _ _ => trivial⟩
  obtain ⟨h1, h2⟩ := hh L s
  simp only [Sensor.settingCon] at he
  cases hp : parseItems L hdr [] s with
  | error e' => rw [hp] at he; cases he; exact h1 _ hp
  | ok r =>
    obtain ⟨d, t⟩ := r
    obtain ⟨v, hv⟩ := h2 _ _ hp
    rw [hp] at he
    simp only [ok_bind, dgetE_eq hv, Sensor.parseSetting] at he
    split at he
    · rename_i c hc
      have hm : ∃ k, (k, c) ∈ Property.propertyDict := by
        unfold dictGet at hc
        split at hc
        · rename_i k _
          split at hc
          · rename_i c' hf; cases hc; exact ⟨k, findCase_raises hf⟩
          · cases hc
        · cases hc
      obtain ⟨k, hm⟩ := hm
      cases hq : c.parse L ctx t with
      | error e' => rw [hq] at he; cases he; exact (rs_properties _ hm L ctx t trivial).1 _ hq
      | ok r => rw [hq] at he; cases he
    · cases he

omit [Platform] in
theorem setting_header (L : Lib) (s : List UInt8) : (∀ e, parseItems L Sensor.settingGet [] s = .error e → P e) ∧
    ∀ d r, parseItems L Sensor.settingGet [] s = .ok (d, r) → ∃ v, dget d "sensor_setting_property_id" = some v := by
  have := hB.toBase
  have h : RaisesIs P anyD anyD Sensor.settingGet := by raises
  refine ⟨(h L [] s trivial).1, ?_⟩
  intro d r hd
  simp only [Sensor.settingGet, parseItems, embedded, field] at hd
  cases h1 : Sensor.propertyId.parse L [] s with
  | error e => rw [h1] at hd; cases hd
  | ok x =>
    obtain ⟨v, t⟩ := x
    rw [h1] at hd
    simp only [ok_bind] at hd
    generalize hacc : dmerge [] (dset [] "sensor_property_id" v) = acc at hd
    cases h2 : Sensor.propertyId.parse L acc t with
    | error e => rw [h2] at hd; cases hd
    | ok x =>
      rw [h2] at hd
      injection hd with hd; injection hd with hd _; subst hd
      exact ⟨_, dget_dset_self _ _ _⟩

theorem rs_settingSet : Raises P anyV Sensor.settingSet := rs_setting setting_header

theorem rs_settingStatus : Raises P anyV Sensor.settingStatus := by
  have := hB.toBase
  refine rs_setting fun L s => ?_
  have h : RaisesIs P anyD anyD [embedded Sensor.settingGet, field "sensor_setting_access" (uintLE 1)] := by raises
  refine ⟨(h L [] s trivial).1, ?_⟩
  intro d r hd
  simp only [parseItems, embedded, field] at hd
  cases h1 : parseItems L Sensor.settingGet [] s with
  | error e => simp only [parseItems, embedded, field] at h1; rw [h1] at hd; cases hd
  | ok x =>
    obtain ⟨d', t⟩ := x
    obtain ⟨v, hv⟩ := (setting_header (P := P) L s).2 _ _ h1
    simp only [parseItems, embedded, field] at h1
    rw [h1] at hd
    simp only [ok_bind] at hd
    generalize hacc : dmerge [] d' = acc at hd
    have hacc' : ∃ v, dget acc "sensor_setting_property_id" = some v := by
      subst hacc
      have key : ∀ (d' : Dict) (a : Dict), ((∃ v, dget d' "sensor_setting_property_id" = some v) ∨ ∃ v, dget a "sensor_setting_property_id" = some v) →
          ∃ v, dget (dmerge a d') "sensor_setting_property_id" = some v := by
        intro d'
        induction d' with
        | nil => rintro a (⟨v, hv⟩ | h); · cases hv
                 · exact h
        | cons p d' ih =>
          obtain ⟨k, w⟩ := p
          intro a h
          refine ih _ ?_
          by_cases hk : k = "sensor_setting_property_id"
          · subst hk; exact .inr ⟨_, dget_dset_self _ _ _⟩
          · rw [dget_dset_ne _ _ hk]
            rcases h with ⟨v, hv⟩ | h
            · simp only [dget, hk, if_false] at hv; exact .inl ⟨v, hv⟩
            · exact .inr h
      exact key d' [] (.inl ⟨v, hv⟩)
    cases h2 : (uintLE 1).parse L acc t with
    | error e => rw [h2] at hd; cases hd
    | ok x =>
      rw [h2] at hd
      injection hd with hd; injection hd with hd _; subst hd
      rw [dget_dset_ne _ _ (by decide)]
      exact hacc'
end

/-! ### Times -/

/-- The entries of a parsed structure are integers. -/
def Ints (d : Dict) : Prop := ∀ p ∈ d, p.1 = "_" ∨ p.1 = "_name" ∨ IsInt p.2

theorem rt_mem_dset {k : String} {v : Val} : ∀ {d : Dict} {p}, p ∈ dset d k v → p = (k, v) ∨ p ∈ d
  | [], p, h => by simp only [dset, List.mem_singleton] at h; exact .inl h
  | (k', v') :: d, p, h => by
    simp only [dset] at h
    split at h
    · rename_i hk
      rcases List.mem_cons.1 h with h | h
      · subst hk; exact .inl h
      · exact .inr (List.mem_cons_of_mem _ h)
    · rcases List.mem_cons.1 h with h | h
      · exact .inr (by rw [h]; exact List.mem_cons_self)
      · rcases rt_mem_dset h with h | h
        · exact .inl h
        · exact .inr (List.mem_cons_of_mem _ h)

theorem rt_mem_dget {k : String} {v : Val} : ∀ {d : Dict}, dget d k = some v → (k, v) ∈ d
  | (k', v') :: d, h => by
    simp only [dget] at h
    split at h
    · rename_i hk; injection h with h; subst h hk; exact List.mem_cons_self
    · exact List.mem_cons_of_mem _ (rt_mem_dget h)

theorem Ints.set {d : Dict} (h : Ints d) {k : String} {v : Val} (hv : k = "_" ∨ k = "_name" ∨ IsInt v) : Ints (dset d k v) := by
  intro p hp
  rcases rt_mem_dset hp with rfl | hp
  · exact hv
  · exact h p hp

theorem Ints.merge : ∀ {e d : Dict}, Ints d → Ints e → Ints (dmerge d e)
  | [], _, h, _ => h
  | (k, v) :: e, d, h, he =>
    Ints.merge (e := e) (h.set (he (k, v) List.mem_cons_self)) (fun p hp => he p (List.mem_cons_of_mem _ hp))

theorem Ints.get {d : Dict} (h : Ints d) {k : String} {v : Val} (hv : dget d k = some v) (h1 : k ≠ "_") (h2 : k ≠ "_name") : IsInt v := by
  rcases h _ (rt_mem_dget hv) with h | h | h
  · exact absurd h h1
  · exact absurd h h2
  · exact h

section
variable {α : Type}
/-- Parsing the items leaves only integers. -/
def IntItem (it : Item α) : Prop := ∀ L acc s d r, Ints acc → it.parse L acc s = .ok (d, r) → Ints d

theorem intItem_field {k : String} {c : Con α} (h : ∀ L ctx s v r, c.parse L ctx s = .ok (v, r) → IsInt v) : IntItem (field k c) := by
  intro L acc s d r ha hp
  simp only [field] at hp
  cases hc : c.parse L acc s with
  | error e => rw [hc] at hp; cases hp
  | ok x =>
    obtain ⟨v, t⟩ := x
    rw [hc] at hp
    injection hp with hp; injection hp with hp _; subst hp
    exact ha.set (.inr (.inr (h _ _ _ _ _ hc)))

theorem intItems : ∀ {its : List (Item α)}, (∀ it ∈ its, IntItem it) → ∀ {L acc s d r}, Ints acc → parseItems L its acc s = .ok (d, r) → Ints d
  | [], _, L, acc, s, d, r, ha, hp => by injection hp with hp; injection hp with hp _; subst hp; exact ha
  | it :: its, h, L, acc, s, d, r, ha, hp => by
    simp only [parseItems] at hp
    cases hc : it.parse L acc s with
    | error e => rw [hc] at hp; cases hp
    | ok x =>
      obtain ⟨d', t⟩ := x
      rw [hc] at hp
      exact intItems (fun i hi => h i (List.mem_cons_of_mem _ hi)) (h it List.mem_cons_self _ _ _ _ _ ha hc) hp
end

theorem intItem_bits {name n rev} {its : List (Item Bool)} (hn : name = "_") (h : ∀ it ∈ its, IntItem it) : IntItem (embeddedBitStruct name n rev its) := by
  have hs : ∀ {L ctx s v r}, (struct its).parse L ctx s = .ok (v, r) → ∀ d, v = .dict d → Ints d := by
    intro L ctx s v r hp d hd
    simp only [struct] at hp
    cases hc : parseItems L its [] s with
    | error e => rw [hc] at hp; cases hp
    | ok x =>
      rw [hc] at hp
      injection hp with hp; injection hp with hp _
      rw [← hp] at hd
      injection hd with hd
      rw [← hd]
      exact intItems h (by intro p hp; cases hp) hc
  have hb : ∀ {L ctx s v r}, (bitwise n (struct its)).parse L ctx s = .ok (v, r) → ∀ d, v = .dict d → Ints d := by
    intro L ctx s v r hp d hd
    simp only [bitwise] at hp
    cases ht : takeN n s with
    | error e => rw [ht] at hp; cases hp
    | ok x =>
      rw [ht] at hp
      simp only [ok_bind] at hp
      cases hc : (struct its).parse L ctx (bytesBits x.1) with
      | error e => rw [hc] at hp; cases hp
      | ok y =>
        rw [hc] at hp
        injection hp with hp; injection hp with hp _
        subst hp
        exact hs hc d hd
  have hr : ∀ {L ctx s v r}, (if rev = true then reversed n (bitwise n (struct its)) else bitwise n (struct its)).parse L ctx s = .ok (v, r) → ∀ d, v = .dict d → Ints d := by
    intro L ctx s v r hp d hd
    split at hp
    · simp only [reversed] at hp
      cases ht : takeN n s with
      | error e => rw [ht] at hp; cases hp
      | ok x =>
        rw [ht] at hp
        simp only [ok_bind] at hp
        cases hc : (bitwise n (struct its)).parse L ctx x.1.reverse with
        | error e => rw [hc] at hp; cases hp
        | ok y =>
          rw [hc] at hp
          injection hp with hp; injection hp with hp _
          subst hp
          exact hb hc d hd
    · exact hb hp d hd
  intro L acc s d r ha hp
  simp only [embeddedBitStruct] at hp
  revert hp hr
  generalize (if rev = true then reversed n (bitwise n (struct its)) else bitwise n (struct its)) = c
  intro hr hp
  cases hc : c.parse L acc s with
  | error e => rw [hc] at hp; cases hp
  | ok x =>
    obtain ⟨v, t⟩ := x
    rw [hc] at hp
    simp only [ok_bind] at hp
    split at hp
    · rename_i d' _
      injection hp with hp; injection hp with hp _; subst hp
      exact (ha.set (.inl hn)).merge (hr hc _ rfl)
    · cases hp

theorem ints_time {L : Lib} {ctx : Dict} {s : List UInt8} {v : Val} {r} (h : Time.time.parse L ctx s = .ok (v, r)) : ∃ d, v = .dict d ∧ Ints d := by
  have hf : ∀ (k : String) (c : Con UInt8), Raises (fun _ => True) IsInt c → IntItem (field k c) :=
    fun k c hc => intItem_field fun L ctx s v r hv => (hc L ctx s trivial).2 v r hv
  have hu := fun n => raises_uint (P := fun _ => True) trivial n
  have hi := fun n => raises_bytesInt (P := fun _ => True) trivial n
  have hm : ∀ {L ctx s v r}, Time.timeMinimal.parse L ctx s = .ok (v, r) → ∃ d, v = .dict d ∧ Ints d := by
    intro L ctx s v r h
    simp only [struct] at h
    cases hc : parseItems L [field "tai_seconds" (bytesIntLE 5)] [] s with
    | error e => rw [hc] at h; cases h
    | ok x =>
      rw [hc] at h
      injection h with h; injection h with h _; subst h
      exact ⟨_, rfl, intItems (all_cons (hf _ _ (hi 5)) all_nil) (by intro p hp; cases hp) hc⟩
  have ho : ∀ {L ctx s v r}, Time.timeOptional.parse L ctx s = .ok (v, r) → ∃ d, v = .dict d ∧ Ints d := by
    intro L ctx s v r h
    simp only [Time.structStop] at h
    cases hc : parseItems L [field "tai_seconds" (bytesIntLE 5)] [] s with
    | error e => rw [hc] at h; cases h
    | ok x =>
      obtain ⟨d, t⟩ := x
      have hd : Ints d := intItems (all_cons (hf _ _ (hi 5)) all_nil) (by intro p hp; cases hp) hc
      rw [hc] at h
      simp only [ok_bind] at h
      cases hz : Time.taiZero d with
      | error e => rw [hz] at h; cases h
      | ok b =>
        rw [hz] at h
        simp only [ok_bind] at h
        split at h
        · injection h with h; injection h with h _; subst h; exact ⟨_, rfl, hd⟩
        · revert h
          generalize hits : [field "subsecond" (uintLE 1), field "uncertainty" (uintLE 1), embeddedBitStruct "_" 2 true [field "tai_utc_delta" (ubits 15), field "time_authority" flagBit], field "time_zone_offset" (uintLE 1)] = its
          intro h
          have hall : ∀ it ∈ its, IntItem it := by
            subst hits
            refine all_cons (hf _ _ (hu 1)) (all_cons (hf _ _ (hu 1)) (all_cons (intItem_bits rfl (all_cons ?_ (all_cons ?_ all_nil))) (all_cons (hf _ _ (hu 1)) all_nil)))
            · exact intItem_field fun L ctx s v r hv => (raises_ubits (P := fun _ => True) trivial 15 L ctx s trivial).2 v r hv
            · exact intItem_field fun L ctx s v r hv => (raises_flagBit (P := fun _ => True) trivial L ctx s trivial).2 v r hv
          cases hq : parseItems L its d t with
          | error e => rw [hq] at h; cases h
          | ok y =>
            rw [hq] at h
            injection h with h; injection h with h _; subst h
            exact ⟨_, rfl, intItems hall hd hq⟩
  have hn : ∀ (c : Con UInt8) (n : String), (∀ {L ctx s v r}, c.parse L ctx s = .ok (v, r) → ∃ d, v = .dict d ∧ Ints d) →
      ∀ {L ctx s v r}, (nameAdapter n c).parse L ctx s = .ok (v, r) → ∃ d, v = .dict d ∧ Ints d := by
    intro c n hc L ctx s v r h
    simp only [nameAdapter] at h
    cases hp : c.parse L ctx s with
    | error e => rw [hp] at h; cases h
    | ok x =>
      obtain ⟨w, t⟩ := x
      obtain ⟨d, rfl, hd⟩ := hc hp
      rw [hp] at h
      injection h with h; injection h with h _; subst h
      exact ⟨_, rfl, hd.set (.inr (.inl rfl))⟩
  simp only [Time.time, namedSelect, select, List.map, selectParse] at h
  split at h
  · rename_i x hx; injection h with h; subst h; exact hn _ _ ho hx
  · split at h
    · cases h
    · split at h
      · rename_i x hx; injection h with h; subst h; exact hn _ _ hm hx
      · split at h <;> cases h

theorem intEntry_err {d : Dict} (hd : Ints d) {k : String} (h1 : k ≠ "_") (h2 : k ≠ "_name") {e : Err} (h : Time.intEntry d k = .error e) : e = .key := by
  simp only [Time.intEntry, dgetE] at h
  cases hv : dget d k with
  | none => rw [hv] at h; cases h; rfl
  | some v =>
    obtain ⟨n, hn⟩ := hd.get hv h1 h2
    rw [hv] at h
    simp only [ok_bind, hn] at h
    cases h

theorem timeDecode_err {d : Dict} (hd : Ints d) {e : Err} (h : Time.timeDecode (.dict d) = .error e) : e = .key ∨ e = .value ∨ e = .overflow := by
  simp only [Time.timeDecode] at h
  cases h1 : Time.intEntry d "tai_seconds" with
  | error e' => rw [h1] at h; cases h; exact .inl (intEntry_err hd (by decide) (by decide) h1)
  | ok tai =>
    rw [h1] at h
    simp only [ok_bind] at h
    split at h
    · cases h
    · cases h2 : Time.intEntry d "time_zone_offset" with
      | error e' => rw [h2] at h; cases h; exact .inl (intEntry_err hd (by decide) (by decide) h2)
      | ok tz =>
        rw [h2] at h
        simp only [ok_bind] at h
        cases h3 : Time.intEntry d "subsecond" with
        | error e' => rw [h3] at h; cases h; exact .inl (intEntry_err hd (by decide) (by decide) h3)
        | ok sub =>
          rw [h3] at h
          simp only [ok_bind] at h
          split at h
          · cases h4 : Time.intEntry d "tai_utc_delta" with
            | error e' => rw [h4] at h; cases h; exact .inl (intEntry_err hd (by decide) (by decide) h4)
            | ok delta =>
              rw [h4] at h
              simp only [ok_bind, dgetE] at h
              cases h5 : dget d "time_authority" with
              | none => rw [h5] at h; cases h; exact .inl rfl
              | some auth =>
                rw [h5] at h
                simp only [ok_bind] at h
                cases h6 : Time.intEntry d "uncertainty" with
                | error e' => rw [h6] at h; cases h; exact .inl (intEntry_err hd (by decide) (by decide) h6)
                | ok unc => rw [h6] at h; cases h
          · split at h
            · cases h; exact .inr (.inr rfl)
            · cases h; exact .inr (.inl rfl)

theorem rs_timeSet {P : Err → Prop} [hB : Base P] (hk : P .key) (hv : P .value) (ho : P .overflow) : Raises P anyV Time.timeSet := by
  intro L ctx s _
  refine ⟨fun e he => ?_, fun _ _ _ => trivial⟩
  simp only [Time.timeSet, adapter] at he
  cases hp : Time.time.parse L ctx s with
  | error e' => rw [hp] at he; cases he; exact ((rs_named (P := P)) L ctx s trivial).1 _ hp
  | ok r =>
    obtain ⟨v, t⟩ := r
    obtain ⟨d, rfl, hd⟩ := ints_time hp
    rw [hp] at he
    simp only [ok_bind] at he
    cases hq : Time.timeDecode (.dict d) with
    | error e' =>
      rw [hq] at he
      cases he
      rcases timeDecode_err hd hq with rfl | rfl | rfl <;> assumption
    | ok w => rw [hq] at he; cases he

end BM
