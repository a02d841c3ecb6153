import Verif.FitSel
/-!
# Decoded values and the schema (C50): compositions, debug parameters, properties, sensors
-/
namespace BM.Capnp
open BM.Schema BM.Case Config Tables

/-! ### Composition data -/

theorem fit_ifThen {α : Type} {T : String} {c : Con α} {cond} {n : Int} (h : Fit (.type T) c) (hn : Accepts schema T (.int n)) : Fit (.type T) (ifThenElseDefault cond c (.int n)) := by
  intro L ctx s v r hp
  simp only [ifThenElseDefault] at hp
  cases hc : cond ctx with
  | error e => rw [hc] at hp; cases hp
  | ok b =>
    rw [hc] at hp
    simp only [ok_bind] at hp
    split at hp
    · exact h _ _ _ _ _ hp
    · injection hp with hp; injection hp with hp _; subst hp; exact hn

theorem fitI_bitPart {fs : List Tree} {n : Nat} {its : List (Item Bool)} (h : FitIs fs its) : FitI fs (bitPart n its) := by
  intro L acc s d r ha hp
  simp only [bitPart] at hp
  cases ht : takeN n s with
  | error e => rw [ht] at hp; cases hp
  | ok x =>
    rw [ht] at hp
    simp only [ok_bind] at hp
    cases hc : parseItems L its acc (bytesBits x.1) with
    | error e => rw [hc] at hp; cases hp
    | ok y =>
      rw [hc] at hp
      injection hp with hp; injection hp with hp _; subst hp
      exact h _ _ _ _ _ ha hc

theorem camel_single {k k' : String} {v : Val} (hk : camelcase k = k') (hp : isPrivate k = false) : toCamelcaseDict (.dict [(k, v)]) = .dict [(k', toCamelcaseDict v)] := by
  have : dget [(k, v)] "_name" = none := by simp [dget, public_ne hp]
  simp only [toCamelcaseDict, toCase, this, toCaseItems, hp, hk, dset, Bool.false_eq_true, if_false]

theorem fit_extended : Fit (.group g_ModelRelationItem_extendedModelsItems) extendedModelsItems := by
  intro L ctx s v r hp
  simp only [extendedModelsItems] at hp
  cases hf : dgetE ctx "format" with
  | error e => rw [hf] at hp; cases hp
  | ok f =>
    rw [hf] at hp
    simp only [ok_bind] at hp
    split at hp
    · rename_i cls n
      split at hp
      · rename_i name c hl hc
        cases hq : c.parse L ctx s with
        | error e => rw [hq] at hp; cases hp
        | ok x =>
          rw [hq] at hp
          injection hp with hp; injection hp with hp _; subst hp
          have key : ∃ k' T, camelcase (lower name) = k' ∧ isPrivate (lower name) = false ∧ Tree.field (some k') T ∈ g_ModelRelationItem_extendedModelsItems ∧ Fit (.type T) c := by
            unfold extendedItemsCon at hc
            split at hc
            · rename_i hn; subst hn
              injection hc with hc; subst hc
              injection hl with hl; subst hl
              exact ⟨"short", "List(ExtendedModelShortFormat)", by decide +kernel, by decide +kernel, List.mem_of_getElem? (i := 0) rfl, by fit⟩
            · split at hc
              · rename_i hn; subst hn
                injection hc with hc; subst hc
                injection hl with hl; subst hl
                exact ⟨"long", "List(ExtendedModelLongFormat)", by decide +kernel, by decide +kernel, List.mem_of_getElem? (i := 1) rfl, by fit⟩
              · cases hc
          obtain ⟨k', T, hk, hpr, hm, hfit⟩ := key
          refine ⟨[(k', toCamelcaseDict x.1)], camel_single hk hpr, .mk ?_ ?_⟩
          · exact forall_pair_cons (.inUnion (List.mem_singleton.2 rfl) (.field hm (hfit _ _ _ _ _ hq))) forall_pair_nil
          · intro us' _
            exact List.length_filter_le _ _
      · cases hp
    · cases hp

theorem fit_page1 : Fit (.type "CompositionDataPage1") compositionDataPage1 := by
  have h : Fit (.type "ModelRelationItem") (struct modelRelationItem) := by
    refine fit_struct (fitIs_cons (fitI_bitPart ?_) (fitIs_cons (fitI_field (T := .type "UInt8") (fit_ifThen ?_ (in_u8 (by decide) (by decide)))) (fitIs_cons (fitI_field fit_extended) fitIs_nil))) <;> fit
  refine fit_struct (fitIs_cons (fitI_field (fit_greedy (fit_struct (fitIs_cons ?_ (fitIs_cons ?_ (fitIs_cons (fitI_field (fit_array h)) (fitIs_cons (fitI_field (fit_array h)) fitIs_nil))))))) fitIs_nil) <;> fit

theorem fit_composition : Fit (.type "ConfigCompositionDataStatus") compositionDataStatus := by
  refine fit_switch (by decide) (by decide +kernel) (by decide +kernel) (List.mem_of_getElem? (i := 1) rfl) ?_
  refine all_cons (row rfl ?_) (all_cons (row rfl fit_page1) (all_cons (row rfl ?_) (all_cons (row rfl ?_) all_nil))) <;> fit

/-! ### Debug parameters -/

theorem fit_pascal : Fit (.type "Text") pascalString := by
  intro L ctx s v r hp
  simp only [pascalString] at hp
  cases ht : takeN 1 s with
  | error e => rw [ht] at hp; cases hp
  | ok x =>
    rw [ht] at hp
    simp only [ok_bind] at hp
    cases ht2 : takeN (leNat x.1) x.2 with
    | error e => rw [ht2] at hp; cases hp
    | ok y =>
      rw [ht2] at hp
      simp only [ok_bind, bytesStr, utf8Decode] at hp
      split at hp
      · injection hp with hp; injection hp with hp _; subst hp; exact .text (by simp)
      · cases hp

section
variable [Platform]
theorem fit_parameter : Fit (.type "DebugV2Parameter") DebugV2.parameter := by
  refine fit_switch (by with_unfolding_all rfl) (by decide +kernel) (by decide +kernel) (List.mem_of_getElem? (i := 1) rfl) ?_
  unfold DebugV2.parameterCases
  repeat' (first | with_reducible exact all_nil | with_reducible refine all_cons (row rfl fit_pascal) ?_ | refine all_cons (row rfl ?_) ?_)
  all_goals fit
end

/-! ### Properties -/

section
variable [Platform]
set_option maxRecDepth 100000 in
set_option maxHeartbeats 4000000 in
theorem property_rows : ∀ q ∈ Property.propertyDict, Row u_GenericUserPropertySet E.PropertyID q := by
  unfold Property.propertyDict
  repeat' (first | with_reducible exact all_nil | refine all_cons (row rfl ?_) ?_)
  all_goals fit

/-- The identifier. -/
def idOnly : List Tree := [.field (some "propertyId") "UInt16"]
/-- The identifier and the access byte. -/
def idAccess : List Tree := [.field (some "propertyId") "UInt16", .field (some "access") "UInt8"]
instance : HasMember idOnly "propertyId" (.type "UInt16") := member_field 0 rfl
instance : HasMember idAccess "propertyId" (.type "UInt16") := member_field 0 rfl
instance : HasMember idAccess "access" (.type "UInt8") := member_field 1 rfl

theorem propertyNames : goodNames E.PropertyID = true := by decide +kernel
theorem propertyNumbers : small E.PropertyID 16 = true := by decide +kernel

theorem fit_userProperty : Fit (.type "GenericUserPropertySet") GenericProperty.userPropertySet := by
  refine fit_mixin (plain := idOnly) ⟨all_cons (List.mem_of_getElem? (i := 0) rfl) all_nil, rfl, by decide +kernel, List.mem_of_getElem? (i := 1) rfl⟩
    propertyNumbers propertyNames ?_ property_rows
  fit

theorem sameUnion : u_GenericPropertyStatus = u_GenericUserPropertySet ∧ u_GenericAdminPropertySet = u_GenericUserPropertySet := ⟨rfl, rfl⟩

theorem fit_propertyStatus : Fit (.type "GenericPropertyStatus") GenericProperty.propertyStatus := by
  refine fit_mixin (plain := idAccess) ⟨all_cons (List.mem_of_getElem? (i := 0) rfl) (all_cons (List.mem_of_getElem? (i := 1) rfl) all_nil), rfl, by decide +kernel, List.mem_of_getElem? (i := 2) rfl⟩
    propertyNumbers propertyNames ?_ property_rows
  fit

theorem fit_adminSet : Fit (.type "GenericAdminPropertySet") GenericProperty.propertyStatus := by
  refine fit_mixin (plain := idAccess) ⟨all_cons (List.mem_of_getElem? (i := 0) rfl) (all_cons (List.mem_of_getElem? (i := 1) rfl) all_nil), rfl, by decide +kernel, List.mem_of_getElem? (i := 2) rfl⟩
    propertyNumbers propertyNames ?_ property_rows
  fit

/-! ### Sensors -/

/-- The members of the union of the settings. -/
structure Settings (us : List Tree) : Prop where
  props : ∀ t ∈ u_GenericUserPropertySet, t ∈ us
  raw : Tree.field (some "sensorSettingRaw") "List(UInt8)" ∈ us

theorem settings_append {us : List Tree} (h : us = u_GenericUserPropertySet ++ [.field (some "sensorSettingRaw") "List(UInt8)"]) : Settings us := by
  subst h
  exact ⟨fun t ht => List.mem_append_left _ ht, List.mem_append_right _ (List.mem_singleton.2 rfl)⟩

theorem settings_data : Settings u_SensorData := settings_append rfl
theorem settings_set : Settings u_SensorSettingSet := settings_append rfl
theorem settings_status : Settings u_SensorSettingStatus := settings_append rfl

set_option maxRecDepth 100000 in
theorem property_known {k : Int} {c} (h : findCase k Property.propertyDict = some c) : E.PropertyID.has k = true := by
  have hall : ∀ q ∈ Property.propertyDict, E.PropertyID.has q.1 = true := by
    have : (Property.propertyDict.map Prod.fst).all E.PropertyID.has = true := by with_unfolding_all exact (Eq.refl true)
    intro q hq
    exact List.all_eq_true.1 this _ (List.mem_map.2 ⟨q, hq, rfl⟩)
  exact hall _ (findCase_mem h)

theorem takes_setting {T : String} {fs us plain : List Tree} [hT : IsUnion T fs us] (hP : Plain fs us plain) (hS : Settings us)
    [hm : HasMember plain "sensorSettingPropertyId" (.type "UInt16")] {L ctx s id} {kw : Dict} {v r} (ho : Ok plain kw)
    (hid : Accepts schema "UInt16" (toCamelcaseDict id)) (hp : Sensor.parseSetting L ctx s id kw = .ok (v, r)) : Slot.Takes (.type T) (toCamelcaseDict v) := by
  have hc : camelcase "sensor_setting_property_id" = "sensorSettingPropertyId" := by decide +kernel
  have hraw : camelcase "sensor_setting_raw" = "sensorSettingRaw" := by decide +kernel
  have hset : ∀ {id'}, Accepts schema "UInt16" (toCamelcaseDict id') → Ok plain (dset kw "sensor_setting_property_id" id') := by
    intro id' h
    refine ho.set (by decide) (.inr ?_)
    rw [hc]
    exact hm.takes _ h
  by_cases hh : ∃ k, hashInt id = some k ∧ E.PropertyID.has k = true
  · obtain ⟨k, hk, hhas⟩ := hh
    obtain ⟨N, hN⟩ := lookupValue_of_has hhas
    obtain ⟨c, hf⟩ := property_found hhas
    have hkey : Sensor.settingKey id = (.enum E.PropertyID.cls k, lower N) := by
      simp only [Sensor.settingKey, call_eq hk hhas, memberKey_eq hN]
    simp only [Sensor.parseSetting, hkey, dictGet_eq hf] at hp
    cases h6 : c.parse L ctx s with
    | error e => rw [h6] at hp; cases hp
    | ok y =>
      rw [h6] at hp
      injection hp with hp; injection hp with hp _; subst hp
      obtain ⟨a, b⟩ := small_lt propertyNumbers hN
      exact takes_header (hT := hT) hP (hset (id' := .enum E.PropertyID.cls k) (in_u16 a (by simpa using b))) (good_ne propertyNames hN)
        (member_mono (property_rows _ (findCase_mem hf) N hN _ _ _ _ _ h6) hS.props)
  · have hcall : ∀ m, E.PropertyID.call id ≠ .ok m := by
      intro m h
      obtain ⟨k, h1, h2, -⟩ := call_ok h
      exact hh ⟨k, h1, h2⟩
    have hkey : Sensor.settingKey id = (id, "sensor_setting_raw") := by
      simp only [Sensor.settingKey]
      cases h : E.PropertyID.call id with
      | ok m => exact absurd h (hcall m)
      | error e => rfl
    have hget : ∃ e, dictGet Property.propertyDict id = .error e := by
      simp only [dictGet]
      cases h : hashInt id with
      | none => exact ⟨_, rfl⟩
      | some k =>
        dsimp only
        cases h2 : findCase k Property.propertyDict with
        | none => exact ⟨_, rfl⟩
        | some c => exact absurd ⟨k, h, property_known h2⟩ hh
    obtain ⟨e, he⟩ := hget
    simp only [Sensor.parseSetting, hkey, he] at hp
    injection hp with hp; injection hp with hp _; subst hp
    refine takes_header (hT := hT) hP (hset hid) (by decide) ?_
    rw [hraw]
    refine .field hS.raw (takes_list (T := "UInt8") ?_)
    intro v hv
    obtain ⟨x, -, rfl⟩ := List.mem_map.1 hv
    have := x.toNat_lt
    exact in_u8 (by omega) (by omega)

theorem fit_setting {T : String} {fs us plain : List Tree} [hT : IsUnion T fs us] (hP : Plain fs us plain) (hS : Settings us)
    [hm : HasMember plain "sensorSettingPropertyId" (.type "UInt16")] (hq : ∀ k v, k = "sensorSettingPropertyId" → Member schema plain k v → Accepts schema "UInt16" v)
    {hdr : List (Item UInt8)} (hh : FitIs plain hdr) : Fit (.type T) (Sensor.settingCon hdr) := by
  intro L ctx s v r hp
  simp only [Sensor.settingCon] at hp
  cases h1 : parseItems L hdr [] s with
  | error e => rw [h1] at hp; cases hp
  | ok x =>
    obtain ⟨d, t⟩ := x
    rw [h1] at hp
    simp only [ok_bind] at hp
    cases h2 : dgetE d "sensor_setting_property_id" with
    | error e => rw [h2] at hp; cases hp
    | ok id =>
      rw [h2] at hp
      have ho := hh _ _ _ _ _ ok_nil h1
      refine takes_setting (hT := hT) hP hS (ok_dpop ho _) ?_ hp
      have hc : camelcase "sensor_setting_property_id" = "sensorSettingPropertyId" := by decide +kernel
      have hpub : isPrivate "sensor_setting_property_id" = false := by decide +kernel
      rcases (ho _ _ (rt_mem_dget (dgetE_ok h2))).2 with h | h
      · rw [hpub] at h; cases h
      · rw [hc] at h; exact hq _ _ rfl h

/-- The header of a setting. -/
def setHeader : List Tree := [.field (some "sensorPropertyId") "UInt16", .field (some "sensorSettingPropertyId") "UInt16"]
instance : HasMember setHeader "sensorPropertyId" (.type "UInt16") := member_field 0 rfl
instance : HasMember setHeader "sensorSettingPropertyId" (.type "UInt16") := member_field 1 rfl
/-- … with the access byte. -/
def statusHeader : List Tree := [.field (some "sensorPropertyId") "UInt16", .field (some "sensorSettingPropertyId") "UInt16", .field (some "sensorSettingAccess") "UInt8"]
instance : HasMember statusHeader "sensorPropertyId" (.type "UInt16") := member_field 0 rfl
instance : HasMember statusHeader "sensorSettingPropertyId" (.type "UInt16") := member_field 1 rfl
instance : HasMember statusHeader "sensorSettingAccess" (.type "UInt8") := member_field 2 rfl
/-- The header of sensor data. -/
def dataHeader : List Tree := [.field (some "format") "UInt8", .field (some "length") "UInt16", .field (some "sensorSettingPropertyId") "UInt16"]
instance : HasMember dataHeader "format" (.type "UInt8") := member_field 0 rfl
instance : HasMember dataHeader "length" (.type "UInt16") := member_field 1 rfl
instance : HasMember dataHeader "sensorSettingPropertyId" (.type "UInt16") := member_field 2 rfl

theorem fit_settingSet : Fit (.type "SensorSettingSet") Sensor.settingSet := by
  refine fit_setting (plain := setHeader) ⟨all_cons (List.mem_of_getElem? (i := 0) rfl) (all_cons (List.mem_of_getElem? (i := 1) rfl) all_nil), rfl, by decide +kernel, List.mem_of_getElem? (i := 2) rfl⟩
    settings_set ?_ ?_
  · rintro k v rfl h
    cases h with
    | field h h2 => simp [setHeader] at h; subst h; exact h2
    | group h _ => simp [setHeader] at h
    | inUnion h _ => simp [setHeader] at h
  · fit

theorem fit_settingStatus : Fit (.type "SensorSettingStatus") Sensor.settingStatus := by
  refine fit_setting (plain := statusHeader) ⟨all_cons (List.mem_of_getElem? (i := 0) rfl) (all_cons (List.mem_of_getElem? (i := 1) rfl) (all_cons (List.mem_of_getElem? (i := 2) rfl) all_nil)), rfl, by decide +kernel, List.mem_of_getElem? (i := 3) rfl⟩
    settings_status ?_ ?_
  · rintro k v rfl h
    cases h with
    | field h h2 => simp [statusHeader] at h; subst h; exact h2
    | group h _ => simp [statusHeader] at h
    | inUnion h _ => simp [statusHeader] at h
  · fit

omit [Platform] in
theorem mpid_bounds {s r : List UInt8} {f l i : Nat} (h : Sensor.mpidParse s = .ok ((f, l, i), r)) : f < 2 ∧ l < 65536 ∧ i < 65536 := by
  simp only [Sensor.mpidParse] at h
  cases ht : takeN 2 s with
  | error e => rw [ht] at h; cases h
  | ok x =>
    rw [ht] at h
    simp only [ok_bind] at h
    split at h
    · rename_i b0 b1 _
      have h0 := b0.toNat_lt
      have h1 := b1.toNat_lt
      split at h
      · cases ht2 : takeN 1 x.2 with
        | error e => rw [ht2] at h; cases h
        | ok y =>
          rw [ht2] at h
          simp only [ok_bind] at h
          split at h
          · rename_i b2 _
            have h2 := b2.toNat_lt
            injection h with h; injection h with h _; injection h with ha h; injection h with hb hc
            subst ha hb hc
            refine ⟨by omega, ?_, ?_⟩
            · rw [Nat.shiftRight_eq_div_pow]; omega
            · refine Nat.or_lt_two_pow (n := 16) (by omega) ?_
              rw [Nat.shiftLeft_eq]; omega
          · cases h
      · injection h with h; injection h with h _; injection h with ha h; injection h with hb hc
        subst ha hb hc
        refine ⟨by omega, ?_, ?_⟩
        · have : (b0.toNat >>> 1) &&& 0b1111 ≤ 0b1111 := Nat.and_le_right
          omega
        · refine Nat.or_lt_two_pow (n := 16) ?_ ?_
          · have : (b0.toNat >>> 5) &&& 0b111 ≤ 0b111 := Nat.and_le_right
            omega
          · rw [Nat.shiftLeft_eq]; omega
    · cases h

theorem fit_data : Fit (.type "SensorData") Sensor.data := by
  intro L ctx s v r hp
  simp only [Sensor.data] at hp
  cases hm : Sensor.mpidParse s with
  | error e => rw [hm] at hp; cases hp
  | ok x =>
    obtain ⟨⟨f, l, i⟩, t⟩ := x
    obtain ⟨h1, h2, h3⟩ := mpid_bounds hm
    rw [hm] at hp
    simp only [ok_bind] at hp
    cases hs : Sensor.parseSetting L ctx (t.take l) (.int i) [("format", .int f), ("length", .int l)] with
    | error e => rw [hs] at hp; cases hp
    | ok y =>
      rw [hs] at hp
      injection hp with hp; injection hp with hp _; subst hp
      refine takes_setting (plain := dataHeader) ⟨all_cons (List.mem_of_getElem? (i := 0) rfl) (all_cons (List.mem_of_getElem? (i := 1) rfl) (all_cons (List.mem_of_getElem? (i := 2) rfl) all_nil)), rfl, by decide +kernel, List.mem_of_getElem? (i := 3) rfl⟩
        settings_data ?_ (id := .int i) (in_u16 (k := i) (by omega) (by omega)) hs
      have hf : camelcase "format" = "format" := by decide +kernel
      have hl : camelcase "length" = "length" := by decide +kernel
      refine forall_pair_cons ⟨by decide, .inr ?_⟩ (forall_pair_cons ⟨by decide, .inr ?_⟩ forall_pair_nil)
      · rw [hf]; exact HasMember.takes (T := .type "UInt8") _ (in_u8 (by omega) (by omega))
      · rw [hl]; exact HasMember.takes (T := .type "UInt16") _ (in_u16 (by omega) (by omega))

omit [Platform] in
theorem fit_descriptorItem : Fit (.type "SensorDescriptorStatusItem") Sensor.descriptorStatusItem := by
  refine fit_altsIn ?_
  fit

end
end BM.Capnp
