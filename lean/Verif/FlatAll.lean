import Verif.FlatMsg
import Verif.MeetsTac
import Verif.FlatNames
/-!
# All messages whose values survive the conversion of names
-/
namespace BM
open F Case Props

/-! ### Composition data -/

theorem flat_relationItem (h1 : Flat Spec.shortItem) (h2 : Flat Spec.longItem) : Flat Spec.relationItem := by
  rintro b v ⟨du, uf, up, ui, di, v0, ul, us, vs, p, q, f, present, id, key, G, rfl, a1, a2, a3, a4, a5, a6, a7, a8, a9, a10, a11, ⟨a12, us0, a13, a14⟩,
    a15, a16, rfl, hv⟩ hn
  injection hv with hv
  have gk : GoodKey key ∧ Flat G := by
    rcases a3 with ⟨-, rfl, rfl⟩ | ⟨-, rfl, rfl⟩
    · exact ⟨.ofList (by decide +kernel), h1⟩
    · exact ⟨.ofList (by decide +kernel), h2⟩
  have g1 : GoodKey "extended_items_count" := .ofList (by decide +kernel)
  have g2 : GoodKey "format" := .ofList (by decide +kernel)
  have g3 : GoodKey "corresponding_present" := .ofList (by decide +kernel)
  have g4 : GoodKey "corresponding_id" := .ofList (by decide +kernel)
  have g5 : GoodKey "extended_models_items" := .ofList (by decide +kernel)
  have gd : GoodDict du := by
    rw [hv]
    refine ⟨by simp [dkeys], ?_⟩
    simp only [dkeys, List.map_cons, List.map_nil, List.mem_cons, List.not_mem_nil, or_false]
    rintro k (rfl | rfl | rfl | rfl | rfl) <;> assumption
  have hdi : di = [(key, .list vs)] := by
    rw [hv] at a9; simpa [dget] using a9.symm
  subst hdi
  have hul : ul = .list vs := by simpa [dget] using a10.symm
  subst hul
  injection a11 with a11
  subst a11
  have gi : GoodDict [(key, Val.list vs)] := ⟨by simp [dkeys], by simp [dkeys]; exact gk.1⟩
  have hn' : NoRawList vs := by
    rw [NoRaw] at hn
    have := noRaw_mem hn (mem_dget a9)
    simpa [NoRaw, NoRawEntries] using this
  obtain ⟨c, r⟩ := many_flat gk.2 _ _ a16 hn'
  refine ⟨gd.conv ?_, ?_⟩
  · rw [hv]
    simp only [List.mem_cons, List.not_mem_nil, or_false, Prod.mk.injEq]
    rintro k v (⟨-, rfl⟩ | ⟨-, rfl⟩ | ⟨-, rfl⟩ | ⟨-, rfl⟩ | ⟨-, rfl⟩)
    · simp [Convertible]
    · simp [Convertible]
    · simp [Convertible]
    · simp [Convertible]
    · refine gi.conv ?_
      simp only [List.mem_cons, List.not_mem_nil, or_false, Prod.mk.injEq]
      rintro k v ⟨-, rfl⟩
      rw [Convertible]; exact c
  · rw [gd.plain]
    have e9 := gd.get a9
    rw [gi.plain, plain_one gk.1.pub, plainValue] at e9
    have hl : (plainList vs).length = vs.length := by rw [plainList_eq, List.length_map]
    refine ⟨_, _, _, _, _, .list (plainList vs), .list (plainList vs), plainList vs, vs, p, q, f, present, id, key, G, rfl, gd.get a1, hashInt_plain a2, a3,
      gd.get a4, asInt_plain a5, a6, gd.get a7, ?_, e9, by simp [dget], rfl, ⟨rfl, _, rfl, rfl⟩, by rw [hl]; exact a15, r, by rw [hl], by rw [hl, hv]⟩
    rcases a8 with a8 | ⟨b1, b2, b3⟩
    · exact .inl a8
    · exact .inr ⟨b1, asInt_plain b2, b3⟩

/-! ### Descriptors -/

theorem flat_descriptor (h₁ : FlatIs Spec.descriptorLong) (h₂ : FlatIs Spec.descriptorShort) : Flat Spec.descriptor := by
  have k₁ : ("_name" :: "optional" :: Spec.descriptorLong.flatMap RI.keys).Nodup := by keys
  have k₂ : ("_name" :: "minimal" :: Spec.descriptorShort.flatMap RI.keys).Nodup := by keys
  have g₁ : GoodName "optional" := .of (by decide +kernel)
  have g₂ : GoodName "minimal" := .of (by decide +kernel)
  rintro b v (h | ⟨-, h⟩) hr
  · obtain ⟨c, r⟩ := flat_named h₁ k₁ g₁ _ _ h hr
    exact ⟨c, .inl r⟩
  · obtain ⟨c, r⟩ := flat_named h₂ k₂ g₂ _ _ h hr
    obtain ⟨dv, -, -, hp, -, -⟩ := named_shape h₂ k₂ g₂ h hr
    exact ⟨c, .inr ⟨⟨_, hp, by simp [dget], "sensor_positive_tolerance", by decide, by simp [dget]⟩, r⟩⟩

theorem flat_descriptorsRel (hG : Flat Spec.descriptor) : ∀ (vs : List Val) (b : List UInt8), Spec.descriptorsRel vs b vs → NoRawList vs →
    ConvertibleList vs ∧ Spec.descriptorsRel (plainList vs) b vs := by
  intro vs
  induction vs with
  | nil => rintro b ⟨rfl, -⟩ _; exact ⟨by simp [ConvertibleList], by simp [plainList, Spec.descriptorsRel]⟩
  | cons v vs ih =>
    rintro b ⟨b1, b2, v', vs', rfl, e, h1, h0, h2⟩ hn
    cases e
    rw [NoRawList] at hn
    obtain ⟨c1, r1⟩ := hG _ _ h1 hn.1
    obtain ⟨c2, r2⟩ := ih _ h2 hn.2
    exact ⟨by rw [ConvertibleList]; exact ⟨c1, c2⟩, by rw [plainList]; exact ⟨b1, b2, v, vs, rfl, rfl, r1, h0, r2⟩⟩

theorem flat_descriptors (hG : Flat Spec.descriptor) : Flat Spec.descriptors := by
  rintro b v ⟨us, vs, hu, hm, rfl⟩ hn
  injection hu with hu; subst hu
  rw [NoRaw] at hn
  obtain ⟨c, r⟩ := flat_descriptorsRel hG _ _ hm hn
  exact ⟨by rw [Convertible]; exact c, _, vs, by rw [plainValue]; rfl, r, rfl⟩

/-! ### The tactic -/

theorem listOf_not_none {α} {G : Fmt α} (u b v) (h : listOf G u b v) : v ≠ .none := by
  obtain ⟨us, vs, -, -, rfl⟩ := h; simp

macro "goodkey" : tactic => `(tactic| exact GoodKey.ofList (by decide +kernel))

syntax "flat1" : tactic
macro "flats" : tactic => `(tactic| repeat' flat1)
macro_rules | `(tactic| flat1) => `(tactic| fail "no rule")
macro_rules | `(tactic| flat1) => `(tactic| with_reducible first
  | exact flat_uint _ | exact flat_uintWhere _ _ | exact flat_sint _ | exact flat_uintBE _ | exact flat_bitsU _ | exact flat_bitsS _ | exact flat_bit
  | exact flat_byteFlag | exact flat_bytes _ | exact flat_rest | exact flat_log2 _ _ | exact flat_transitionTime _ | exact flat_delay
  | exact flat_count _ _ _ _ | exact flat_fixedString _ | exact flat_timeExp | exact flat_text | exact flat_paddedText _ | exact flat_pascalText
  | exact flat_mac | exact flat_ip | exact flat_float _ | exact flat_time | exact flat_timestamp | exact flat_propertyId _ | exact flat_enumOf _ _
  | exact flat_date | exact flat_bitset _ | exact flat_retransmit _ | exact flat_keyList | exact flat_setOf _)
macro_rules | `(tactic| flat1) => `(tactic| with_reducible first
  | exact FlatIs.nil | refine FlatIs.cons ?_ ?_
  | refine flatI_fld (by goodkey) ?_
  | refine flatI_embed ?_ | exact flatI_zeros _ _ | refine flatI_bitGroup (by decide +kernel) ?_
  | exact flatI_reserved _ (by decide +kernel)
  | exact flatI_sizedText (by goodkey) (by goodkey) | exact flatI_deltaPair (by goodkey) (by goodkey)
  | refine flatI_counted (by goodkey) (by goodkey) ?_
  | refine flatI_counted2 (by goodkey) (by goodkey) (by goodkey) (by goodkey) ?_ ?_
  | refine flatI_fldDefault (by goodkey) ?_ listOf_not_none
  | exact LikeIs.nil | refine LikeIs.cons ?_ ?_ | refine likeI_embed ?_ | refine likeI_fld (by goodkey) ?_
  | exact like_uint _ | exact like_propertyId _ | exact like_enumOf _ _)
macro_rules | `(tactic| flat1) => `(tactic| with_reducible first
  | refine flat_record ?_ (by keys) (by keys)
  | refine flat_packed ?_ | refine flat_packedLE ?_ | refine flat_listOf ?_ | refine flat_listN ?_
  | refine flat_withLength ?_ | refine flat_withCount ?_ | refine flat_relationItem ?_ ?_
  | (refine flat_namedSelect ?_ ?_ ?_ ?_ ?_ ?_ ?_ ?_ ?_
     · flats
     · flats
     · keys
     · keys
     · exact .of (by decide +kernel)
     · exact .of (by decide +kernel)
     · needs
     · decide
     · decide)
  | refine flat_longShort ?_ ?_ (by keys) (by keys) (by decide))

/-! ### Properties -/

section
variable [Platform]

set_option maxRecDepth 100000 in
theorem propChars_eq : Spec.properties.map (fun p => p.name) = propChars.map String.ofList := by
  with_unfolding_all exact (Eq.refl (propChars.map String.ofList))

set_option maxRecDepth 100000 in
omit [Platform] in
theorem propChars_good : (propChars.all goodChars) = true := by decide +kernel

/-- Split a statement about all elements of a literal list. -/
macro "each" : tactic => `(tactic| (
  repeat' with_reducible first | exact List.forall_mem_nil _ | refine List.forall_mem_cons.2 (And.intro ?_ ?_)
  all_goals try dsimp only))

theorem flat_dates : ∀ p ∈ Spec.dateProperties, Flat p.fmt := by
  unfold Spec.dateProperties
  each
  all_goals flats

theorem flat_flags : ∀ p ∈ Spec.flagProperties, Flat p.fmt := by
  unfold Spec.flagProperties
  each
  all_goals flats

set_option maxHeartbeats 4000000 in
set_option maxRecDepth 100000 in
theorem flat_others : ∀ p ∈ Spec.otherProperties, Flat p.fmt := by
  unfold Spec.otherProperties
  each
  all_goals flats

theorem flat_properties : ∀ p ∈ Spec.properties, Flat p.fmt := by
  intro p hp
  rcases List.mem_append.1 hp with hp | hp
  · rcases List.mem_append.1 hp with hp | hp
    · exact flat_dates p hp
    · exact flat_others p hp
  · exact flat_flags p hp

theorem goodProps {cs : List (List Char)} (h : (cs.all fun c => !propChars.contains c) = true) : GoodProps Spec.properties (cs.map String.ofList) where
  key := by
    intro p hp
    have : p.name ∈ Spec.properties.map (fun p => p.name) := List.mem_map.2 ⟨p, hp, rfl⟩
    rw [propChars_eq] at this
    obtain ⟨c, hc, e⟩ := List.mem_map.1 this
    rw [← e]
    exact .ofList (List.all_eq_true.1 propChars_good c hc)
  ne := by
    intro p hp hm
    have : p.name ∈ Spec.properties.map (fun p => p.name) := List.mem_map.2 ⟨p, hp, rfl⟩
    rw [propChars_eq] at this
    obtain ⟨c, hc, e⟩ := List.mem_map.1 this
    obtain ⟨c', hc', e'⟩ := List.mem_map.1 hm
    have : c = c' := String.ofList_injective (e.trans e'.symm)
    subst this
    have := List.all_eq_true.1 h c hc'
    simp [hc] at this
  flat := flat_properties

end

end BM
