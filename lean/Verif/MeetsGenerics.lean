import Verif.MeetsConfig
import Verif.SpecGenerics
/-!
# The generic, lighting, scene and health messages meet their formats
-/
namespace BM
open F

/-- A field with a default. -/
theorem meetsI_default {α} {M : Mode} {e : Bool} {k : String} {c : Con α} {dflt : Val} {G : Fmt α} (hc : Meets M e c G)
    (hv : ∀ {u b v}, G u b v → v ≠ .none) (hd : dflt ≠ .none) :
    MeetsI M e (field k (defaultC c dflt)) (F.fldDefault k dflt G) where
  enc := by
    rintro du b dv ⟨u, v, hu, hg, rfl⟩ L ctx hT
    have key : ∃ u0, ((dget du k).getD .none) = u0 ∧ (match u0 with | .none => dflt | u => u) = u := by
      rcases hu with ⟨hu, hn⟩ | ⟨hu | hu, rfl⟩
      · refine ⟨u, by simp [hu], ?_⟩; cases u <;> first | exact absurd rfl hn | rfl
      · exact ⟨.none, by simp [hu], rfl⟩
      · exact ⟨.none, by simp [hu], rfl⟩
    obtain ⟨u0, h0, h1⟩ := key
    obtain ⟨r, hr⟩ := hc.enc hg L (dset ctx k u0) hT
    have hb : (defaultC c dflt).build L (dset ctx k u0) u0 = .ok (b, u) := by
      cases u0 <;> (subst h1; simp only [defaultC]; simp only [hr, ok_bind])
    have hn : (defaultC c dflt).buildNone = true := rfl
    simp only [field, hn, if_true, h0, ok_bind, hb]
    exact ⟨_, rfl⟩
  dec := by
    rintro du b dv ⟨u, v, hu, hg, rfl⟩ L acc rest hr
    simp [field, defaultC, hc.dec hg L acc rest hr, dmerge]
  sound := by
    intro L du ctx b ctx' hL h
    simp only [field, defaultC, if_true, bind_ok, Except.ok.injEq] at h
    obtain ⟨u0, rfl, ⟨b', r⟩, ⟨⟨b'', r'⟩, h2, h3⟩, h4⟩ := h
    simp only [Prod.mk.injEq] at h3 h4
    obtain ⟨rfl, rfl⟩ := h3
    obtain ⟨rfl, -⟩ := h4
    obtain ⟨v, hv⟩ := hc.sound hL h2
    refine ⟨[(k, v)], _, v, ?_, hv, rfl⟩
    cases hg : dget du k with
    | none => right; simp
    | some u =>
      cases u <;> simp
  refl := by
    rintro hS du b dv ⟨u, v, hu, hg, rfl⟩
    exact ⟨v, v, .inl ⟨by simp, hv hg⟩, hc.refl hS hg, rfl⟩
  inv := by
    intro hS L acc s acc' rest h
    simp only [field, defaultC, bind_ok] at h
    obtain ⟨⟨v, r⟩, h1, h2⟩ := h
    simp only [Except.ok.injEq, Prod.mk.injEq] at h2
    obtain ⟨rfl, rfl⟩ := h2
    obtain ⟨b, hb⟩ := hc.inv hS h1
    exact ⟨b, [(k, v)], rfl, v, v, .inl ⟨by simp, hv hb⟩, hb, rfl⟩
  exact := by
    intro hX L acc s acc' rest h
    simp only [field, defaultC, bind_ok] at h
    obtain ⟨⟨v, r⟩, h1, h2⟩ := h
    simp only [Except.ok.injEq, Prod.mk.injEq] at h2
    obtain ⟨rfl, rfl⟩ := h2
    obtain ⟨b, hs, hb⟩ := hc.exact hX h1
    exact ⟨b, [(k, v)], hs, rfl, v, v, .inl ⟨by simp, hv hb⟩, hb, rfl⟩
  nodiv := by
    intro L acc s h
    simp only [field, defaultC, bind_err] at h
    rcases h with h | ⟨_, -, h⟩
    · exact hc.nodiv _ _ _ h
    · simp at h
  keys := by rintro du b dv ⟨u, v, hu, hg, rfl⟩; rfl
  loc := by
    rintro du du' b dv hk ⟨u, v, hu, hg, rfl⟩
    exact ⟨u, v, by rw [← hk k (by simp [F.fldDefault])]; exact hu, hg, rfl⟩

theorem listOf_ne {α} {G : Fmt α} {u b v} (h : listOf G u b v) : v ≠ .none := by
  obtain ⟨_, _, _, _, rfl⟩ := h; simp

theorem meetsI_faultArray {M : Mode} {k : String} : MeetsI M true (field k (defaultC (greedyRange (uintLE 1)) (.list [])))
    (F.fldDefault k (.list []) (listOf (uint 1))) := meetsI_default meets_uint1List listOf_ne (by simp)

theorem meets_sceneNumber {M : Mode} {e : Bool} : Meets M e Scene.sceneNumber (uintWhere 2 (0 < ·)) := by
  refine meets_uintWhere 2 _ _ ?_
  intro u k hk hu
  rw [asNum_of_asInt hu]
  simp

theorem meets_fastPeriod {M : Mode} {e : Bool} : Meets M e (rangeValidator (uintLE 1) none (some 15)) (uintWhere 1 (· ≤ 15)) := by
  refine meets_uintWhere 1 _ _ ?_
  intro u k hk hu
  simp only [inRange, asNum_of_asInt hu]
  simp only [Bool.true_and, Int.cast_natCast, Int.cast_ofNat, not_lt]
  congr 1
  rw [Bool.eq_iff_iff]; simp only [decide_eq_true_eq]; norm_cast

theorem countOne : CountOK 0 (.f 1) 1 false := .exact (by norm_num) (by norm_num) (by decide +kernel)

theorem meets_known8 {M : Mode} {e : Bool} : Meets M e (defaultCount (uintLE 1) 1) Spec.known8 :=
  meets_count (meets_uint 1) (intFmt_uint (by decide)) 1 countOne true
theorem meets_known24 {M : Mode} {e : Bool} (hU : M.U) : Meets M e (defaultCount (bytesIntLE 3) 3) Spec.known24 :=
  meets_count (meets_bytesInt 3 hU) (intFmt_uint (by decide)) 3 countOne true

macro_rules | `(tactic| meets1) => `(tactic| with_reducible first
  | exact meetsI_faultArray | exact meets_sceneNumber | exact meets_fastPeriod
  | exact meets_known8 | exact meets_known24 trivial)

/-- Optional/minimal messages. -/
theorem meets_optMin {M : Mode} {its₁ its₂ : List (Item UInt8)} {rs₁ rs₂ : List (RI UInt8)} (k : String) {m₁ m₂ : Nat}
    (h₁ : MeetsIs ⟨False, False, M.S, M.X⟩ true its₁ rs₁) (h₂ : MeetsIs M true its₂ rs₂)
    (hn₁ : ("_name" :: "optional" :: rs₁.flatMap RI.keys).Nodup) (hn₂ : ("_name" :: "optional" :: "minimal" :: rs₂.flatMap RI.keys).Nodup)
    (hneed : Needs k rs₁) (hk : k ∉ "_name" :: rs₂.flatMap RI.keys)
    (hmin : MinLenIs its₁ m₁) (hlen : LenEqIs rs₂ m₂) (hlt : m₂ < m₁) :
    Meets M true (optionalMinimal its₁ its₂) (Spec.optMin rs₁ rs₂) :=
  meets_namedSelect (k := k) h₁ h₂ hn₁ hn₂ hneed hk hmin hlen hlt False.elim False.elim False.elim False.elim (fun h => h) (fun h => h)

/-- Goals about optional/minimal messages with a transition or remaining time. -/
macro "optmin" : tactic => `(tactic| first
  | (refine meets_optMin (M := plain) "transition_time" (by meets) (by meets) (by keys) (by keys) (by needs) (by keys) (by mins) (by lens) (by decide))
  | (refine meets_optMin (M := plain) "remaining_time" (by meets) (by meets) (by keys) (by keys) (by needs) (by keys) (by mins) (by lens) (by decide)))

macro "covers!" : tactic => `(tactic| repeat' first
  | exact covers_nil
  | refine covers_cons rfl (by rfl) (by dsimp only; decide +kernel) (by rfl) ?_ ?_
  | (guard_covers; dsimp only)
  | optmin)

section
variable [Platform]

theorem onoff_lossless : Covers lossless E.GenericOnOffOpcode Tables.genericOnOffCases Spec.onoffLossless := by
  unfold Spec.onoffLossless; covers
theorem onoff_plain : Covers plain E.GenericOnOffOpcode Tables.genericOnOffCases Spec.onoffPlain := by
  unfold Spec.onoffPlain; covers!
theorem level_lossless : Covers lossless E.GenericLevelOpcode Tables.genericLevelCases Spec.levelLossless := by
  unfold Spec.levelLossless; covers
theorem level_plain : Covers plain E.GenericLevelOpcode Tables.genericLevelCases Spec.levelPlain := by
  unfold Spec.levelPlain; covers!
theorem battery_lossless : Covers lossless E.GenericBatteryOpcode Tables.genericBatteryCases Spec.batteryLossless := by
  unfold Spec.batteryLossless; covers
theorem lightness_lossless : Covers lossless E.LightLightnessOpcode Tables.lightLightnessCases Spec.lightnessLossless := by
  unfold Spec.lightnessLossless; covers
theorem lightness_plain : Covers plain E.LightLightnessOpcode Tables.lightLightnessCases Spec.lightnessPlain := by
  unfold Spec.lightnessPlain; covers!
theorem lightnessSetup_lossless :
    Covers lossless E.LightLightnessSetupOpcode Tables.lightLightnessSetupCases Spec.lightnessSetupLossless := by
  unfold Spec.lightnessSetupLossless; covers
theorem ctl_lossless : Covers lossless E.LightCTLOpcode Tables.lightCTLCases Spec.ctlLossless := by
  unfold Spec.ctlLossless; covers
theorem ctl_plain : Covers plain E.LightCTLOpcode Tables.lightCTLCases Spec.ctlPlain := by
  unfold Spec.ctlPlain; covers!
theorem ctlSetup_lossless : Covers lossless E.LightCTLSetupOpcode Tables.lightCTLSetupCases Spec.ctlSetupLossless := by
  unfold Spec.ctlSetupLossless; covers
theorem scene_lossless : Covers lossless E.SceneOpcode Tables.sceneCases Spec.sceneLossless := by
  unfold Spec.sceneLossless; covers
theorem scene_plain : Covers plain E.SceneOpcode Tables.sceneCases Spec.scenePlain := by
  unfold Spec.scenePlain; covers!
theorem health_lossless : Covers lossless E.HealthOpcode Tables.healthCases Spec.healthLossless := by
  unfold Spec.healthLossless; covers

end
end BM
