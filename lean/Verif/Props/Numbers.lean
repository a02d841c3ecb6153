import Verif.SpecNumbers
import Verif.EnumNames
import Verif.MeetsComb
import Mathlib.Data.List.Nodup
/-!
# C41: the assigned numbers
-/
namespace BM
namespace Props

/-- The enumerations of values that fields carry, each with the table of SpecNumbers.lean. -/
def valueEnums : List (EnumDef × List (String × Int)) := [
  (E.SecureNetworkBeacon, Assigned.beacon), (E.GATTProxy, Assigned.feature), (E.Relay, Assigned.feature),
  (E.Friend, Assigned.feature), (E.NodeIdentity, Assigned.nodeIdentity), (E.KeyRefreshPhase, Assigned.keyRefreshPhase),
  (E.KeyRefreshTransition, Assigned.keyRefreshTransition), (E.PublishFriendshipCredentialsFlag, Assigned.credentials),
  (E.PublishPeriodStepResolution, Assigned.stepResolution), (E.StatusCode, Assigned.status),
  (E.CompositionDataPage, Assigned.pages), (E.ExtendedModelsItemFormat, Assigned.itemFormat),
  (E.GenericBatteryFlagsPresence, Assigned.batteryPresence), (E.GenericBatteryFlagsIndicator, Assigned.batteryIndicator),
  (E.GenericBatteryFlagsCharging, Assigned.batteryCharging), (E.GenericBatteryFlagsServiceability, Assigned.batteryService),
  (E.UserAccess, Assigned.access), (E.AdminUserAccess, Assigned.adminAccess), (E.SensorSettingAccess, Assigned.access),
  (E.ManufacturerUserAccess, Assigned.manufacturerAccess), (E.SensorSampling, Assigned.sampling),
  (E.SceneStatusCode, Assigned.sceneStatus), (E.TimeRole, Assigned.timeRole),
  (E.LightDistributionField, Assigned.lightDistribution), (E.LightSourceTypeField, Assigned.lightSource),
  (E.Days, Assigned.days), (E.Freqs, Assigned.frequency), (E.RuleIDs, Assigned.rulePart),
  (E.SchedulerModes, Assigned.schedulerMode), (E.StatusCodes, Assigned.schedulerStatus), (E.ElState, Assigned.emergency),
  (E.TestExecutionStatus, Assigned.testStatus), (E.EmergencyLightingProperty, Assigned.emergencyProperty),
  (E.EmergencyLightingTestProperty, Assigned.testProperty), (E.LightExtendedControllerProperty, Assigned.controllerProperty),
  (E.ConnState, Assigned.connState), (E.LinkStatus, Assigned.linkStatus), (E.LastError, Assigned.lastError),
  (E.DhcpFlag, Assigned.dhcp), (E.GatewayStatusCode, Assigned.gatewayStatus),
  (E.DebugV2ParameterTypes, Assigned.debugParameter), (E.DebugV2DataTypes, Assigned.debugType),
  (E.PropertyID, Assigned.property), (E.GATTNamespaceDescriptor, Assigned.location)]

theorem mem_iff_of_order {α : Type} {A T : List α} {d : α} (l : List Nat) (h : A = l.map fun i => T.getD i d)
    (h1 : ∀ i ∈ l, i < T.length) (h2 : ∀ i < T.length, i ∈ l) (x : α) : x ∈ A ↔ x ∈ T := by
  subst h
  constructor
  · intro hx
    obtain ⟨i, hi, rfl⟩ := List.mem_map.1 hx
    have := h1 i hi
    simp [List.getD_eq_getElem?_getD, this]
  · intro hx
    obtain ⟨i, hi, rfl⟩ := List.getElem_of_mem hx
    exact List.mem_map.2 ⟨i, h2 i hi, by simp [List.getD_eq_getElem?_getD, hi]⟩

theorem lookupName_of_mem {ms : List (String × Int)} (hn : (ms.map Prod.fst).Nodup) {N : String} {n : Int} (h : (N, n) ∈ ms) :
    lookupName ms N = some n := by
  induction ms with
  | nil => cases h
  | cons m ms ih =>
    obtain ⟨k, v⟩ := m
    rw [List.map_cons, List.nodup_cons] at hn
    rcases List.mem_cons.1 h with h | h
    · cases h; simp [lookupName]
    · have : k ≠ N := by rintro rfl; exact hn.1 (List.mem_map.2 ⟨_, h, rfl⟩)
      simp only [lookupName, if_neg this]
      exact ih hn.2 h

theorem lookupName_mem' {ms : List (String × Int)} {N : String} {n : Int} (h : lookupName ms N = some n) : (N, n) ∈ ms := by
  induction ms with
  | nil => cases h
  | cons m ms ih =>
    obtain ⟨k, v⟩ := m
    simp only [lookupName] at h
    split_ifs at h with e
    · cases h; subst e; simp
    · exact List.mem_cons_of_mem _ (ih h)

set_option maxRecDepth 100000 in
theorem enumChars_eq : valueEnums.map (fun p => p.1.members.map Prod.fst) = enumChars.map fun l => l.map String.ofList := by
  with_unfolding_all exact (Eq.refl (enumChars.map fun l => l.map String.ofList))

/-- No enumeration uses a name twice. -/
theorem enum_names : ∀ p ∈ valueEnums, (p.1.members.map Prod.fst).Nodup := by
  have h : ∀ l ∈ enumChars, l.Nodup := by decide +kernel
  intro p hp
  have : p.1.members.map Prod.fst ∈ valueEnums.map (fun p => p.1.members.map Prod.fst) := List.mem_map.2 ⟨p, hp, rfl⟩
  rw [enumChars_eq] at this
  obtain ⟨l, hl, e⟩ := List.mem_map.1 this
  rw [← e]
  exact List.Nodup.map (fun _ _ h => String.ofList_injective h) (h l hl)

set_option maxRecDepth 100000 in
/-- **C41 (tables).** Every enumeration of values has exactly the names and numbers of the table. -/
theorem C41_numbers : ∀ p ∈ valueEnums, ∀ N n, (N, n) ∈ p.1.members ↔ (N, n) ∈ p.2 := by
  have h : ∀ p ∈ valueEnums, ∀ x, x ∈ p.1.members ↔ x ∈ p.2 := by
    have hs : ∀ p ∈ valueEnums.take 42, p.1.members = p.2 := by
      simp only [valueEnums, List.take, List.forall_mem_cons]
      repeat' apply And.intro
      all_goals first | rfl | (intro x hx; cases hx)
    intro p hp
    rw [← List.take_append_drop 42 valueEnums] at hp
    rcases List.mem_append.1 hp with hp | hp
    · intro x; rw [hs p hp]
    · have hp : p = (E.PropertyID, Assigned.property) ∨ p = (E.GATTNamespaceDescriptor, Assigned.location) := by
        simpa [valueEnums] using hp
      rcases hp with rfl | rfl
      · exact mem_iff_of_order (d := ("", 0)) propertyOrder (by with_unfolding_all rfl) (by decide +kernel) (by decide +kernel)
      · exact mem_iff_of_order (d := ("", 0)) locationOrder (by with_unfolding_all rfl) (by decide +kernel) (by decide +kernel)
  exact fun p hp N n => h p hp (N, n)

/-- **C41 (reading).** Whatever construct carries the number, the field reads as the member of that number if the table assigns the
number to some name, and the message is rejected otherwise. -/
theorem C41_read {α : Type} {E : EnumDef} {T : List (String × Int)} (h : (E, T) ∈ valueEnums) (c : Con α) (L : Lib) (ctx : Dict)
    {s rest : List α} {n : Int} (hc : c.parse L ctx s = .ok (.int n, rest)) :
    ((∃ N, (N, n) ∈ T) → (enumAdapter c E).parse L ctx s = .ok (.enum E.cls n, rest)) ∧
    ((∀ N, (N, n) ∉ T) → (enumAdapter c E).parse L ctx s = .error .validation) := by
  have hh : E.has n = true ↔ ∃ N, (N, n) ∈ T := by
    simp only [EnumDef.has, List.any_eq_true, beq_iff_eq]
    constructor
    · rintro ⟨⟨N, k⟩, hm, rfl⟩; exact ⟨N, (C41_numbers _ h _ _).1 hm⟩
    · rintro ⟨N, hN⟩; exact ⟨_, (C41_numbers _ h _ _).2 hN, rfl⟩
  have hp : (enumAdapter c E).parse L ctx s = (do let v ← enumDecode E (.int n); .ok (v, rest)) := by
    simp only [enumAdapter, adapter, hc, ok_bind]
  rw [hp]
  have hi : hashInt (.int n) = some n := rfl
  constructor
  · intro hx
    simp only [enumDecode, hi, hh.2 hx, if_true, ok_bind]
  · intro hx
    have : ¬ E.has n = true := fun e => by obtain ⟨N, hN⟩ := hh.1 e; exact hx N hN
    simp only [enumDecode, hi, if_neg this, error_bind]

/-- **C41 (writing).** A name of the table is written as the number the table gives it, whatever construct carries the number; a
string that is not in the table is refused. -/
theorem C41_write {α : Type} {E : EnumDef} {T : List (String × Int)} (h : (E, T) ∈ valueEnums) (c : Con α) (L : Lib) (ctx : Dict) (N : String) :
    (∀ n, (N, n) ∈ T → ((enumAdapter c E).build L ctx (.str N)).map Prod.fst = (c.build L ctx (.enum E.cls n)).map Prod.fst) ∧
    ((∀ n, (N, n) ∉ T) → (enumAdapter c E).build L ctx (.str N) = .error .key) := by
  constructor
  · intro n hn
    have := lookupName_of_mem (enum_names _ h) ((C41_numbers _ h _ _).2 hn)
    simp only [enumAdapter, adapter, enumEncode, this, ok_bind]
    cases c.build L ctx (.enum E.cls n) <;> rfl
  · intro hn
    have : lookupName E.members N = none := by
      cases e : lookupName E.members N with
      | none => rfl
      | some n => exact absurd ((C41_numbers _ h _ _).1 (lookupName_mem' e)) (hn n)
    simp only [enumAdapter, adapter, enumEncode, this, error_bind]

-- a name and its number
example : (E.StatusCode, Assigned.status) ∈ valueEnums ∧ ("CANNOT_BIND", 13) ∈ Assigned.status :=
  ⟨List.mem_of_getElem? (i := 9) rfl, List.mem_of_getElem? (i := 13) rfl⟩

end Props
end BM
