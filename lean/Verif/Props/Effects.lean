import Verif.Effects
import Verif.Props.Vendor
/-!
# C42: building twice
-/
namespace BM.Props
open Tables Time Effects

/-! ### Time stamps -/

theorem dget_deltaAfter (d : Dict) {k : String} (h : "tai_utc_delta" ≠ k) : dget (deltaAfter d) k = dget d k := by
  simp only [deltaAfter]
  split
  · rfl
  · split
    · rfl
    · split
      · exact dget_dset_ne _ _ h
      · rfl

theorem deltaOf_after (d : Dict) : (dget (deltaAfter d) "tai_utc_delta").map deltaOf = (dget d "tai_utc_delta").map deltaOf := by
  simp only [deltaAfter]
  cases hv : dget d "tai_utc_delta" with
  | none => simp [hv]
  | some v =>
    dsimp only
    cases hn : asInt v with
    | none => simp [hv]
    | some n =>
      dsimp only
      cases ht : pyTimedelta (n * us) with
      | error e => simp [hv]
      | ok td =>
        have : deltaOf v = .ok td := by
          cases v <;> simp_all [deltaOf, asInt]
        simp only [dget_dset_self, Option.map_some, this]
        rfl

theorem stamp_same (u : Val) : ELT.timestampEncode (stampAfter u) = ELT.timestampEncode u := by
  cases u with
  | dict d =>
    simp only [stampAfter]
    split_ifs
    · rfl
    · have h1 := dget_deltaAfter d (k := "date") (by decide)
      have h2 := deltaOf_after d
      simp only [ELT.timestampEncode, dgetE, h1]
      cases dget d "date" with
      | none => rfl
      | some dv =>
        simp only [ok_bind]
        cases dateOf dv with
        | error e => rfl
        | ok p =>
          obtain ⟨m, off⟩ := p
          simp only [ok_bind]
          cases ha : dget (deltaAfter d) "tai_utc_delta" with
          | none => cases hb : dget d "tai_utc_delta" with
            | none => rfl
            | some v => rw [ha, hb] at h2; cases h2
          | some v' => cases hb : dget d "tai_utc_delta" with
            | none => rw [ha, hb] at h2; cases h2
            | some v =>
              rw [ha, hb, Option.map_some, Option.map_some] at h2
              injection h2 with h2
              simp only [ok_bind, h2]
  | _ => rfl

theorem time_same (u : Val) : timeEncode (timeAfter u) = timeEncode u := by
  cases u with
  | dict d =>
    simp only [timeAfter]
    split_ifs
    · rfl
    · cases hu : uncertaintyAfter d with
      | none => rfl
      | some d₁ =>
        have hk : ∀ k, "uncertainty" ≠ k → dget d₁ k = dget d k := by
          intro k hk
          simp only [uncertaintyAfter] at hu
          split at hu
          · cases hu
          · split at hu
            · cases hu; exact dget_dset_ne _ _ hk
            · cases hu
          · cases hu; rfl
        have hv : (dget d₁ "uncertainty").map uncertaintyOf = (dget d "uncertainty").map uncertaintyOf := by
          simp only [uncertaintyAfter] at hu
          split at hu
          · cases hu
          · rename_i q hq
            split at hu
            · rename_i td ht
              cases hu
              simp only [dget_dset_self, hq, Option.map_some, uncertaintyOf, ht]
            · cases hu
          · cases hu; rfl
        have h1 := (dget_deltaAfter d₁ (k := "date") (by decide)).trans (hk _ (by decide))
        have h2 := (dget_deltaAfter d₁ (k := "time_authority") (by decide)).trans (hk _ (by decide))
        have h3 : (dget (deltaAfter d₁) "uncertainty").map uncertaintyOf = (dget d "uncertainty").map uncertaintyOf := by
          rw [dget_deltaAfter d₁ (by decide), hv]
        have h4 : (dget (deltaAfter d₁) "tai_utc_delta").map deltaOf = (dget d "tai_utc_delta").map deltaOf := by
          rw [deltaOf_after, hk _ (by decide)]
        simp only [timeEncode, dgetE, h1, h2]
        generalize dget (deltaAfter d₁) "uncertainty" = a at h3 ⊢
        generalize dget (deltaAfter d₁) "tai_utc_delta" = b at h4 ⊢
        generalize dget d "uncertainty" = a' at h3 ⊢
        generalize dget d "tai_utc_delta" = b' at h4 ⊢
        clear hv hk hu
        cases a with
        | none => cases a' with
          | none => rfl
          | some _ => cases h3
        | some x => cases a' with
          | none => cases h3
          | some x' =>
            rw [Option.map_some, Option.map_some] at h3
            injection h3 with h3
            cases b with
            | none => cases b' with
              | none => simp only [ok_bind, h3]
              | some _ => cases h4
            | some y => cases b' with
              | none => cases h4
              | some y' =>
                rw [Option.map_some, Option.map_some] at h4
                injection h4 with h4
                simp only [ok_bind, h3, h4]
  | _ => rfl

/-! ### Structs that read the same values -/

/-- The item writes the same bytes for the objects `d` and `d'`, whatever was built before. -/
def SameItem (d d' : Dict) (it : Item UInt8) : Prop :=
  ∀ L ctx ctx', (it.build L d ctx).map Prod.fst = (it.build L d' ctx').map Prod.fst

theorem items_same {d d' : Dict} {its : List (Item UInt8)} (h : ∀ it ∈ its, SameItem d d' it) (L : Lib) (ctx ctx' : Dict) :
    (buildItems L d its ctx).map Prod.fst = (buildItems L d' its ctx').map Prod.fst := by
  induction its generalizing ctx ctx' with
  | nil => rfl
  | cons it its ih =>
    have h1 := h it (by simp) L ctx ctx'
    simp only [buildItems]
    cases ha : it.build L d ctx with
    | error e =>
      cases hb : it.build L d' ctx' with
      | error e' => rw [ha, hb] at h1; simpa [Except.map] using h1
      | ok r => rw [ha, hb] at h1; cases h1
    | ok r =>
      cases hb : it.build L d' ctx' with
      | error e' => rw [ha, hb] at h1; cases h1
      | ok r' =>
        rw [ha, hb] at h1
        obtain ⟨b, c⟩ := r
        obtain ⟨b', c'⟩ := r'
        have hbb : b = b' := by simpa [Except.map] using h1
        subst hbb
        have h2 := ih (fun it hit => h it (by simp [hit])) c c'
        simp only [ok_bind]
        cases hc : buildItems L d its c with
        | error e =>
          cases hd : buildItems L d' its c' with
          | error e' => rw [hc, hd] at h2; simpa [Except.map] using h2
          | ok _ => rw [hc, hd] at h2; cases h2
        | ok r =>
          cases hd : buildItems L d' its c' with
          | error e' => rw [hc, hd] at h2; cases h2
          | ok r' =>
            rw [hc, hd] at h2
            have : r.1 = r'.1 := by simpa [Except.map] using h2
            simp [Except.map, ok_bind, this]

theorem struct_same {d d' : Dict} {its : List (Item UInt8)} (h : ∀ it ∈ its, SameItem d d' it) (L : Lib) (ctx ctx' : Dict) :
    ((struct its).build L ctx (.dict d)).map Prod.fst = ((struct its).build L ctx' (.dict d')).map Prod.fst := by
  have := items_same h L d d'
  simp only [struct, asDict, ok_bind]
  cases hc : buildItems L d its d with
  | error e =>
    cases hd : buildItems L d' its d' with
    | error e' => rw [hc, hd] at this; simpa [Except.map] using this
    | ok _ => rw [hc, hd] at this; cases this
  | ok r =>
    cases hd : buildItems L d' its d' with
    | error e' => rw [hc, hd] at this; cases this
    | ok r' =>
      rw [hc, hd] at this
      have : r.1 = r'.1 := by simpa [Except.map] using this
      simp [Except.map, ok_bind, this]

theorem embedded_same {d d' : Dict} {its : List (Item UInt8)} (h : ∀ it ∈ its, SameItem d d' it) : SameItem d d' (embedded its) := by
  intro L ctx ctx'
  have := items_same h L d d'
  simp only [embedded]
  cases hc : buildItems L d its d with
  | error e =>
    cases hd : buildItems L d' its d' with
    | error e' => rw [hc, hd] at this; simpa [Except.map] using this
    | ok _ => rw [hc, hd] at this; cases this
  | ok r =>
    cases hd : buildItems L d' its d' with
    | error e' => rw [hc, hd] at this; cases this
    | ok r' =>
      rw [hc, hd] at this
      have : r.1 = r'.1 := by simpa [Except.map] using this
      simp [Except.map, ok_bind, this]

theorem field_same' {d d' : Dict} {k : String} {c : Con UInt8} (hn : c.buildNone = false)
    (h : ∀ L ctx ctx', ((dgetE d k).bind fun u => (c.build L ctx u).map Prod.fst) = ((dgetE d' k).bind fun u => (c.build L ctx' u).map Prod.fst)) :
    SameItem d d' (field k c) := by
  intro L ctx ctx'
  have key : ∀ (D : Dict) (ctx : Dict), ((field k c).build L D ctx).map Prod.fst =
      ((dgetE D k).bind fun u => (c.build L (dset ctx k u) u).map Prod.fst) := by
    intro D ctx
    simp only [field, hn, Bool.false_eq_true, if_false]
    cases dgetE D k with
    | error e => rfl
    | ok u =>
      simp only [ok_bind]
      cases hb : c.build L (dset ctx k u) u with
      | error e => simp [Except.bind, Except.map, hb, error_bind]
      | ok r => obtain ⟨b, r⟩ := r; simp [Except.bind, Except.map, hb, ok_bind]
  rw [key, key]
  have h2 := h L
  cases h3 : dgetE d k with
  | error e =>
    have := h2 [] []
    rw [h3] at this
    cases h4 : dgetE d' k with
    | error e' => rw [h4] at this; exact this
    | ok u' =>
      have := h2 [] (dset ctx' k u')
      rw [h3, h4] at this
      exact this
  | ok u =>
    cases h4 : dgetE d' k with
    | error e' =>
      have := h2 (dset ctx k u) []
      rw [h3, h4] at this
      exact this
    | ok u' =>
      have := h2 (dset ctx k u) (dset ctx' k u')
      rw [h3, h4] at this
      exact this

theorem field_same {d d' : Dict} {k : String} {c : Con UInt8} (hn : c.buildNone = false) (hf : ∀ L ctx ctx' u, c.build L ctx u = c.build L ctx' u)
    (h : dget d k = dget d' k) : SameItem d d' (field k c) :=
  field_same' hn fun L ctx ctx' => by
    simp only [dgetE, h]
    congr 1
    funext u
    rw [hf L ctx ctx' u]

/-- The two objects hold time stamps that mean the same, and the same other entries. -/
def SameStamp (d d' : Dict) : Prop :=
  (∀ k, k ∈ ["execution_status", "execution_result", "duration_result", "relative_timestamp"] → dget d k = dget d' k) ∧
  (dget d "tai_timestamp").map ELT.timestampEncode = (dget d' "tai_timestamp").map ELT.timestampEncode

theorem stamp_item {d d' : Dict} (h : SameStamp d d') : SameItem d d' (field "tai_timestamp" ELT.timestampC) := by
  refine field_same' rfl fun L ctx ctx' => ?_
  have h := h.2
  simp only [dgetE]
  cases ha : dget d "tai_timestamp" with
  | none => cases hb : dget d' "tai_timestamp" with
    | none => rfl
    | some _ => rw [ha, hb] at h; cases h
  | some t => cases hb : dget d' "tai_timestamp" with
    | none => rw [ha, hb] at h; cases h
    | some t' =>
      rw [ha, hb, Option.map_some, Option.map_some] at h
      injection h with h
      have key : ∀ ctx t, (ELT.timestampC.build L ctx t).map Prod.fst = (do let w ← ELT.timestampEncode t; (ELT.timestamp.build L [] w).map Prod.fst) := by
        intro ctx t
        simp only [ELT.timestampC, adapter]
        cases ELT.timestampEncode t with
        | error e => rfl
        | ok w =>
          simp only [ok_bind]
          have : ELT.timestamp.build L ctx w = ELT.timestamp.build L [] w := rfl
          rw [this]
          cases ELT.timestamp.build L [] w <;> rfl
      simp only [Except.bind, key, h]

theorem functionalMinimal_same {d d' : Dict} (h : SameStamp d d') : ∀ it ∈ ELT.functionalMinimal, SameItem d d' it := by
  refine List.forall_iff_forall_mem.1 ⟨stamp_item h, ?_, ?_⟩
  · exact field_same rfl (fun _ _ _ _ => rfl) (h.1 _ (by simp))
  · exact field_same rfl (fun _ _ _ _ => rfl) (h.1 _ (by simp))

theorem functionalOptional_same {d d' : Dict} (h : SameStamp d d') : ∀ it ∈ ELT.functionalOptional, SameItem d d' it :=
  List.forall_iff_forall_mem.1 ⟨embedded_same (functionalMinimal_same h), field_same rfl (fun _ _ _ _ => rfl) (h.1 _ (by simp))⟩

theorem durationMinimal_same {d d' : Dict} (h : SameStamp d d') : ∀ it ∈ ELT.durationMinimal, SameItem d d' it := by
  refine List.forall_iff_forall_mem.1 ⟨stamp_item h, ?_, ?_, ?_⟩
  · exact field_same rfl (fun _ _ _ _ => rfl) (h.1 _ (by simp))
  · exact field_same rfl (fun _ _ _ _ => rfl) (h.1 _ (by simp))
  · exact field_same rfl (fun _ _ _ _ => rfl) (h.1 _ (by simp))

theorem durationOptional_same {d d' : Dict} (h : SameStamp d d') : ∀ it ∈ ELT.durationOptional, SameItem d d' it :=
  List.forall_iff_forall_mem.1 ⟨embedded_same (durationMinimal_same h), field_same rfl (fun _ _ _ _ => rfl) (h.1 _ (by simp))⟩

theorem SameStamp.refl (d : Dict) : SameStamp d d := ⟨fun _ _ => rfl, rfl⟩

theorem stampIn_dict (d : Dict) : ∃ d', stampIn (.dict d) = .dict d' ∧ SameStamp d d' ∧ ∀ k, k ≠ "tai_timestamp" → dget d' k = dget d k := by
  simp only [stampIn]
  cases h : dget d "tai_timestamp" with
  | none => exact ⟨d, rfl, .refl d, fun _ _ => rfl⟩
  | some t =>
    refine ⟨_, rfl, ⟨fun k hk => ?_, ?_⟩, fun k hk => dget_dset_ne _ _ (Ne.symm hk)⟩
    · rw [dget_dset_ne]
      rintro rfl
      simp at hk
    · simp only [h, dget_dset_self, Option.map_some, stamp_same]

theorem map_pair {α β : Type} (x : R (α × Val)) (u : β) : (do let (b, _) ← x; .ok (b, u) : R (α × β)).map Prod.fst = x.map Prod.fst := by
  cases x <;> rfl

/-- One alternative of a status writes the same bytes after the other was tried. -/
theorem alt_same {its : List (Item UInt8)} (hits : ∀ d d', SameStamp d d' → ∀ it ∈ its, SameItem d d' it) {a b : String}
    (ha : a = "optional" ∨ a = "minimal") (hb : b = "optional" ∨ b = "minimal") (L : Lib) (ctx ctx' : Dict) (u : Val) :
    ((nameAdapter a (struct its)).build L ctx (altAfter b u)).map Prod.fst = ((nameAdapter a (struct its)).build L ctx' u).map Prod.fst := by
  cases u with
  | dict d =>
    have hst : ∀ x : Val, ((struct its).build L ctx (stampIn x)).map Prod.fst = ((struct its).build L ctx' x).map Prod.fst := by
      intro x
      cases x with
      | dict y =>
        obtain ⟨y', h1, h2, -⟩ := stampIn_dict y
        rw [h1]
        exact (struct_same (hits _ _ h2) L ctx' ctx).symm
      | _ => rfl
    have hcc : ∀ x : Val, ((struct its).build L ctx x).map Prod.fst = ((struct its).build L ctx' x).map Prod.fst := fun _ => rfl
    have hab : "tai_timestamp" ≠ b := by rcases hb with rfl | rfl <;> decide
    have hata : a ≠ "tai_timestamp" := by rcases ha with rfl | rfl <;> decide
    simp only [altAfter]
    cases hx : dget d b with
    | some x =>
      simp only [nameAdapter, map_pair]
      by_cases e : a = b
      · subst e
        rw [dget_dset_self, hx]
        exact hst x
      · rw [dget_dset_ne _ _ (Ne.symm e)]
        cases hy : dget d a with
        | some y => exact hcc y
        | none =>
          refine (struct_same (hits _ _ ⟨fun k hk => ?_, ?_⟩) L ctx' ctx).symm
          · rw [dget_dset_ne]
            rintro rfl
            rcases hb with rfl | rfl <;> simp at hk
          · rw [dget_dset_ne _ _ (Ne.symm hab)]
    | none =>
      obtain ⟨d', h1, h2, h3⟩ := stampIn_dict d
      rw [h1]
      simp only [nameAdapter, map_pair]
      rw [h3 a hata]
      cases hy : dget d a with
      | some y => exact hcc y
      | none => exact (struct_same (hits _ _ h2) L ctx' ctx).symm
  | _ => rfl

theorem selectBuild_map {c₁ c₂ : Con UInt8} {L : Lib} {ctx ctx' : Dict} {u u' : Val}
    (h1 : (c₁.build L ctx u).map Prod.fst = (c₁.build L ctx' u').map Prod.fst)
    (h2 : (c₂.build L ctx u).map Prod.fst = (c₂.build L ctx' u').map Prod.fst) :
    (selectBuild L ctx [c₁, c₂] u).map Prod.fst = (selectBuild L ctx' [c₁, c₂] u').map Prod.fst := by
  simp only [selectBuild]
  cases ha : c₁.build L ctx u with
  | ok r => cases hb : c₁.build L ctx' u' with
    | ok r' => rw [ha, hb] at h1; simpa [Except.map] using h1
    | error _ => rw [ha, hb] at h1; cases h1
  | error _ => cases hb : c₁.build L ctx' u' with
    | ok r' => rw [ha, hb] at h1; cases h1
    | error _ =>
      dsimp only
      cases hc : c₂.build L ctx u with
      | ok r => cases hd : c₂.build L ctx' u' with
        | ok r' => rw [hc, hd] at h2; simpa [Except.map] using h2
        | error _ => rw [hc, hd] at h2; cases h2
      | error _ => cases hd : c₂.build L ctx' u' with
        | ok r' => rw [hc, hd] at h2; cases h2
        | error _ => rfl

theorem status_same {opt min : List (Item UInt8)} (ho : ∀ d d', SameStamp d d' → ∀ it ∈ opt, SameItem d d' it)
    (hm : ∀ d d', SameStamp d d' → ∀ it ∈ min, SameItem d d' it) (L : Lib) (ctx₀ ctx ctx' : Dict) (u : Val) :
    ((optionalMinimal opt min).build L ctx (statusAfter L ctx₀ opt u)).map Prod.fst =
      ((optionalMinimal opt min).build L ctx' u).map Prod.fst := by
  simp only [optionalMinimal, namedSelect, select, List.map_cons, List.map_nil, statusAfter]
  split
  · exact selectBuild_map (alt_same ho (.inl rfl) (.inl rfl) ..) (alt_same hm (.inr rfl) (.inl rfl) ..)
  · exact (selectBuild_map (ctx' := []) (alt_same ho (.inl rfl) (.inr rfl) ..) (alt_same hm (.inr rfl) (.inr rfl) ..)).trans
      (selectBuild_map (alt_same ho (.inl rfl) (.inl rfl) ..) (alt_same hm (.inr rfl) (.inl rfl) ..))

/-! ### Payloads -/

theorem switch_build {E : EnumDef} {cases : List (Int × Con UInt8)} {keyName sw : String} {keyCon : Con UInt8} {L : Lib} {ctx d : Dict}
    {k0 : Val} {n : Int} {N : String} (h0 : dget d keyName = some k0) (hh : hashInt k0 = some n) (hN : lookupValue E.members n = some N) :
    ((switchStruct keyName keyCon E sw cases).build L ctx (.dict d)).map Prod.fst =
      match (dget d (lower N)).or (dget d sw) with
      | none => .error .key
      | some v => (do
        let (b1, _) ← keyCon.build L [(keyName, .enum E.cls n), (sw, v)] (.enum E.cls n)
        let (b2, _) ← ((findCase n cases).getD passC).build L [(keyName, .enum E.cls n), (sw, v)] v
        .ok (b1 ++ b2)) := by
  have hhas : E.has n = true := by
    simp only [EnumDef.has, List.any_eq_true, beq_iff_eq]
    exact ⟨_, lookupValue_mem hN, rfl⟩
  have hc : E.call k0 = .ok (.enum E.cls n) := by simp only [EnumDef.call, hh, hhas, if_true]
  have hai : asInt (.enum E.cls n) = some n := rfl
  have hco : caseOf (.enum E.cls n) cases passC = (findCase n cases).getD passC := rfl
  simp only [switchStruct, dgetE, h0, ok_bind, hc, hai, hN, hco]
  cases h1 : dget d (lower N) with
  | some v =>
    simp only [ok_bind, Option.some_or]
    cases keyCon.build L [(keyName, .enum E.cls n), (sw, v)] (.enum E.cls n) with
    | error e => rfl
    | ok r =>
      simp only [ok_bind]
      cases ((findCase n cases).getD passC).build L [(keyName, .enum E.cls n), (sw, v)] v <;> rfl
  | none =>
    cases h2 : dget d sw with
    | none => rfl
    | some v =>
      simp only [ok_bind, Option.none_or]
      cases keyCon.build L [(keyName, .enum E.cls n), (sw, v)] (.enum E.cls n) with
      | error e => rfl
      | ok r =>
        simp only [ok_bind]
        cases ((findCase n cases).getD passC).build L [(keyName, .enum E.cls n), (sw, v)] v <;> rfl

theorem dget_atPayload {name sw k : String} (f : Val → Val) (d : Dict) (h1 : name ≠ k) (h2 : sw ≠ k) : dget (atPayload name sw f d) k = dget d k := by
  simp only [atPayload]
  split
  · exact dget_dset_ne _ _ h1
  · split
    · exact dget_dset_ne _ _ h2
    · rfl

theorem payload_at {name sw : String} (f : Val → Val) (d : Dict) (h : name ≠ sw) :
    (dget (atPayload name sw f d) name).or (dget (atPayload name sw f d) sw) = ((dget d name).or (dget d sw)).map f := by
  simp only [atPayload]
  cases h1 : dget d name with
  | some u => simp [dget_dset_self]
  | none =>
    cases h2 : dget d sw with
    | some u => simp [dget_dset_self, dget_dset_ne _ _ (Ne.symm h), h1]
    | none => simp [h1, h2]

theorem sub_same {E : EnumDef} {cases : List (Int × Con UInt8)} {L : Lib} {ctx ctx' d : Dict} {k0 : Val} {n : Int} {N : String}
    (h0 : dget d "subopcode" = some k0) (hh : hashInt k0 = some n) (hN : lookupValue E.members n = some N)
    (h1 : lower N ≠ "subopcode") (h2 : lower N ≠ "payload") {f : Val → Val}
    (hf : ∀ ctx ctx' u, (((findCase n cases).getD passC).build L ctx (f u)).map Prod.fst = (((findCase n cases).getD passC).build L ctx' u).map Prod.fst) :
    ((subMessage E cases).build L ctx (.dict (atPayload (lower N) "payload" f d))).map Prod.fst =
      ((subMessage E cases).build L ctx' (.dict d)).map Prod.fst := by
  unfold subMessage
  rw [switch_build (d := atPayload (lower N) "payload" f d) ((dget_atPayload f d h1 (by decide)).trans h0) hh hN, switch_build h0 hh hN,
    payload_at f d h2]
  cases (dget d (lower N)).or (dget d "payload") with
  | none => rfl
  | some u =>
    simp only [Option.map_some]
    have hk : ∀ c c', (enumAdapter (uintLE 1) E).build L c (.enum E.cls n) = (enumAdapter (uintLE 1) E).build L c' (.enum E.cls n) := fun _ _ => rfl
    rw [hk _ [("subopcode", .enum E.cls n), ("payload", u)]]
    cases (enumAdapter (uintLE 1) E).build L [("subopcode", .enum E.cls n), ("payload", u)] (.enum E.cls n) with
    | error e => rfl
    | ok r =>
      simp only [ok_bind]
      have := hf [("subopcode", .enum E.cls n), ("payload", f u)] [("subopcode", .enum E.cls n), ("payload", u)] u
      revert this
      cases ((findCase n cases).getD passC).build L [("subopcode", .enum E.cls n), ("payload", f u)] (f u) <;>
        cases ((findCase n cases).getD passC).build L [("subopcode", .enum E.cls n), ("payload", u)] u <;> intro this
      · simpa [Except.map, error_bind] using this
      · cases this
      · cases this
      · rename_i r₁ r₂
        have : r₁.1 = r₂.1 := by simpa [Except.map] using this
        simp [ok_bind, this]

variable [Platform]

theorem test_same (L : Lib) (ctx ctx' : Dict) (u : Val) :
    ((subMessage E.EmergencyLightingTestSubOpcode emergencyLightingTestParamsCases).build L ctx (testAfter L u)).map Prod.fst =
      ((subMessage E.EmergencyLightingTestSubOpcode emergencyLightingTestParamsCases).build L ctx' u).map Prod.fst := by
  have hc : ∀ u, ((subMessage E.EmergencyLightingTestSubOpcode emergencyLightingTestParamsCases).build L ctx u).map Prod.fst =
      ((subMessage E.EmergencyLightingTestSubOpcode emergencyLightingTestParamsCases).build L ctx' u).map Prod.fst := fun _ => rfl
  cases u with
  | dict d =>
    simp only [testAfter]
    cases h0 : dget d "subopcode" with
    | none => exact hc _
    | some k0 =>
      simp only [Option.bind_some]
      split
      · rename_i hh
        have := sub_same (E := E.EmergencyLightingTestSubOpcode) (cases := emergencyLightingTestParamsCases) (L := L) (ctx := ctx) (ctx' := ctx')
          (N := "ELT_FUNCTIONAL_TEST_STATUS") (f := statusAfter L [] ELT.functionalOptional) h0 hh (by decide +kernel) (by decide +kernel) (by decide +kernel)
          (fun c c' u => status_same (fun _ _ => functionalOptional_same) (fun _ _ => functionalMinimal_same) L [] c c' u)
        have e : lower "ELT_FUNCTIONAL_TEST_STATUS" = "elt_functional_test_status" := by decide +kernel
        rw [e] at this
        exact this
      · rename_i hh
        have := sub_same (E := E.EmergencyLightingTestSubOpcode) (cases := emergencyLightingTestParamsCases) (L := L) (ctx := ctx) (ctx' := ctx')
          (N := "ELT_DURATION_TEST_STATUS") (f := statusAfter L [] ELT.durationOptional) h0 hh (by decide +kernel) (by decide +kernel) (by decide +kernel)
          (fun c c' u => status_same (fun _ _ => durationOptional_same) (fun _ _ => durationMinimal_same) L [] c c' u)
        have e : lower "ELT_DURATION_TEST_STATUS" = "elt_duration_test_status" := by decide +kernel
        rw [e] at this
        exact this
      · exact hc _
  | _ => rfl

theorem timeSet_same (L : Lib) (ctx ctx' : Dict) (u : Val) :
    (timeSet.build L ctx (timeAfter u)).map Prod.fst = (timeSet.build L ctx' u).map Prod.fst := by
  have key : ∀ ctx u, (timeSet.build L ctx u).map Prod.fst = (do let w ← timeEncode u; (time.build L [] w).map Prod.fst) := by
    intro ctx u
    simp only [timeSet, adapter]
    cases timeEncode u with
    | error e => rfl
    | ok w =>
      simp only [ok_bind]
      have : time.build L ctx w = time.build L [] w := rfl
      rw [this]
      cases time.build L [] w <;> rfl
  rw [key, key, time_same]

/-! ### The caller's object -/

omit [Platform] in
theorem dset_same {d : Dict} {k : String} {v : Val} (h : dget d k = some v) : dset d k v = d := by
  induction d with
  | nil => simp [dget] at h
  | cons p d ih =>
    obtain ⟨k', v'⟩ := p
    by_cases e : k' = k
    · subst e
      simp [dget] at h
      simp [dset, h]
    · simp only [dget, if_neg e] at h
      simp only [dset, if_neg e, ih h]

omit [Platform] in
theorem atPayload_id (name sw : String) (d : Dict) : atPayload name sw (fun u => u) d = d := by
  simp only [atPayload]
  cases h : dget d name with
  | some u => exact dset_same h
  | none =>
    dsimp only
    cases h2 : dget d sw with
    | some u => exact dset_same h2
    | none => rfl

theorem names_ne {e : Entry} (he : e ∈ registry) {N : String} {n : Int} (hN : (N, n) ∈ e.1.members) :
    lower N ≠ "opcode" ∧ lower N ≠ "params" := by
  have hmem : lower N ∈ opcodeEnums.flatMap fun E => E.members.map fun m => lower m.1 := by
    rw [← registry_enums]
    exact List.mem_flatMap.2 ⟨e.1, List.mem_map.2 ⟨e, he, rfl⟩, List.mem_map.2 ⟨_, hN, rfl⟩⟩
  exact ⟨fun h => C04_keys.2.1 (h ▸ hmem), fun h => C04_keys.2.2 (h ▸ hmem)⟩

/-- A string opcode is replaced by the member. -/
def asMember (d : Dict) (k m : Val) : Dict :=
  match k with
  | .str _ => dset d "opcode" m
  | _ => d

/-- The object of a registered message after a call of `AccessMessage.build`. -/
theorem after_of {e : Entry} (he : e ∈ registry) {N : String} {n : Int} (hN : (N, n) ∈ e.1.members) (L : Lib) {d : Dict} {k : Val}
    (hk : dget d "opcode" = some k) (hs : hashInt k = some n ∨ k = .str N) :
    objectAfter L d = atPayload (lower N) "params" (payloadAfter L n)
      (asMember d k (.enum e.1.cls n)) := by
  have hN' := lookupValue_of_mem (numbers_of registry_ok he) hN
  have ht := table_of registry_ok he hN'
  have hf := findName_of registry_ok he hN'
  rcases hs with hs | rfl
  · have hns : ∀ s, k ≠ .str s := by rintro s rfl; simp [hashInt, asInt] at hs
    have : resolve d = some (n, e, d) := by
      simp only [resolve, hk]
      cases k <;> first | exact absurd rfl (hns _) | simp only [hs, ht]
    simp only [objectAfter, this, hN']
    cases k <;> first | exact absurd rfl (hns _) | rfl
  · simp only [objectAfter, resolve, hk, hf, hN', asMember]

/-- The opcodes of the messages that carry a list of key indices: CONFIG_NETKEY_LIST, CONFIG_APPKEY_LIST,
CONFIG_SIG_MODEL_APP_LIST, CONFIG_VENDOR_MODEL_APP_LIST. -/
def keyLists : List Int := [0x8043, 0x8002, 0x804C, 0x804E]

/-- The opcodes of the messages with an instant in them: TIME_SET, TIME_STATUS and the emergency lighting test. -/
def stamped : List Int := [0x5C, 0x5D, 0xE93601]

theorem entry_unique {e e' : Entry} (he : e ∈ registry) (he' : e' ∈ registry) {N N' : String} {n : Int} (hN : (N, n) ∈ e.1.members)
    (hN' : (N', n) ∈ e'.1.members) : e = e' := by
  have h1 := table_of registry_ok he (lookupValue_of_mem (numbers_of registry_ok he) hN)
  have h2 := table_of registry_ok he' (lookupValue_of_mem (numbers_of registry_ok he') hN')
  rw [h1] at h2
  injection h2

theorem payload_same {e : Entry} (he : e ∈ registry) {N : String} {n : Int} (hN : (N, n) ∈ e.1.members) (hl : n ∉ keyLists)
    (L : Lib) (ctx ctx' : Dict) (u : Val) (hctx : n ∉ stamped → ctx = ctx') :
    (((findCase n e.2).getD passC).build L ctx (payloadAfter L n u)).map Prod.fst =
      (((findCase n e.2).getD passC).build L ctx' u).map Prod.fst := by
  simp only [keyLists, List.mem_cons, List.not_mem_nil, or_false, not_or] at hl
  by_cases h1 : n = 0x5C ∨ n = 0x5D
  · have : e = (E.TimeOpcode, timeCases) := by
      rcases h1 with rfl | rfl
      · exact entry_unique he (by inreg) hN (N' := "TIME_SET") (by dsimp only; decide +kernel)
      · exact entry_unique he (by inreg) hN (N' := "TIME_STATUS") (by dsimp only; decide +kernel)
    subst this
    have hf : (findCase n timeCases).getD passC = timeSet := by rcases h1 with rfl | rfl <;> rfl
    rw [hf, payloadAfter, if_pos h1, timeSet_same L ctx ctx']
  · by_cases h2 : n = 0xE93601
    · have : e = (E.EmergencyLightingTestOpcode, emergencyLightingTestCases) := by
        subst h2
        exact entry_unique he (by inreg) hN (N' := "SILVAIR_ELT") (by dsimp only; decide +kernel)
      subst this
      have hf : (findCase n emergencyLightingTestCases).getD passC =
          subMessage E.EmergencyLightingTestSubOpcode emergencyLightingTestParamsCases := by subst h2; rfl
      rw [hf, payloadAfter, if_neg h1, if_pos h2, test_same L ctx ctx']
    · rw [payloadAfter, if_neg h1, if_neg h2, if_neg hl.1, if_neg hl.2.1, if_neg hl.2.2.1, if_neg hl.2.2.2, hctx]
      simp only [stamped, List.mem_cons, List.not_mem_nil, or_false]
      tauto

/-- For every registered message without a key index list and every object that asks for it, by number or by name, building the
object again, after a first call that may have succeeded or failed, gives the same bytes or the same kind of failure. -/
theorem C42_twice {e : Entry} (he : e ∈ registry) {N : String} {n : Nat} (hN : (N, (n : Int)) ∈ e.1.members) (hl : (n : Int) ∉ keyLists) (L : Lib)
    {d : Dict} {k : Val} (hk : dget d "opcode" = some k) (hs : hashInt k = some (n : Int) ∨ k = .str N) :
    (accessBuild registry L (.dict (objectAfter L d))).map Prod.fst = (accessBuild registry L (.dict d)).map Prod.fst := by
  obtain ⟨ho, hp⟩ := names_ne he hN
  have key : ∀ D : Dict, (∀ k, k ≠ "opcode" → dget D k = dget d k) → ∀ k', dget D "opcode" = some k' → hashInt k' = some (n : Int) ∨ k' = .str N →
      (accessBuild registry L (.dict (atPayload (lower N) "params" (payloadAfter L n) D))).map Prod.fst =
        (accessBuild registry L (.dict d)).map Prod.fst := by
    intro D hD k' hk' hs'
    rw [C04_build he hN ho L ((dget_atPayload _ D ho (by decide)).trans hk') hs', C04_build he hN ho L hk hs, payload_at _ D hp,
      hD _ ho, hD "params" (by decide)]
    cases hu : (dget d (lower N)).or (dget d "params") with
    | none => rfl
    | some u =>
      simp only [Option.map_some]
      by_cases hst : (n : Int) ∈ stamped
      · have := payload_same he hN hl L [("opcode", .enum e.1.cls n), ("params", payloadAfter L n u)] [("opcode", .enum e.1.cls n), ("params", u)] u
          (fun h => absurd hst h)
        revert this
        cases ((findCase n e.2).getD passC).build L [("opcode", .enum e.1.cls n), ("params", payloadAfter L n u)] (payloadAfter L n u) <;>
          cases ((findCase n e.2).getD passC).build L [("opcode", .enum e.1.cls n), ("params", u)] u <;> intro this
        · simpa [Except.map] using this
        · cases this
        · cases this
        · rename_i r₁ r₂
          have : r₁.1 = r₂.1 := by simpa [Except.map] using this
          simp [Except.map, this]
      · have hid : payloadAfter L n u = u := by
          simp only [stamped, keyLists, List.mem_cons, List.not_mem_nil, or_false, not_or] at hst hl
          rw [payloadAfter, if_neg (by tauto), if_neg hst.2.2, if_neg hl.1, if_neg hl.2.1, if_neg hl.2.2.1, if_neg hl.2.2.2]
        rw [hid]
  rw [after_of he hN L hk hs]
  rcases hs with hs | rfl
  · have hns : ∀ s, k ≠ .str s := by rintro s rfl; simp [hashInt, asInt] at hs
    have : asMember d k (.enum e.1.cls n) = d := by
      cases k <;> first | exact absurd rfl (hns _) | rfl
    rw [this]
    exact key d (fun _ _ => rfl) k hk (.inl hs)
  · exact key _ (fun k hk => dget_dset_ne _ _ (Ne.symm hk)) _ (dget_dset_self _ _ _) (.inl rfl)

/-- An object whose opcode is a number or a member is left as it was, except in the messages with an instant or a key index list. -/
theorem C42_unchanged {e : Entry} (he : e ∈ registry) {N : String} {n : Nat} (hN : (N, (n : Int)) ∈ e.1.members)
    (hl : (n : Int) ∉ keyLists) (hst : (n : Int) ∉ stamped) (L : Lib) {d : Dict} {k : Val} (hk : dget d "opcode" = some k) (hs : hashInt k = some (n : Int)) :
    objectAfter L d = d := by
  have hid : payloadAfter L n = fun u => u := by
    funext u
    simp only [stamped, keyLists, List.mem_cons, List.not_mem_nil, or_false, not_or] at hst hl
    rw [payloadAfter, if_neg (by tauto), if_neg hst.2.2, if_neg hl.1, if_neg hl.2.1, if_neg hl.2.2.1, if_neg hl.2.2.2]
  have hns : ∀ s, k ≠ .str s := by rintro s rfl; simp [hashInt, asInt] at hs
  have : asMember d k (.enum e.1.cls n) = d := by
    cases k <;> first | exact absurd rfl (hns _) | rfl
  rw [after_of he hN L hk (.inl hs), hid, this, atPayload_id]

/-- An object whose opcode is the name of a registered message is left with the member as its opcode, and otherwise as it was, except in
the messages with an instant or a key index list. -/
theorem C42_named {e : Entry} (he : e ∈ registry) {N : String} {n : Nat} (hN : (N, (n : Int)) ∈ e.1.members)
    (hl : (n : Int) ∉ keyLists) (hst : (n : Int) ∉ stamped) (L : Lib) {d : Dict} (hk : dget d "opcode" = some (.str N)) :
    objectAfter L d = dset d "opcode" (.enum e.1.cls n) := by
  have hid : payloadAfter L n = fun u => u := by
    funext u
    simp only [stamped, keyLists, List.mem_cons, List.not_mem_nil, or_false, not_or] at hst hl
    rw [payloadAfter, if_neg (by tauto), if_neg hst.2.2, if_neg hl.1, if_neg hl.2.1, if_neg hl.2.2.1, if_neg hl.2.2.2]
  rw [after_of he hN L hk (.inr rfl), hid, atPayload_id]
  rfl

/-- An object that asks for no registered message is left as it was. -/
theorem C42_unknown (L : Lib) (d : Dict)
    (h : ∀ e ∈ registry, ∀ N n, (N, n) ∈ e.1.members → dget d "opcode" ≠ some (.str N) ∧ (dget d "opcode").bind hashInt ≠ some n) :
    objectAfter L d = d := by
  have hn : ∀ n, (dget d "opcode").bind hashInt = some n → tget (opcodeTable registry []) n = none := by
    intro n hn
    cases ht : tget (opcodeTable registry []) n with
    | none => rfl
    | some e =>
      obtain ⟨he, N, hN⟩ := table_inv registry_ok ht
      exact absurd hn (h e he N n hN).2
  have hs : ∀ s, dget d "opcode" = some (.str s) → findName s (opcodeTable registry []) = none := by
    intro s hs
    cases hf : findName s (opcodeTable registry []) with
    | none => rfl
    | some r =>
      exfalso
      have : ∀ t : List (Int × Entry), findName s t = some r → r ∈ t ∧ lookupValue r.2.1.members r.1 = some s := by
        intro t
        induction t with
        | nil => simp [findName]
        | cons x t ih =>
          obtain ⟨n, e⟩ := x
          intro h
          simp only [findName] at h
          split at h
          · rename_i hl
            cases h; exact ⟨by simp, hl⟩
          · exact ⟨List.mem_cons_of_mem _ (ih h).1, (ih h).2⟩
      obtain ⟨h1, h2⟩ := this _ hf
      have ht : tget (opcodeTable registry []) r.1 = some r.2 := tget_of_mem _ (table_keys registry_ok) h1
      exact (h r.2 (table_inv registry_ok ht).1 s r.1 (lookupValue_mem h2)).1 hs
  have : resolve d = none := by
    unfold resolve
    cases hk : dget d "opcode" with
    | none => rfl
    | some k =>
      rw [hk] at hn hs
      simp only [Option.bind_some] at hn
      cases k with
      | str s => simp only [hs s rfl]
      | _ =>
        dsimp only
        split
        · rename_i m hm
          rw [hn m hm]
        · rfl
  simp only [objectAfter, this]

/-! ### Key index lists -/

omit [Platform] in
/-- The struct of a message with a key index list: what its first build leaves, and what it wrote. -/
theorem keyList_build {pre : List (Item UInt8)} {key : String} (L : Lib) {p : Dict}
    (hpre : ∀ vs, ∀ it ∈ pre, SameItem p (dset p key vs) it) {ctx : Dict} {r : List UInt8 × Val}
    (h : (struct (pre ++ [field key Config.keyIndices])).build L ctx (.dict p) = .ok r) :
    ∃ vs a b, dget p key = some (.list vs) ∧ listAfter L pre key (.dict p) = .dict (dset p key (.list [])) ∧
      (Config.keyIndices.build L [] (.list vs)).map Prod.fst = .ok b ∧ r.1 = a ++ b ∧
      ∀ ctx, ((struct (pre ++ [field key Config.keyIndices])).build L ctx (.dict (dset p key (.list [])))).map Prod.fst = .ok a := by
  have split : ∀ (P : Dict), (buildItems L P (pre ++ [field key Config.keyIndices]) P) = (do
      let (a, c) ← buildItems L P pre P
      let (b, c) ← (field key Config.keyIndices).build L P c
      .ok (a ++ b, c)) := by
    intro P
    generalize hc : P = c
    have : ∀ c, (buildItems L P (pre ++ [field key Config.keyIndices]) c) = (do
      let (a, c) ← buildItems L P pre c
      let (b, c) ← (field key Config.keyIndices).build L P c
      .ok (a ++ b, c)) := by
      clear hc h hpre
      induction pre with
      | nil =>
        intro c
        simp only [List.nil_append, buildItems, ok_bind]
        cases (field key Config.keyIndices).build L P c <;> simp [ok_bind, error_bind]
      | cons it pre ih =>
        intro c
        simp only [List.cons_append, buildItems]
        cases it.build L P c with
        | error e => rfl
        | ok r =>
          simp only [ok_bind, ih]
          cases buildItems L P pre r.2 with
          | error e => rfl
          | ok r' =>
            simp only [ok_bind]
            cases (field key Config.keyIndices).build L P r'.2 <;> simp [ok_bind, error_bind]
    rw [← hc]
    exact this P
  have hkey : ∀ (P c : Dict), ((field key Config.keyIndices).build L P c).map Prod.fst =
      ((dgetE P key).bind fun u => (Config.keyIndices.build L [] u).map Prod.fst) := by
    intro P c
    have : Config.keyIndices.buildNone = false := rfl
    simp only [field, this, Bool.false_eq_true, if_false]
    cases dgetE P key with
    | error e => rfl
    | ok u =>
      simp only [ok_bind]
      have : Config.keyIndices.build L (dset c key u) u = Config.keyIndices.build L [] u := rfl
      rw [this]
      simp only [Except.bind]
      cases Config.keyIndices.build L [] u <;> rfl
  simp only [struct, asDict, ok_bind, split p, bind_ok] at h
  obtain ⟨⟨ab, c'⟩, ⟨⟨a, c⟩, h1, ⟨b, c₂⟩, h2, h3⟩, h4⟩ := h
  simp only [Except.ok.injEq, Prod.mk.injEq] at h3 h4
  have h5 := hkey p c
  rw [h2] at h5
  have h6 : ∃ vs, dget p key = some (.list vs) ∧ (Config.keyIndices.build L [] (.list vs)).map Prod.fst = .ok b ∧ ∃ its, Config.keyIndicesEncode vs = .ok (its, []) := by
    simp only [dgetE] at h5
    cases hd : dget p key with
    | none => rw [hd] at h5; cases h5
    | some u =>
      rw [hd] at h5
      simp only [Except.bind, Except.map] at h5
      cases u with
      | list vs =>
        refine ⟨vs, rfl, h5.symm, ?_⟩
        simp only [Config.keyIndices, Config.keyIndicesEncode] at h5 ⊢
        cases hw : Config.withKeys vs with
        | error e => rw [hw] at h5; cases h5
        | ok ks => exact ⟨_, rfl⟩
      | _ => cases h5
  obtain ⟨vs, h7, h8, its, h9⟩ := h6
  refine ⟨vs, a, b, h7, ?_, h8, ?_, ?_⟩
  · simp only [listAfter, h1, h7, h9]
  · rw [← h4]; exact h3.1.symm
  · intro ctx
    simp only [struct, asDict, ok_bind, split]
    have h10 := items_same (hpre (.list [])) L p (dset p key (.list []))
    rw [h1] at h10
    cases h11 : buildItems L (dset p key (.list [])) pre (dset p key (.list [])) with
    | error e => rw [h11] at h10; cases h10
    | ok r' =>
      rw [h11] at h10
      have h10 : a = r'.1 := by simpa [Except.map] using h10
      simp only [ok_bind]
      have h12 := hkey (dset p key (.list [])) r'.2
      simp only [dgetE, dget_dset_self] at h12
      have h13 : ((.ok (.list []) : R Val).bind fun u => (Config.keyIndices.build L [] u).map Prod.fst) = .ok [] := rfl
      rw [h13] at h12
      cases h14 : (field key Config.keyIndices).build L (dset p key (.list [])) r'.2 with
      | error e => rw [h14] at h12; cases h12
      | ok r'' =>
        rw [h14] at h12
        have h12 : r''.1 = [] := by simpa [Except.map] using h12
        simp [ok_bind, Except.map, h12, h10]

/-- The messages with a key index list, and the name of the list in their payload. -/
def listNames : List (Int × String) :=
  [(0x8043, "net_key_indices"), (0x8002, "app_key_indices"), (0x804C, "app key indices"), (0x804E, "app_key_indices")]

omit [Platform] in
theorem single_same {p p' : Dict} {k : String} (h : dget p k = dget p' k) : SameItem p p' (Config.singleKeyIndex k) := by
  intro L ctx ctx'
  have hb : (buildItems L p [anon (padding false 4), field k (ubits 12)] p).map Prod.fst =
      (buildItems L p' [anon (padding false 4), field k (ubits 12)] p').map Prod.fst := by
    have hn : (ubits 12).buildNone = false := rfl
    simp only [buildItems, field, hn, Bool.false_eq_true, if_false, dgetE, h]
    have ha : ∀ D c, ((anon (padding false 4)).build L D c).map Prod.fst = ((anon (padding false 4)).build L p' p').map Prod.fst := fun _ _ => rfl
    cases h1 : (anon (padding false 4)).build L p p with
    | error e => cases h2 : (anon (padding false 4)).build L p' p' with
      | error e' => have := ha p p; rw [h1, h2] at this; simpa [Except.map, error_bind] using this
      | ok r => have := ha p p; rw [h1, h2] at this; cases this
    | ok r => cases h2 : (anon (padding false 4)).build L p' p' with
      | error e' => have := ha p p; rw [h1, h2] at this; cases this
      | ok r' =>
        have := ha p p
        rw [h1, h2] at this
        have : r.1 = r'.1 := by simpa [Except.map] using this
        simp only [ok_bind]
        cases dget p' k with
        | none => rfl
        | some u =>
          simp only [ok_bind]
          have hu : (ubits 12).build L (dset r.2 k u) u = (ubits 12).build L (dset r'.2 k u) u := rfl
          rw [hu]
          cases (ubits 12).build L (dset r'.2 k u) u with
          | error e => rfl
          | ok x => simp [ok_bind, Except.map, this]
  simp only [Config.singleKeyIndex, embeddedBitStruct, if_true, reversed, bitwise, struct, asDict, ok_bind]
  cases h1 : buildItems L p [anon (padding false 4), field k (ubits 12)] p with
  | error e => cases h2 : buildItems L p' [anon (padding false 4), field k (ubits 12)] p' with
    | error e' => rw [h1, h2] at hb; simpa [Except.map, error_bind] using hb
    | ok r => rw [h1, h2] at hb; cases hb
  | ok r => cases h2 : buildItems L p' [anon (padding false 4), field k (ubits 12)] p' with
    | error e' => rw [h1, h2] at hb; cases hb
    | ok r' =>
      rw [h1, h2] at hb
      have : r.1 = r'.1 := by simpa [Except.map] using hb
      simp only [ok_bind, this]
      by_cases h16 : r'.1.length = 8 * 2
      · simp only [h16, if_true]
        cases bitsBytes r'.1 with
        | none => rfl
        | some b =>
          simp only [ok_bind]
          by_cases h2 : b.length = 2
          · simp only [h2, if_true]; rfl
          · simp only [h2, if_false]; rfl
      · simp only [h16, if_false]; rfl

theorem list_payload {n : Int} {key : String} (hn : (n, key) ∈ listNames) (L : Lib) {ctx p : Dict} {r : List UInt8 × Val}
    {c : Con UInt8} (hc : findCase n configCases = some c) (h : c.build L ctx (.dict p) = .ok r) :
    ∃ vs a b, dget p key = some (.list vs) ∧ payloadAfter L n (.dict p) = .dict (dset p key (.list [])) ∧
      (Config.keyIndices.build L [] (.list vs)).map Prod.fst = .ok b ∧ r.1 = a ++ b ∧
      ∀ ctx, (c.build L ctx (.dict (dset p key (.list [])))).map Prod.fst = .ok a := by
  have hne : ∀ {k key : String}, key ≠ k → ∀ vs, dget p k = dget (dset p key vs) k := fun h vs => (dget_dset_ne _ _ h).symm
  have hsingle : ∀ {key k : String}, key ≠ k → ∀ vs, SameItem p (dset p key vs) (Config.singleKeyIndex k) := by
    intro key k hk vs
    exact single_same (hne hk vs)
  simp only [listNames, List.mem_cons, Prod.mk.injEq, List.not_mem_nil, or_false] at hn
  rcases hn with ⟨rfl, rfl⟩ | ⟨rfl, rfl⟩ | ⟨rfl, rfl⟩ | ⟨rfl, rfl⟩
  · cases hc
    exact keyList_build (pre := []) L (by simp) h
  · cases hc
    refine keyList_build (pre := [_, _]) L (fun vs => ?_) h
    exact List.forall_iff_forall_mem.1 ⟨field_same rfl (fun _ _ _ _ => rfl) (hne (by decide) vs), hsingle (by decide) vs⟩
  · cases hc
    refine keyList_build (pre := [_, _]) L (fun vs => ?_) h
    exact List.forall_iff_forall_mem.1 ⟨field_same rfl (fun _ _ _ _ => rfl) (hne (by decide) vs), embedded_same (List.forall_iff_forall_mem.1
      ⟨field_same rfl (fun _ _ _ _ => rfl) (hne (by decide) vs), field_same rfl (fun _ _ _ _ => rfl) (hne (by decide) vs)⟩)⟩
  · cases hc
    refine keyList_build (pre := [_, _]) L (fun vs => ?_) h
    exact List.forall_iff_forall_mem.1 ⟨field_same rfl (fun _ _ _ _ => rfl) (hne (by decide) vs), embedded_same (List.forall_iff_forall_mem.1
      ⟨field_same rfl (fun _ _ _ _ => rfl) (hne (by decide) vs), field_same rfl (fun _ _ _ _ => rfl) (hne (by decide) vs)⟩)⟩

/-- A message with a key index list, built from a payload `p`: the first call writes `a ++ b`, where `b` are the bytes of the list; it empties
the caller's list; and the second call writes `a`, the message without any key. -/
theorem C42_lists {e : Entry} (he : e ∈ registry) {N : String} {n : Nat} (hN : (N, (n : Int)) ∈ e.1.members) {key : String}
    (hn : ((n : Int), key) ∈ listNames) (L : Lib) {d : Dict} {k : Val} (hk : dget d "opcode" = some k) (hs : hashInt k = some (n : Int) ∨ k = .str N)
    {p : Dict} (hp : (dget d (lower N)).or (dget d "params") = some (.dict p)) {w : List UInt8}
    (h : (accessBuild registry L (.dict d)).map Prod.fst = .ok w) :
    ∃ vs a b, dget p key = some (.list vs) ∧ (Config.keyIndices.build L [] (.list vs)).map Prod.fst = .ok b ∧ w = a ++ b ∧
      (dget (objectAfter L d) (lower N)).or (dget (objectAfter L d) "params") = some (.dict (dset p key (.list []))) ∧
      (accessBuild registry L (.dict (objectAfter L d))).map Prod.fst = .ok a := by
  obtain ⟨ho, hpa⟩ := names_ne he hN
  have hreg : (E.ConfigOpcode, configCases) ∈ registry := by inreg
  have hee : e = (E.ConfigOpcode, configCases) ∧ ∃ c, findCase (n : Int) configCases = some c := by
    simp only [listNames, List.mem_cons, Prod.mk.injEq, List.not_mem_nil, or_false] at hn
    rcases hn with ⟨h, -⟩ | ⟨h, -⟩ | ⟨h, -⟩ | ⟨h, -⟩ <;> rw [h] at hN ⊢
    · exact ⟨entry_unique he hreg hN (N' := "CONFIG_NETKEY_LIST") (by dsimp only; decide +kernel), _, rfl⟩
    · exact ⟨entry_unique he hreg hN (N' := "CONFIG_APPKEY_LIST") (by dsimp only; decide +kernel), _, rfl⟩
    · exact ⟨entry_unique he hreg hN (N' := "CONFIG_SIG_MODEL_APP_LIST") (by dsimp only; decide +kernel), _, rfl⟩
    · exact ⟨entry_unique he hreg hN (N' := "CONFIG_VENDOR_MODEL_APP_LIST") (by dsimp only; decide +kernel), _, rfl⟩
  obtain ⟨rfl, c, hc⟩ := hee
  rw [C04_build he hN ho L hk hs, hp] at h
  simp only [hc, Option.getD_some] at h
  cases hb : c.build L [("opcode", .enum E.ConfigOpcode.cls n), ("params", .dict p)] (.dict p) with
  | error e => rw [hb] at h; cases h
  | ok r =>
    rw [hb] at h
    have hw : wireOpcode n ++ r.1 = w := by simpa [Except.map] using h
    obtain ⟨vs, a, b, h1, h2, h3, h4, h5⟩ := list_payload hn L hc hb
    have hD : ∀ D : Dict, (∀ k, k ≠ "opcode" → dget D k = dget d k) →
        (dget (atPayload (lower N) "params" (payloadAfter L n) D) (lower N)).or (dget (atPayload (lower N) "params" (payloadAfter L n) D) "params") =
          some (.dict (dset p key (.list []))) := by
      intro D hD
      rw [payload_at _ D hpa, hD _ ho, hD "params" (by decide), hp, Option.map_some, h2]
    have hafter : ∃ D k', objectAfter L d = atPayload (lower N) "params" (payloadAfter L n) D ∧ (∀ k, k ≠ "opcode" → dget D k = dget d k) ∧
        dget D "opcode" = some k' ∧ hashInt k' = some (n : Int) := by
      rw [after_of he hN L hk hs]
      rcases hs with hs | rfl
      · have hns : ∀ s, k ≠ .str s := by rintro s rfl; simp [hashInt, asInt] at hs
        refine ⟨d, k, ?_, fun _ _ => rfl, hk, hs⟩
        cases k <;> first | exact absurd rfl (hns _) | rfl
      · exact ⟨_, _, rfl, fun k hk => dget_dset_ne _ _ (Ne.symm hk), dget_dset_self _ _ _, rfl⟩
    obtain ⟨D, k', h6, h7, h8, h9⟩ := hafter
    refine ⟨vs, wireOpcode n ++ a, b, h1, h3, ?_, ?_, ?_⟩
    · rw [← hw, h4, List.append_assoc]
    · rw [h6, hD D h7]
    · rw [h6, C04_build he hN ho L ((dget_atPayload _ D ho (by decide)).trans h8) (.inl h9), hD D h7]
      have := h5 [("opcode", .enum E.ConfigOpcode.cls n), ("params", .dict (dset p key (.list [])))]
      simp only [hc, Option.getD_some]
      cases hb' : c.build L [("opcode", .enum E.ConfigOpcode.cls n), ("params", .dict (dset p key (.list [])))] (.dict (dset p key (.list []))) with
      | error e => rw [hb'] at this; cases this
      | ok r' =>
        rw [hb'] at this
        have : r'.1 = a := by simpa [Except.map] using this
        simp [Except.map, this]

/-! ### The statements are not empty -/

/-- The hypotheses are met by TIME_SET; the first call changes the object: the two numbers become time spans. -/
example : ∃ e ∈ registry, ("TIME_SET", ((0x5C : Nat) : Int)) ∈ e.1.members ∧ ((0x5C : Nat) : Int) ∉ keyLists :=
  ⟨(E.TimeOpcode, timeCases), by inreg, by dsimp only; decide +kernel, by decide⟩
example : timeAfter (.dict [("date", .datetime 0 0), ("uncertainty", .flt (1/100)), ("time_authority", .bool true), ("tai_utc_delta", .int 37)]) =
    .dict [("date", .datetime 0 0), ("uncertainty", .timedelta 10000), ("time_authority", .bool true), ("tai_utc_delta", .timedelta 37000000)] := by
  with_unfolding_all rfl
/-- CONFIG_NETKEY_LIST of three keys: five bytes the first time, none the second. -/
example : ∃ e ∈ registry, ("CONFIG_NETKEY_LIST", ((0x8043 : Nat) : Int)) ∈ e.1.members ∧ (((0x8043 : Nat) : Int), "net_key_indices") ∈ listNames :=
  ⟨(E.ConfigOpcode, configCases), by inreg, by dsimp only; decide +kernel, by decide⟩

example (L : Lib) : (accessBuild registry L (.dict [("opcode", .int 0x8043), ("params", .dict [("net_key_indices", .list [.int 3, .int 1, .int 2])])])).map Prod.fst =
    .ok [0x80, 0x43, 0x02, 0x10, 0x00, 0x03, 0x00] := by
  rw [C04_build (e := (E.ConfigOpcode, configCases)) (N := "CONFIG_NETKEY_LIST") (n := 0x8043) (by inreg) (by dsimp only; decide +kernel)
    (by decide +kernel) L (k := .int 0x8043) rfl (.inl rfl)]
  with_unfolding_all rfl

end BM.Props
