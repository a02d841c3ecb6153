import Verif.MeetsList
/-!
# Alternatives
-/
namespace BM
open F

section
variable {M M₁ : Mode}

/-- `Select(c₁, c₂)` at the end of the input: the second form is shorter than anything the first can parse, and values of the
second form lack something that the first form needs. -/
theorem meets_select2 {α} {c₁ c₂ : Con α} {G₁ G₂ : Fmt α} (h₁ : Meets M₁ true c₁ G₁) (h₂ : Meets M true c₂ G₂)
    (hU : M₁.U → M.T) (hTU : M₁.T → M.U) (hT : M₁.T → M.T) (hUU : M₁.U → M.U) (hS : M.S → M₁.S) (hX : M.X → M₁.X)
    (hshort : ∀ {u b v}, G₂ u b v → ∀ L ctx, ∃ er, c₁.parse L ctx b = .error er)
    (hsep : M.S ∨ M.X → ∀ {u b v}, G₂ u b v → Unencodable G₁ v) :
    Meets M true (select [c₁, c₂]) (orElse G₁ G₂) where
  enc := by
    rintro u b v (hg | ⟨hn, hg⟩) L ctx hL
    · obtain ⟨r, hr⟩ := h₁.enc hg L ctx (fun t => hL (hT t))
      exact ⟨u, by simp [select, selectBuild, hr]⟩
    · obtain ⟨r, hr⟩ := h₂.enc hg L ctx hL
      have : ∃ er, c₁.build L ctx u = .error er := by
        rcases h : c₁.build L ctx u with er | ⟨b', r'⟩
        · exact ⟨er, rfl⟩
        · obtain ⟨v', hv'⟩ := h₁.sound (fun t => hL (hU t)) h
          exact absurd ⟨_, _, hv'⟩ hn
      obtain ⟨er, he⟩ := this
      exact ⟨u, by simp [select, selectBuild, hr, he]⟩
  dec := by
    rintro u b v (hg | ⟨-, hg⟩) L ctx rest he
    · simp [select, selectParse, h₁.dec hg L ctx rest he]
    · have hr := he rfl
      subst hr
      obtain ⟨er, her⟩ := hshort hg L ctx
      have hnd : er ≠ .diverge := by rintro rfl; exact h₁.nodiv L ctx b her
      have h2 := h₂.dec hg L ctx [] (fun _ => rfl)
      rw [List.append_nil] at h2 ⊢
      simp [select, selectParse, her, hnd, h2]
  sound := by
    intro L ctx u b r hL h
    simp only [select, selectBuild] at h
    split at h
    · rename_i b' r' h1
      simp only [Except.ok.injEq, Prod.mk.injEq] at h
      obtain ⟨rfl, rfl⟩ := h
      obtain ⟨v, hv⟩ := h₁.sound (fun t => hL (hUU t)) h1
      exact ⟨v, Or.inl hv⟩
    · rename_i er h1
      split at h
      · rename_i b' r' h2
        simp only [Except.ok.injEq, Prod.mk.injEq] at h
        obtain ⟨rfl, rfl⟩ := h
        obtain ⟨v, hv⟩ := h₂.sound hL h2
        refine ⟨v, Or.inr ⟨?_, hv⟩⟩
        rintro ⟨b1, v1, hg⟩
        obtain ⟨r1, hr1⟩ := h₁.enc hg L ctx (fun t => hL (hTU t))
        rw [hr1] at h1; simp at h1
      · simp at h
  refl := by
    rintro s u b v (hg | ⟨-, hg⟩)
    · exact Or.inl (h₁.refl (hS s) hg)
    · exact Or.inr ⟨hsep (Or.inl s) hg, h₂.refl s hg⟩
  inv := by
    intro s L ctx st v rest h
    simp only [select, selectParse] at h
    split at h
    · rename_i r h1
      cases h
      obtain ⟨b, hb⟩ := h₁.inv (hS s) h1
      exact ⟨b, Or.inl hb⟩
    · split at h
      · simp at h
      · split at h
        · rename_i r h1
          cases h
          obtain ⟨b, hb⟩ := h₂.inv s h1
          exact ⟨b, Or.inr ⟨hsep (Or.inl s) hb, hb⟩⟩
        · split at h <;> simp at h
  exact := by
    intro x L ctx st v rest h
    simp only [select, selectParse] at h
    split at h
    · rename_i r h1
      cases h
      obtain ⟨b, hs, hb⟩ := h₁.exact (hX x) h1
      exact ⟨b, hs, Or.inl hb⟩
    · split at h
      · simp at h
      · split at h
        · rename_i r h1
          cases h
          obtain ⟨b, hs, hb⟩ := h₂.exact x h1
          exact ⟨b, hs, Or.inr ⟨hsep (Or.inr x) hb, hb⟩⟩
        · split at h <;> simp at h
  nodiv := by
    intro L ctx s h
    simp only [select, selectParse] at h
    split at h
    · simp at h
    · rename_i er h1
      split at h
      · rename_i hd
        subst hd
        exact h₁.nodiv _ _ _ h1
      · split at h
        · simp at h
        · rename_i er' h2
          split at h
          · rename_i hd
            subst hd
            exact h₂.nodiv _ _ _ h2
          · simp at h

theorem minLen_named {α} {name : String} {c : Con α} {m} (h : MinLen c m) : MinLen (nameAdapter name c) m := by
  intro L ctx s v rest hp
  simp only [nameAdapter, bind_ok] at hp
  obtain ⟨⟨v', r⟩, h1, h2⟩ := hp
  have := h h1
  cases v' <;> simp at h2
  obtain ⟨-, rfl⟩ := h2
  exact this

theorem lenLe_named {α} {name : String} {G : Fmt α} {m} (h : LenLe G m) : LenLe (F.named name G) m := by
  rintro u b v ⟨d, dv, -, hg, -⟩; exact h hg

theorem MinLen.short {α} {c : Con α} {G : Fmt α} {m m'} (h : MinLen c m) (hg : LenLe G m') (hlt : m' < m) :
    ∀ {u b v}, G u b v → ∀ L ctx, ∃ er, c.parse L ctx b = .error er := by
  intro u b v hb L ctx
  have := hg hb
  rcases hp : c.parse L ctx b with er | ⟨v', rest⟩
  · exact ⟨er, rfl⟩
  · have := h hp; omega

theorem named_sep {α} {G₁ G₂ : Fmt α} {n₁ n₂ k : String} {ks : List String} (hr : Requires G₁ k) (hk : Reports G₂ ks)
    (hkk : k ∉ "_name" :: ks) (hn : n₁ ∉ "_name" :: ks) :
    ∀ {u b v}, F.named n₂ G₂ u b v → Unencodable (F.named n₁ G₁) v := by
  rintro u b v ⟨d, dv, rfl, hg, rfl⟩ ⟨b', v', d', dv', hd', hg', -⟩
  cases hd'
  obtain ⟨d2, h2, hks⟩ := hk hg
  cases h2
  have h0 : dget (dv ++ [("_name", .str n₂)]) n₁ = none := by
    rw [dget_eq_none_iff]
    simp only [dkeys, List.map_append, List.mem_append, List.map_cons, List.map_nil, List.mem_singleton]
    simp only [List.mem_cons, not_or] at hn
    rintro (h | h)
    · exact hn.2 (by rw [← hks]; exact h)
    · exact hn.1 h
  rw [h0] at hg'
  obtain ⟨d3, h3, hmem⟩ := hr hg'
  cases h3
  simp only [dkeys, List.map_append, List.mem_append, List.map_cons, List.map_nil, List.mem_singleton] at hmem
  simp only [List.mem_cons, not_or] at hkk
  rcases hmem with h | h
  · exact hkk.2 (by rw [← hks]; exact h)
  · exact hkk.1 h

end

section
variable {M : Mode} {e : Bool} {α : Type} {its : List (Item α)} {rs : List (RI α)}

theorem reports_record (h : MeetsIs M e its rs) : Reports (F.record rs) (rs.flatMap RI.keys) := by
  rintro u b v ⟨du, dv, -, hs, rfl⟩
  exact ⟨dv, rfl, seqRel_keys h hs⟩

theorem record_loc (h : MeetsIs M e its rs) {name : String} (hn : "_name" ∉ rs.flatMap RI.keys) :
    ∀ {d b v}, F.record rs (.dict d) b v → F.record rs (.dict (d ++ [("_name", .str name)])) b v := by
  rintro d b v ⟨du, dv, hdu, hs, rfl⟩
  cases hdu
  refine ⟨_, dv, rfl, seqRel_loc h (fun k hk => ?_) hs, rfl⟩
  by_cases hm : k ∈ dkeys d
  · rw [dget_append_left hm]
  · rw [dget_append_right hm]
    rw [(dget_eq_none_iff _ _).2 hm]
    have : "_name" ≠ k := by rintro rfl; exact hn hk
    simp [dget, this]

/-- A key that every encodable dictionary must have. -/
def NeedsI (r : RI α) (k : String) : Prop := ∀ ⦃du b dv⦄, r.rel du b dv → k ∈ dkeys du

theorem needsI_fld {k : String} {G : Fmt α} : NeedsI (F.fld k G) k := by
  rintro du b dv ⟨u, v, hu, -⟩
  refine Decidable.byContradiction fun hc => ?_
  rw [(dget_eq_none_iff _ _).2 hc] at hu
  simp at hu

inductive Needs (k : String) : List (RI α) → Prop
  | here {r rs} : NeedsI r k → Needs k (r :: rs)
  | there {r rs} : Needs k rs → Needs k (r :: rs)

theorem Needs.mem {k : String} {rs : List (RI α)} (h : Needs k rs) : ∀ {du b dv}, seqRel rs du b dv → k ∈ dkeys du := by
  induction h with
  | here h => rintro du b dv ⟨b1, b2, d1, d2, -, -, hr, -⟩; exact h hr
  | there _ ih => rintro du b dv ⟨b1, b2, d1, d2, -, -, -, hr⟩; exact ih hr

theorem needsI_embed {k : String} {rs : List (RI α)} (h : Needs k rs) : NeedsI (F.embed rs) k := fun _ _ _ hr => h.mem hr

theorem requires_record {k : String} {rs : List (RI α)} (h : Needs k rs) : Requires (F.record rs) k := by
  rintro u b v ⟨du, dv, hdu, hs, -⟩
  exact ⟨du, hdu, h.mem hs⟩

/-- `NamedSelect(n₁=Struct(…), n₂=Struct(…))` where the second struct is shorter and lacks key `k` of the first. -/
theorem meets_namedSelect {M M₁ : Mode} {its₁ its₂ : List (Item α)} {rs₁ rs₂ : List (RI α)} {n₁ n₂ k : String} {m₁ m₂ : Nat}
    (h₁ : MeetsIs M₁ true its₁ rs₁) (h₂ : MeetsIs M true its₂ rs₂)
    (hn₁ : ("_name" :: n₁ :: rs₁.flatMap RI.keys).Nodup) (hn₂ : ("_name" :: n₁ :: n₂ :: rs₂.flatMap RI.keys).Nodup)
    (hneed : Needs k rs₁) (hk : k ∉ "_name" :: rs₂.flatMap RI.keys)
    (hmin : MinLenIs its₁ m₁) (hlen : LenEqIs rs₂ m₂) (hlt : m₂ < m₁)
    (hU : M₁.U → M.T) (hTU : M₁.T → M.U) (hT : M₁.T → M.T) (hUU : M₁.U → M.U) (hS : M.S → M₁.S) (hX : M.X → M₁.X) :
    Meets M true (namedSelect [(n₁, struct its₁), (n₂, struct its₂)])
      (orElse (F.named n₁ (F.record rs₁)) (F.named n₂ (F.record rs₂))) := by
  simp only [List.nodup_cons, List.mem_cons, not_or] at hn₁ hn₂
  have m1 := meets_named (name := n₁) (meets_struct h₁ hn₁.2.2) (reports_record h₁) hn₁.1.2 hn₁.2.1 (Ne.symm hn₁.1.1)
    (record_loc h₁ hn₁.1.2)
  have m2 := meets_named (name := n₂) (meets_struct h₂ hn₂.2.2.2) (reports_record h₂) hn₂.1.2.2 hn₂.2.2.1 (Ne.symm hn₂.1.2.1)
    (record_loc h₂ hn₂.1.2.2)
  refine meets_select2 m1 m2 hU hTU hT hUU hS hX ?_ (fun _ => ?_)
  · have a : MinLen (nameAdapter n₁ (struct its₁)) m₁ := minLen_named (minLen_struct hmin)
    have b : LenLe (F.record rs₂) m₂ := LenEq.le (lenEq_record hlen) (Nat.le_refl _)
    have b' : LenLe (F.named n₂ (F.record rs₂)) m₂ := lenLe_named b
    exact fun {_ _ _} hg => MinLen.short a b' hlt hg
  · refine named_sep (requires_record hneed) (reports_record h₂) hk ?_
    simp only [List.mem_cons, not_or]
    exact ⟨Ne.symm hn₂.1.1, hn₂.2.1.2⟩

end
end BM
