import Verif.MeetsDescriptor
import Verif.SpecSilvair
import Verif.Silvair
/-!
# Text, textual addresses and other leaves of the vendor messages
-/
namespace BM
open F Config

section
variable {M : Mode} {e : Bool}

theorem bytesStr_ok {b v} (h : bytesStr b = .ok v) : ∃ s, v = .str s ∧ utf8 s = b := by
  simp only [bytesStr, bind_ok, Except.ok.injEq] at h
  obtain ⟨s, h1, rfl⟩ := h
  exact ⟨s, rfl, utf8_of_decode h1⟩

theorem bytesStr_utf8 (s : String) : bytesStr (utf8 s) = .ok (.str s) := by simp [bytesStr, utf8Decode_utf8]

theorem bytesStr_nodiv (b) : bytesStr b ≠ .error .diverge := by
  intro h
  simp only [bytesStr, bind_err] at h
  rcases h with h | ⟨_, _, h⟩
  · unfold utf8Decode at h; split at h <;> simp at h
  · cases h

theorem strBytes_inv {u b} (h : strBytes u = .ok b) : ∃ s, u = .str s ∧ b = utf8 s := by
  cases u <;> simp [strBytes] at h
  exact ⟨_, rfl, h.symm⟩

theorem meets_text : Meets M true greedyString F.text where
  enc := by rintro u b v ⟨s, rfl, rfl, rfl⟩ L ctx _; exact ⟨_, rfl⟩
  dec := by
    rintro u b v ⟨s, rfl, rfl, rfl⟩ L ctx rest hr
    rw [hr rfl]; simp [greedyString, bytesStr_utf8]
  sound := by
    intro L ctx u b r _ h
    simp only [greedyString, bind_ok] at h
    obtain ⟨b', h1, h2⟩ := h
    cases h2
    obtain ⟨s, rfl, rfl⟩ := strBytes_inv h1
    exact ⟨_, s, rfl, rfl, rfl⟩
  refl := by rintro _ u b v ⟨s, rfl, rfl, rfl⟩; exact ⟨s, rfl, rfl, rfl⟩
  inv := by
    intro _ L ctx s v rest h
    simp only [greedyString, bind_ok] at h
    obtain ⟨v', h1, h2⟩ := h
    cases h2
    obtain ⟨s', rfl, rfl⟩ := bytesStr_ok h1
    exact ⟨_, s', rfl, rfl, rfl⟩
  exact := by
    intro _ L ctx s v rest h
    simp only [greedyString, bind_ok] at h
    obtain ⟨v', h1, h2⟩ := h
    cases h2
    obtain ⟨s', rfl, rfl⟩ := bytesStr_ok h1
    exact ⟨utf8 s', by simp, s', rfl, rfl, rfl⟩
  nodiv := by
    intro L ctx s h
    simp only [greedyString, bind_err] at h
    rcases h with h | ⟨_, _, h⟩
    · exact bytesStr_nodiv _ h
    · cases h

theorem paddedText_read {n : Nat} {b : List UInt8} {v} (hl : b.length = n) (h : bytesStr (rstrip0 b) = .ok v) : F.paddedText n v b v := by
  obtain ⟨s, rfl, h2⟩ := bytesStr_ok h
  obtain ⟨h3, h4⟩ := rstrip0_pad b
  refine ⟨s, rfl, by rw [h2]; omega, by rw [h2, ← hl, h3], ?_⟩
  congr 1
  exact (utf8_inj (by rw [utf8_rstripNul, h2, rstrip0_idem])).symm

theorem paddedText_refl {n : Nat} {u b v} (h : F.paddedText n u b v) : F.paddedText n v b v := by
  obtain ⟨s, hs, hl, rfl, rfl⟩ := h
  obtain ⟨h1, h2⟩ := rstripNul_pad s hl
  exact ⟨rstripNul s, rfl, h1, h2, by rw [rstripNul_idem]⟩

theorem lenEq_paddedText (n : Nat) : LenEq (F.paddedText n) n := by
  rintro u b v ⟨s, -, hl, rfl, -⟩; simp; omega

theorem paddedText_build {n : Nat} {L ctx u b r} (h : (paddedString n).build L ctx u = .ok (b, r)) : ∃ v, F.paddedText n u b v := by
  simp only [paddedString, bind_ok] at h
  obtain ⟨b0, hb0, h⟩ := h
  obtain ⟨s, rfl, rfl⟩ := strBytes_inv hb0
  split at h
  · rename_i hl
    cases h
    exact ⟨_, s, rfl, hl, rfl, rfl⟩
  · cases h

theorem meets_paddedText (n : Nat) : Meets M e (paddedString n) (F.paddedText n) := by
  refine meets_fixed n (fun _ b => bytesStr (rstrip0 b)) ?_ (fun h => lenEq_paddedText n h) ?_ ?_ ?_ ?_ ?_ ?_ ?_
  · intro L ctx s; rfl
  · rintro u b v ⟨s, rfl, hl, rfl, -⟩ L ctx hT
    exact ⟨_, by simp only [paddedString, strBytes, ok_bind, if_pos hl]; rfl⟩
  · rintro u b v ⟨s, hs, hl, rfl, rfl⟩ L; exact rstrip0_utf8_pad _ _
  · intro L ctx u b r _ h; exact paddedText_build h
  · intro _ u b v h; exact paddedText_refl h
  · intro _ L b v hl h; exact ⟨b, paddedText_read hl h⟩
  · intro _ L b v hl h; exact paddedText_read hl h
  · intro L b _ h; exact bytesStr_nodiv _ h

theorem minLen_paddedString (n) : MinLen (paddedString n) n := minLen_fixed n (fun _ b => bytesStr (rstrip0 b)) (fun _ _ _ => rfl)

/-- Reserved bytes with a name. -/
theorem meetsI_reserved (k : String) (n : Nat) (hX : ¬ M.X) : MeetsI M e (field k (padding 0 n)) (F.reserved k n) where
  enc := by rintro du b dv ⟨rfl, rfl⟩ L ctx hT; exact ⟨_, rfl⟩
  dec := by
    rintro du b dv ⟨rfl, rfl⟩ L acc rest _
    simp [field, padding, takeN_append, dmerge]
  sound := by
    intro L du ctx b ctx' _ h
    simp [field, padding] at h
    exact ⟨_, h.1.symm, rfl⟩
  refl := by rintro _ du b dv h; exact h
  inv := by
    intro _ L acc s acc' rest h
    simp only [field, padding, bind_ok] at h
    obtain ⟨⟨v, r⟩, ⟨⟨_, _⟩, -, h1⟩, h2⟩ := h
    simp only [Except.ok.injEq, Prod.mk.injEq] at h1 h2
    obtain ⟨rfl, rfl⟩ := h1
    exact ⟨_, [(k, .none)], h2.1.symm, rfl, rfl⟩
  exact := fun h => absurd h hX
  nodiv := by
    intro L acc s h
    simp only [field, padding, bind_err] at h
    rcases h with (h | ⟨_, -, h⟩) | ⟨_, -, h⟩
    · have := (takeN_err h).1; simp at this
    · simp at h
    · simp at h
  keys := by rintro du b dv ⟨-, rfl⟩; rfl
  loc := by rintro du du' b dv _ h; exact h

theorem lenEqI_reserved (k n) : LenEqI (F.reserved k n) n := by rintro du b dv ⟨rfl, -⟩; simp
theorem minLen_padding {α} (z : α) (n) : MinLen (padding z n) n := by
  intro L ctx s v rest h
  simp only [padding, bind_ok] at h
  obtain ⟨⟨b, r⟩, h1, h2⟩ := h
  cases h2
  obtain ⟨rfl, rfl⟩ := takeN_ok h1
  simp [Nat.add_comm]

/-! ### Groups of members -/

/-- Several members in a row, as one. -/
def grouped {α} (its : List (Item α)) : Item α where
  buildNone := its.all (·.buildNone)
  parse L acc s := parseItems L its acc s
  build L obj ctx := buildItems L obj its ctx

theorem parseItems_append {α} {L} (a c : List (Item α)) : ∀ acc s, parseItems L (a ++ c) acc s = parseItems L (grouped a :: c) acc s := by
  induction a with
  | nil => intro acc s; simp [parseItems, grouped]
  | cons x a ih =>
    intro acc s
    have := fun acc s => ih acc s
    simp only [List.cons_append, parseItems, grouped] at this ⊢
    cases h : x.parse L acc s with
    | error => rfl
    | ok p => simp only [ok_bind]; rw [this]

theorem buildItems_append {α} {L obj} (a c : List (Item α)) : ∀ ctx, buildItems L obj (a ++ c) ctx = buildItems L obj (grouped a :: c) ctx := by
  induction a with
  | nil => intro ctx; simp only [List.nil_append, buildItems, grouped, ok_bind]; cases buildItems L obj c ctx <;> rfl
  | cons x a ih =>
    intro ctx
    have := fun ctx => ih ctx
    simp only [List.cons_append, buildItems, grouped] at this ⊢
    cases h : x.build L obj ctx with
    | error => rfl
    | ok p =>
      simp only [ok_bind]; rw [this]
      cases h2 : buildItems L obj a p.2 with
      | error => rfl
      | ok q =>
        simp only [ok_bind]
        cases h3 : buildItems L obj c q.2 with
        | error => rfl
        | ok w => simp [List.append_assoc]

theorem items_ext {α} {its its' : List (Item α)} (hn : its.all (·.buildNone) = its'.all (·.buildNone)) (hp : ∀ L acc s, parseItems L its acc s = parseItems L its' acc s)
    (hb : ∀ L obj ctx, buildItems L obj its ctx = buildItems L obj its' ctx) : grouped its = grouped its' := by
  simp only [grouped, Item.mk.injEq]
  exact ⟨hn, by funext L acc s; exact hp L acc s, by funext L obj ctx; exact hb L obj ctx⟩

theorem struct_ext {α} {its its' : List (Item α)} (h : grouped its = grouped its') : struct its = struct its' := by
  simp only [grouped, Item.mk.injEq] at h
  obtain ⟨hn, h⟩ := h
  have hp : ∀ L acc s, parseItems L its acc s = parseItems L its' acc s := fun L acc s => congrFun (congrFun (congrFun h.1 L) acc) s
  have hb : ∀ L obj ctx, buildItems L obj its ctx = buildItems L obj its' ctx := fun L obj ctx => congrFun (congrFun (congrFun h.2 L) obj) ctx
  simp only [struct, hn, hp, hb]

theorem embedded_ext {α} {its its' : List (Item α)} (h : grouped its = grouped its') : embedded its = embedded its' := by
  simp only [grouped, Item.mk.injEq] at h
  obtain ⟨hn, h⟩ := h
  have hp : ∀ L acc s, parseItems L its acc s = parseItems L its' acc s := fun L acc s => congrFun (congrFun (congrFun h.1 L) acc) s
  have hb : ∀ L obj ctx, buildItems L obj its ctx = buildItems L obj its' ctx := fun L obj ctx => congrFun (congrFun (congrFun h.2 L) obj) ctx
  simp only [embedded, hn, hp, hb]

theorem grouped_append {α} (a c : List (Item α)) : grouped (a ++ c) = grouped (grouped a :: c) :=
  items_ext (by simp [grouped]) (fun _ => parseItems_append a c) (fun _ _ => buildItems_append a c)

theorem grouped_cons {α} {x : Item α} {c c' : List (Item α)} (h : grouped c = grouped c') : grouped (x :: c) = grouped (x :: c') := by
  simp only [grouped, Item.mk.injEq] at h
  obtain ⟨hn, h⟩ := h
  refine items_ext (by simp only [List.all_cons, hn]) (fun L acc s => ?_) (fun L obj ctx => ?_)
  · simp only [parseItems, show ∀ acc s, parseItems L c acc s = parseItems L c' acc s from fun acc s => congrFun (congrFun (congrFun h.1 L) acc) s]
  · simp only [buildItems, show ∀ ctx, buildItems L obj c ctx = buildItems L obj c' ctx from fun ctx => congrFun (congrFun (congrFun h.2 L) obj) ctx]

/-! ### A string whose length is given by an earlier member -/

theorem one_le {n : Nat} (h : n < 256) : leBytes 1 n = [UInt8.ofNat n] := one_byte h

theorem meetsI_sizedText (kl ks : String) (hk : kl ≠ ks) :
    MeetsI M e (grouped [field kl (uintLE 1), field ks (Gateway.sizedString kl)]) (F.sizedText kl ks) := by
  have hpar : ∀ {L acc s acc' rest}, (grouped [field kl (uintLE 1), field ks (Gateway.sizedString kl)]).parse L acc s = .ok (acc', rest) →
      ∃ b dv, s = b ++ rest ∧ acc' = dmerge acc dv ∧ (F.sizedText kl ks).rel dv b dv := by
    intro L acc s acc' rest h
    simp only [grouped, parseItems, field, uintLE, bind_ok] at h
    obtain ⟨⟨a1, s1⟩, ⟨⟨v, r⟩, ⟨⟨b1, r1⟩, h1, h2⟩, h3⟩, ⟨a2, s2⟩, ⟨⟨w, r2⟩, h4, h5⟩, h6⟩ := h
    cases h2; cases h3; cases h5; cases h6
    obtain ⟨rfl, hl⟩ := takeN_ok h1
    obtain ⟨x, rfl⟩ : ∃ x, b1 = [x] := List.length_eq_one_iff.1 hl
    have hc : countOf kl (dset acc kl (.int (leNat [x]))) = .ok x.toNat := by
      simp [countOf, dgetE, dget_dset_self, asInt, leNat]
    simp only [Gateway.sizedString, hc, ok_bind, paddedString, bind_ok] at h4
    obtain ⟨⟨b2, r3⟩, h7, w', h8, h9⟩ := h4
    cases h9
    obtain ⟨rfl, hl2⟩ := takeN_ok h7
    obtain ⟨s0, h10, h11, h12, h13⟩ := paddedText_read hl2 h8
    have hx : leNat [x] = x.toNat := by simp [leNat]
    refine ⟨x :: b2, [(kl, .int x.toNat), (ks, w)], by simp, ?_, .int x.toNat, s0, x.toNat, by simp [dget], ?_, rfl,
      UInt8.toNat_lt x, h11, ?_, ?_⟩
    · simp [dmerge, hx]
    · simp [dget, hk, h10]
    · rw [← h12]; simp
    · rw [h13]
  refine ⟨?_, ?_, ?_, ?_, ?_, ?_, ?_, ?_, ?_⟩
  · rintro du b dv ⟨ul, s, n, h1, h2, h3, h4, h5, rfl, rfl⟩ L ctx hT
    have hc : ∀ c, countOf kl (dset (dset c kl ul) ks (.str s)) = .ok n := by
      intro c
      simp [countOf, dgetE, dget_dset_ne _ _ (Ne.symm hk), dget_dset_self, h3]
    have hne : ul ≠ .none := by rintro rfl; simp [asInt] at h3
    have hu : (uintLE 1).build L (dset ctx kl ul) ul = .ok ([UInt8.ofNat n], ul) := by
      have hb := uint_build (n := 1) (b := [UInt8.ofNat n]) h3 rfl (leNat_one h4)
      exact hb L _
    simp only [grouped, buildItems, field, dgetE, h1, h2]
    have e1 : (uintLE 1).buildNone = false := rfl
    have e2 : (Gateway.sizedString kl).buildNone = false := rfl
    simp only [e1, e2, Bool.false_eq_true, if_false, ok_bind, hu]
    have hm : ∀ c : Dict, (match ul with | .none => dset c kl ul | r => dset (dset c kl ul) kl r) = dset (dset c kl ul) kl ul := by
      intro c; cases ul <;> first | exact absurd rfl hne | rfl
    simp only [hm, Gateway.sizedString]
    rw [hc]
    simp only [ok_bind, paddedString, strBytes, if_pos h5]
    exact ⟨_, by simp; rfl⟩
  · rintro du b dv ⟨ul, s, n, h1, h2, h3, h4, h5, rfl, rfl⟩ L acc rest _
    have hc : countOf kl (dset acc kl (.int n)) = .ok n := by
      simp [countOf, dgetE, dget_dset_self, asInt]
    have hx : leNat [UInt8.ofNat n] = n := leNat_one h4
    have ht : takeN 1 (UInt8.ofNat n :: (utf8 s ++ List.replicate (n - (utf8 s).length) 0) ++ rest) =
        .ok ([UInt8.ofNat n], (utf8 s ++ List.replicate (n - (utf8 s).length) 0) ++ rest) := by
      have := takeN_append (n := 1) (b := [UInt8.ofNat n]) (rest := (utf8 s ++ List.replicate (n - (utf8 s).length) 0) ++ rest) rfl
      simpa using this
    simp only [grouped, parseItems, field, uintLE, ht, ok_bind, hx, Gateway.sizedString, hc, paddedString]
    rw [takeN_append (by simp; omega)]
    simp only [ok_bind, rstrip0_utf8_pad, dmerge, List.foldl]
  · intro L du ctx b ctx' _ h
    have e1 : (uintLE 1).buildNone = false := rfl
    have e2 : (Gateway.sizedString kl).buildNone = false := rfl
    simp only [grouped, buildItems, field, e1, e2, Bool.false_eq_true, if_false, bind_ok] at h
    obtain ⟨⟨b1, c1⟩, ⟨ul, h1, ⟨b1', r1⟩, h2, h3⟩, ⟨b2, c2⟩, ⟨⟨b3, c3⟩, ⟨us, h4, ⟨b4, r4⟩, h5, h6⟩, h7⟩, h8⟩ := h
    obtain ⟨⟨b5, c5⟩, h7, h7'⟩ := h7
    obtain ⟨k, hk1, hk2, hk3, rfl⟩ := build_uint h2
    have hne : r1 ≠ .none := by rintro rfl; simp [asInt] at hk1
    simp only [Except.ok.injEq, Prod.mk.injEq] at h3 h6 h7 h7' h8
    obtain ⟨rfl, rfl⟩ := h3
    obtain ⟨rfl, rfl⟩ := h6
    obtain ⟨rfl, rfl⟩ := h7
    obtain ⟨rfl, rfl⟩ := h7'
    obtain ⟨rfl, rfl⟩ := h8
    have hc : ∀ c, countOf kl (dset (dset c kl r1) ks us) = .ok k := by
      intro c
      simp [countOf, dgetE, dget_dset_ne _ _ (Ne.symm hk), dget_dset_self, hk1]
    simp only [Gateway.sizedString, hc, ok_bind] at h5
    obtain ⟨v, s0, rfl, h9, h10, h11⟩ := paddedText_build h5
    have hk4 : k < 256 := by simpa using hk3
    refine ⟨_, r1, s0, k, dgetE_ok h1, dgetE_ok h4, hk1, hk4, h9, ?_, rfl⟩
    rw [hk2, one_byte hk4, ← h10]; simp
  · rintro _ du b dv ⟨ul, s, n, h1, h2, h3, h4, h5, rfl, rfl⟩
    obtain ⟨h6, h7⟩ := rstripNul_pad s h5
    exact ⟨.int n, rstripNul s, n, by simp [dget], by simp [dget, hk], rfl, h4, h6, by rw [h7], by rw [rstripNul_idem]⟩
  · intro _ L acc s acc' rest h
    obtain ⟨b, dv, -, h1, h2⟩ := hpar h
    exact ⟨b, dv, h1, h2⟩
  · intro _ L acc s acc' rest h; exact hpar h
  · intro L acc s h
    simp only [grouped, parseItems, field, uintLE, bind_err] at h
    rcases h with (h | ⟨_, _, h⟩) | ⟨_, _, (h | ⟨_, _, h⟩) | ⟨_, _, h⟩⟩
    · rcases h with h | ⟨_, _, h⟩
      · have := (takeN_err h).1; simp at this
      · cases h
    · cases h
    · simp only [Gateway.sizedString, bind_err] at h
      rcases h with h | ⟨_, _, h⟩
      · simp only [countOf, bind_err] at h
        rcases h with h | ⟨_, _, h⟩
        · exact dgetE_nodiv h
        · split at h
          · split at h <;> cases h
          · cases h
      · exact (meets_paddedText (M := M) (e := e) _).nodiv _ _ _ h
    · cases h
    · cases h
  · rintro du b dv ⟨ul, s, n, -, -, -, -, -, -, rfl⟩; rfl
  · rintro du du' b dv hd ⟨ul, s, n, h1, h2, h⟩
    exact ⟨ul, s, n, by rw [← hd kl (by simp [sizedText]), h1], by rw [← hd ks (by simp [sizedText]), h2], h⟩

end
end BM
