import Verif.MeetsComb
/-!
# Bit groups, lists and alternatives
-/
namespace BM
open F

section
variable {M : Mode} {e : Bool}

/-! ### Embedded bit structs -/

theorem meetsI_bitGroup {name : String} {n : Nat} {le : Bool} {its : List (Item Bool)} {rs : List (RI Bool)}
    (h : MeetsIs M true its rs) (hl : LenEqIs rs (8 * n)) (hn : (name :: rs.flatMap RI.keys).Nodup) :
    MeetsI M e (embeddedBitStruct name n le its) (F.bitGroup name n le rs) := by
  have hst : Meets M true (struct its) (F.record rs) := meets_struct h (List.nodup_cons.1 hn).2
  -- the packed form, big- or little-endian
  let G : Fmt UInt8 := if le then F.packedLE n (F.record rs) else F.packed n (F.record rs)
  have hc : Meets M e (if le then reversed n (bitwise n (struct its)) else bitwise n (struct its)) G := by
    cases le
    · exact meets_bitwise hst (lenEq_record hl)
    · exact meets_reversed (meets_bitwise hst (lenEq_record hl))
  have hG : ∀ {u b v}, G u b v ↔ b.length = n ∧ F.record rs u (bytesBits (if le then b.reverse else b)) v := by
    intro u b v
    cases le
    · exact Iff.rfl
    · exact Iff.rfl
  have hkeys : ∀ {d b}, seqDiag rs b d → dkeys d = rs.flatMap RI.keys := fun hd => seqDiag_keys h hd
  have hsplit : ∀ acc (d : Dict), dmerge (dset acc name (.dict d)) d = dmerge acc ((name, .dict d) :: d) := fun _ _ => rfl
  -- a value of the group determined by its own entries
  have hself : ∀ {v b}, G v b v → ∃ d, v = .dict d ∧ (F.bitGroup name n le rs).rel ((name, .dict d) :: d) b ((name, .dict d) :: d) := by
    intro v b hg
    obtain ⟨hb, du, dv, hu, hs, rfl⟩ := hG.1 hg
    simp only [asDict, Except.ok.injEq] at hu
    subst hu
    refine ⟨dv, rfl, dv, hb, seqRel_loc h (fun k hk => ?_) hs, rfl⟩
    have : name ≠ k := by rintro rfl; exact (List.nodup_cons.1 hn).1 hk
    simp [dget, this]
  exact {
    enc := by
      rintro du b dv ⟨d, hb, hs, rfl⟩ L ctx hT
      obtain ⟨r, hr⟩ := hc.enc (u := .dict du) (b := b) (v := .dict d) (hG.2 ⟨hb, du, d, rfl, hs, rfl⟩) L ctx hT
      exact ⟨dset ctx name (.dict du), by simp only [embeddedBitStruct, hr, ok_bind]⟩
    dec := by
      rintro du b dv ⟨d, hb, hs, rfl⟩ L acc rest he
      have := hc.dec (u := .dict du) (b := b) (v := .dict d) (hG.2 ⟨hb, du, d, rfl, hs, rfl⟩) L acc rest he
      simp only [embeddedBitStruct, this, ok_bind]
      rfl
    sound := by
      intro L du ctx b ctx' hL hb
      simp only [embeddedBitStruct, bind_ok] at hb
      obtain ⟨⟨b', r⟩, h1, h2⟩ := hb
      simp only [Except.ok.injEq, Prod.mk.injEq] at h2
      obtain ⟨rfl, -⟩ := h2
      obtain ⟨v, hv⟩ := hc.sound hL h1
      obtain ⟨hb', du', d, hu, hs, rfl⟩ := hG.1 hv
      simp only [asDict, Except.ok.injEq] at hu
      subst hu
      exact ⟨_, d, hb', hs, rfl⟩
    refl := by
      rintro hS du b dv ⟨d, hb, hs, rfl⟩
      have := hc.refl hS (u := .dict du) (b := b) (v := .dict d) (hG.2 ⟨hb, du, d, rfl, hs, rfl⟩)
      obtain ⟨d', hd', hr⟩ := hself this
      cases hd'
      exact hr
    inv := by
      intro hS L acc s acc' rest hp
      simp only [embeddedBitStruct, bind_ok] at hp
      obtain ⟨⟨v, r⟩, h1, h2⟩ := hp
      obtain ⟨b, hb⟩ := hc.inv hS h1
      obtain ⟨d, rfl, hr⟩ := hself hb
      simp only [Except.ok.injEq, Prod.mk.injEq] at h2
      obtain ⟨rfl, rfl⟩ := h2
      exact ⟨b, _, rfl, hr⟩
    exact := by
      intro hX L acc s acc' rest hp
      simp only [embeddedBitStruct, bind_ok] at hp
      obtain ⟨⟨v, r⟩, h1, h2⟩ := hp
      obtain ⟨b, hs, hb⟩ := hc.exact hX h1
      obtain ⟨d, rfl, hr⟩ := hself hb
      simp only [Except.ok.injEq, Prod.mk.injEq] at h2
      obtain ⟨rfl, rfl⟩ := h2
      exact ⟨b, _, hs, rfl, hr⟩
    nodiv := by
      intro L acc s hp
      simp only [embeddedBitStruct, bind_err] at hp
      rcases hp with hp | ⟨⟨v, r⟩, _, hp⟩
      · exact hc.nodiv _ _ _ hp
      · cases v <;> simp at hp
    keys := by
      rintro du b dv ⟨d, hb, hs, rfl⟩
      have := seqRel_keys h hs
      simp only [dkeys] at this
      simp [dkeys, F.bitGroup, this]
    loc := by
      rintro du du' b dv hk ⟨d, hb, hs, rfl⟩
      exact ⟨d, hb, seqRel_loc h (fun k hk' => hk k (by simp only [F.bitGroup, List.mem_cons]; exact Or.inr hk')) hs, rfl⟩ }

/-! ### Lists -/

theorem many_enc {α} {c : Con α} {G : Fmt α} (hc : Meets M e c G) :
    ∀ {us b vs}, manyRel G us b vs → ∀ L ctx, (M.T → L.Strict) → buildMany (c.build L ctx) us = .ok b := by
  intro us
  induction us with
  | nil => rintro b vs ⟨rfl, -⟩ L ctx hT; rfl
  | cons u us ih =>
    rintro b vs ⟨b1, b2, v, vs', rfl, rfl, hg, hm⟩ L ctx hT
    obtain ⟨r, hr⟩ := hc.enc hg L ctx hT
    simp [buildMany, hr, ih hm L ctx hT]

theorem many_sound {α} {c : Con α} {G : Fmt α} (hc : Meets M e c G) {L ctx} (hL : M.U → L.Strict) :
    ∀ {us b}, buildMany (c.build L ctx) us = .ok b → ∃ vs, manyRel G us b vs := by
  intro us
  induction us with
  | nil => intro b h; simp [buildMany] at h; exact ⟨[], h, rfl⟩
  | cons u us ih =>
    intro b h
    simp only [buildMany, bind_ok] at h
    obtain ⟨⟨b1, r⟩, h1, b2, h2, h3⟩ := h
    simp only [Except.ok.injEq] at h3
    subst h3
    obtain ⟨v, hv⟩ := hc.sound hL h1
    obtain ⟨vs, hvs⟩ := ih h2
    exact ⟨v :: vs, b1, b2, v, vs, rfl, rfl, hv, hvs⟩

theorem many_refl {α} {c : Con α} {G : Fmt α} (hc : Meets M e c G) (hS : M.S) :
    ∀ {us b vs}, manyRel G us b vs → manyRel G vs b vs := by
  intro us
  induction us with
  | nil => rintro b vs ⟨rfl, rfl⟩; exact ⟨rfl, rfl⟩
  | cons u us ih =>
    rintro b vs ⟨b1, b2, v, vs', rfl, rfl, hg, hm⟩
    exact ⟨b1, b2, v, vs', rfl, rfl, hc.refl hS hg, ih hm⟩

theorem manyRel_length {α} {G : Fmt α} : ∀ {us b vs}, manyRel G us b vs → vs.length = us.length := by
  intro us
  induction us with
  | nil => rintro b vs ⟨rfl, rfl⟩; rfl
  | cons u us ih =>
    rintro b vs ⟨b1, b2, v, vs', rfl, rfl, hg, hm⟩
    simp [ih hm]

theorem many_dec {α} {c : Con α} {G : Fmt α} (hc : Meets M false c G) :
    ∀ {us b vs}, manyRel G us b vs → ∀ L ctx rest,
      parseMany (c.parse L ctx) us.length (b ++ rest) = .ok (vs, rest) := by
  intro us
  induction us with
  | nil => rintro b vs ⟨rfl, rfl⟩ L ctx rest; rfl
  | cons u us ih =>
    rintro b vs ⟨b1, b2, v, vs', rfl, rfl, hg, hm⟩ L ctx rest
    have := hc.dec hg L ctx (b2 ++ rest) (by simp)
    simp only [List.length_cons, parseMany, List.append_assoc, this, ok_bind, ih hm L ctx rest]

theorem many_inv {α} {c : Con α} {G : Fmt α} (hc : Meets M e c G) (hS : M.S) {L ctx} :
    ∀ {n s vs rest}, parseMany (c.parse L ctx) n s = .ok (vs, rest) → vs.length = n ∧ ∃ b, manyRel G vs b vs := by
  intro n
  induction n with
  | zero => intro s vs rest h; simp [parseMany] at h; obtain ⟨rfl, rfl⟩ := h; exact ⟨rfl, [], rfl, rfl⟩
  | succ n ih =>
    intro s vs rest h
    simp only [parseMany, bind_ok] at h
    obtain ⟨⟨v, s1⟩, h1, ⟨vs', s2⟩, h2, h3⟩ := h
    simp only [Except.ok.injEq, Prod.mk.injEq] at h3
    obtain ⟨rfl, rfl⟩ := h3
    obtain ⟨b1, hb1⟩ := hc.inv hS h1
    obtain ⟨hl, b2, hb2⟩ := ih h2
    exact ⟨by simp [hl], b1 ++ b2, b1, b2, v, vs', rfl, rfl, hb1, hb2⟩

theorem many_exact {α} {c : Con α} {G : Fmt α} (hc : Meets M e c G) (hX : M.X) {L ctx} :
    ∀ {n s vs rest}, parseMany (c.parse L ctx) n s = .ok (vs, rest) →
      vs.length = n ∧ ∃ b, s = b ++ rest ∧ manyRel G vs b vs := by
  intro n
  induction n with
  | zero => intro s vs rest h; simp [parseMany] at h; obtain ⟨rfl, rfl⟩ := h; exact ⟨rfl, [], by simp, rfl, rfl⟩
  | succ n ih =>
    intro s vs rest h
    simp only [parseMany, bind_ok] at h
    obtain ⟨⟨v, s1⟩, h1, ⟨vs', s2⟩, h2, h3⟩ := h
    simp only [Except.ok.injEq, Prod.mk.injEq] at h3
    obtain ⟨rfl, rfl⟩ := h3
    obtain ⟨b1, rfl, hb1⟩ := hc.exact hX h1
    obtain ⟨hl, b2, rfl, hb2⟩ := ih h2
    exact ⟨by simp [hl], b1 ++ b2, by simp, b1, b2, v, vs', rfl, rfl, hb1, hb2⟩

theorem many_nodiv {α} {c : Con α} {G : Fmt α} (hc : Meets M e c G) {L ctx} :
    ∀ n s, parseMany (c.parse L ctx) n s ≠ .error .diverge := by
  intro n
  induction n with
  | zero => intro s h; simp [parseMany] at h
  | succ n ih =>
    intro s h
    simp only [parseMany, bind_err] at h
    rcases h with h | ⟨_, _, h | ⟨_, _, h⟩⟩
    · exact hc.nodiv _ _ _ h
    · exact ih _ h
    · simp at h

/-- Exactly `n` elements, `n` a constant. -/
theorem meets_arrayConst {α} {c : Con α} {G : Fmt α} (n : Nat) (hc : Meets M false c G) :
    Meets M e (arrayC (fun _ => .ok n) c) (F.listN n G) where
  enc := by
    rintro u b v ⟨us, vs, hu, hn, hm, rfl⟩ L ctx hT
    exact ⟨.list us, by simp [arrayC, hu, hn, many_enc hc hm L ctx hT]⟩
  dec := by
    rintro u b v ⟨us, vs, hu, hn, hm, rfl⟩ L ctx rest _
    have := many_dec hc hm L ctx rest
    rw [hn] at this
    simp [arrayC, this]
  sound := by
    intro L ctx u b r hL h
    simp only [arrayC, ok_bind, bind_ok] at h
    obtain ⟨us, hu, h⟩ := h
    split at h
    · rename_i hn
      simp only [bind_ok] at h
      obtain ⟨b', h1, h2⟩ := h
      simp only [Except.ok.injEq, Prod.mk.injEq] at h2
      obtain ⟨rfl, -⟩ := h2
      obtain ⟨vs, hvs⟩ := many_sound hc hL h1
      exact ⟨_, us, vs, hu, hn, hvs, rfl⟩
    · simp at h
  refl := by
    rintro hS u b v ⟨us, vs, hu, hn, hm, rfl⟩
    exact ⟨vs, vs, rfl, by rw [manyRel_length hm, hn], many_refl hc hS hm, rfl⟩
  inv := by
    intro hS L ctx s v rest h
    simp only [arrayC, ok_bind, bind_ok] at h
    obtain ⟨⟨vs, r⟩, h1, h2⟩ := h
    simp only [Except.ok.injEq, Prod.mk.injEq] at h2
    obtain ⟨rfl, rfl⟩ := h2
    obtain ⟨hl, b, hb⟩ := many_inv hc hS h1
    exact ⟨b, vs, vs, rfl, hl, hb, rfl⟩
  exact := by
    intro hX L ctx s v rest h
    simp only [arrayC, ok_bind, bind_ok] at h
    obtain ⟨⟨vs, r⟩, h1, h2⟩ := h
    simp only [Except.ok.injEq, Prod.mk.injEq] at h2
    obtain ⟨rfl, rfl⟩ := h2
    obtain ⟨hl, b, rfl, hb⟩ := many_exact hc hX h1
    exact ⟨b, rfl, vs, vs, rfl, hl, hb, rfl⟩
  nodiv := by
    intro L ctx s h
    simp only [arrayC, ok_bind, bind_err] at h
    rcases h with h | ⟨_, _, h⟩
    · exact many_nodiv hc _ _ h
    · simp at h

theorem greedy_dec {α} {c : Con α} {G : Fmt α} (hc : Meets M false c G) (hge : LenGe G 1)
    (hstop : ∀ L ctx, ∃ er, c.parse L ctx [] = .error er) (L ctx) :
    ∀ {us b vs}, manyRel G us b vs → ∀ fuel, b.length ≤ fuel →
      greedyLoop (c.parse L ctx) fuel b = .ok (vs, []) := by
  intro us
  induction us with
  | nil =>
    rintro b vs ⟨rfl, rfl⟩ fuel _
    obtain ⟨er, her⟩ := hstop L ctx
    have hne : er ≠ .diverge := by rintro rfl; exact hc.nodiv _ _ _ her
    unfold greedyLoop
    simp [her, hne]
  | cons u us ih =>
    rintro b vs ⟨b1, b2, v, vs', rfl, rfl, hg, hm⟩ fuel hf
    have h1 := hge hg
    have := hc.dec hg L ctx b2 (by simp)
    rw [List.length_append] at hf
    obtain ⟨f, rfl⟩ : ∃ f, fuel = f + 1 := ⟨fuel - 1, by omega⟩
    unfold greedyLoop
    have hlt : b2.length < (b1 ++ b2).length := by rw [List.length_append]; omega
    simp only [this, hlt, if_true, ih hm f (by omega), ok_bind]

theorem greedy_inv {α} {c : Con α} {G : Fmt α} (hc : Meets M e c G) (hS : M.S) {L ctx} :
    ∀ fuel {s vs rest}, greedyLoop (c.parse L ctx) fuel s = .ok (vs, rest) → ∃ b, manyRel G vs b vs := by
  intro fuel
  induction fuel with
  | zero =>
    intro s vs rest h
    unfold greedyLoop at h
    split at h
    · split at h
      · simp at h
      · simp at h; obtain ⟨rfl, rfl⟩ := h; exact ⟨[], rfl, rfl⟩
    · split at h <;> simp at h
  | succ f ih =>
    intro s vs rest h
    unfold greedyLoop at h
    split at h
    · split at h
      · simp at h
      · simp at h; obtain ⟨rfl, rfl⟩ := h; exact ⟨[], rfl, rfl⟩
    · rename_i v s1 h1
      split at h
      · simp only [bind_ok] at h
        obtain ⟨⟨vs', r⟩, h2, h3⟩ := h
        simp only [Except.ok.injEq, Prod.mk.injEq] at h3
        obtain ⟨rfl, rfl⟩ := h3
        obtain ⟨b1, hb1⟩ := hc.inv hS h1
        obtain ⟨b2, hb2⟩ := ih h2
        exact ⟨b1 ++ b2, b1, b2, v, vs', rfl, rfl, hb1, hb2⟩
      · simp at h

theorem greedy_exact {α} {c : Con α} {G : Fmt α} (hc : Meets M e c G) (hX : M.X) {L ctx} :
    ∀ fuel {s vs rest}, greedyLoop (c.parse L ctx) fuel s = .ok (vs, rest) → ∃ b, s = b ++ rest ∧ manyRel G vs b vs := by
  intro fuel
  induction fuel with
  | zero =>
    intro s vs rest h
    unfold greedyLoop at h
    split at h
    · split at h
      · simp at h
      · simp at h; obtain ⟨rfl, rfl⟩ := h; exact ⟨[], by simp, rfl, rfl⟩
    · split at h <;> simp at h
  | succ f ih =>
    intro s vs rest h
    unfold greedyLoop at h
    split at h
    · split at h
      · simp at h
      · simp at h; obtain ⟨rfl, rfl⟩ := h; exact ⟨[], by simp, rfl, rfl⟩
    · rename_i v s1 h1
      split at h
      · simp only [bind_ok] at h
        obtain ⟨⟨vs', r⟩, h2, h3⟩ := h
        simp only [Except.ok.injEq, Prod.mk.injEq] at h3
        obtain ⟨rfl, rfl⟩ := h3
        obtain ⟨b1, rfl, hb1⟩ := hc.exact hX h1
        obtain ⟨b2, rfl, hb2⟩ := ih h2
        exact ⟨b1 ++ b2, by simp, b1, b2, v, vs', rfl, rfl, hb1, hb2⟩
      · simp at h

theorem greedy_nodiv {α} {c : Con α} (hnd : ∀ L ctx s, c.parse L ctx s ≠ .error .diverge) (hmin : MinLen c 1) {L ctx} :
    ∀ fuel s, s.length ≤ fuel → greedyLoop (c.parse L ctx) fuel s ≠ .error .diverge := by
  intro fuel
  induction fuel with
  | zero =>
    intro s hs h
    unfold greedyLoop at h
    split at h
    · rename_i er her
      split at h
      · rename_i hd; subst hd; exact hnd _ _ _ her
      · simp at h
    · rename_i v s1 h1
      have := hmin h1; omega
  | succ f ih =>
    intro s hs h
    unfold greedyLoop at h
    split at h
    · rename_i er her
      split at h
      · rename_i hd; subst hd; exact hnd _ _ _ her
      · simp at h
    · rename_i v s1 h1
      have := hmin h1
      split at h
      · simp only [bind_err] at h
        rcases h with h | ⟨_, _, h⟩
        · exact ih s1 (by omega) h
        · simp at h
      · omega

theorem MinLen.stop {α} {c : Con α} (h : MinLen c 1) (L ctx) : ∃ er, c.parse L ctx [] = .error er := by
  cases hp : c.parse L ctx [] with
  | error er => exact ⟨er, rfl⟩
  | ok r => obtain ⟨v, rest⟩ := r; have := h hp; simp at this

/-- `GreedyRange`: any number of elements up to the end of the input. -/
theorem meets_greedy {α} {c : Con α} {G : Fmt α} (hc : Meets M false c G) (hge : LenGe G 1) (hmin : MinLen c 1) :
    Meets M true (greedyRange c) (F.listOf G) where
  enc := by
    rintro u b v ⟨us, vs, hu, hm, rfl⟩ L ctx hT
    exact ⟨.list us, by simp [greedyRange, hu, many_enc hc hm L ctx hT]⟩
  dec := by
    rintro u b v ⟨us, vs, hu, hm, rfl⟩ L ctx rest hr
    rw [hr rfl, List.append_nil]
    simp [greedyRange, greedy_dec hc hge hmin.stop L ctx hm b.length (Nat.le_refl _)]
  sound := by
    intro L ctx u b r hL h
    simp only [greedyRange, bind_ok] at h
    obtain ⟨us, hu, b', h1, h2⟩ := h
    simp only [Except.ok.injEq, Prod.mk.injEq] at h2
    obtain ⟨rfl, -⟩ := h2
    obtain ⟨vs, hvs⟩ := many_sound hc hL h1
    exact ⟨_, us, vs, hu, hvs, rfl⟩
  refl := by
    rintro hS u b v ⟨us, vs, hu, hm, rfl⟩
    exact ⟨vs, vs, rfl, many_refl hc hS hm, rfl⟩
  inv := by
    intro hS L ctx s v rest h
    simp only [greedyRange, bind_ok] at h
    obtain ⟨⟨vs, r⟩, h1, h2⟩ := h
    simp only [Except.ok.injEq, Prod.mk.injEq] at h2
    obtain ⟨rfl, rfl⟩ := h2
    obtain ⟨b, hb⟩ := greedy_inv hc hS _ h1
    exact ⟨b, vs, vs, rfl, hb, rfl⟩
  exact := by
    intro hX L ctx s v rest h
    simp only [greedyRange, bind_ok] at h
    obtain ⟨⟨vs, r⟩, h1, h2⟩ := h
    simp only [Except.ok.injEq, Prod.mk.injEq] at h2
    obtain ⟨rfl, rfl⟩ := h2
    obtain ⟨b, hs, hb⟩ := greedy_exact hc hX _ h1
    exact ⟨b, hs, vs, vs, rfl, hb, rfl⟩
  nodiv := by
    intro L ctx s h
    simp only [greedyRange, bind_err] at h
    rcases h with h | ⟨_, _, h⟩
    · exact greedy_nodiv hc.nodiv hmin _ _ (Nat.le_refl _) h
    · simp at h

end

/-! ### Minimum consumption -/

theorem minLen_fixed {α} {c : Con α} (n : Nat) (f : Lib → List α → R Val)
    (hp : ∀ L ctx s, c.parse L ctx s = (do let (b, rest) ← takeN n s; let v ← f L b; .ok (v, rest))) : MinLen c n := by
  intro L ctx s v rest h
  rw [hp] at h
  simp only [bind_ok] at h
  obtain ⟨⟨b, r⟩, h1, v', h2, h3⟩ := h
  simp only [Except.ok.injEq, Prod.mk.injEq] at h3
  obtain ⟨rfl, rfl⟩ := h3
  obtain ⟨rfl, hl⟩ := takeN_ok h1
  rw [List.length_append]; omega

theorem minLen_uint (n) : MinLen (uintLE n) n := minLen_fixed n (fun _ b => .ok (.int (leNat b))) (fun _ _ _ => rfl)
theorem minLen_sint (n) : MinLen (sintLE n) n :=
  minLen_fixed n (fun _ b => .ok (.int (toSigned (256 ^ n) (leNat b)))) (fun _ _ _ => rfl)
theorem minLen_bytesInt (n) : MinLen (bytesIntLE n) n := minLen_fixed n (fun _ b => .ok (.int (leNat b))) (fun _ _ _ => rfl)
theorem minLen_ubits (n) : MinLen (ubits n) n := minLen_fixed n (fun _ b => .ok (.int (bitsNat b))) (fun _ _ _ => rfl)
theorem minLen_bytesN (n) : MinLen (bytesN n) n := minLen_fixed n (fun _ b => .ok (.bytes b)) (fun _ _ _ => rfl)
theorem minLen_flag : MinLen flag 1 := minLen_fixed 1 (fun _ b => .ok (.bool (b != [0]))) (fun _ _ _ => rfl)

theorem minLen_zero {α} {c : Con α} (h : ∀ {L ctx s v rest}, c.parse L ctx s = .ok (v, rest) → rest.length ≤ s.length) : MinLen c 0 :=
  fun _ _ _ _ _ hp => by have := h hp; omega

theorem MinLen.le {α} {c : Con α} {m m' : Nat} (h : MinLen c m) (hm : m' ≤ m) : MinLen c m' :=
  fun _ _ _ _ _ hp => by have := h hp; omega

theorem minLen_adapter {α} {c : Con α} {d en m} (h : MinLen c m) : MinLen (adapter c d en) m := by
  intro L ctx s v rest hp
  simp only [adapter, bind_ok] at hp
  obtain ⟨⟨v', r⟩, h1, v'', h2, h3⟩ := hp
  simp only [Except.ok.injEq, Prod.mk.injEq] at h3
  obtain ⟨rfl, rfl⟩ := h3
  exact h h1

theorem minLen_validator {α} {c : Con α} {p m} (h : MinLen c m) : MinLen (validator c p) m := by
  unfold validator; exact minLen_adapter h
theorem minLen_enum {α} {c : Con α} {E m} (h : MinLen c m) : MinLen (enumAdapter c E) m := by
  unfold enumAdapter; exact minLen_adapter h

theorem minLen_bitwise (n c) : MinLen (bitwise n c) n := by
  intro L ctx s v rest h
  simp only [bitwise, bind_ok] at h
  obtain ⟨⟨b, r⟩, h1, ⟨v', r'⟩, h2, h3⟩ := h
  simp only [Except.ok.injEq, Prod.mk.injEq] at h3
  obtain ⟨rfl, rfl⟩ := h3
  obtain ⟨rfl, hl⟩ := takeN_ok h1
  rw [List.length_append]; omega

theorem minLen_reversed {α} (n) (c : Con α) : MinLen (reversed n c) n := by
  intro L ctx s v rest h
  simp only [reversed, bind_ok] at h
  obtain ⟨⟨b, r⟩, h1, ⟨v', r'⟩, h2, h3⟩ := h
  simp only [Except.ok.injEq, Prod.mk.injEq] at h3
  obtain ⟨rfl, rfl⟩ := h3
  obtain ⟨rfl, hl⟩ := takeN_ok h1
  rw [List.length_append]; omega

def MinLenI {α} (it : Item α) (m : Nat) : Prop :=
  ∀ ⦃L acc s acc' rest⦄, it.parse L acc s = .ok (acc', rest) → rest.length + m ≤ s.length

theorem minLenI_field {α} {k} {c : Con α} {m} (h : MinLen c m) : MinLenI (field k c) m := by
  intro L acc s acc' rest hp
  simp only [field, bind_ok] at hp
  obtain ⟨⟨v, r⟩, h1, h2⟩ := hp
  simp only [Except.ok.injEq, Prod.mk.injEq] at h2
  obtain ⟨rfl, rfl⟩ := h2
  exact h h1

theorem minLenI_bitGroup (name n le its) : MinLenI (embeddedBitStruct name n le its) n := by
  intro L acc s acc' rest hp
  have hm : MinLen (if le then reversed n (bitwise n (struct its)) else bitwise n (struct its)) n := by
    cases le
    · exact minLen_bitwise _ _
    · exact minLen_reversed _ _
  simp only [embeddedBitStruct, bind_ok] at hp
  obtain ⟨⟨v, r⟩, h1, h2⟩ := hp
  have := hm h1
  cases v <;> simp at h2
  obtain ⟨-, rfl⟩ := h2
  exact this

inductive MinLenIs {α} : List (Item α) → Nat → Prop
  | nil : MinLenIs [] 0
  | cons {it its m m'} : MinLenI it m → MinLenIs its m' → MinLenIs (it :: its) (m + m')

theorem minLen_items {α} {its : List (Item α)} {m} (h : MinLenIs its m) :
    ∀ {L acc s acc' rest}, parseItems L its acc s = .ok (acc', rest) → rest.length + m ≤ s.length := by
  induction h with
  | nil => intro L acc s acc' rest hp; simp [parseItems] at hp; simp [hp.2]
  | cons h1 _ ih =>
    intro L acc s acc' rest hp
    simp only [parseItems, bind_ok] at hp
    obtain ⟨⟨a1, s1⟩, h2, h3⟩ := hp
    have := h1 h2
    have := ih h3
    simp only at this
    omega

theorem minLenI_embedded {α} {its : List (Item α)} {m} (h : MinLenIs its m) : MinLenI (embedded its) m := by
  intro L acc s acc' rest hp
  simp only [embedded, bind_ok] at hp
  obtain ⟨⟨d, r⟩, h1, h2⟩ := hp
  simp only [Except.ok.injEq, Prod.mk.injEq] at h2
  obtain ⟨rfl, rfl⟩ := h2
  exact minLen_items h h1

theorem minLen_struct {α} {its : List (Item α)} {m} (h : MinLenIs its m) : MinLen (struct its) m := by
  intro L ctx s v rest hp
  simp only [struct, bind_ok] at hp
  obtain ⟨⟨d, r⟩, h1, h2⟩ := hp
  simp only [Except.ok.injEq, Prod.mk.injEq] at h2
  obtain ⟨rfl, rfl⟩ := h2
  exact minLen_items h h1

theorem LenEq.ge {α} {G : Fmt α} {m m'} (h : LenEq G m) (hm : m' ≤ m) : LenGe G m' := fun _ _ _ hg => by rw [h hg]; exact hm
theorem LenEq.le {α} {G : Fmt α} {m m'} (h : LenEq G m) (hm : m ≤ m') : LenLe G m' := fun _ _ _ hg => by rw [h hg]; exact hm

/-! ### Named alternatives -/
section
variable {M : Mode} {e : Bool}

/-- Only dictionaries with key `k` can be written in the format. -/
def Requires {α} (G : Fmt α) (k : String) : Prop :=
  ∀ ⦃u b v⦄, G u b v → ∃ d, asDict u = .ok d ∧ k ∈ dkeys d

/-- Values of a record format carry exactly the given keys. -/
def Reports {α} (G : Fmt α) (ks : List String) : Prop :=
  ∀ ⦃u b v⦄, G u b v → ∃ d, v = .dict d ∧ dkeys d = ks

theorem meets_named {α} {name : String} {c : Con α} {G : Fmt α} (hc : Meets M e c G) {ks : List String}
    (hk : Reports G ks)
    (hnot : "_name" ∉ ks) (hname : name ∉ ks) (hne : name ≠ "_name")
    (hloc : ∀ {d b v}, G (.dict d) b v → G (.dict (d ++ [("_name", .str name)])) b v) :
    Meets M e (nameAdapter name c) (F.named name G) := by
  have hset : ∀ d : Dict, dkeys d = ks → dset d "_name" (.str name) = d ++ [("_name", .str name)] := by
    intro d hd; exact dset_of_not_mem _ _ _ (by rw [hd]; exact hnot)
  have hself : ∀ {b} {dv : Dict}, dkeys dv = ks → G (.dict dv) b (.dict dv) →
      F.named name G (.dict (dv ++ [("_name", .str name)])) b (.dict (dv ++ [("_name", .str name)])) := by
    intro b dv hd hg
    refine ⟨_, dv, rfl, ?_, rfl⟩
    have h0 : dget (dv ++ [("_name", .str name)]) name = none := by
      rw [dget_append_right (by rw [hd]; exact hname)]
      simp [dget, Ne.symm hne]
    rw [h0]
    exact hloc hg
  exact {
    enc := by
      rintro u b v ⟨d, dv, rfl, hg, rfl⟩ L ctx hT
      obtain ⟨r, hr⟩ := hc.enc hg L ctx hT
      exact ⟨_, by simp [nameAdapter, hr]; rfl⟩
    dec := by
      rintro u b v ⟨d, dv, rfl, hg, rfl⟩ L ctx rest he
      obtain ⟨d', hd', hks⟩ := hk hg
      cases hd'
      simp [nameAdapter, hc.dec hg L ctx rest he, hset _ hks]
    sound := by
      intro L ctx u b r hL h
      cases u <;> simp only [nameAdapter, bind_ok, reduceCtorEq] at h
      obtain ⟨⟨b', r'⟩, h1, h2⟩ := h
      simp only [Except.ok.injEq, Prod.mk.injEq] at h2
      obtain ⟨rfl, -⟩ := h2
      obtain ⟨v, hv⟩ := hc.sound hL h1
      obtain ⟨dv, rfl, -⟩ := hk hv
      exact ⟨_, _, dv, rfl, hv, rfl⟩
    refl := by
      rintro hS u b v ⟨d, dv, rfl, hg, rfl⟩
      obtain ⟨d', hd', hks⟩ := hk hg
      cases hd'
      exact hself hks (hc.refl hS hg)
    inv := by
      intro hS L ctx s v rest h
      simp only [nameAdapter, bind_ok] at h
      obtain ⟨⟨v', r'⟩, h1, h2⟩ := h
      obtain ⟨b, hb⟩ := hc.inv hS h1
      obtain ⟨dv, rfl, hks⟩ := hk hb
      simp only [Except.ok.injEq, Prod.mk.injEq] at h2
      obtain ⟨rfl, rfl⟩ := h2
      rw [hset _ hks]
      exact ⟨b, hself hks hb⟩
    exact := by
      intro hX L ctx s v rest h
      simp only [nameAdapter, bind_ok] at h
      obtain ⟨⟨v', r'⟩, h1, h2⟩ := h
      obtain ⟨b, hs, hb⟩ := hc.exact hX h1
      obtain ⟨dv, rfl, hks⟩ := hk hb
      simp only [Except.ok.injEq, Prod.mk.injEq] at h2
      obtain ⟨rfl, rfl⟩ := h2
      rw [hset _ hks]
      exact ⟨b, hs, hself hks hb⟩
    nodiv := by
      intro L ctx s h
      simp only [nameAdapter, bind_err] at h
      rcases h with h | ⟨⟨v, r⟩, _, h⟩
      · exact hc.nodiv _ _ _ h
      · cases v <;> simp at h }

end
end BM
