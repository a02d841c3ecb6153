import Verif.Spec
/-!
# Constructs meet formats

`Meets M e c G`: the construct `c` implements the format `G`.
* `enc`, `dec`: everything `G` allows is built to the prescribed bytes and parsed to the prescribed value, whatever follows
  (`e = true`: only at the end of the input).
* `sound`: nothing else is built (when the library rejects overflowing bit/byte integers).
* `refl`, `inv` (claimed when `S`): parsed values are themselves encodable, with themselves as meaning.
* `exact` (claimed when `X`): parsing consumes exactly the encoding of the value returned.
* `nodiv`: parsing never runs forever.
-/
namespace BM
open F

theorem bind_ok {α β : Type} {x : R α} {f : α → R β} {y : β} :
    (x >>= f) = .ok y ↔ ∃ a, x = .ok a ∧ f a = .ok y := by
  cases x <;> simp [bind, Except.bind]

theorem bind_err {α β : Type} {x : R α} {f : α → R β} {e : Err} :
    (x >>= f) = .error e ↔ x = .error e ∨ ∃ a, x = .ok a ∧ f a = .error e := by
  cases x <;> simp [bind, Except.bind]

@[simp] theorem ok_bind {α β : Type} (a : α) (f : α → R β) : ((Except.ok a : R α) >>= f) = f a := rfl
@[simp] theorem error_bind {α β : Type} (e : Err) (f : α → R β) : ((Except.error e : R α) >>= f) = .error e := rfl

theorem takeN_append {α} {n : Nat} {b rest : List α} (h : b.length = n) : takeN n (b ++ rest) = .ok (b, rest) := by
  subst h; simp [takeN]

theorem takeN_ok {α} {n : Nat} {s b rest : List α} (h : takeN n s = .ok (b, rest)) : s = b ++ rest ∧ b.length = n := by
  unfold takeN at h
  split at h
  · simp only [Except.ok.injEq, Prod.mk.injEq] at h
    obtain ⟨rfl, rfl⟩ := h
    refine ⟨(List.take_append_drop n s).symm, ?_⟩
    rw [List.length_take]; omega
  · simp at h

theorem takeN_err {α} {n : Nat} {s : List α} {e : Err} (h : takeN n s = .error e) : e = .stream ∧ s.length < n := by
  unfold takeN at h
  split at h
  · simp at h
  · simp at h; exact ⟨h.symm, by omega⟩

theorem takeN_short {α} {n : Nat} {s : List α} (h : s.length < n) : takeN n s = .error .stream := by
  unfold takeN; rw [if_neg (by omega)]

/-- Which guarantees are claimed.  `T`: encoding is only claimed for strict libraries; `U`: soundness is only claimed for
strict libraries; `S`: parsed values re-encode; `X`: parsing and building are mutually inverse on bytes. -/
structure Mode where
  T : Prop
  U : Prop
  S : Prop
  X : Prop

structure Meets {α : Type} (M : Mode) (e : Bool) (c : Con α) (G : Fmt α) : Prop where
  enc : ∀ {u b v}, G u b v → ∀ L ctx, (M.T → L.Strict) → ∃ r, c.build L ctx u = .ok (b, r)
  dec : ∀ {u b v}, G u b v → ∀ L ctx rest, (e = true → rest = []) → c.parse L ctx (b ++ rest) = .ok (v, rest)
  sound : ∀ {L ctx u b r}, (M.U → L.Strict) → c.build L ctx u = .ok (b, r) → ∃ v, G u b v
  refl : M.S → ∀ {u b v}, G u b v → G v b v
  inv : M.S → ∀ {L ctx s v rest}, c.parse L ctx s = .ok (v, rest) → ∃ b, G v b v
  exact : M.X → ∀ {L ctx s v rest}, c.parse L ctx s = .ok (v, rest) → ∃ b, s = b ++ rest ∧ G v b v
  nodiv : ∀ L ctx s, c.parse L ctx s ≠ .error .diverge

theorem Meets.end {α M e} {c : Con α} {G : Fmt α} (h : Meets M false c G) : Meets M e c G :=
  { h with dec := fun hg L ctx rest _ => h.dec hg L ctx rest (by simp) }

theorem Meets.weaken {α e} {M M' : Mode} {c : Con α} {G : Fmt α} (h : Meets M e c G) (ht : M.T → M'.T) (hu : M.U → M'.U)
    (hs : M'.S → M.S) (hx : M'.X → M.X) : Meets M' e c G :=
  { h with
    enc := fun hg L ctx hL => h.enc hg L ctx (fun t => hL (ht t))
    sound := fun hL => h.sound (fun t => hL (hu t))
    refl := fun s => h.refl (hs s), inv := fun s => h.inv (hs s), exact := fun x => h.exact (hx x) }

/-- `Meets`, except that objects satisfying `odd` may be built although the format does not contain them. -/
structure MeetsBut {α : Type} (odd : Val → Prop) (M : Mode) (e : Bool) (c : Con α) (G : Fmt α) : Prop where
  enc : ∀ {u b v}, G u b v → ∀ L ctx, (M.T → L.Strict) → ∃ r, c.build L ctx u = .ok (b, r)
  dec : ∀ {u b v}, G u b v → ∀ L ctx rest, (e = true → rest = []) → c.parse L ctx (b ++ rest) = .ok (v, rest)
  sound : ∀ {L ctx u b r}, (M.U → L.Strict) → ¬ odd u → c.build L ctx u = .ok (b, r) → ∃ v, G u b v
  refl : M.S → ∀ {u b v}, G u b v → G v b v
  inv : M.S → ∀ {L ctx s v rest}, c.parse L ctx s = .ok (v, rest) → ∃ b, G v b v
  exact : M.X → ∀ {L ctx s v rest}, c.parse L ctx s = .ok (v, rest) → ∃ b, s = b ++ rest ∧ G v b v
  nodiv : ∀ L ctx s, c.parse L ctx s ≠ .error .diverge

theorem Meets.but {α odd M e} {c : Con α} {G : Fmt α} (h : Meets M e c G) : MeetsBut odd M e c G :=
  { h with sound := fun hL _ => h.sound hL }

theorem MeetsBut.end {α odd M e} {c : Con α} {G : Fmt α} (h : MeetsBut odd M false c G) : MeetsBut odd M e c G :=
  { h with dec := fun hg L ctx rest _ => h.dec hg L ctx rest (by simp) }

theorem MeetsBut.weaken {α e odd} {M M' : Mode} {c : Con α} {G : Fmt α} (h : MeetsBut odd M e c G) (ht : M.T → M'.T) (hu : M.U → M'.U)
    (hs : M'.S → M.S) (hx : M'.X → M.X) : MeetsBut odd M' e c G :=
  { h with
    enc := fun hg L ctx hL => h.enc hg L ctx (fun t => hL (ht t))
    sound := fun hL => h.sound (fun t => hL (hu t))
    refl := fun s => h.refl (hs s), inv := fun s => h.inv (hs s), exact := fun x => h.exact (hx x) }

theorem MeetsBut.mono {α e} {odd odd' : Val → Prop} {M : Mode} {c : Con α} {G : Fmt α} (h : MeetsBut odd M e c G)
    (ho : ∀ u, odd u → odd' u) : MeetsBut odd' M e c G :=
  { h with sound := fun hL hn => h.sound hL (fun x => hn (ho _ x)) }

/-! ### Leaves -/

/-- A construct that reads a block of exactly `n` elements and interprets it with `f`. -/
theorem meets_fixed {α} {M : Mode} {e : Bool} {c : Con α} {G : Fmt α} (n : Nat) (f : Lib → List α → R Val)
    (hp : ∀ L ctx s, c.parse L ctx s = (do let (b, rest) ← takeN n s; let v ← f L b; .ok (v, rest)))
    (hlen : ∀ {u b v}, G u b v → b.length = n)
    (henc : ∀ {u b v}, G u b v → ∀ L ctx, (M.T → L.Strict) → ∃ r, c.build L ctx u = .ok (b, r))
    (hdec : ∀ {u b v}, G u b v → ∀ L, f L b = .ok v)
    (hsound : ∀ {L ctx u b r}, (M.U → L.Strict) → c.build L ctx u = .ok (b, r) → ∃ v, G u b v)
    (hrefl : M.S → ∀ {u b v}, G u b v → G v b v)
    (hinv : M.S → ∀ {L b v}, b.length = n → f L b = .ok v → ∃ b', G v b' v)
    (hexact : M.X → ∀ {L b v}, b.length = n → f L b = .ok v → G v b v)
    (hnd : ∀ L b, b.length = n → f L b ≠ .error .diverge) : Meets M e c G where
  enc := henc
  dec := by
    intro u b v h L ctx rest _
    rw [hp, takeN_append (hlen h)]
    simp [hdec h]
  sound := hsound
  refl := hrefl
  inv := by
    intro hS L ctx s v rest h
    rw [hp] at h
    simp only [bind_ok] at h
    obtain ⟨⟨b, r⟩, h1, v', h2, h3⟩ := h
    simp only [Except.ok.injEq, Prod.mk.injEq] at h3
    obtain ⟨rfl, rfl⟩ := h3
    exact hinv hS (takeN_ok h1).2 h2
  exact := by
    intro hX L ctx s v rest h
    rw [hp] at h
    simp only [bind_ok] at h
    obtain ⟨⟨b, r⟩, h1, v', h2, h3⟩ := h
    simp only [Except.ok.injEq, Prod.mk.injEq] at h3
    obtain ⟨rfl, rfl⟩ := h3
    exact ⟨b, (takeN_ok h1).1, hexact hX (takeN_ok h1).2 h2⟩
  nodiv := by
    intro L ctx s h
    rw [hp] at h
    simp only [bind_err] at h
    rcases h with h | ⟨⟨b, r⟩, h1, h | ⟨_, _, h⟩⟩
    · have := (takeN_err h).1; simp at this
    · exact hnd _ _ (takeN_ok h1).2 h
    · simp at h

section leaves
variable {M : Mode} {e : Bool}

theorem build_uint {L ctx u b r n} (h : (uintLE n).build L ctx u = .ok (b, r)) :
    ∃ k : Nat, asInt u = some (k : Int) ∧ b = leBytes n k ∧ k < 256 ^ n ∧ r = u := by
  simp only [uintLE] at h
  split at h
  · rename_i k hk
    split at h
    · rename_i hr
      simp only [Except.ok.injEq, Prod.mk.injEq] at h
      obtain ⟨rfl, rfl⟩ := h
      exact ⟨k.toNat, by rw [hk]; congr 1; omega, rfl, hr.2, rfl⟩
    · simp at h
  · simp at h

theorem uint_build {n : Nat} {u : Val} {b : List UInt8} {k : Nat} (hu : asInt u = some (k : Int)) (hl : b.length = n)
    (hb : leNat b = k) (L ctx) : (uintLE n).build L ctx u = .ok (b, u) := by
  have hlt := leNat_lt b
  rw [hl, hb] at hlt
  simp [uintLE, hu, hlt]
  rw [← hb, ← hl, leBytes_leNat]

theorem meets_uint (n : Nat) : Meets M e (uintLE n) (F.uint n) := by
  refine meets_fixed n (fun _ b => .ok (.int (leNat b))) (fun _ _ _ => rfl) ?_ ?_ ?_ ?_ ?_ ?_ ?_ ?_
  · rintro u b v ⟨k, hu, -, hl, hb, rfl⟩; exact hl
  · rintro u b v ⟨k, hu, -, hl, hb, rfl⟩ L ctx hT; exact ⟨u, uint_build hu hl hb L ctx⟩
  · rintro u b v ⟨k, hu, -, hl, hb, rfl⟩ L; simp [hb]
  · intro L ctx u b r _ h
    obtain ⟨k, hu, rfl, hk, -⟩ := build_uint h
    exact ⟨_, k, hu, trivial, leBytes_length _ _, leNat_leBytes _ _ hk, rfl⟩
  · rintro _ u b v ⟨k, hu, -, hl, hb, rfl⟩; exact ⟨k, rfl, trivial, hl, hb, rfl⟩
  · rintro _ L b v hl h; cases h; exact ⟨b, leNat b, rfl, trivial, hl, rfl, rfl⟩
  · rintro _ L b v hl h; cases h; exact ⟨leNat b, rfl, trivial, hl, rfl, rfl⟩
  · simp

theorem meets_bytesInt (n : Nat) (hU : M.U) : Meets M e (bytesIntLE n) (F.uint n) := by
  refine meets_fixed n (fun _ b => .ok (.int (leNat b))) (fun _ _ _ => rfl) ?_ ?_ ?_ ?_ ?_ ?_ ?_ ?_
  · rintro u b v ⟨k, hu, -, hl, hb, rfl⟩; exact hl
  · rintro u b v ⟨k, hu, -, hl, hb, rfl⟩ L ctx hT
    refine ⟨u, ?_⟩
    have hlt := leNat_lt b
    rw [hl, hb] at hlt
    simp [bytesIntLE, hu, hlt]
    rw [← hb, ← hl, leBytes_leNat]
  · rintro u b v ⟨k, hu, -, hl, hb, rfl⟩ L; simp [hb]
  · intro L ctx u b r hL h
    simp only [bytesIntLE] at h
    split at h
    · rename_i k hk
      split at h
      · rename_i hr
        simp only [Except.ok.injEq, Prod.mk.injEq] at h
        obtain ⟨rfl, rfl⟩ := h
        exact ⟨_, k.toNat, by rw [hk]; congr 1; omega, trivial, leBytes_length _ _, leNat_leBytes _ _ hr.2, rfl⟩
      · obtain ⟨er, he⟩ := (hL hU).bytes n false k
        rw [he] at h; simp at h
    · simp at h
  · rintro _ u b v ⟨k, hu, -, hl, hb, rfl⟩; exact ⟨k, rfl, trivial, hl, hb, rfl⟩
  · rintro _ L b v hl h; cases h; exact ⟨b, leNat b, rfl, trivial, hl, rfl, rfl⟩
  · rintro _ L b v hl h; cases h; exact ⟨leNat b, rfl, trivial, hl, rfl, rfl⟩
  · simp

theorem meets_bytesIntBE (n : Nat) (hU : M.U) : Meets M e (bytesIntBE n) (F.uintBE n) := by
  refine meets_fixed n (fun _ b => .ok (.int (leNat b.reverse))) (fun _ _ _ => rfl) ?_ ?_ ?_ ?_ ?_ ?_ ?_ ?_
  · rintro u b v ⟨k, hu, hl, hb, rfl⟩; exact hl
  · rintro u b v ⟨k, hu, hl, hb, rfl⟩ L ctx hT
    refine ⟨u, ?_⟩
    have hlt := leNat_lt b.reverse
    rw [List.length_reverse, hl, hb] at hlt
    simp [bytesIntBE, hu, hlt]
    rw [← hb, ← hl, ← List.length_reverse, leBytes_leNat, List.reverse_reverse]
  · rintro u b v ⟨k, hu, hl, hb, rfl⟩ L; simp [hb]
  · intro L ctx u b r hL h
    simp only [bytesIntBE] at h
    split at h
    · rename_i k hk
      split at h
      · rename_i hr
        simp only [Except.ok.injEq, Prod.mk.injEq] at h
        obtain ⟨rfl, rfl⟩ := h
        exact ⟨_, k.toNat, by rw [hk]; congr 1; omega, by simp [leBytes_length],
          by rw [List.reverse_reverse]; exact leNat_leBytes _ _ hr.2, rfl⟩
      · obtain ⟨er, he⟩ := (hL hU).bytes n false k
        rw [he] at h; simp at h
    · simp at h
  · rintro _ u b v ⟨k, hu, hl, hb, rfl⟩; exact ⟨k, rfl, hl, hb, rfl⟩
  · rintro _ L b v hl h; cases h; exact ⟨b, leNat b.reverse, rfl, hl, rfl, rfl⟩
  · rintro _ L b v hl h; cases h; exact ⟨leNat b.reverse, rfl, hl, rfl, rfl⟩
  · simp

theorem even_pow {m n : Nat} (hm : m % 2 = 0) (hn : 0 < n) : (m ^ n) % 2 = 0 := by
  obtain ⟨k, rfl⟩ : ∃ k, n = k + 1 := ⟨n - 1, by omega⟩
  rw [Nat.pow_succ, Nat.mul_mod, hm]; simp

theorem sint_range {n : Nat} (hn : 0 < n) {b : List UInt8} (hl : b.length = n) :
    -((256 ^ n : Nat) : Int) ≤ 2 * toSigned (256 ^ n) (leNat b) ∧ 2 * toSigned (256 ^ n) (leNat b) < (256 ^ n : Nat) := by
  have hlt := leNat_lt b
  rw [hl] at hlt
  exact toSigned_range (even_pow (by decide) hn) hlt

theorem meets_sint (n : Nat) (hn : 0 < n) : Meets M e (sintLE n) (F.sint n) := by
  refine meets_fixed n (fun _ b => .ok (.int (toSigned (256 ^ n) (leNat b)))) (fun _ _ _ => rfl) ?_ ?_ ?_ ?_ ?_ ?_ ?_ ?_
  · rintro u b v ⟨k, hu, hl, hb, rfl⟩; exact hl
  · rintro u b v ⟨k, hu, hl, rfl, rfl⟩ L ctx hT
    refine ⟨u, ?_⟩
    have hlt := leNat_lt b
    rw [hl] at hlt
    simp only [sintLE, hu, sint_range hn hl, and_self, if_true]
    rw [ofSigned_toSigned hlt, ← hl, leBytes_leNat]
  · rintro u b v ⟨k, hu, hl, hb, rfl⟩ L; simp [hb]
  · intro L ctx u b r hL h
    simp only [sintLE] at h
    split at h
    · rename_i k hk
      split at h
      · rename_i hr
        simp only [Except.ok.injEq, Prod.mk.injEq] at h
        obtain ⟨rfl, rfl⟩ := h
        refine ⟨_, k, hk, leBytes_length _ _, ?_, rfl⟩
        rw [leNat_leBytes _ _ (ofSigned_lt hr.1 hr.2), toSigned_ofSigned hr.1 hr.2]
      · simp at h
    · simp at h
  · rintro _ u b v ⟨k, hu, hl, hb, rfl⟩; exact ⟨k, rfl, hl, hb, rfl⟩
  · rintro _ L b v hl h; cases h; exact ⟨b, _, rfl, hl, rfl, rfl⟩
  · rintro _ L b v hl h; cases h; exact ⟨_, rfl, hl, rfl, rfl⟩
  · simp

theorem meets_bytesSInt (n : Nat) (hn : 0 < n) (hU : M.U) : Meets M e (bytesSIntLE n) (F.sint n) := by
  refine meets_fixed n (fun _ b => .ok (.int (toSigned (256 ^ n) (leNat b)))) (fun _ _ _ => rfl) ?_ ?_ ?_ ?_ ?_ ?_ ?_ ?_
  · rintro u b v ⟨k, hu, hl, hb, rfl⟩; exact hl
  · rintro u b v ⟨k, hu, hl, rfl, rfl⟩ L ctx hT
    refine ⟨u, ?_⟩
    have hlt := leNat_lt b
    rw [hl] at hlt
    simp only [bytesSIntLE, hu, sint_range hn hl, and_self, if_true]
    rw [ofSigned_toSigned hlt, ← hl, leBytes_leNat]
  · rintro u b v ⟨k, hu, hl, hb, rfl⟩ L; simp [hb]
  · intro L ctx u b r hL h
    simp only [bytesSIntLE] at h
    split at h
    · rename_i k hk
      split at h
      · rename_i hr
        simp only [Except.ok.injEq, Prod.mk.injEq] at h
        obtain ⟨rfl, rfl⟩ := h
        refine ⟨_, k, hk, leBytes_length _ _, ?_, rfl⟩
        rw [leNat_leBytes _ _ (ofSigned_lt hr.1 hr.2), toSigned_ofSigned hr.1 hr.2]
      · obtain ⟨er, he⟩ := (hL hU).bytes n true k
        rw [he] at h; simp at h
    · simp at h
  · rintro _ u b v ⟨k, hu, hl, hb, rfl⟩; exact ⟨k, rfl, hl, hb, rfl⟩
  · rintro _ L b v hl h; cases h; exact ⟨b, _, rfl, hl, rfl, rfl⟩
  · rintro _ L b v hl h; cases h; exact ⟨_, rfl, hl, rfl, rfl⟩
  · simp

theorem meets_ubits (n : Nat) (hU : M.U) : Meets M e (ubits n) (F.bitsU n) := by
  refine meets_fixed n (fun _ b => .ok (.int (bitsNat b))) (fun _ _ _ => rfl) ?_ ?_ ?_ ?_ ?_ ?_ ?_ ?_
  · rintro u b v ⟨k, hu, hl, hb, rfl⟩; exact hl
  · rintro u b v ⟨k, hu, hl, hb, rfl⟩ L ctx hT
    refine ⟨u, ?_⟩
    have hlt := bitsNat_lt b
    rw [hl, hb] at hlt
    simp [ubits, hu, hlt]
    rw [← hb, ← hl, natBits_bitsNat]
  · rintro u b v ⟨k, hu, hl, hb, rfl⟩ L; simp [hb]
  · intro L ctx u b r hL h
    simp only [ubits] at h
    split at h
    · rename_i k hk
      split at h
      · rename_i hr
        simp only [Except.ok.injEq, Prod.mk.injEq] at h
        obtain ⟨rfl, rfl⟩ := h
        exact ⟨_, k.toNat, by rw [hk]; congr 1; omega, natBits_length _ _, bitsNat_natBits _ _ hr.2, rfl⟩
      · obtain ⟨er, he⟩ := (hL hU).bits n false k
        rw [he] at h; simp at h
    · simp at h
  · rintro _ u b v ⟨k, hu, hl, hb, rfl⟩; exact ⟨k, rfl, hl, hb, rfl⟩
  · rintro _ L b v hl h; cases h; exact ⟨b, bitsNat b, rfl, hl, rfl, rfl⟩
  · rintro _ L b v hl h; cases h; exact ⟨bitsNat b, rfl, hl, rfl, rfl⟩
  · simp

theorem sbits_range {n : Nat} (hn : 0 < n) {b : List Bool} (hl : b.length = n) :
    -((2 ^ n : Nat) : Int) ≤ 2 * toSigned (2 ^ n) (bitsNat b) ∧ 2 * toSigned (2 ^ n) (bitsNat b) < (2 ^ n : Nat) := by
  have hlt := bitsNat_lt b
  rw [hl] at hlt
  exact toSigned_range (even_pow (by decide) hn) hlt

theorem meets_sbits (n : Nat) (hn : 0 < n) (hU : M.U) : Meets M e (sbits n) (F.bitsS n) := by
  refine meets_fixed n (fun _ b => .ok (.int (toSigned (2 ^ n) (bitsNat b)))) (fun _ _ _ => rfl) ?_ ?_ ?_ ?_ ?_ ?_ ?_ ?_
  · rintro u b v ⟨k, hu, hl, hb, rfl⟩; exact hl
  · rintro u b v ⟨k, hu, hl, rfl, rfl⟩ L ctx hT
    refine ⟨u, ?_⟩
    have hlt := bitsNat_lt b
    rw [hl] at hlt
    simp only [sbits, hu, sbits_range hn hl, and_self, if_true]
    rw [ofSigned_toSigned hlt, ← hl, natBits_bitsNat]
  · rintro u b v ⟨k, hu, hl, hb, rfl⟩ L; simp [hb]
  · intro L ctx u b r hL h
    simp only [sbits] at h
    split at h
    · rename_i k hk
      split at h
      · rename_i hr
        simp only [Except.ok.injEq, Prod.mk.injEq] at h
        obtain ⟨rfl, rfl⟩ := h
        refine ⟨_, k, hk, natBits_length _ _, ?_, rfl⟩
        rw [bitsNat_natBits _ _ (ofSigned_lt hr.1 hr.2), toSigned_ofSigned hr.1 hr.2]
      · obtain ⟨er, he⟩ := (hL hU).bits n true k
        rw [he] at h; simp at h
    · simp at h
  · rintro _ u b v ⟨k, hu, hl, hb, rfl⟩; exact ⟨k, rfl, hl, hb, rfl⟩
  · rintro _ L b v hl h; cases h; exact ⟨b, _, rfl, hl, rfl, rfl⟩
  · rintro _ L b v hl h; cases h; exact ⟨_, rfl, hl, rfl, rfl⟩
  · simp

theorem meets_flagBit : Meets M e flagBit F.bit := by
  have key : ∀ b : List Bool, b.length = 1 → b = [b != [false]] := by
    intro b hl
    match b, hl with
    | [x], _ => cases x <;> rfl
  refine meets_fixed 1 (fun _ b => .ok (.bool (b != [false]))) (fun _ _ _ => rfl) ?_ ?_ ?_ ?_ ?_ ?_ ?_ ?_
  · rintro u b v ⟨rfl, rfl⟩; rfl
  · rintro u b v ⟨rfl, rfl⟩ L ctx hT; exact ⟨u, rfl⟩
  · rintro u b v ⟨rfl, rfl⟩ L; cases truthy u <;> rfl
  · intro L ctx u b r hL h
    cases h
    exact ⟨_, rfl, rfl⟩
  · rintro _ u b v ⟨rfl, rfl⟩; exact ⟨rfl, rfl⟩
  · rintro _ L b v hl h; cases h; exact ⟨_, rfl, rfl⟩
  · rintro _ L b v hl h; cases h; exact ⟨key b hl, rfl⟩
  · simp

/-- `Flag` on bytes reads every non-zero byte as true, so it is stable but not exact. -/
theorem meets_flag (hX : ¬ M.X) : Meets M e flag F.byteFlag := by
  refine meets_fixed 1 (fun _ b => .ok (.bool (b != [0]))) (fun _ _ _ => rfl) ?_ ?_ ?_ ?_ ?_ ?_ ?_ ?_
  · rintro u b v ⟨rfl, rfl⟩; rfl
  · rintro u b v ⟨rfl, rfl⟩ L ctx hT; exact ⟨u, rfl⟩
  · rintro u b v ⟨rfl, rfl⟩ L; cases truthy u <;> rfl
  · intro L ctx u b r hL h
    cases h
    exact ⟨_, rfl, rfl⟩
  · rintro _ u b v ⟨rfl, rfl⟩; exact ⟨rfl, rfl⟩
  · rintro _ L b v hl h; cases h; exact ⟨_, rfl, rfl⟩
  · intro h; exact absurd h hX
  · simp

theorem meets_bytesN (n : Nat) (hU : M.U) : Meets M e (bytesN n) (F.bytes n) := by
  have hlen : ∀ {b : List UInt8}, leNat b.reverse < 256 ^ b.length := by
    intro b; have := leNat_lt b.reverse; simpa using this
  refine meets_fixed n (fun _ b => .ok (.bytes b)) (fun _ _ _ => rfl) ?_ ?_ ?_ ?_ ?_ ?_ ?_ ?_
  · rintro u b v ⟨hl, rfl, hu⟩; exact hl
  · rintro u b v ⟨hl, rfl, rfl | hu⟩ L ctx hT
    · exact ⟨_, by simp [bytesN, hl]; rfl⟩
    · refine ⟨u, ?_⟩
      have hlt : leNat b.reverse < 256 ^ n := by have := @hlen b; rwa [hl] at this
      have : leBytes n (leNat b.reverse) = b.reverse := by
        rw [← hl, ← List.length_reverse, leBytes_leNat]
      cases u <;> simp_all [bytesN, asInt]
  · rintro u b v ⟨hl, rfl, hu⟩ L; rfl
  · intro L ctx u b r hL h
    simp only [bytesN] at h
    split at h
    · split at h
      · rename_i hl
        cases h
        exact ⟨_, hl, rfl, Or.inl rfl⟩
      · simp at h
    · split at h
      · rename_i k hk
        split at h
        · rename_i hr
          simp only [Except.ok.injEq, Prod.mk.injEq] at h
          obtain ⟨rfl, rfl⟩ := h
          refine ⟨_, by simp [leBytes_length], rfl, Or.inr ?_⟩
          rw [hk, List.reverse_reverse, leNat_leBytes _ _ hr.2]
          congr 1; omega
        · obtain ⟨er, he⟩ := (hL hU).bytes n false ‹Int›
          rw [he] at h; simp at h
      · simp at h
  · rintro _ u b v ⟨hl, rfl, hu⟩; exact ⟨hl, rfl, Or.inl rfl⟩
  · rintro _ L b v hl h; cases h; exact ⟨b, hl, rfl, Or.inl rfl⟩
  · rintro _ L b v hl h; cases h; exact ⟨hl, rfl, Or.inl rfl⟩
  · simp

theorem meets_greedyBytes (hU : M.U) : Meets M true greedyBytes F.rest where
  enc := by
    rintro u b v ⟨rfl, rfl | ⟨hl, hu⟩⟩ L ctx hT
    · exact ⟨_, rfl⟩
    · refine ⟨u, ?_⟩
      have hlt := leNat_lt b
      rw [hl] at hlt
      have : leBytes 1 (leNat b) = b := by rw [← hl, leBytes_leNat]
      cases u <;> simp_all [greedyBytes, asInt] <;> omega
  dec := by
    rintro u b v ⟨rfl, hu⟩ L ctx rest hr
    simp [greedyBytes, hr rfl]
  sound := by
    intro L ctx u b r hL h
    simp only [greedyBytes] at h
    split at h
    · cases h; exact ⟨_, rfl, Or.inl rfl⟩
    · split at h
      · rename_i k hk
        split at h
        · rename_i hr
          simp only [Except.ok.injEq, Prod.mk.injEq] at h
          obtain ⟨rfl, rfl⟩ := h
          refine ⟨_, rfl, Or.inr ⟨leBytes_length _ _, ?_⟩⟩
          rw [hk, leNat_leBytes _ _ (by simpa using hr.2)]
          congr 1; omega
        · obtain ⟨er, he⟩ := (hL hU).bytes 1 false ‹Int›
          rw [he] at h; simp at h
      · simp at h
  refl := by rintro _ u b v ⟨rfl, hu⟩; exact ⟨rfl, Or.inl rfl⟩
  inv := by intro _ L ctx s v rest h; cases h; exact ⟨s, rfl, Or.inl rfl⟩
  exact := by intro _ L ctx s v rest h; cases h; exact ⟨s, by simp, rfl, Or.inl rfl⟩
  nodiv := by intro L ctx s h; simp [greedyBytes] at h

end leaves
end BM
