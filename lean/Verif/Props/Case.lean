import Verif.Case
import Verif.Names
import Mathlib.Tactic.IntervalCases
/-!
# Case conversion (C30)
-/
namespace BM.Props
open Case

/-! ### Names -/

/-- A word of a name: lower-case letters and digits. -/
def IsWord (w : List Char) : Prop := w ≠ [] ∧ ∀ c ∈ w, c.isLower = true ∨ c.isDigit = true

/-- Letters, then digits. -/
def LettersDigits (w : List Char) : Prop :=
  ∃ l d : List Char, w = l ++ d ∧ l ≠ [] ∧ (∀ c ∈ l, c.isLower = true) ∧ ∀ c ∈ d, c.isDigit = true

/-- The words of a name after the first one are letters followed by digits, and a single letter is not followed by a word that has only one
letter. -/
def Fine : List (List Char) → Prop
  | [] => True
  | w :: ws => LettersDigits w ∧ (w.length = 1 → ∀ w' ∈ ws.head?, ∃ a b r, w' = a :: b :: r ∧ b.isLower = true) ∧ Fine ws

/-- A name, from its words. -/
def nameOf (ws : List (List Char)) : List Char := ['_'].intercalate ws

/-! ### Characters -/

theorem lower_mem {c : Char} (h : c.isLower = true) : c ∈ ['a','b','c','d','e','f','g','h','i','j','k','l','m','n','o','p','q','r','s','t','u','v','w','x','y','z'] := by
  have h1 : 97 ≤ c.toNat ∧ c.toNat ≤ 122 := by
    simp only [Char.isLower, Bool.and_eq_true, decide_eq_true_eq] at h
    exact h
  have hc : c = Char.ofNat c.toNat := (Char.ofNat_toNat c).symm
  obtain ⟨h1, h2⟩ := h1
  rw [hc]
  generalize c.toNat = n at *
  interval_cases n <;> decide

theorem digit_mem {c : Char} (h : c.isDigit = true) : c ∈ ['0','1','2','3','4','5','6','7','8','9'] := by
  have h1 : 48 ≤ c.toNat ∧ c.toNat ≤ 57 := by
    simp only [Char.isDigit, Bool.and_eq_true, decide_eq_true_eq] at h
    exact h
  have hc : c = Char.ofNat c.toNat := (Char.ofNat_toNat c).symm
  obtain ⟨h1, h2⟩ := h1
  rw [hc]
  generalize c.toNat = n at *
  interval_cases n <;> decide

theorem upper_mem {c : Char} (h : c.isUpper = true) : c ∈ ['A','B','C','D','E','F','G','H','I','J','K','L','M','N','O','P','Q','R','S','T','U','V','W','X','Y','Z'] := by
  have h1 : 65 ≤ c.toNat ∧ c.toNat ≤ 90 := by
    simp only [Char.isUpper, Bool.and_eq_true, decide_eq_true_eq] at h
    exact h
  have hc : c = Char.ofNat c.toNat := (Char.ofNat_toNat c).symm
  obtain ⟨h1, h2⟩ := h1
  rw [hc]
  generalize c.toNat = n at *
  interval_cases n <;> decide

theorem lower_char {c : Char} (h : c.isLower = true) : c.isDigit = false ∧ c.isUpper = false ∧ c.isAlpha = true ∧ c.toLower = c ∧
    c.toUpper.isUpper = true ∧ c.toUpper.isLower = false ∧ c.toUpper.isDigit = false ∧ c.toUpper.toLower = c ∧ c ≠ '_' ∧ c ≠ ' ' ∧ isWord c = true ∧
    isWord c.toUpper = true := by
  revert c
  have : ∀ c ∈ ['a','b','c','d','e','f','g','h','i','j','k','l','m','n','o','p','q','r','s','t','u','v','w','x','y','z'], c.isDigit = false ∧ c.isUpper = false ∧ c.isAlpha = true ∧ c.toLower = c ∧
    c.toUpper.isUpper = true ∧ c.toUpper.isLower = false ∧ c.toUpper.isDigit = false ∧ c.toUpper.toLower = c ∧ c ≠ '_' ∧ c ≠ ' ' ∧ isWord c = true ∧
    isWord c.toUpper = true := by decide +kernel
  exact fun {c} h => this c (lower_mem h)

theorem digit_char {c : Char} (h : c.isDigit = true) : c.isLower = false ∧ c.isUpper = false ∧ c.isAlpha = false ∧ c.toLower = c ∧ c.toUpper = c ∧
    c ≠ '_' ∧ c ≠ ' ' := by
  have : ∀ c ∈ ['0','1','2','3','4','5','6','7','8','9'], c.isLower = false ∧ c.isUpper = false ∧ c.isAlpha = false ∧ c.toLower = c ∧ c.toUpper = c ∧
    c ≠ '_' ∧ c ≠ ' ' := by decide +kernel
  exact this c (digit_mem h)

theorem upper_char {c : Char} (h : c.isUpper = true) : c.isLower = false ∧ c.isDigit = false ∧ c.toLower.isLower = true ∧ isWord c = true := by
  have : ∀ c ∈ ['A','B','C','D','E','F','G','H','I','J','K','L','M','N','O','P','Q','R','S','T','U','V','W','X','Y','Z'], c.isLower = false ∧ c.isDigit = false ∧ c.toLower.isLower = true ∧ isWord c = true := by decide +kernel
  exact this c (upper_mem h)

theorem ld_iff {c : Char} : isLD c = true ↔ c.isLower = true ∨ c.isDigit = true := by simp [isLD]

theorem ld_lower {c : Char} (h : isLD c = true) : c.toLower = c := by
  rcases ld_iff.1 h with h | h
  · exact (lower_char h).2.2.2.1
  · exact (digit_char h).2.2.2.1

theorem ld_not_upper {c : Char} (h : isLD c = true) : c.isUpper = false := by
  rcases ld_iff.1 h with h | h
  · exact (lower_char h).2.1
  · exact (digit_char h).2.1

theorem upper_not_ld {c : Char} (h : c.isUpper = true) : isLD c = false := by
  cases hc : isLD c with
  | false => rfl
  | true => rw [ld_not_upper hc] at h; exact absurd h (by simp)

theorem map_lower {w : List Char} (h : ∀ c ∈ w, isLD c = true) : w.map Char.toLower = w := by
  induction w with
  | nil => rfl
  | cons c w ih => rw [List.map_cons, ld_lower (h c (by simp)), ih (fun x hx => h x (by simp [hx]))]

/-! ### `title` -/

theorem title_length (w : List Char) : ∀ p, (title p w).length = w.length := by
  induction w with
  | nil => intro p; rfl
  | cons c w ih => intro p; simp [title, ih]

theorem title_letters {l : List Char} (h : ∀ c ∈ l, c.isLower = true) (s : List Char) : title true (l ++ s) = l ++ title true s := by
  induction l with
  | nil => rfl
  | cons c l ih =>
    have hc := lower_char (h c (by simp))
    rw [List.cons_append, title, if_pos rfl, hc.2.2.1, hc.2.2.2.1, ih (fun x hx => h x (by simp [hx])), List.cons_append]

theorem title_digits {d : List Char} (h : ∀ c ∈ d, c.isDigit = true) : ∀ p, title p d = d := by
  induction d with
  | nil => intro p; rfl
  | cons c d ih =>
    intro p
    have hc := digit_char (h c (by simp))
    rw [title, hc.2.2.1, ih (fun x hx => h x (by simp [hx])), hc.2.2.2.1, hc.2.2.2.2.1]
    simp

/-- A word that `title` leaves alone after a letter is letters followed by digits. -/
theorem title_fixed {w : List Char} (hw : ∀ c ∈ w, isLD c = true) : title true w = w →
    ∃ l d, w = l ++ d ∧ (∀ c ∈ l, c.isLower = true) ∧ ∀ c ∈ d, c.isDigit = true := by
  have hd : ∀ w : List Char, (∀ c ∈ w, isLD c = true) → title false w = w → ∀ c ∈ w, c.isDigit = true := by
    intro w
    induction w with
    | nil => simp
    | cons c w ih =>
      intro hw h
      simp only [title, Bool.false_eq_true, if_false, List.cons.injEq] at h
      rcases ld_iff.1 (hw c (by simp)) with hc | hc
      · have := lower_char hc
        rw [h.1] at this
        rw [hc] at this; simp at this
      · rw [(digit_char hc).2.2.1] at h
        intro x hx
        rcases List.mem_cons.1 hx with rfl | hx
        · exact hc
        · exact ih (fun x hx => hw x (by simp [hx])) h.2 x hx
  induction w with
  | nil => intro _; exact ⟨[], [], rfl, by simp, by simp⟩
  | cons c w ih =>
    intro h
    simp only [title, if_true, List.cons.injEq] at h
    rcases ld_iff.1 (hw c (by simp)) with hc | hc
    · rw [(lower_char hc).2.2.1] at h
      obtain ⟨l, d, rfl, hl, hd⟩ := ih (fun x hx => hw x (by simp [hx])) h.2
      exact ⟨c :: l, d, rfl, by simpa [hc] using hl, hd⟩
    · rw [(digit_char hc).2.2.1] at h
      refine ⟨[], c :: w, rfl, by simp, ?_⟩
      intro x hx
      rcases List.mem_cons.1 hx with rfl | hx
      · exact hc
      · exact hd w (fun x hx => hw x (by simp [hx])) h.2 x hx

/-! ### Sequences of capitalised words -/

/-- The capitalised words. -/
def caps (t : List (List Char)) : List Char := t.flatMap (title false)

theorem caps_cons (w : List Char) (t : List (List Char)) : caps (w :: t) = title false w ++ caps t := by simp [caps]

/-- The first of the words starts with a letter. -/
def StartsLetter (t : List (List Char)) : Prop := ∀ w ∈ t.head?, ∃ c ∈ w.head?, c.isLower = true

theorem fine_starts {t : List (List Char)} (h : Fine t) : StartsLetter t := by
  cases t with
  | nil => simp [StartsLetter]
  | cons w t =>
    obtain ⟨⟨l, d, rfl, hl, hlow, -⟩, -⟩ := h
    intro w' hw'
    simp only [List.head?_cons, Option.mem_def, Option.some.injEq] at hw'
    subst hw'
    cases l with
    | nil => exact absurd rfl hl
    | cons c l => exact ⟨c, rfl, hlow c (by simp)⟩

/-- What follows the words is no continuation of the previous word. -/
theorem starts_caps {t : List (List Char)} (ht : ∀ w ∈ t, IsWord w) : StartsLetter t ↔ (caps t).takeWhile isLD = [] := by
  cases t with
  | nil => simp [StartsLetter, caps]
  | cons w t =>
    obtain ⟨hne, hw⟩ := ht w (by simp)
    cases w with
    | nil => exact absurd rfl hne
    | cons c w =>
      simp only [StartsLetter, List.head?_cons, Option.mem_def, Option.some.injEq, forall_eq', exists_eq_left', caps_cons, title, Bool.false_eq_true, if_false,
        List.cons_append, List.takeWhile_cons]
      rcases hw c (by simp) with hc | hc
      · simp [hc, upper_not_ld (lower_char hc).2.2.2.2.1]
      · have := digit_char hc
        simp [this.2.2.2.2.1, ld_iff.2 (.inr hc), this.1]

theorem findall_nil (f : Nat) : findall f [] = [] := by cases f <;> rfl

theorem capitals_end {u z : List Char} (hu : u ≠ []) (hz : ∀ c ∈ z.head?, c.isDigit = true) : capitals (u ++ z) u.length = some u.length := by
  cases u with
  | nil => exact absurd rfl hu
  | cons x u =>
    have : (x :: u ++ z).drop (u.length + 1) = z := by simp
    have ha : ahead z = true := by
      cases z with
      | nil => rfl
      | cons c z => simp [ahead, hz c rfl]
    rw [List.length_cons, capitals, this, if_pos ha]

theorem capitals_lower {u z : List Char} {x b : Char} (hu : u ≠ []) (hx : x.isUpper = true) (hb : b.isLower = true) :
    capitals (u ++ [x] ++ b :: z) (u ++ [x]).length = some u.length := by
  cases u with
  | nil => exact absurd rfl hu
  | cons y u =>
    have h1 : (y :: u ++ [x] ++ b :: z).drop (u.length + 1 + 1) = b :: z := by
      rw [List.drop_append_of_le_length (by simp), List.drop_eq_nil_of_le (by simp), List.nil_append]
    have h2 : (y :: u ++ [x] ++ b :: z).drop (u.length + 1) = x :: b :: z := by simp
    have hl := lower_char hb
    have a1 : ahead (b :: z) = false := by simp [ahead, hl.1, hl.2.1, hl.2.2.2.2.2.2.2.2.2.2.1]
    have a2 : ahead (x :: b :: z) = true := by simp [ahead, hx, hb]
    rw [List.length_append, List.length_cons, List.length_singleton, capitals, h1, a1, if_neg (by simp), capitals, h2, if_pos a2]

theorem takeWhile_all {α} {p : α → Bool} {u z : List α} (hu : ∀ c ∈ u, p c = true) (hz : z.takeWhile p = []) : (u ++ z).takeWhile p = u := by
  rw [List.takeWhile_append_of_pos hu, hz, List.append_nil]

theorem dropWhile_all {α} {p : α → Bool} {u z : List α} (hu : ∀ c ∈ u, p c = true) (hz : z.takeWhile p = []) : (u ++ z).dropWhile p = z := by
  rw [List.dropWhile_append_of_pos hu]
  cases z with
  | nil => rfl
  | cons a z =>
    rw [List.takeWhile_cons] at hz
    split at hz
    · exact absurd hz (by simp)
    · rename_i h; rw [List.dropWhile_cons, if_neg h]

theorem mem_takeWhile {α} {p : α → Bool} {l : List α} {c : α} (h : c ∈ l.takeWhile p) : p c = true := by
  induction l with
  | nil => simp at h
  | cons a l ih =>
    rw [List.takeWhile_cons] at h
    split at h
    · rcases List.mem_cons.1 h with rfl | h
      · assumption
      · exact ih h
    · simp at h

theorem head_dropWhile {α} {p : α → Bool} {l : List α} {c : α} (h : c ∈ (l.dropWhile p).head?) : p c = false := by
  induction l with
  | nil => simp at h
  | cons a l ih =>
    rw [List.dropWhile_cons] at h
    split at h
    · exact ih h
    · rename_i hp
      simp only [List.head?_cons, Option.mem_def, Option.some.injEq] at h
      subst h
      simpa using hp

theorem word_ld {w : List Char} (h : IsWord w) : ∀ c ∈ w, isLD c = true := fun c hc => ld_iff.2 (h.2 c hc)

/-- Words of the right shape are found again. -/
theorem caps_found {t : List (List Char)} (ht : ∀ w ∈ t, IsWord w) (h : Fine t) : ∀ f, (caps t).length ≤ f → (findall f (caps t)).map (List.map Char.toLower) = t := by
  induction t with
  | nil => intro f _; rw [show caps [] = [] from rfl, findall_nil]; rfl
  | cons w t ih =>
    intro f hf
    have hst := (starts_caps (fun w hw => ht w (by simp [hw]))).1 (fine_starts h.2.2)
    obtain ⟨⟨l, d, rfl, hl, hlow, hdig⟩, hone, hfine⟩ := h
    cases l with
    | nil => exact absurd rfl hl
    | cons c l =>
      have hc := lower_char (hlow c (by simp))
      have htitle : title false (c :: l ++ d) = c.toUpper :: (l ++ d) := by
        rw [List.cons_append, title, hc.2.2.1, title_letters (fun x hx => hlow x (by simp [hx])), title_digits hdig]
        simp
      have hnl := upper_not_ld hc.2.2.2.2.1
      have ht' : ∀ w ∈ t, IsWord w := fun w hw => ht w (by simp [hw])
      rw [caps_cons, htitle] at hf ⊢
      simp only [List.cons_append, List.length_cons, List.length_append] at hf
      obtain ⟨f, rfl⟩ : ∃ g, f = g + 1 := ⟨f - 1, by omega⟩
      have hld : ∀ x ∈ l ++ d, isLD x = true := fun x hx => by
        rcases List.mem_append.1 hx with hx | hx
        · exact ld_iff.2 (.inl (hlow x (by simp [hx])))
        · exact ld_iff.2 (.inr (hdig x hx))
      have ih' := ih ht' hfine f (by omega)
      rw [List.cons_append, findall, hnl, if_neg (by simp), if_pos hc.2.2.2.2.1, takeWhile_all hld hst, dropWhile_all hld hst]
      cases hr : l ++ d with
      | cons a r =>
        rw [hr] at hld
        simp only [List.map_cons, hc.2.2.2.2.2.2.2.1, ih']
        rw [List.cons_append, hr, ← List.map_cons, map_lower hld]
      | nil =>
        have hcl : c :: l ++ d = [c] := by rw [List.cons_append, hr]
        rw [hcl]
        simp only [List.nil_append]
        have fin : ∀ r, capitals (c.toUpper :: caps t) r = some 1 → (match capitals (c.toUpper :: caps t) r with
            | some k => (c.toUpper :: caps t).take k :: findall f ((c.toUpper :: caps t).drop k)
            | none => findall f (caps t)).map (List.map Char.toLower) = [c] :: t := by
          intro r hr
          rw [hr]
          simp only [List.take_succ_cons, List.take_zero, List.drop_succ_cons, List.drop_zero, List.map_cons, List.map_nil, hc.2.2.2.2.2.2.2.1, ih']
        apply fin
        cases t with
        | nil =>
          have : caps [] = [] := rfl
          rw [this]
          simp only [List.takeWhile_cons, hc.2.2.2.2.1, if_true, List.takeWhile_nil]
          exact capitals_end (u := [c.toUpper]) (z := []) (by simp) (by simp)
        | cons w' t' =>
          obtain ⟨a, b, r, rfl, hb⟩ := hone (by rw [hcl]; rfl) w' rfl
          have ha : a.isLower = true := by
            obtain ⟨x, hx, hx'⟩ := fine_starts hfine _ rfl
            simp only [List.head?_cons, Option.mem_def, Option.some.injEq] at hx
            rw [hx]; exact hx'
          have hca := lower_char ha
          have hcb := lower_char hb
          have hcp : caps ((a :: b :: r) :: t') = a.toUpper :: b :: (title true r ++ caps t') := by
            rw [caps_cons, title, hca.2.2.1, title, hcb.2.2.1, if_pos rfl, hcb.2.2.2.1]
            simp
          rw [hcp]
          simp only [List.takeWhile_cons, hc.2.2.2.2.1, hca.2.2.2.2.1, hcb.2.1, if_true, Bool.false_eq_true, if_false]
          exact capitals_lower (u := [c.toUpper]) (x := a.toUpper) (z := title true r ++ caps t') (by simp) hca.2.2.2.2.1 hb

theorem caps_chars {t : List (List Char)} (ht : ∀ w ∈ t, IsWord w) : ∀ c ∈ caps t, c.isUpper = true ∨ isLD c = true := by
  have hone : ∀ w : List Char, (∀ c ∈ w, isLD c = true) → ∀ p, ∀ c ∈ title p w, c.isUpper = true ∨ isLD c = true := by
    intro w
    induction w with
    | nil => intro _ p c hc; simp [title] at hc
    | cons a w ih =>
      intro hw p c hc
      rw [title] at hc
      rcases List.mem_cons.1 hc with rfl | hc
      · have ha := hw a (by simp)
        cases p
        · rcases ld_iff.1 ha with h | h
          · exact .inl (by simpa using (lower_char h).2.2.2.2.1)
          · exact .inr (by simpa [(digit_char h).2.2.2.2.1] using ha)
        · exact .inr (by simpa [ld_lower ha] using ha)
      · exact ih (fun x hx => hw x (by simp [hx])) _ c hc
  intro c hc
  simp only [caps, List.mem_flatMap] at hc
  obtain ⟨w, hw, hc⟩ := hc
  exact hone w (word_ld (ht w hw)) false c hc

theorem caps_head {t : List (List Char)} (ht : ∀ w ∈ t, IsWord w) : ∀ c ∈ (caps t).head?, c.isLower = false := by
  intro c hc
  cases t with
  | nil => simp [caps] at hc
  | cons w t =>
    obtain ⟨hne, hw⟩ := ht w (by simp)
    cases w with
    | nil => exact absurd rfl hne
    | cons a w =>
      rw [caps_cons, title] at hc
      simp only [Bool.false_eq_true, if_false, List.cons_append, List.head?_cons, Option.mem_def, Option.some.injEq] at hc
      subst hc
      rcases hw a (by simp) with h | h
      · exact (lower_char h).2.2.2.2.2.1
      · have := digit_char h
        rw [this.2.2.2.2.1]; exact this.1

/-- The match of a run of capitals that is followed by nothing that would continue a word. -/
theorem capitals_cases {x : Char} {s : List Char} (hx : x.isUpper = true) (hs : ∀ c ∈ s, c.isUpper = true ∨ isLD c = true) (h0 : s.takeWhile isLD = []) :
    ∃ k, capitals (x :: s) ((x :: s).takeWhile Char.isUpper).length = some k ∧ 1 ≤ k ∧
      (k = 1 → s = [] ∨ ∃ y b r, s = y :: b :: r ∧ y.isUpper = true ∧ b.isLower = true) := by
  obtain ⟨u, z, hu, hz, he⟩ : ∃ u z, (∀ c ∈ u, c.isUpper = true) ∧ (∀ c ∈ z.head?, c.isUpper = false) ∧ s = u ++ z := by
    refine ⟨s.takeWhile Char.isUpper, s.dropWhile Char.isUpper, fun c hc => mem_takeWhile hc, ?_, (List.takeWhile_append_dropWhile).symm⟩
    exact fun c hc => head_dropWhile hc
  have hzt : z.takeWhile Char.isUpper = [] := by
    cases z with
    | nil => rfl
    | cons a r => rw [List.takeWhile_cons, hz a rfl]; rfl
  have hrun : (x :: s).takeWhile Char.isUpper = x :: u := by
    rw [List.takeWhile_cons, hx, if_pos rfl, he, takeWhile_all hu hzt]
  rw [hrun]
  have hzd : z = [] ∨ (∃ c r, z = c :: r ∧ c.isDigit = true) ∨ ∃ c r, z = c :: r ∧ c.isLower = true := by
    cases z with
    | nil => exact .inl rfl
    | cons a r =>
      have ha := hz a rfl
      rcases hs a (by rw [he]; simp) with h | h
      · rw [ha] at h; exact absurd h (by simp)
      · rcases ld_iff.1 h with h | h
        · exact .inr (.inr ⟨a, r, rfl, h⟩)
        · exact .inr (.inl ⟨a, r, rfl, h⟩)
  have hlong : (∀ c ∈ z.head?, c.isDigit = true) → ∃ k, capitals (x :: s) (x :: u).length = some k ∧ 1 ≤ k ∧
      (k = 1 → s = [] ∨ ∃ y b r, s = y :: b :: r ∧ y.isUpper = true ∧ b.isLower = true) := by
    intro hd
    refine ⟨(x :: u).length, by rw [he]; exact capitals_end (u := x :: u) (by simp) hd, by simp, fun h1 => ?_⟩
    have hu0 : u = [] := by simpa using h1
    subst hu0
    rw [List.nil_append] at he
    subst he
    left
    cases s with
    | nil => rfl
    | cons a r =>
      have := hd a rfl
      rw [List.takeWhile_cons, ld_iff.2 (.inr this)] at h0
      simp at h0
  rcases hzd with rfl | ⟨c, r, rfl, hc⟩ | ⟨c, r, rfl, hc⟩
  · exact hlong (by simp)
  · exact hlong (by simpa using hc)
  · rcases List.eq_nil_or_concat u with rfl | ⟨u', y, rfl⟩
    · rw [List.nil_append] at he
      rw [he, List.takeWhile_cons, ld_iff.2 (.inl hc)] at h0
      simp at h0
    · have hy := hu y (by simp)
      refine ⟨u'.length + 1, ?_, by omega, fun h1 => ?_⟩
      · have := capitals_lower (u := x :: u') (z := r) (x := y) (b := c) (by simp) hy hc
        rw [he]
        simpa using this
      · have : u' = [] := by simpa using h1
        subst this
        exact .inr ⟨y, c, r, by simpa using he, hy, hc⟩

/-- Only words of the right shape are found again. -/
theorem caps_only {t : List (List Char)} (ht : ∀ w ∈ t, IsWord w) (hst : StartsLetter t) : ∀ f, (findall f (caps t)).map (List.map Char.toLower) = t → Fine t := by
  induction t with
  | nil => intro _ _; trivial
  | cons w t ih =>
    intro f hf
    have ht' : ∀ w ∈ t, IsWord w := fun w hw => ht w (by simp [hw])
    have hw := ht w (by simp)
    cases f with
    | zero => simp [findall] at hf
    | succ f =>
    cases w with
    | nil => exact absurd rfl hw.1
    | cons c w =>
    have hlow : c.isLower = true := by
      obtain ⟨x, hx, hx'⟩ := hst _ rfl
      simp only [List.head?_cons, Option.mem_def, Option.some.injEq] at hx
      rw [hx]; exact hx'
    have hc := lower_char hlow
    have hnl := upper_not_ld hc.2.2.2.2.1
    have hwl : ∀ x ∈ w, isLD x = true := fun x hx => word_ld hw x (by simp [hx])
    rw [caps_cons, title, hc.2.2.1] at hf
    simp only [Bool.false_eq_true, if_false, List.cons_append] at hf
    rw [findall, hnl, if_neg (by simp), if_pos hc.2.2.2.2.1] at hf
    cases hu : (title true w ++ caps t).takeWhile isLD with
    | cons a u =>
      simp only [hu, List.map_cons, List.cons.injEq] at hf
      have hul : ∀ x ∈ a :: u, isLD x = true := fun x hx => by rw [← hu] at hx; exact mem_takeWhile hx
      obtain ⟨⟨-, hf1⟩, hf2⟩ := hf
      rw [← List.map_cons, map_lower hul] at hf1
      have hfix : title true w = w ∧ (caps t).takeWhile isLD = [] := by
        have h1 : (a :: u) ++ (title true w ++ caps t).dropWhile isLD = title true w ++ caps t := by rw [← hu]; exact List.takeWhile_append_dropWhile
        rw [hf1] at h1
        obtain ⟨h2, h3⟩ := List.append_inj h1 (title_length w true).symm
        refine ⟨h2.symm, ?_⟩
        rw [← h2, List.takeWhile_append_of_pos hwl] at hu
        have hl := congrArg List.length hu
        rw [hf1, List.length_append] at hl
        exact List.eq_nil_of_length_eq_zero (by omega)
      obtain ⟨h1, h2⟩ := hfix
      rw [h1, dropWhile_all hwl h2] at hf2
      obtain ⟨l, d, rfl, hl, hd⟩ := title_fixed hwl h1
      refine ⟨⟨c :: l, d, rfl, by simp, ?_, hd⟩, fun hone => ?_, ih ht' ((starts_caps ht').2 h2) f hf2⟩
      · intro x hx
        rcases List.mem_cons.1 hx with rfl | hx
        · exact hlow
        · exact hl x hx
      · rw [← hf1] at hone
        simp at hone
    | nil =>
      have hw0 : w = [] := by
        cases w with
        | nil => rfl
        | cons a w =>
          have ha := hwl a (by simp)
          rw [title, if_pos rfl, ld_lower ha, List.cons_append, List.takeWhile_cons, ha] at hu
          simp at hu
      subst hw0
      rw [show title true [] = [] from rfl, List.nil_append] at hu hf
      obtain ⟨k, hk, hk1, hk2⟩ := capitals_cases hc.2.2.2.2.1 (caps_chars ht') hu
      simp only [hu, hk, List.map_cons, List.cons.injEq] at hf
      have hk' : k = 1 := by
        have hl := congrArg List.length hf.1
        simp only [List.length_map, List.length_take, List.length_cons, List.length_nil] at hl
        have hkl : k ≤ (caps t).length + 1 ∨ (caps t).length + 1 < k := by omega
        rcases hkl with h | h
        · omega
        · have hc0 : caps t = [] := List.eq_nil_of_length_eq_zero (by omega)
          rw [hc0] at hk
          simp only [List.takeWhile_cons, hc.2.2.2.2.1, if_true, List.takeWhile_nil] at hk
          have := capitals_end (u := [c.toUpper]) (z := []) (by simp) (by simp)
          rw [List.append_nil] at this
          rw [this] at hk
          cases hk; rfl
      subst hk'
      refine ⟨⟨[c], [], rfl, by simp, by simpa using hlow, by simp⟩, fun _ w' hw' => ?_, ih ht' ((starts_caps ht').2 hu) f (by simpa using hf.2)⟩
      cases t with
      | nil => simp at hw'
      | cons w2 t2 =>
        simp only [List.head?_cons, Option.mem_def, Option.some.injEq] at hw'
        subst hw'
        have hw2 := ht' w2 (by simp)
        cases w2 with
        | nil => exact absurd rfl hw2.1
        | cons a w3 =>
          rw [caps_cons, title] at hk2
          rcases hk2 rfl with h | ⟨y, b, r, h, hy, hb⟩
          · simp at h
          · simp only [List.cons_append, List.cons.injEq] at h
            cases w3 with
            | nil =>
              rw [show title a.isAlpha [] = [] from rfl, List.nil_append] at h
              have := caps_head (t := t2) (fun w hw => ht' w (by simp [hw])) b (by rw [h.2]; rfl)
              rw [hb] at this
              exact absurd this (by simp)
            | cons b2 w4 =>
              refine ⟨a, b2, w4, rfl, ?_⟩
              rw [title] at h
              simp only [List.cons_append, List.cons.injEq] at h
              rcases hw2.2 b2 (by simp) with h2 | h2
              · exact h2
              · have := digit_char h2
                rw [this.2.2.2.1, this.2.2.2.2.1, ite_self] at h
                rw [← h.2.1, this.1] at hb
                exact absurd hb (by simp)

/-! ### From words to names -/

theorem splitU_word {w : List Char} (hw : '_' ∉ w) (s : List Char) : splitU (w ++ '_' :: s) = w :: splitU s := by
  induction w with
  | nil => simp [splitU]
  | cons c w ih =>
    simp only [List.mem_cons, not_or] at hw
    rw [List.cons_append, splitU, if_neg (fun h => hw.1 h.symm), ih hw.2]

theorem splitU_last {w : List Char} (hw : '_' ∉ w) : splitU w = [w] := by
  induction w with
  | nil => rfl
  | cons c w ih =>
    simp only [List.mem_cons, not_or] at hw
    rw [splitU, if_neg (fun h => hw.1 h.symm), ih hw.2]

theorem nameOf_cons (w w' : List Char) (ws : List (List Char)) : nameOf (w :: w' :: ws) = w ++ '_' :: nameOf (w' :: ws) := by
  simp [nameOf, List.intercalate]

theorem nameOf_one (w : List Char) : nameOf [w] = w := by simp [nameOf, List.intercalate]

theorem splitU_nameOf {ws : List (List Char)} (hne : ws ≠ []) (h : ∀ w ∈ ws, '_' ∉ w) : splitU (nameOf ws) = ws := by
  induction ws with
  | nil => exact absurd rfl hne
  | cons w ws ih =>
    cases ws with
    | nil => rw [nameOf_one, splitU_last (h w (by simp))]
    | cons w' ws => rw [nameOf_cons, splitU_word (h w (by simp)), ih (by simp) (fun x hx => h x (by simp [hx]))]

theorem nameOf_inj {ws vs : List (List Char)} (h1 : ws ≠ []) (h2 : vs ≠ []) (hw : ∀ w ∈ ws, '_' ∉ w) (hv : ∀ w ∈ vs, '_' ∉ w)
    (h : nameOf ws = nameOf vs) : ws = vs := by
  rw [← splitU_nameOf h1 hw, h, splitU_nameOf h2 hv]

theorem word_no_underscore {w : List Char} (h : IsWord w) : '_' ∉ w := by
  intro hm
  rcases h.2 _ hm with h | h <;> exact absurd h (by decide)

theorem nameOf_chars {ws : List (List Char)} (h : ∀ w ∈ ws, IsWord w) : ∀ c ∈ nameOf ws, c = '_' ∨ isLD c = true := by
  induction ws with
  | nil => intro c hc; simp [nameOf, List.intercalate] at hc
  | cons w ws ih =>
    intro c hc
    cases ws with
    | nil => rw [nameOf_one] at hc; exact .inr (word_ld (h w (by simp)) c hc)
    | cons w' ws =>
      rw [nameOf_cons, List.mem_append, List.mem_cons] at hc
      rcases hc with hc | rfl | hc
      · exact .inr (word_ld (h w (by simp)) c hc)
      · exact .inl rfl
      · exact ih (fun x hx => h x (by simp [hx])) c hc

theorem camel_nameOf {h : List Char} {t : List (List Char)} (hw : ∀ w ∈ h :: t, IsWord w) : camelChars (nameOf (h :: t)) = h ++ caps t := by
  have hmap : ((nameOf (h :: t)).map Char.toLower).map (fun c => if c = ' ' then '_' else c) = nameOf (h :: t) := by
    rw [List.map_map]
    conv_rhs => rw [← List.map_id (nameOf (h :: t))]
    refine List.map_congr_left fun c hc => ?_
    rcases nameOf_chars hw c hc with rfl | hc
    · decide
    · simp only [Function.comp, ld_lower hc, id]
      rw [if_neg]
      rintro rfl
      exact absurd hc (by decide)
  rw [camelChars, hmap, splitU_nameOf (by simp) (fun w hx => word_no_underscore (hw w hx))]
  rfl

/-- What the regular expression finds are words of letters and digits. -/
theorem findall_words : ∀ (f : Nat) (s : List Char), ∀ w ∈ findall f s, w ≠ [] ∧ ∀ c ∈ w, c.isUpper = true ∨ isLD c = true := by
  intro f
  induction f with
  | zero => intro s w hw; simp [findall] at hw
  | succ f ih =>
    intro s w hw
    cases s with
    | nil => simp [findall] at hw
    | cons c s =>
      rw [findall] at hw
      split at hw
      · rename_i hc
        rcases List.mem_cons.1 hw with rfl | hw
        · refine ⟨by simp, fun x hx => .inr ?_⟩
          rcases List.mem_cons.1 hx with rfl | hx
          · exact hc
          · exact mem_takeWhile hx
        · exact ih _ w hw
      · split at hw
        · rename_i hup
          split at hw
          · split at hw
            · rename_i k hk
              have hb : ∀ n, (∀ m, capitals (c :: s) n = some m → 1 ≤ m ∧ m ≤ n) := by
                intro n
                induction n with
                | zero => intro m hm; simp [capitals] at hm
                | succ n ihn =>
                  intro m hm
                  rw [capitals] at hm
                  split at hm
                  · cases hm; omega
                  · have := ihn m hm; omega
              obtain ⟨hk1, hk2⟩ := hb _ _ hk
              rcases List.mem_cons.1 hw with rfl | hw
              · refine ⟨?_, fun x hx => .inl ?_⟩
                · intro h0
                  have := congrArg List.length h0
                  simp at this
                  omega
                · have : (c :: s).take k = ((c :: s).takeWhile Char.isUpper).take k := by
                    have hp : (c :: s).takeWhile Char.isUpper <+: c :: s := List.takeWhile_prefix _
                    obtain ⟨r, hr⟩ := hp
                    conv_lhs => rw [← hr]
                    rw [List.take_append_of_le_length hk2]
                  rw [this] at hx
                  exact mem_takeWhile (List.mem_of_mem_take hx)
              · exact ih _ w hw
            · exact ih _ w hw
          · rename_i u hne
            rcases List.mem_cons.1 hw with rfl | hw
            · refine ⟨by simp, fun x hx => ?_⟩
              rcases List.mem_cons.1 hx with rfl | hx
              · exact .inl hup
              · exact .inr (mem_takeWhile hx)
            · exact ih _ w hw
        · exact ih _ w hw

theorem snake_words (s : List Char) : ∀ w ∈ (findall s.length s).map (List.map Char.toLower), IsWord w := by
  intro w hw
  obtain ⟨u, hu, rfl⟩ := List.mem_map.1 hw
  obtain ⟨h1, h2⟩ := findall_words _ _ u hu
  refine ⟨by simpa using h1, fun c hc => ?_⟩
  obtain ⟨x, hx, rfl⟩ := List.mem_map.1 hc
  rcases h2 x hx with h | h
  · exact .inl (upper_char h).2.2.1
  · rw [ld_lower h]; exact ld_iff.1 h

/-- The first word is found again iff the next one starts with a letter. -/
theorem head_found {h : List Char} {t : List (List Char)} (hw : ∀ w ∈ h :: t, IsWord w) :
    (findall (h ++ caps t).length (h ++ caps t)).map (List.map Char.toLower) = h :: t ↔ Fine t := by
  have ht : ∀ w ∈ t, IsWord w := fun w hx => hw w (by simp [hx])
  have hld := word_ld (hw h (by simp))
  cases h with
  | nil => exact absurd rfl (hw [] (by simp)).1
  | cons c h =>
    have hh : ∀ x ∈ h, isLD x = true := fun x hx => hld x (by simp [hx])
    rw [List.cons_append, List.length_cons, findall, hld c (by simp), if_pos rfl, List.takeWhile_append_of_pos hh, List.map_cons, List.cons.injEq]
    constructor
    · rintro ⟨h1, h2⟩
      have hst : (caps t).takeWhile isLD = [] := by
        have := congrArg List.length h1
        simp only [List.length_map, List.length_cons, List.length_append] at this
        exact List.eq_nil_of_length_eq_zero (by omega)
      rw [dropWhile_all hh hst] at h2
      exact caps_only ht ((starts_caps ht).2 hst) _ h2
    · intro hf
      have hst := (starts_caps ht).1 (fine_starts hf)
      rw [hst, List.append_nil, dropWhile_all hh hst, caps_found ht hf _ (by simp)]
      exact ⟨map_lower hld, rfl⟩

theorem snake_camel {h : List Char} {t : List (List Char)} (hw : ∀ w ∈ h :: t, IsWord w) :
    snakeChars (camelChars (nameOf (h :: t))) = nameOf (h :: t) ↔ Fine t := by
  rw [camel_nameOf hw, ← head_found hw]
  unfold snakeChars
  constructor
  · intro he
    refine nameOf_inj ?_ (by simp) (fun w hx => word_no_underscore (snake_words _ w hx)) (fun w hx => word_no_underscore (hw w hx)) he
    intro h0
    rw [h0] at he
    have h1 := hw h (by simp)
    have : nameOf (h :: t) ≠ [] := by
      cases t with
      | nil => rw [nameOf_one]; exact h1.1
      | cons w t => rw [nameOf_cons]; simp
    exact this (by rw [← he]; rfl)
  · intro he
    rw [he]; rfl

/-- **C30 (names).** Which names survive the conversion to camel case and back: exactly the empty name and the names that consist of words of
lower-case letters and digits, joined by underscores, such that all words after the first one are letters followed by digits and a single
letter is not followed by a word with only one letter. -/
theorem C30_roundtrip (n : String) : snakecase (camelcase n) = n ↔
    n = "" ∨ ∃ h t, (∀ w ∈ h :: t, IsWord w) ∧ n = String.ofList (nameOf (h :: t)) ∧ Fine t := by
  have hs : ∀ s : List Char, snakecase (camelcase (String.ofList s)) = String.ofList (snakeChars (camelChars s)) := by
    intro s; simp [snakecase, camelcase]
  constructor
  · intro h
    obtain ⟨s, rfl⟩ : ∃ s, n = String.ofList s := ⟨n.toList, by simp⟩
    rw [hs, String.ofList_inj] at h
    have hw := snake_words (camelChars s)
    rw [snakeChars] at h
    cases hf : (findall (camelChars s).length (camelChars s)).map (List.map Char.toLower) with
    | nil =>
      rw [hf] at h
      left
      rw [← h]; rfl
    | cons x t =>
      rw [hf] at h hw
      refine .inr ⟨x, t, hw, by rw [nameOf, h], (snake_camel hw).1 ?_⟩
      rw [nameOf, h, snakeChars, hf, h]
  · rintro (rfl | ⟨h, t, hw, rfl, hf⟩)
    · decide +kernel
    · rw [hs, (snake_camel hw).2 hf]

end BM.Props
