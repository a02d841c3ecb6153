import Verif.MeetsTac
import Verif.SpecAccess
import Verif.Tables
/-!
# Message tables against specifications
-/
namespace BM
open F

/-- Everything is claimed: decoding and encoding are mutually inverse. -/
abbrev lossless : Mode := ⟨False, True, True, True⟩
/-- Parsed values re-encode to an equivalent message. -/
abbrev stable : Mode := ⟨False, True, True, False⟩
/-- Encoding and decoding agree on specified values. -/
abbrev plain : Mode := ⟨False, True, False, False⟩

/-- The payload construct of a message meets its format; if the message has a fixed size, the payload has that size, and reading it
does not depend on what follows. -/
def Carries (M : Mode) (m : MsgSpec) (c : Con UInt8) : Prop :=
  MeetsBut m.odd M m.size.isNone c m.fmt ∧ ∀ n, m.size = some n → LenEq m.fmt n

theorem carries_var {M m c} (h0 : m.size = none) (h : MeetsBut m.odd M true c m.fmt) : Carries M m c := by
  refine ⟨by rw [h0]; exact h, by rw [h0]; simp⟩
theorem carries_fix {M m c n} (h0 : m.size = some n) (h : MeetsBut m.odd M false c m.fmt) (hl : LenEq m.fmt n) : Carries M m c := by
  refine ⟨by rw [h0]; exact h, by rw [h0]; rintro _ ⟨⟩; exact hl⟩

theorem Carries.meets {M m c} (h : Carries M m c) : MeetsBut m.odd M true c m.fmt := by
  obtain ⟨h, -⟩ := h
  cases hs : m.size.isNone with
  | true => rw [hs] at h; exact h
  | false => rw [hs] at h; exact h.end

theorem Carries.weaken {M M' : Mode} {m c} (h : Carries M m c) (ht : M.T → M'.T) (hu : M.U → M'.U)
    (hs : M'.S → M.S) (hx : M'.X → M.X) : Carries M' m c := ⟨h.1.weaken ht hu hs hx, h.2⟩

/-- Every message of `tbl` is registered in `E` under its name, and its payload construct meets its format. -/
def Covers (M : Mode) (E : EnumDef) (cases : List (Int × Con UInt8)) (tbl : List MsgSpec) : Prop :=
  ∀ m ∈ tbl, m.sub = none ∧ lookupValue E.members m.op = some (upper m.name) ∧ lower (upper m.name) = m.name ∧ m.name ≠ "opcode" ∧
    ∃ c, (findCase m.op cases).getD passC = c ∧ Carries M m c

theorem covers_nil {M E cases} : Covers M E cases [] := fun _ h => nomatch h
theorem covers_consC {M E cases m tbl N c} (h1 : lookupValue E.members m.op = some N) (h2 : N = upper m.name ∧ lower N = m.name ∧ m.name ≠ "opcode" ∧ m.sub.isNone = true)
    (h3 : findCase m.op cases = some c) (h4 : Carries M m c) (h : Covers M E cases tbl) : Covers M E cases (m :: tbl) := by
  intro x hx
  rcases List.mem_cons.1 hx with rfl | hx
  · exact ⟨Option.isNone_iff_eq_none.1 h2.2.2.2, h2.1 ▸ h1, h2.1 ▸ h2.2.1, h2.2.2.1, c, by rw [h3]; rfl, h4⟩
  · exact h x hx

theorem covers_cons {M E cases m tbl N c} (h0 : m.size = none) (h1 : lookupValue E.members m.op = some N) (h2 : N = upper m.name ∧ lower N = m.name ∧ m.name ≠ "opcode" ∧ m.sub.isNone = true)
    (h3 : findCase m.op cases = some c) (h4 : Meets M true c m.fmt) (h : Covers M E cases tbl) : Covers M E cases (m :: tbl) :=
  covers_consC h1 h2 h3 (carries_var h0 h4.but) h

theorem covers_fix {M E cases m tbl N c n} (h0 : m.size = some n) (h1 : lookupValue E.members m.op = some N) (h2 : N = upper m.name ∧ lower N = m.name ∧ m.name ≠ "opcode" ∧ m.sub.isNone = true)
    (h3 : findCase m.op cases = some c) (hl : LenEq m.fmt n) (h4 : Meets M false c m.fmt) (h : Covers M E cases tbl) : Covers M E cases (m :: tbl) :=
  covers_consC h1 h2 h3 (carries_fix h0 h4.but hl) h

theorem covers_consBut {M E cases m tbl N c} (h0 : m.size = none) (h1 : lookupValue E.members m.op = some N) (h2 : N = upper m.name ∧ lower N = m.name ∧ m.name ≠ "opcode" ∧ m.sub.isNone = true)
    (h3 : findCase m.op cases = some c) (h4 : MeetsBut m.odd M true c m.fmt) (h : Covers M E cases tbl) : Covers M E cases (m :: tbl) :=
  covers_consC h1 h2 h3 (carries_var h0 h4) h

/-- Every sub-message of `tbl` has its number and key in the sub-opcode enumeration, and its payload construct meets its format. -/
def SubCovers (M : Mode) (E : EnumDef) (cases : List (Int × Con UInt8)) (tbl : List MsgSpec) : Prop :=
  ∀ m ∈ tbl, ∃ s, m.sub = some s ∧ lookupValue E.members s.num = some (upper s.key) ∧ lower (upper s.key) = s.key ∧
    s.key ≠ "subopcode" ∧ s.num < 256 ∧ ∃ c, (findCase s.num cases).getD passC = c ∧ Carries M m c

theorem subCovers_nil {M E cases} : SubCovers M E cases [] := fun _ h => nomatch h
theorem subCovers_consC {M E cases m tbl N c s} (h0 : m.sub = some s) (h1 : lookupValue E.members s.num = some N)
    (h2 : N = upper s.key ∧ lower N = s.key ∧ s.key ≠ "subopcode" ∧ s.num < 256)
    (h3 : findCase s.num cases = some c) (h4 : Carries M m c) (h : SubCovers M E cases tbl) :
    SubCovers M E cases (m :: tbl) := by
  intro x hx
  rcases List.mem_cons.1 hx with rfl | hx
  · exact ⟨s, h0, h2.1 ▸ h1, h2.1 ▸ h2.2.1, h2.2.2.1, h2.2.2.2, c, by rw [h3]; rfl, h4⟩
  · exact h x hx
theorem subCovers_cons {M E cases m tbl N c s} (hz : m.size = none) (h0 : m.sub = some s) (h1 : lookupValue E.members s.num = some N)
    (h2 : N = upper s.key ∧ lower N = s.key ∧ s.key ≠ "subopcode" ∧ s.num < 256)
    (h3 : findCase s.num cases = some c) (h4 : MeetsBut m.odd M true c m.fmt) (h : SubCovers M E cases tbl) :
    SubCovers M E cases (m :: tbl) := subCovers_consC h0 h1 h2 h3 (carries_var hz h4) h
theorem subCovers_fix {M E cases m tbl N c s n} (hz : m.size = some n) (h0 : m.sub = some s) (h1 : lookupValue E.members s.num = some N)
    (h2 : N = upper s.key ∧ lower N = s.key ∧ s.key ≠ "subopcode" ∧ s.num < 256)
    (h3 : findCase s.num cases = some c) (hl : LenEq m.fmt n) (h4 : MeetsBut m.odd M false c m.fmt) (h : SubCovers M E cases tbl) :
    SubCovers M E cases (m :: tbl) := subCovers_consC h0 h1 h2 h3 (carries_fix hz h4 hl) h

/-- Succeeds on `Covers` goals only. -/
macro "guard_covers" : tactic => `(tactic| with_reducible (refine id (α := Covers _ _ _ _) ?_))

/-- Prove a `Covers` statement entry by entry. -/
macro "covers" : tactic => `(tactic| repeat' first
  | exact covers_nil
  | refine covers_cons rfl (by rfl) (by dsimp only; decide +kernel) (by rfl) ?_ ?_
  | refine covers_fix rfl (by rfl) (by dsimp only; decide +kernel) (by rfl) (by dsimp only; lensc) ?_ ?_
  | (guard_covers; dsimp only)
  | meets1)


end BM
