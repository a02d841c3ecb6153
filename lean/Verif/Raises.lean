import Verif.Tables
import Verif.MeetsKeys
import Verif.MeetsProperty
import Verif.MeetsSensorMsg
/-!
# Which exceptions decoding can raise (C48): machinery

`Raises P Q c`: whatever the stream, parsing with `c` gives a value with `Q` or an exception with `P`.
-/
namespace BM

/-- Parsing gives a value that satisfies `Q` or an exception that satisfies `P`, in contexts that satisfy `I`. -/
def RaisesIn {α} (I : Dict → Prop) (P : Err → Prop) (Q : Val → Prop) (c : Con α) : Prop :=
  ∀ L ctx s, I ctx → (∀ e, c.parse L ctx s = .error e → P e) ∧ ∀ v r, c.parse L ctx s = .ok (v, r) → Q v

/-- … in every context. -/
def Raises {α} (P : Err → Prop) (Q : Val → Prop) (c : Con α) : Prop := RaisesIn (fun _ => True) P Q c

/-- A member of a structure raises only exceptions with `P` and turns `I` into `J`. -/
def RaisesI {α} (P : Err → Prop) (I J : Dict → Prop) (it : Item α) : Prop :=
  ∀ L acc s, I acc → (∀ e, it.parse L acc s = .error e → P e) ∧ ∀ d r, it.parse L acc s = .ok (d, r) → J d

/-- The members of a structure. -/
def RaisesIs {α} (P : Err → Prop) (I J : Dict → Prop) (its : List (Item α)) : Prop :=
  ∀ L acc s, I acc → (∀ e, parseItems L its acc s = .error e → P e) ∧ ∀ d r, parseItems L its acc s = .ok (d, r) → J d

/-- Anything. -/
abbrev anyV : Val → Prop := fun _ => True
abbrev anyD : Dict → Prop := fun _ => True

/-- An integer. -/
def IsInt (v : Val) : Prop := ∃ n : Int, asInt v = some n

/-- An entry of a dictionary is an integer that is not negative. -/
def HasNat (k : String) (d : Dict) : Prop := ∃ n : Int, ∃ v, dget d k = some v ∧ asInt v = some n ∧ 0 ≤ n

section
variable {α : Type} {P P' : Err → Prop} {Q Q' : Val → Prop} {I J : Dict → Prop} {c : Con α}

theorem RaisesIn.weaken (h : RaisesIn I P Q c) (hI : ∀ d, J d → I d) (hP : ∀ e, P e → P' e) (hQ : ∀ v, Q v → Q' v) : RaisesIn J P' Q' c :=
  fun L ctx s hc => ⟨fun e he => hP _ ((h L ctx s (hI _ hc)).1 e he), fun v r hv => hQ _ ((h L ctx s (hI _ hc)).2 v r hv)⟩

theorem Raises.weaken (h : Raises P Q c) (hP : ∀ e, P e → P' e) (hQ : ∀ v, Q v → Q' v) : Raises P' Q' c :=
  RaisesIn.weaken h (fun _ => id) hP hQ

theorem Raises.any (h : Raises P Q c) : Raises P anyV c := h.weaken (fun _ => id) (fun _ _ => trivial)

/-- A fixed number of bytes, never rejected. -/
theorem raises_take {n : Nat} {f : List α → Val} (hP : P .stream) (hQ : ∀ b, Q (f b))
    (hc : ∀ L ctx s, c.parse L ctx s = (do let (b, rest) ← takeN n s; .ok (f b, rest))) : Raises P Q c := by
  intro L ctx s _
  rw [hc]
  unfold takeN
  split
  · exact ⟨(by intro e h; cases h), (by intro v r h; injection h with h; injection h with h1 h2; subst h1; exact hQ _)⟩
  · exact ⟨(by intro e h; cases h; exact hP), (by intro v r h; cases h)⟩
end

section leaves
variable {P : Err → Prop} (hP : P .stream)
include hP
theorem raises_uint (n) : Raises P IsInt (uintLE n) := raises_take (f := fun b => .int (leNat b)) hP (fun _ => ⟨_, rfl⟩) (fun _ _ _ => rfl)
theorem raises_sint (n) : Raises P IsInt (sintLE n) := raises_take (f := fun b => .int (toSigned (256 ^ n) (leNat b))) hP (fun _ => ⟨_, rfl⟩) (fun _ _ _ => rfl)
theorem raises_bytesInt (n) : Raises P IsInt (bytesIntLE n) := raises_take (f := fun b => .int (leNat b)) hP (fun _ => ⟨_, rfl⟩) (fun _ _ _ => rfl)
theorem raises_bytesIntBE (n) : Raises P IsInt (bytesIntBE n) := raises_take (f := fun b => .int (leNat b.reverse)) hP (fun _ => ⟨_, rfl⟩) (fun _ _ _ => rfl)
theorem raises_bytesSInt (n) : Raises P IsInt (bytesSIntLE n) := raises_take (f := fun b => .int (toSigned (256 ^ n) (leNat b))) hP (fun _ => ⟨_, rfl⟩) (fun _ _ _ => rfl)
theorem raises_ubits (n) : Raises P IsInt (ubits n) := raises_take (f := fun b => .int (bitsNat b)) hP (fun _ => ⟨_, rfl⟩) (fun _ _ _ => rfl)
theorem raises_sbits (n) : Raises P IsInt (sbits n) := raises_take (f := fun b => .int (toSigned (2 ^ n) (bitsNat b))) hP (fun _ => ⟨_, rfl⟩) (fun _ _ _ => rfl)
theorem raises_flag : Raises P IsInt flag := raises_take (f := fun b => .bool (b != [0])) hP (fun _ => ⟨_, rfl⟩) (fun _ _ _ => rfl)
theorem raises_flagBit : Raises P IsInt flagBit := raises_take (f := fun b => .bool (b != [false])) hP (fun _ => ⟨_, rfl⟩) (fun _ _ _ => rfl)
theorem raises_bytesN (n) : Raises P (fun v => ∃ b, v = .bytes b) (bytesN n) := raises_take (f := fun b => .bytes b) hP (fun _ => ⟨_, rfl⟩) (fun _ _ _ => rfl)
theorem raises_bitList (n) : Raises P anyV (bitList n) := raises_take (f := fun b => .set (bitIndices 0 (bytesBits b))) hP (fun _ => trivial) (fun _ _ _ => rfl)
theorem raises_padding {α : Type} (z : α) (n) : Raises P anyV (padding z n) := raises_take (n := n) (f := fun _ => .none) hP (fun _ => trivial) (fun _ _ _ => rfl)
end leaves

theorem raises_pass {α} {P : Err → Prop} : Raises P anyV (passC : Con α) :=
  fun _ _ _ _ => ⟨(by intro e h; cases h), fun _ _ _ => trivial⟩
theorem raises_greedyBytes {P : Err → Prop} : Raises P anyV greedyBytes :=
  fun _ _ _ _ => ⟨(by intro e h; cases h), fun _ _ _ => trivial⟩

section
variable {α : Type} {P : Err → Prop} {Q Q' : Val → Prop} {I : Dict → Prop} {c : Con α}

theorem raises_adapter {dec enc : Lib → Val → R Val} (h : RaisesIn I P Q c)
    (hd : ∀ L v, Q v → (∀ e, dec L v = .error e → P e) ∧ ∀ v', dec L v = .ok v' → Q' v') : RaisesIn I P Q' (adapter c dec enc) := by
  intro L ctx s hc
  obtain ⟨h1, h2⟩ := h L ctx s hc
  simp only [adapter]
  cases hp : c.parse L ctx s with
  | error e => exact ⟨(by intro e' h; cases h; exact h1 _ hp), (by intro v r h; cases h)⟩
  | ok r =>
    obtain ⟨v, rest⟩ := r
    simp only [ok_bind]
    obtain ⟨g1, g2⟩ := hd L v (h2 _ _ hp)
    cases hv : dec L v with
    | error e => exact ⟨(by intro e' h; cases h; exact g1 _ hv), (by intro v r h; cases h)⟩
    | ok v' => exact ⟨(by intro e' h; cases h), (by intro v r h; simp only [ok_bind] at h; injection h with h; injection h with h _; subst h; exact g2 _ hv)⟩

theorem raises_enum (E : EnumDef) (h : Raises P Q c) (hv : P .validation) : Raises P IsInt (enumAdapter c E) := by
  refine raises_adapter h fun _ v _ => ?_
  unfold enumDecode
  cases hashInt v with
  | none => exact ⟨(by rintro e h; cases h; exact hv), (by rintro v h; cases h)⟩
  | some n =>
    dsimp only
    split
    · exact ⟨(by rintro e h; cases h), (by rintro v h; cases h; exact ⟨_, rfl⟩)⟩
    · exact ⟨(by rintro e h; cases h; exact hv), (by rintro v h; cases h)⟩

theorem raises_validator {p : Val → R Bool} (h : Raises P Q c) (hv : P .validation) (hp : ∀ v, Q v → ∃ b, p v = .ok b) : Raises P Q (validator c p) := by
  unfold validator
  refine raises_adapter (Q' := Q) h fun _ v hq => ?_
  obtain ⟨b, hb⟩ := hp v hq
  simp only [hb, ok_bind]
  cases b
  · exact ⟨(by rintro e h; cases h; exact hv), (by rintro v h; cases h)⟩
  · exact ⟨(by rintro e h; cases h), (by rintro v h; cases h; exact hq)⟩

theorem raises_range {mn mx : Option Int} (h : Raises P IsInt c) (hv : P .validation) : Raises P IsInt (rangeValidator c mn mx) := by
  refine raises_validator h hv ?_
  rintro v ⟨n, hn⟩
  have : ∃ q, asNum v = some q := by
    cases v <;> simp_all [asInt, asNum]
  obtain ⟨q, hq⟩ := this
  simp only [inRange, hq]
  exact ⟨_, rfl⟩

theorem raises_rebuild {f} (h : Raises P Q c) : Raises P Q (rebuild c f) := h
theorem raises_default {v} (h : Raises P Q c) : Raises P Q (defaultC c v) := h

theorem raises_reversed {n} (hP : P .stream) (h : Raises P Q c) : Raises P Q (reversed n c) := by
  intro L ctx s _
  simp only [reversed, takeN]
  split
  · simp only [ok_bind]
    obtain ⟨h1, h2⟩ := h L ctx (s.take n).reverse trivial
    cases hp : c.parse L ctx (s.take n).reverse with
    | error e => exact ⟨(by intro e' h; cases h; exact h1 _ hp), (by intro v r h; cases h)⟩
    | ok r => exact ⟨(by intro e' h; cases h), (by intro v r h; injection h with h; injection h with h _; subst h; exact h2 _ _ hp)⟩
  · exact ⟨(by intro e h; cases h; exact hP), (by intro v r h; cases h)⟩

theorem greedyLoop_err {p : List α → R (Val × List α)} : ∀ fuel s e, greedyLoop p fuel s = .error e → e = .diverge := by
  intro fuel
  induction fuel with
  | zero =>
    intro s e h
    unfold greedyLoop at h
    split at h
    · split at h <;> cases h; rfl
    · split at h <;> (try dsimp only at h) <;> cases h <;> rfl
  | succ n ih =>
    intro s e h
    unfold greedyLoop at h
    split at h
    · split at h <;> cases h; rfl
    · split at h
      · dsimp only at h
        rename_i v rest _ _
        cases hr : greedyLoop p n rest with
        | error e' => rw [hr] at h; cases h; exact ih _ _ hr
        | ok r => rw [hr] at h; cases h
      · cases h; rfl

theorem greedyLoop_all {p : List α → R (Val × List α)} (hQ : ∀ s v r, p s = .ok (v, r) → Q v) :
    ∀ fuel s vs r, greedyLoop p fuel s = .ok (vs, r) → ∀ v ∈ vs, Q v := by
  intro fuel
  induction fuel with
  | zero =>
    intro s vs r h
    unfold greedyLoop at h
    split at h
    · split at h <;> cases h; simp
    · split at h <;> (try dsimp only at h) <;> cases h
  | succ n ih =>
    intro s vs r h
    unfold greedyLoop at h
    split at h
    · split at h <;> cases h; simp
    · rename_i v rest hp
      split at h
      · dsimp only at h
        cases hr : greedyLoop p n rest with
        | error e' => rw [hr] at h; cases h
        | ok r' =>
          obtain ⟨vs', r'⟩ := r'
          rw [hr] at h
          injection h with h; injection h with h _; subst h
          intro x hx
          rcases List.mem_cons.1 hx with rfl | hx
          · exact hQ _ _ _ hp
          · exact ih _ _ _ hr x hx
      · cases h

theorem raises_greedy (hd : P .diverge) (hQ : ∀ L ctx s v r, c.parse L ctx s = .ok (v, r) → Q v) :
    Raises P (fun v => ∃ l, v = .list l ∧ ∀ x ∈ l, Q x) (greedyRange c) := by
  intro L ctx s _
  simp only [greedyRange]
  cases hp : greedyLoop (c.parse L ctx) s.length s with
  | error e => exact ⟨(by intro e' h; cases h; rw [greedyLoop_err _ _ _ hp]; exact hd), (by intro v r h; cases h)⟩
  | ok r =>
    obtain ⟨vs, rest⟩ := r
    exact ⟨(by intro e' h; cases h), (by intro v r h; injection h with h; injection h with h _; subst h; exact ⟨vs, rfl, greedyLoop_all (hQ L ctx) _ _ _ _ hp⟩)⟩

theorem raises_greedyRange (hd : P .diverge) : Raises P anyV (greedyRange c) :=
  (raises_greedy (Q := anyV) hd (fun _ _ _ _ _ _ => trivial)).any

theorem selectParse_err {L ctx} : ∀ {cs : List (Con α)} {s e}, selectParse L ctx cs s = .error e → e = .select ∨ e = .diverge
  | [], _, e, h => by cases h; exact .inl rfl
  | c :: cs, s, e, h => by
    unfold selectParse at h
    split at h
    · cases h
    · split at h
      · cases h; exact .inr rfl
      · exact selectParse_err h

theorem raises_select {cs : List (Con α)} (hs : P .select) (hd : P .diverge) : Raises P anyV (select cs) := by
  intro L ctx s _
  refine ⟨fun e h => ?_, fun _ _ _ => trivial⟩
  rcases selectParse_err h with rfl | rfl <;> assumption

theorem raises_named {alts : List (String × Con α)} (hs : P .select) (hd : P .diverge) : Raises P anyV (namedSelect alts) := raises_select hs hd

theorem parseMany_err {p : List α → R (Val × List α)} (hp : ∀ s e, p s = .error e → P e) : ∀ n s e, parseMany p n s = .error e → P e := by
  intro n
  induction n with
  | zero => intro s e h; cases h
  | succ n ih =>
    intro s e h
    unfold parseMany at h
    cases hv : p s with
    | error e' => rw [hv] at h; cases h; exact hp _ _ hv
    | ok r =>
      obtain ⟨v, t⟩ := r
      rw [hv] at h
      simp only [ok_bind] at h
      cases hr : parseMany p n t with
      | error e' => rw [hr] at h; cases h; exact ih _ _ hr
      | ok r' => rw [hr] at h; cases h

theorem raises_prefixedArray {len : Con α} (hl : Raises P IsInt len) (h : Raises P Q c) : Raises P anyV (prefixedArray len c) := by
  intro L ctx s _
  refine ⟨fun e he => ?_, fun _ _ _ => trivial⟩
  simp only [prefixedArray] at he
  cases hp : len.parse L ctx s with
  | error e' => rw [hp] at he; cases he; exact (hl L ctx s trivial).1 _ hp
  | ok r =>
    obtain ⟨v, t⟩ := r
    obtain ⟨n, hn⟩ := (hl L ctx s trivial).2 _ _ hp
    rw [hp] at he
    simp only [ok_bind, hn] at he
    cases hm : parseMany (c.parse L ctx) n.toNat t with
    | error e' => rw [hm] at he; cases he; exact parseMany_err (fun s e he => (h L ctx s trivial).1 e he) _ _ _ hm
    | ok r => rw [hm] at he; cases he

/-! ### Structures -/

theorem raisesI_field {k : String} (h : RaisesIn I P Q c) : RaisesI P I anyD (field k c) := by
  intro L acc s hc
  obtain ⟨h1, h2⟩ := h L acc s hc
  refine ⟨fun e he => ?_, fun _ _ _ => trivial⟩
  simp only [field] at he
  cases hp : c.parse L acc s with
  | error e' => rw [hp] at he; cases he; exact h1 _ hp
  | ok r => rw [hp] at he; cases he

theorem raisesI_anon (h : RaisesIn I P Q c) : RaisesI P I anyD (anon c) := by
  intro L acc s hc
  obtain ⟨h1, h2⟩ := h L acc s hc
  refine ⟨fun e he => ?_, fun _ _ _ => trivial⟩
  simp only [anon] at he
  cases hp : c.parse L acc s with
  | error e' => rw [hp] at he; cases he; exact h1 _ hp
  | ok r => rw [hp] at he; cases he

theorem raisesIs_nil : RaisesIs P I anyD ([] : List (Item α)) := by
  intro L acc s _
  exact ⟨(by intro e h; cases h), fun _ _ _ => trivial⟩

theorem raisesIs_cons {it : Item α} {its : List (Item α)} {I J K : Dict → Prop} (h : RaisesI P I J it) (hs : RaisesIs P J K its) : RaisesIs P I K (it :: its) := by
  intro L acc s hc
  obtain ⟨h1, h2⟩ := h L acc s hc
  simp only [parseItems]
  cases hp : it.parse L acc s with
  | error e => exact ⟨(by intro e' h; cases h; exact h1 _ hp), (by intro v r h; cases h)⟩
  | ok r =>
    obtain ⟨d, t⟩ := r
    simp only [ok_bind]
    exact hs L d t (h2 _ _ hp)

theorem raises_struct {its : List (Item α)} (h : RaisesIs P anyD anyD its) : Raises P (fun v => ∃ d, v = .dict d) (struct its) := by
  intro L ctx s _
  obtain ⟨h1, h2⟩ := h L [] s trivial
  simp only [struct]
  cases hp : parseItems L its [] s with
  | error e => exact ⟨(by intro e' h; cases h; exact h1 _ hp), (by intro v r h; cases h)⟩
  | ok r => exact ⟨(by intro e' h; cases h), (by intro v r h; injection h with h; injection h with h _; subst h; exact ⟨_, rfl⟩)⟩

theorem raisesI_embedded {its : List (Item α)} (h : RaisesIs P anyD anyD its) : RaisesI P anyD anyD (embedded its) := by
  intro L acc s _
  obtain ⟨h1, h2⟩ := h L [] s trivial
  refine ⟨fun e he => ?_, fun _ _ _ => trivial⟩
  simp only [embedded] at he
  cases hp : parseItems L its [] s with
  | error e => rw [hp] at he; cases he; exact h1 _ hp
  | ok r => rw [hp] at he; cases he
end

section
variable {P : Err → Prop} {Q : Val → Prop}

theorem raises_bitwise {n} {c : Con Bool} (hP : P .stream) (h : Raises P Q c) : Raises P Q (bitwise n c) := by
  intro L ctx s _
  simp only [bitwise, takeN]
  split
  · simp only [ok_bind]
    obtain ⟨h1, h2⟩ := h L ctx (bytesBits (s.take n)) trivial
    cases hp : c.parse L ctx (bytesBits (s.take n)) with
    | error e => exact ⟨(by intro e' h; cases h; exact h1 _ hp), (by intro v r h; cases h)⟩
    | ok r => exact ⟨(by intro e' h; cases h), (by intro v r h; injection h with h; injection h with h _; subst h; exact h2 _ _ hp)⟩
  · exact ⟨(by intro e h; cases h; exact hP), (by intro v r h; cases h)⟩

theorem raisesI_bits {name n rev} {its : List (Item Bool)} (hP : P .stream) (h : RaisesIs P anyD anyD its) :
    RaisesI P anyD anyD (embeddedBitStruct name n rev its) := by
  intro L acc s _
  refine ⟨fun e he => ?_, fun _ _ _ => trivial⟩
  simp only [embeddedBitStruct] at he
  have hc : Raises P (fun v => ∃ d, v = .dict d) (if rev = true then reversed n (bitwise n (struct its)) else bitwise n (struct its)) := by
    split
    · exact raises_reversed hP (raises_bitwise hP (raises_struct h))
    · exact raises_bitwise hP (raises_struct h)
  revert he hc
  generalize (if rev = true then reversed n (bitwise n (struct its)) else bitwise n (struct its)) = c
  intro he hc
  obtain ⟨h1, h2⟩ := hc L acc s trivial
  cases hp : c.parse L acc s with
  | error e => rw [hp] at he; cases he; exact h1 _ hp
  | ok r =>
    obtain ⟨v, t⟩ := r
    obtain ⟨d, rfl⟩ := h2 _ _ hp
    rw [hp] at he; cases he

theorem findCase_raises {k : Int} : ∀ {cases : List (Int × Con UInt8)} {c}, findCase k cases = some c → (k, c) ∈ cases
  | (n, c') :: cs, c, h => by
    unfold findCase at h
    split at h
    · cases h; rename_i hn; subst hn; exact List.mem_cons_self
    · exact List.mem_cons_of_mem _ (findCase_raises h)

theorem raises_caseOf {cases : List (Int × Con UInt8)} (k : Val) (h : ∀ q ∈ cases, Raises P anyV q.2) : Raises P anyV (caseOf k cases passC) := by
  unfold caseOf
  split
  · rename_i n _
    cases hf : findCase n cases with
    | none => exact raises_pass
    | some c => exact h _ (findCase_raises hf)
  · exact raises_pass

end
end BM
