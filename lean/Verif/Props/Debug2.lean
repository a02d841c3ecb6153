import Verif.Props.Readings
import Verif.Props.Vendor
import Verif.Props.Scheduler
/-!
# C45: parameters of the second debug model, and list sizes, that are sent again
-/
namespace BM.Props
open Tables F Spec

/-! ### Specification -/

/-- The kinds of parameters whose values have a fixed number of bytes: number, name and size. -/
def paramSizes : List (Nat × String × Nat) := [
  (0, "uint8", 1), (1, "uint16", 2), (2, "uint32", 4), (3, "uint64", 8), (4, "int8", 1), (5, "int16", 2), (6, "int32", 4), (7, "int64", 8),
  (8, "float", 4), (9, "double", 8), (10, "enum", 1)]

/-- One parameter as received: the number of its kind, and the bytes after it. -/
structure Param where
  kind : Nat
  value : List UInt8

/-- The bytes are a value of the kind: a number, text in UTF-8 after its length, bytes after their number, or nothing. -/
def Param.Valid (p : Param) : Prop :=
  (∃ name, (p.kind, name, p.value.length) ∈ paramSizes) ∨
  (p.kind = 11 ∧ ∃ t : String, t.toByteArray.data.toList.length < 256 ∧ p.value = UInt8.ofNat t.toByteArray.data.toList.length :: t.toByteArray.data.toList) ∨
  (p.kind = 12 ∧ ∃ xs : List UInt8, xs.length < 256 ∧ p.value = UInt8.ofNat xs.length :: xs) ∨
  (p.kind = 255 ∧ p.value = [])

/-- The number that `n` bytes stand for in two's complement, least significant byte first. -/
def twosComplement (b : List UInt8) : Int := if 2 * leNat b < 256 ^ b.length then leNat b else (leNat b : Int) - 256 ^ b.length

/-- What the application sees of a parameter: its kind, and the value under the name of the kind. -/
def Param.Shown (p : Param) (v : Val) : Prop :=
  ∃ name w, v = .dict [("data_type", .enum "DebugV2DataTypes" p.kind), (name, w)] ∧
    (∀ n, (p.kind, name, n) ∈ paramSizes →
      w = if p.kind = 8 ∨ p.kind = 9 then .fbits p.value.length (leNat p.value)
          else if 4 ≤ p.kind ∧ p.kind ≤ 7 then .int (twosComplement p.value) else .int (leNat p.value)) ∧
    (p.kind ≤ 10 → ∃ n, (p.kind, name, n) ∈ paramSizes) ∧
    (p.kind = 11 → name = "string" ∧ ∃ t : String, p.value.tail = t.toByteArray.data.toList ∧ w = .str t) ∧
    (p.kind = 12 → name = "array" ∧ w = .list (p.value.tail.map fun x => .int x.toNat)) ∧
    (p.kind = 255 → name = "invalid" ∧ w = .dict [])

/-- The value is a floating point number that is not a number. -/
def Param.NaN (p : Param) : Prop := (p.kind = 8 ∨ p.kind = 9) ∧ NanBits p.value.length (leNat p.value)

/-- The next parameter of `s` is `p`, and `rest` follows it. -/
def NextParam (s : List UInt8) (p : Param) (rest : List UInt8) : Prop :=
  p.Valid ∧ s = UInt8.ofNat p.kind :: (p.value ++ rest)

/-- All parameters of `s`, up to the first that cannot be read. -/
inductive Params : List UInt8 → List Param → List UInt8 → Prop
  | stop {s} (h : ∀ p rest, ¬ NextParam s p rest) : Params s [] s
  | next {s p t ps rest} (h : NextParam s p t) (hs : Params t ps rest) : Params s (p :: ps) rest

/-! ### Values -/

/-- The construct `c` reads and writes the values of kind `k`, shown as `f` says. -/
def HandlesKind (c : Con UInt8) (k : Nat) (f : List UInt8 → Val → Prop) : Prop :=
  (∀ b, Param.Valid ⟨k, b⟩ → ∃ w, f b w ∧ (∀ L ctx rest, c.parse L ctx (b ++ rest) = .ok (w, rest)) ∧
    (¬ Param.NaN ⟨k, b⟩ → ∀ L' ctx', ∃ o, c.build L' ctx' w = .ok (b, o))) ∧
  (∀ L ctx s, (∀ b rest, Param.Valid ⟨k, b⟩ → s ≠ b ++ rest) → ∃ e, c.parse L ctx s = .error e ∧ e ≠ .diverge)

theorem handles_of {c : Con UInt8} {G : Fmt UInt8} {k f} (h : Meets lossless false c G)
    (h1 : ∀ b, Param.Valid ⟨k, b⟩ → ∃ w, f b w ∧ G w b w) (h2 : ∀ u b v, G u b v → Param.Valid ⟨k, b⟩) : HandlesKind c k f := by
  constructor
  · intro b hb
    obtain ⟨w, hw, hg⟩ := h1 b hb
    exact ⟨w, hw, fun L ctx rest => h.dec hg L ctx rest (by simp), fun _ L' ctx' => h.enc hg L' ctx' (fun t => absurd t id)⟩
  · intro L ctx s hs
    cases hp : c.parse L ctx s with
    | error e => exact ⟨e, rfl, fun he => h.nodiv L ctx s (he ▸ hp)⟩
    | ok x =>
      obtain ⟨v, rest⟩ := x
      obtain ⟨b, hb, hg⟩ := h.exact trivial hp
      exact absurd hb (hs b rest (h2 _ _ _ hg))

/-- Only the sizes matter for the kinds of fixed size. -/
theorem valid_fixed {k n : Nat} {name : String} (h : (k, name, n) ∈ paramSizes) (b : List UInt8) : Param.Valid ⟨k, b⟩ ↔ b.length = n := by
  have hk : k ≤ 10 := by
    revert h; simp [paramSizes]; omega
  unfold Param.Valid
  dsimp only
  constructor
  · rintro (⟨name', h'⟩ | ⟨rfl, -⟩ | ⟨rfl, -⟩ | ⟨rfl, -⟩)
    · revert h h'; simp [paramSizes]; omega
    · omega
    · omega
    · omega
  · rintro rfl; exact .inl ⟨name, h⟩

theorem valid_text (b : List UInt8) : Param.Valid ⟨11, b⟩ ↔ ∃ t, (utf8 t).length < 256 ∧ b = UInt8.ofNat (utf8 t).length :: utf8 t := by
  unfold Param.Valid
  dsimp only
  constructor
  · rintro (⟨name', h'⟩ | ⟨-, h⟩ | ⟨h, -⟩ | ⟨h, -⟩)
    · simp [paramSizes] at h'
    · exact h
    · simp at h
    · simp at h
  · intro h; exact .inr (.inl ⟨rfl, h⟩)

theorem valid_array (b : List UInt8) : Param.Valid ⟨12, b⟩ ↔ ∃ xs : List UInt8, xs.length < 256 ∧ b = UInt8.ofNat xs.length :: xs := by
  unfold Param.Valid
  dsimp only
  constructor
  · rintro (⟨name', h'⟩ | ⟨h, -⟩ | ⟨-, h⟩ | ⟨h, -⟩)
    · simp [paramSizes] at h'
    · simp at h
    · exact h
    · simp at h
  · intro h; exact .inr (.inr (.inl ⟨rfl, h⟩))

theorem valid_invalid (b : List UInt8) : Param.Valid ⟨255, b⟩ ↔ b = [] := by
  unfold Param.Valid
  dsimp only
  constructor
  · rintro (⟨name', h'⟩ | ⟨h, -⟩ | ⟨h, -⟩ | ⟨-, h⟩)
    · simp [paramSizes] at h'
    · simp at h
    · simp at h
    · exact h
  · intro h; exact .inr (.inr (.inr ⟨rfl, h⟩))

theorem handles_uint {k n : Nat} {name : String} (h : (k, name, n) ∈ paramSizes) :
    HandlesKind (uintLE n) k fun b w => w = .int (leNat b) := by
  refine handles_of (meets_uint n) (fun b hb => ?_) (fun u b v hg => ?_)
  · rw [valid_fixed h] at hb
    exact ⟨_, rfl, leNat b, rfl, trivial, hb, rfl, rfl⟩
  · obtain ⟨_, _, _, hl, -⟩ := hg
    exact (valid_fixed h b).2 hl

theorem signed_eq (b : List UInt8) : toSigned (256 ^ b.length) (leNat b) = twosComplement b := by
  unfold toSigned twosComplement
  push_cast
  rfl

theorem handles_sint {k n : Nat} {name : String} (h : (k, name, n) ∈ paramSizes) (hn : 0 < n) :
    HandlesKind (sintLE n) k fun b w => w = .int (twosComplement b) := by
  refine handles_of (meets_sint n hn) (fun b hb => ?_) (fun u b v hg => ?_)
  · rw [valid_fixed h] at hb
    subst hb
    exact ⟨_, rfl, _, rfl, rfl, signed_eq b, rfl⟩
  · obtain ⟨_, _, hl, -⟩ := hg
    exact (valid_fixed h b).2 hl

theorem handles_text : HandlesKind pascalString 11 fun b w => ∃ t : String, b.tail = t.toByteArray.data.toList ∧ w = .str t := by
  refine handles_of meets_pascalText (fun b hb => ?_) (fun u b v hg => ?_)
  · obtain ⟨t, ht, rfl⟩ := (valid_text b).1 hb
    exact ⟨.str t, ⟨t, rfl, rfl⟩, t, rfl, ht, rfl, rfl⟩
  · obtain ⟨t, -, ht, hb, -⟩ := hg
    exact (valid_text b).2 ⟨t, ht, hb⟩

theorem many_bytes (xs : List UInt8) : manyRel (F.uint 1) (xs.map fun x => Val.int x.toNat) xs (xs.map fun x => Val.int x.toNat) := by
  induction xs with
  | nil => exact ⟨rfl, rfl⟩
  | cons x xs ih => exact ⟨[x], xs, _, _, rfl, rfl, ⟨x.toNat, rfl, trivial, rfl, by simp [leNat], rfl⟩, ih⟩

theorem many_length {us b vs} (h : manyRel (F.uint 1) us b vs) : b.length = us.length := by
  induction us generalizing b vs with
  | nil => obtain ⟨rfl, -⟩ := h; rfl
  | cons u us ih =>
    obtain ⟨b1, b2, v, vs', rfl, rfl, ⟨_, _, _, hl, -⟩, h⟩ := h
    simp [hl, ih h]; omega

theorem handles_array : HandlesKind (prefixedArray (uintLE 1) (uintLE 1)) 12 fun b w => w = .list (b.tail.map fun x => .int x.toNat) := by
  refine handles_of (meets_withCount 1 (meets_uint 1)) (fun b hb => ?_) (fun u b v hg => ?_)
  · obtain ⟨xs, hx, rfl⟩ := (valid_array b).1 hb
    refine ⟨_, rfl, xs.map fun x => Val.int x.toNat, xs.map fun x => Val.int x.toNat, xs, rfl, by simpa using hx, many_bytes xs, ?_, rfl⟩
    simp [leBytes_one]
  · obtain ⟨us, vs, p, -, hl, hm, rfl, -⟩ := hg
    have := many_length hm
    refine (valid_array _).2 ⟨p, by omega, ?_⟩
    rw [this, leBytes_one]; rfl

theorem handles_invalid : HandlesKind (struct []) 255 fun _ w => w = .dict [] := by
  refine ⟨fun b hb => ?_, fun L ctx s hs => ?_⟩
  · obtain rfl := (valid_invalid b).1 hb
    exact ⟨_, rfl, fun L ctx rest => rfl, fun _ L' ctx' => ⟨_, rfl⟩⟩
  · exact absurd rfl (hs [] s ((valid_invalid []).2 rfl))

variable [Platform]

theorem handles_float {k n : Nat} {name : String} (h : (k, name, n) ∈ paramSizes) (hk : k = 8 ∨ k = 9) (hn : n = 4 ∨ n = 8) :
    HandlesKind (DebugV2.floatLE n) k fun b w => w = .fbits b.length (leNat b) := by
  refine ⟨fun b hb => ?_, fun L ctx s hs => ?_⟩
  · have hb := (valid_fixed h b).1 hb
    subst hb
    refine ⟨_, rfl, fun L ctx rest => by simp only [DebugV2.floatLE, takeN_append (b := b) (rest := rest) rfl, ok_bind], fun hnan L' ctx' => ?_⟩
    have := Platform.packF_bits b.length (leNat b) hn (leNat_lt b) (fun hx => hnan ⟨hk, hx⟩)
    refine ⟨.fbits b.length (leNat b), ?_⟩
    simp only [DebugV2.floatLE, this, ok_bind, leBytes_leNat]
  · by_cases hl : s.length < n
    · exact ⟨.stream, by simp only [DebugV2.floatLE, takeN_short hl, error_bind], by simp⟩
    · exact absurd (List.take_append_drop n s).symm (hs _ _ ((valid_fixed h _).2 (by simp; omega)))

/-- Every kind has a construct, and the name under which it is shown. -/
theorem kinds_handled {k : Nat} (h : ∃ b, Param.Valid ⟨k, b⟩) : ∃ c N, lookupValue E.DebugV2DataTypes.members (k : Nat) = some N ∧
    findCase (k : Nat) DebugV2.parameterCases = some c ∧ k < 256 ∧ lower N ≠ "data_type" ∧
    HandlesKind c k fun b w => Param.Shown ⟨k, b⟩ (.dict [("data_type", .enum "DebugV2DataTypes" k), (lower N, w)]) := by
  have mono : ∀ {c f g}, HandlesKind c k f → (∀ b w, f b w → g b w) → HandlesKind c k g := by
    intro c f g h hfg
    exact ⟨fun b hb => let ⟨w, h1, h2⟩ := h.1 b hb; ⟨w, hfg b w h1, h2⟩, h.2⟩
  have fixed : ∀ {c N n}, (k, lower N, n) ∈ paramSizes → lookupValue E.DebugV2DataTypes.members (k : Nat) = some N →
      findCase (k : Nat) DebugV2.parameterCases = some c →
      HandlesKind c k (fun b w => w = if k = 8 ∨ k = 9 then .fbits b.length (leNat b)
          else if 4 ≤ k ∧ k ≤ 7 then .int (twosComplement b) else .int (leNat b)) → 
      ∃ c N, lookupValue E.DebugV2DataTypes.members (k : Nat) = some N ∧
        findCase (k : Nat) DebugV2.parameterCases = some c ∧ k < 256 ∧ lower N ≠ "data_type" ∧
        HandlesKind c k fun b w => Param.Shown ⟨k, b⟩ (.dict [("data_type", .enum "DebugV2DataTypes" k), (lower N, w)]) := by
    intro c N n h1 h2 h3 h4
    have hk : k ≤ 10 := by revert h1; simp [paramSizes]; omega
    exact ⟨c, N, h2, h3, by omega, (fun he => by rw [he] at h1; simp [paramSizes] at h1), mono h4 fun b w hw => ⟨_, _, rfl, fun _ _ => hw, fun _ => ⟨n, h1⟩, by dsimp only; omega, by dsimp only; omega, by dsimp only; omega⟩⟩
  obtain ⟨b, ⟨name, h⟩ | ⟨h, -⟩ | ⟨h, -⟩ | ⟨h, -⟩⟩ := h
  · simp only [paramSizes, List.mem_cons, List.not_mem_nil, Prod.mk.injEq, or_false] at h
    rcases h with ⟨rfl, -⟩ | ⟨rfl, -⟩ | ⟨rfl, -⟩ | ⟨rfl, -⟩ | ⟨rfl, -⟩ | ⟨rfl, -⟩ | ⟨rfl, -⟩ | ⟨rfl, -⟩ | ⟨rfl, -⟩ | ⟨rfl, -⟩ | ⟨rfl, -⟩
    · exact fixed (N := "UINT8") (n := 1) (by decide) rfl rfl (handles_uint (name := "uint8") (by decide))
    · exact fixed (N := "UINT16") (n := 2) (by decide) rfl rfl (handles_uint (name := "uint16") (by decide))
    · exact fixed (N := "UINT32") (n := 4) (by decide) rfl rfl (handles_uint (name := "uint32") (by decide))
    · exact fixed (N := "UINT64") (n := 8) (by decide) rfl rfl (handles_uint (name := "uint64") (by decide))
    · exact fixed (N := "INT8") (n := 1) (by decide) rfl rfl (handles_sint (name := "int8") (by decide) (by decide))
    · exact fixed (N := "INT16") (n := 2) (by decide) rfl rfl (handles_sint (name := "int16") (by decide) (by decide))
    · exact fixed (N := "INT32") (n := 4) (by decide) rfl rfl (handles_sint (name := "int32") (by decide) (by decide))
    · exact fixed (N := "INT64") (n := 8) (by decide) rfl rfl (handles_sint (name := "int64") (by decide) (by decide))
    · exact fixed (N := "FLOAT") (n := 4) (by decide) rfl rfl (handles_float (name := "float") (by decide) (.inl rfl) (.inl rfl))
    · exact fixed (N := "DOUBLE") (n := 8) (by decide) rfl rfl (handles_float (name := "double") (by decide) (.inr rfl) (.inr rfl))
    · exact fixed (N := "ENUM") (n := 1) (by decide) rfl rfl (handles_uint (name := "enum") (by decide))
  · dsimp only at h
    subst h
    exact ⟨_, "STRING", rfl, rfl, by decide, by decide, mono handles_text fun b w hw => ⟨_, _, rfl, by simp [paramSizes], by simp, fun _ => ⟨by decide, hw⟩, by simp, by simp⟩⟩
  · dsimp only at h
    subst h
    exact ⟨_, "ARRAY", rfl, rfl, by decide, by decide, mono handles_array fun b w hw => ⟨_, _, rfl, by simp [paramSizes], by simp, by simp, fun _ => ⟨by decide, hw⟩, by simp⟩⟩
  · dsimp only at h
    subst h
    exact ⟨_, "INVALID", rfl, rfl, by decide, by decide, mono handles_invalid fun b w hw => ⟨_, _, rfl, by simp [paramSizes], by simp, by simp, by simp, fun _ => ⟨by decide, hw⟩⟩⟩

/-! ### Parameters -/

theorem param_read {s p t} (h : NextParam s p t) (L : Lib) (ctx : Dict) :
    ∃ v, DebugV2.parameter.parse L ctx s = .ok (v, t) ∧ p.Shown v ∧
      (¬ p.NaN → ∀ L' ctx', ∃ o, DebugV2.parameter.build L' ctx' v = .ok (UInt8.ofNat p.kind :: p.value, o)) := by
  obtain ⟨k, b⟩ := p
  obtain ⟨hv, rfl⟩ := h
  dsimp only at hv ⊢
  obtain ⟨c, N, hN, hc, hk, hne, hh⟩ := kinds_handled ⟨b, hv⟩
  obtain ⟨w, hw, hp, hb⟩ := hh.1 b hv
  have hkb : ((UInt8.ofNat k).toNat : Int) = k := by simp; omega
  have hhas : E.DebugV2DataTypes.has (k : Int) = true := by
    simp only [EnumDef.has, List.any_eq_true, beq_iff_eq]
    exact ⟨_, lookupValue_mem hN, rfl⟩
  have hai : asInt (.enum E.DebugV2DataTypes.cls k) = some (k : Int) := rfl
  have hcase : caseOf (.enum E.DebugV2DataTypes.cls k) DebugV2.parameterCases passC = c := by
    rw [caseOf, show hashInt (.enum E.DebugV2DataTypes.cls k) = some (k : Int) from rfl]
    simp only [hc, Option.getD_some]
  have hkp : ∀ L ctx rest, (enumAdapter (uintLE 1) E.DebugV2DataTypes).parse L ctx (UInt8.ofNat k :: rest) = .ok (.enum E.DebugV2DataTypes.cls k, rest) := by
    intro L ctx rest
    simp only [enumAdapter, adapter, uintLE, takeN_one, ok_bind, enumDecode, hashInt, asInt, leNat, Nat.mul_zero, Nat.add_zero, hkb, hhas, if_true]
  refine ⟨_, ?_, hw, fun hn L' ctx' => ?_⟩
  · simp only [DebugV2.parameter, switchStruct, hkp, ok_bind, hai, hN, hcase, hp]
    rfl
  · obtain ⟨o, ho⟩ := hb hn L' [("data_type", .enum E.DebugV2DataTypes.cls k), ("parameter", w)]
    have hcall : E.DebugV2DataTypes.call (.enum "DebugV2DataTypes" k) = .ok (.enum E.DebugV2DataTypes.cls k) := by
      simp only [EnumDef.call, hashInt, asInt, hhas, if_true]
    have hg : dget [("data_type", .enum "DebugV2DataTypes" (k : Int)), (lower N, w)] "data_type" = some (.enum "DebugV2DataTypes" k) := rfl
    have hg' : dget [("data_type", .enum "DebugV2DataTypes" (k : Int)), (lower N, w)] (lower N) = some w := by
      simp [dget, hne.symm]
    refine ⟨.dict [("data_type", .enum "DebugV2DataTypes" (k : Int)), (lower N, w)], ?_⟩
    simp only [DebugV2.parameter, switchStruct, dgetE, hg, ok_bind, hcall, hai, hN, hcase, hg', subkey_build hk hhas L' _ (k := .enum E.DebugV2DataTypes.cls k) rfl, ho]
    rfl

theorem param_fails {s} (h : ∀ p t, ¬ NextParam s p t) (L : Lib) (ctx : Dict) : ∃ e, DebugV2.parameter.parse L ctx s = .error e ∧ e ≠ .diverge := by
  match s with
  | [] => exact ⟨.stream, rfl, by simp⟩
  | x :: s =>
    have hx : UInt8.ofNat x.toNat = x := by simp
    by_cases hk : ∃ b, Param.Valid ⟨x.toNat, b⟩
    · obtain ⟨c, N, hN, hc, hk, hne, hh⟩ := kinds_handled hk
      have hhas : E.DebugV2DataTypes.has (x.toNat : Int) = true := by
        simp only [EnumDef.has, List.any_eq_true, beq_iff_eq]
        exact ⟨_, lookupValue_mem hN, rfl⟩
      have hai : asInt (.enum E.DebugV2DataTypes.cls x.toNat) = some (x.toNat : Int) := rfl
      have hcase : caseOf (.enum E.DebugV2DataTypes.cls x.toNat) DebugV2.parameterCases passC = c := by
        rw [caseOf, show hashInt (.enum E.DebugV2DataTypes.cls x.toNat) = some (x.toNat : Int) from rfl]
        simp only [hc, Option.getD_some]
      obtain ⟨e, he, hde⟩ := hh.2 L [("data_type", .enum E.DebugV2DataTypes.cls x.toNat)] s (by
        rintro b rest hv rfl
        exact h ⟨x.toNat, b⟩ rest ⟨hv, by rw [hx]⟩)
      have hkp := subkey_parse (E := E.DebugV2DataTypes) hk hhas L ctx s
      rw [hx] at hkp
      exact ⟨e, by simp only [DebugV2.parameter, switchStruct, hkp, ok_bind, hai, hN, hcase, he, error_bind], hde⟩
    · have hh : E.DebugV2DataTypes.has (x.toNat : Int) = false := by
        rw [Bool.eq_false_iff]
        intro hh
        apply hk
        have all : ∀ k : Fin 256, E.DebugV2DataTypes.has (k.val : Int) = true → k.val ≤ 12 ∨ k.val = 255 := by decide +kernel
        have hcase := all ⟨x.toNat, x.toNat_lt⟩ hh
        dsimp only at hcase
        have hx : x.toNat ≤ 10 ∨ x.toNat = 11 ∨ x.toNat = 12 ∨ x.toNat = 255 := by omega
        rcases hx with hx | hx | hx | hx
        · have size : ∀ k : Fin 11, ∃ y ∈ paramSizes, y.1 = k.val := by decide
          obtain ⟨⟨k, name, n⟩, hy, he⟩ := size ⟨x.toNat, by omega⟩
          dsimp only at he
          subst he
          exact ⟨List.replicate n 0, .inl ⟨name, by simpa using hy⟩⟩
        · rw [hx]; exact ⟨_, (valid_text _).2 ⟨"", by decide, rfl⟩⟩
        · rw [hx]; exact ⟨_, (valid_array _).2 ⟨[], by decide, rfl⟩⟩
        · rw [hx]; exact ⟨_, (valid_invalid _).2 rfl⟩
      refine ⟨.validation, ?_, by simp⟩
      simp only [DebugV2.parameter, switchStruct, enumAdapter, adapter, uintLE, takeN_one, ok_bind, enumDecode, hashInt, asInt, leNat, Nat.mul_zero, Nat.add_zero,
        hh]
      rfl

omit [Platform] in
theorem Param.Valid.kind_lt {p : Param} (h : p.Valid) : p.kind < 256 := by
  rcases h with ⟨name, h⟩ | ⟨h, -⟩ | ⟨h, -⟩ | ⟨h, -⟩
  · revert h; simp [paramSizes]; omega
  all_goals omega

omit [Platform] in
theorem NextParam.shorter {s p t} (h : NextParam s p t) : t.length < s.length := by
  obtain ⟨-, rfl⟩ := h
  simp; omega

theorem NextParam.unique {s p t p' t'} (h : NextParam s p t) (h' : NextParam s p' t') : p' = p ∧ t' = t := by
  let L : Lib := ⟨fun _ _ _ => .error .value, fun _ _ _ => .error .value, fun _ _ _ => ⟨_, rfl⟩, fun _ _ _ => ⟨_, rfl⟩⟩
  obtain ⟨v, h1, -⟩ := param_read h L []
  obtain ⟨v', h2, -⟩ := param_read h' L []
  rw [h1] at h2
  simp only [Except.ok.injEq, Prod.mk.injEq] at h2
  obtain ⟨-, rfl⟩ := h2
  obtain ⟨hv, rfl⟩ := h
  obtain ⟨hv', he⟩ := h'
  have k1 := hv.kind_lt
  have k2 := hv'.kind_lt
  obtain ⟨k, b⟩ := p
  obtain ⟨k', b'⟩ := p'
  dsimp only at he k1 k2
  simp only [List.cons.injEq, List.append_cancel_right_eq] at he
  obtain ⟨h1, rfl⟩ := he
  have := congrArg UInt8.toNat h1
  simp at this
  have : k' = k := by omega
  subst this
  exact ⟨rfl, rfl⟩

/-- **C45 (which parameters).** Every list of parameters consists of parameters followed by bytes that cannot be read, in one way. -/
theorem C45_params (s : List UInt8) : ∃ ps rest, Params s ps rest ∧ ∀ ps' rest', Params s ps' rest' → ps' = ps ∧ rest' = rest := by
  induction hn : s.length using Nat.strong_induction_on generalizing s with
  | _ n ih =>
    by_cases h : ∃ r t, NextParam s r t
    · obtain ⟨r, t, h⟩ := h
      obtain ⟨rs, rest, h1, h2⟩ := ih t.length (hn ▸ h.shorter) t rfl
      refine ⟨r :: rs, rest, .next h h1, fun rs' rest' h' => ?_⟩
      cases h' with
      | stop h' => exact absurd h (h' r t)
      | next h3 h4 =>
        obtain ⟨rfl, rfl⟩ := h.unique h3
        obtain ⟨rfl, rfl⟩ := h2 _ _ h4
        exact ⟨rfl, rfl⟩
    · push_neg at h
      refine ⟨[], s, .stop h, fun rs' rest' h' => ?_⟩
      cases h' with
      | stop h' => exact ⟨rfl, rfl⟩
      | next h3 h4 => exact absurd h3 (h _ _)

theorem params_elements {s ps rest} (h : Params s ps rest) (L : Lib) (ctx : Dict) :
    ∃ vs t, s = t ++ rest ∧ Elements DebugV2.parameter L ctx s vs rest ∧ List.Forall₂ Param.Shown ps vs ∧
      ((∀ p ∈ ps, ¬ p.NaN) → ∀ L' ctx', buildMany (DebugV2.parameter.build L' ctx') vs = .ok t) ∧ ∀ r t, ¬ NextParam rest r t := by
  induction h with
  | stop h => exact ⟨[], [], rfl, .nil _, .nil, fun _ _ _ => rfl, h⟩
  | @next s p s' ps rest h _ ih =>
    obtain ⟨v, h1, h2, h3⟩ := param_read h L ctx
    obtain ⟨vs, t, rfl, i2, i3, i4, i5⟩ := ih
    obtain ⟨-, rfl⟩ := h
    refine ⟨v :: vs, UInt8.ofNat p.kind :: (p.value ++ t), by simp, .cons h1 i2, .cons h2 i3, fun hn L' ctx' => ?_, i5⟩
    obtain ⟨o, ho⟩ := h3 (hn p List.mem_cons_self) L' ctx'
    simp [buildMany, ho, i4 (fun p hp => hn p (List.mem_cons_of_mem _ hp)) L' ctx']

/-- **C45 (debug parameters sent again).** Every message of the second debug model with a known sub-opcode is read: the application sees its
parameters up to the first that cannot be read.  Unless one of them is a floating point number that is not a number, sending what was read
sends the bytes of all these parameters again. -/
theorem C45_message (L : Lib) (op ty pg : UInt8) (hop : op.toNat ≤ 3) (s : List UInt8) : ∃ ps t rest vs, Params s ps rest ∧ s = t ++ rest ∧
    accessParse registry L (0xEB :: 0x36 :: 0x01 :: op :: ty :: pg :: s) = .ok (.dict [("opcode", .enum "DebugV2Opcode" 0xEB3601),
      ("silvair_debug_v2", .dict [("subopcode", .enum "DebugV2SubOpcode" op.toNat), ("parameter_type", .int ty.toNat), ("page_number", .int pg.toNat),
        ("payload", .list vs)])], rest) ∧
    List.Forall₂ Param.Shown ps vs ∧
    ((∀ p ∈ ps, ¬ p.NaN) → ∀ L', (accessBuild registry L' (.dict [("opcode", .enum "DebugV2Opcode" 0xEB3601),
      ("silvair_debug_v2", .dict [("subopcode", .enum "DebugV2SubOpcode" op.toNat), ("parameter_type", .int ty.toNat), ("page_number", .int pg.toNat),
        ("payload", .list vs)])])).map Prod.fst = .ok (0xEB :: 0x36 :: 0x01 :: op :: ty :: pg :: t)) := by
  obtain ⟨ps, rest, hr, -⟩ := C45_params s
  obtain ⟨vs, t, hst, h1, h2, h3, h5⟩ := params_elements hr L
    [("subopcode", .enum "DebugV2SubOpcode" op.toNat), ("parameter_type", .int ty.toNat), ("page_number", .int pg.toNat)]
  have he : (E.DebugV2Opcode, debugV2Cases) ∈ registry := by inreg
  have hN : ("SILVAIR_DEBUG_V2", ((0xEB3601 : Nat) : Int)) ∈ E.DebugV2Opcode.members := List.mem_of_getElem? (i := 0) rfl
  have hlow : lower "SILVAIR_DEBUG_V2" = "silvair_debug_v2" := by decide
  have hcase : findCase ((0xEB3601 : Nat) : Int) debugV2Cases = some DebugV2.subMessage := rfl
  have hw : wireOpcode 0xEB3601 = [0xEB, 0x36, 0x01] := by decide
  have hop' : (UInt8.ofNat op.toNat) = op := by simp
  have hhas : E.DebugV2SubOpcode.has (op.toNat : Int) = true := by
    have all : ∀ k : Fin 4, E.DebugV2SubOpcode.has (k.val : Int) = true := by decide
    exact all ⟨op.toNat, by omega⟩
  have hpo := subkey_parse (E := E.DebugV2SubOpcode) op.toNat_lt hhas
  rw [hop'] at hpo
  have hbo := subkey_build (E := E.DebugV2SubOpcode) op.toNat_lt hhas
  rw [hop'] at hbo
  have hcls : E.DebugV2SubOpcode.cls = "DebugV2SubOpcode" := rfl
  refine ⟨ps, t, rest, vs, hr, hst, ?_, h2, fun hn L' => ?_⟩
  · have := C04_parse he hN L (op :: ty :: pg :: s)
    obtain ⟨e, he, hde⟩ := param_fails h5 L [("subopcode", .enum "DebugV2SubOpcode" op.toNat), ("parameter_type", .int ty.toNat), ("page_number", .int pg.toNat)]
    have hlt : ∀ s v t, DebugV2.parameter.parse L [("subopcode", .enum "DebugV2SubOpcode" op.toNat), ("parameter_type", .int ty.toNat),
        ("page_number", .int pg.toNat)] s = .ok (v, t) → t.length < s.length := by
      intro s v t h
      have := minLen_switchStruct (minLen_enum (minLen_uint 1)) debugV2_min h
      omega
    have hg := C21_exactly hlt h1 he hde
    rw [hw] at this
    simp only [hcase, Option.getD_some, hlow, List.cons_append, List.nil_append] at this
    rw [this]
    have hu : ∀ ctx (x : UInt8) s, (uintLE 1).parse L ctx (x :: s) = .ok (.int x.toNat, s) := by
      intro ctx x s; simp [uintLE, takeN_one, leNat]
    simp only [DebugV2.subMessage, struct_parse, parseItems, field, hpo, hcls, ok_bind, hu]
    have hd : dset (dset (dset [] "subopcode" (.enum "DebugV2SubOpcode" op.toNat)) "parameter_type" (.int ty.toNat)) "page_number" (.int pg.toNat) =
      [("subopcode", .enum "DebugV2SubOpcode" op.toNat), ("parameter_type", .int ty.toNat), ("page_number", .int pg.toNat)] := rfl
    rw [hd, hg]
    rfl
  · have := C04_build he hN (by decide) L' (d := [("opcode", .enum "DebugV2Opcode" 0xEB3601), ("silvair_debug_v2", .dict [("subopcode",
      .enum "DebugV2SubOpcode" op.toNat), ("parameter_type", .int ty.toNat), ("page_number", .int pg.toNat), ("payload", .list vs)])])
      (k := .enum "DebugV2Opcode" 0xEB3601) rfl (.inl rfl)
    rw [this]
    have hg : dget [("opcode", .enum "DebugV2Opcode" 0xEB3601), ("silvair_debug_v2", .dict [("subopcode", .enum "DebugV2SubOpcode" op.toNat),
      ("parameter_type", .int ty.toNat), ("page_number", .int pg.toNat), ("payload", .list vs)])] "silvair_debug_v2" = some (.dict [("subopcode",
      .enum "DebugV2SubOpcode" op.toNat), ("parameter_type", .int ty.toNat), ("page_number", .int pg.toNat), ("payload", .list vs)]) := rfl
    simp only [hlow, hg, Option.some_or, hcase, Option.getD_some, hw]
    generalize hd : ([("subopcode", .enum "DebugV2SubOpcode" op.toNat), ("parameter_type", .int ty.toNat), ("page_number", .int pg.toNat),
      ("payload", .list vs)] : Dict) = d
    have d1 : dget d "subopcode" = some (.enum "DebugV2SubOpcode" op.toNat) := by rw [← hd]; rfl
    have d2 : dget d "parameter_type" = some (.int ty.toNat) := by rw [← hd]; rfl
    have d3 : dget d "page_number" = some (.int pg.toNat) := by rw [← hd]; rfl
    have d4 : dget d "payload" = some (.list vs) := by rw [← hd]; rfl
    have hb : ∀ c : Con UInt8, c = enumAdapter (uintLE 1) E.DebugV2SubOpcode ∨ c = uintLE 1 ∨ c = greedyRange DebugV2.parameter → c.buildNone = false := by
      rintro c (rfl | rfl | rfl) <;> rfl
    have hu : ∀ ctx (x : UInt8), (uintLE 1).build L' ctx (.int x.toNat) = .ok ([x], .int x.toNat) :=
      fun ctx x => uint_of_bytes (p := [x]) rfl (by simp [asInt, leNat]) L' ctx
    have hgb : ∀ ctx, (greedyRange DebugV2.parameter).build L' ctx (.list vs) = .ok (t, .list vs) := by
      intro ctx; simp only [greedyRange, iter, ok_bind, h3 hn L' ctx]
    have ho : ∀ ctx, (enumAdapter (uintLE 1) E.DebugV2SubOpcode).build L' ctx (.enum "DebugV2SubOpcode" op.toNat) = .ok ([op], .enum "DebugV2SubOpcode" op.toNat) :=
      fun ctx => hbo L' ctx rfl
    simp only [DebugV2.subMessage, struct, asDict, ok_bind, buildItems, field, hb _ (.inl rfl), hb _ (.inr (.inl rfl)), hb _ (.inr (.inr rfl)), Bool.false_eq_true, if_false,
      dgetE_eq d1, dgetE_eq d2, dgetE_eq d3, dgetE_eq d4, ok_bind, ho, hu, hgb]
    simp [Except.map]

theorem debug2_fails (L : Lib) (ctx : Dict) {s : List UInt8} (h : s.length < 3 ∨ ∃ op ∈ s.head?, 3 < op.toNat) :
    ∃ e, DebugV2.subMessage.parse L ctx s = .error e := by
  match s, h with
  | [], _ => exact ⟨.stream, rfl⟩
  | op :: s, h =>
    by_cases hop : op.toNat ≤ 3
    · have hop' : (UInt8.ofNat op.toNat) = op := by simp
      have hhas : E.DebugV2SubOpcode.has (op.toNat : Int) = true := by
        have all : ∀ k : Fin 4, E.DebugV2SubOpcode.has (k.val : Int) = true := by decide
        exact all ⟨op.toNat, by omega⟩
      have hpo := subkey_parse (E := E.DebugV2SubOpcode) op.toNat_lt hhas
      rw [hop'] at hpo
      have hlen : s.length < 2 := by
        rcases h with h | ⟨x, hx, h⟩
        · simp at h; omega
        · simp at hx; subst hx; omega
      match s, hlen with
      | [], _ => exact ⟨.stream, by simp only [DebugV2.subMessage, struct_parse, parseItems, field, hpo, ok_bind]; rfl⟩
      | [x], _ => exact ⟨.stream, by simp only [DebugV2.subMessage, struct_parse, parseItems, field, hpo, ok_bind]; rfl⟩
    · have hh : E.DebugV2SubOpcode.has (op.toNat : Int) = false := by
        have all : ∀ k : Fin 256, 3 < k.val → E.DebugV2SubOpcode.has (k.val : Int) = false := by decide +kernel
        exact all ⟨op.toNat, op.toNat_lt⟩ (by dsimp only; omega)
      refine ⟨.validation, ?_⟩
      simp only [DebugV2.subMessage, struct_parse, parseItems, field, enumAdapter, adapter, uintLE, takeN_one, ok_bind, enumDecode, hashInt, asInt, leNat,
        Nat.mul_zero, Nat.add_zero, hh]
      rfl

/-- **C45 (unknown sub-opcodes).** A message of the second debug model that is too short, or whose sub-opcode is unknown, is an error. -/
theorem C45_message_fails (L : Lib) {s : List UInt8} (h : s.length < 3 ∨ ∃ op ∈ s.head?, 3 < op.toNat) :
    ∃ e, accessParse registry L (0xEB :: 0x36 :: 0x01 :: s) = .error e := by
  have he : (E.DebugV2Opcode, debugV2Cases) ∈ registry := by inreg
  have hN : ("SILVAIR_DEBUG_V2", ((0xEB3601 : Nat) : Int)) ∈ E.DebugV2Opcode.members := List.mem_of_getElem? (i := 0) rfl
  have hcase : findCase ((0xEB3601 : Nat) : Int) debugV2Cases = some DebugV2.subMessage := rfl
  have hw : wireOpcode 0xEB3601 = [0xEB, 0x36, 0x01] := by decide
  have := C04_parse he hN L s
  rw [hw, hcase] at this
  simp only [Option.getD_some, List.cons_append, List.nil_append] at this
  rw [this]
  obtain ⟨e, he⟩ := debug2_fails L [("opcode", .enum E.DebugV2Opcode.cls (0xEB3601 : Nat))] h
  exact ⟨e, by rw [he]; rfl⟩

/-! ### Sizes of the replay list -/

omit [Platform] in
theorem size_new (L : Lib) (ctx : Dict) (c0 c1 z0 z1 : UInt8) (rest : List UInt8) : Debug.arapListSizeStatus.parse L ctx (c0 :: c1 :: z0 :: z1 :: rest) =
    .ok (.dict [("capacity", .int ((c0.toNat + 256 * c1.toNat : Nat) : Int)), ("size", .int ((z0.toNat + 256 * z1.toNat : Nat) : Int)), ("_name", .str "new")], rest) := by
  have t : ∀ (x y : UInt8) r, (uintLE 2).parse L [] (x :: y :: r) = .ok (.int ((x.toNat + 256 * y.toNat : Nat) : Int), r) := by
    intro x y r; simp [uintLE, takeN, leNat]
  simp [Debug.arapListSizeStatus, namedSelect, select, selectParse, nameAdapter, struct_parse, parseItems, field, uintLE, takeN, leNat, dset]

omit [Platform] in
theorem size_old (L : Lib) (ctx : Dict) (c z : UInt8) {rest : List UInt8} (h : rest.length < 2) : Debug.arapListSizeStatus.parse L ctx (c :: z :: rest) =
    .ok (.dict [("capacity", .int c.toNat), ("size", .int z.toNat), ("_name", .str "old")], rest) := by
  match rest, h with
  | [], _ => simp [Debug.arapListSizeStatus, namedSelect, select, selectParse, nameAdapter, struct_parse, parseItems, field, uintLE, takeN, leNat, dset]
  | [x], _ => simp [Debug.arapListSizeStatus, namedSelect, select, selectParse, nameAdapter, struct_parse, parseItems, field, uintLE, takeN, leNat, dset]

omit [Platform] in
theorem size_err (L : Lib) (ctx : Dict) {s : List UInt8} (h : s.length < 2) : ∃ e, Debug.arapListSizeStatus.parse L ctx s = .error e := by
  match s, h with
  | [], _ => exact ⟨_, rfl⟩
  | [x], _ => exact ⟨_, rfl⟩

theorem size_build (L : Lib) (ctx : Dict) {c z : List UInt8} (hc : c.length = 2) (hz : z.length = 2) (form : String) :
    ∃ o, Debug.arapListSizeStatus.build L ctx (.dict [("capacity", .int (leNat c)), ("size", .int (leNat z)), ("_name", .str form)]) = .ok (c ++ z, o) := by
  have h1 : ∀ ctx, (uintLE 2).build L ctx (.int (leNat c)) = .ok (c, .int (leNat c)) := fun ctx => uint_of_bytes hc rfl L ctx
  have h2 : ∀ ctx, (uintLE 2).build L ctx (.int (leNat z)) = .ok (z, .int (leNat z)) := fun ctx => uint_of_bytes hz rfl L ctx
  have hb : (uintLE 2).buildNone = false := rfl
  generalize hd : ([("capacity", .int (leNat c)), ("size", .int (leNat z)), ("_name", .str form)] : Dict) = d
  have d1 : dget d "capacity" = some (.int (leNat c)) := by rw [← hd]; rfl
  have d2 : dget d "size" = some (.int (leNat z)) := by rw [← hd]; rfl
  have d3 : dget d "new" = none := by rw [← hd]; rfl
  refine ⟨.dict d, ?_⟩
  simp only [Debug.arapListSizeStatus, namedSelect, select, List.map, selectBuild, nameAdapter, d3, Option.getD_none, struct, asDict, ok_bind, buildItems, field,
    hb, Bool.false_eq_true, if_false, dgetE_eq d1, dgetE_eq d2, h1, h2]
  simp

/-- **C45 (list sizes).** A size status of the replay list is read in the new form if there are at least four bytes after the sub-opcode, and
sent again as these four bytes.  With two or three bytes it is read in the old form, with the two numbers in a byte each, and is sent again
in the new form, with the same numbers.  With fewer bytes it is an error. -/
theorem C45_list_size (L : Lib) (s : List UInt8) :
    let shown (form : String) (c z : Nat) : Val := .dict [("opcode", .enum "DebugOpcode" 0xF53601), ("silvair_debug", .dict [
      ("subopcode", .enum "DebugSubOpcode" 0x22), ("arap_list_size_status", .dict [("capacity", .int c), ("size", .int z), ("_name", .str form)])])]
    let sends (v : Val) (p : List UInt8) : Prop := ∀ L', (accessBuild registry L' v).map Prod.fst = .ok (0xF5 :: 0x36 :: 0x01 :: 0x22 :: p)
    (∀ c0 c1 z0 z1 rest, s = c0 :: c1 :: z0 :: z1 :: rest →
      accessParse registry L (0xF5 :: 0x36 :: 0x01 :: 0x22 :: s) = .ok (shown "new" (c0.toNat + 256 * c1.toNat) (z0.toNat + 256 * z1.toNat), rest) ∧
      sends (shown "new" (c0.toNat + 256 * c1.toNat) (z0.toNat + 256 * z1.toNat)) [c0, c1, z0, z1]) ∧
    (∀ c z rest, s = c :: z :: rest → rest.length < 2 →
      accessParse registry L (0xF5 :: 0x36 :: 0x01 :: 0x22 :: s) = .ok (shown "old" c.toNat z.toNat, rest) ∧
      sends (shown "old" c.toNat z.toNat) [c, 0, z, 0]) ∧
    (s.length < 2 → ∃ e, accessParse registry L (0xF5 :: 0x36 :: 0x01 :: 0x22 :: s) = .error e) := by
  intro shown sends
  have hV : (⟨0xF53601, "DebugOpcode", "silvair_debug", E.DebugSubOpcode, debugParamsCases⟩ : Vendor) ∈ vendorTable := List.mem_of_getElem? (i := 0) rfl
  have hN : lookupValue E.DebugSubOpcode.members ((0x22 : Nat) : Int) = some "ARAP_LIST_SIZE_STATUS" := rfl
  have hp := C33_parse hV hN (by decide) L s
  have hw : wireOpcode 0xF53601 = [0xF5, 0x36, 0x01] := by decide
  have hcase : findCase ((0x22 : Nat) : Int) debugParamsCases = some Debug.arapListSizeStatus := rfl
  have hlow : lower "ARAP_LIST_SIZE_STATUS" = "arap_list_size_status" := by decide
  dsimp only at hp
  rw [hw, hcase, hlow, Option.getD_some] at hp
  simp only [List.cons_append, List.nil_append] at hp
  have hsend : ∀ form (c z : List UInt8), c.length = 2 → z.length = 2 → sends (shown form (leNat c) (leNat z)) (c ++ z) := by
    intro form c z hc hz L'
    have hb := C33_build hV hN (by decide) L' (d := [("opcode", .enum "DebugOpcode" 0xF53601), ("silvair_debug", .dict [
      ("subopcode", .enum "DebugSubOpcode" 0x22), ("arap_list_size_status", .dict [("capacity", .int (leNat c)), ("size", .int (leNat z)), ("_name", .str form)])])])
      (d' := [("subopcode", .enum "DebugSubOpcode" 0x22), ("arap_list_size_status", .dict [("capacity", .int (leNat c)), ("size", .int (leNat z)), ("_name", .str form)])])
      (k := .enum "DebugOpcode" 0xF53601) (k' := .enum "DebugSubOpcode" 0x22) rfl (.inl rfl) rfl rfl rfl
    dsimp only at hb
    rw [hlow, hcase, Option.getD_some, hw] at hb
    show (accessBuild registry L' (.dict [("opcode", .enum "DebugOpcode" 0xF53601), ("silvair_debug", .dict [
      ("subopcode", .enum "DebugSubOpcode" 0x22), ("arap_list_size_status", .dict [("capacity", .int (leNat c)), ("size", .int (leNat z)), ("_name", .str form)])])])).map Prod.fst = _
    rw [hb]
    obtain ⟨o, ho⟩ := size_build L' [("subopcode", .enum E.DebugSubOpcode.cls (0x22 : Nat)), ("payload",
      .dict [("capacity", .int (leNat c)), ("size", .int (leNat z)), ("_name", .str form)])] hc hz form
    have hg : dget [("subopcode", .enum "DebugSubOpcode" 0x22), ("arap_list_size_status", .dict [("capacity", .int (leNat c)), ("size", .int (leNat z)), ("_name", .str form)])]
      "arap_list_size_status" = some (.dict [("capacity", .int (leNat c)), ("size", .int (leNat z)), ("_name", .str form)]) := rfl
    simp only [hg, Option.some_or, ho]
    rfl
  refine ⟨?_, ?_, ?_⟩
  · rintro c0 c1 z0 z1 rest rfl
    refine ⟨?_, ?_⟩
    · rw [size_new] at hp
      exact hp
    · have := hsend "new" [c0, c1] [z0, z1] rfl rfl
      simpa [leNat] using this
  · rintro c z rest rfl hr
    refine ⟨?_, ?_⟩
    · rw [size_old _ _ _ _ hr] at hp
      exact hp
    · have := hsend "old" [c, 0] [z, 0] rfl rfl
      simpa [leNat] using this
  · intro h
    obtain ⟨e, he⟩ := size_err L [("subopcode", .enum E.DebugSubOpcode.cls (0x22 : Nat))] h
    rw [he] at hp
    exact ⟨e, hp⟩

/-! ### Sets of numbers -/

/-- **C45 (entries).** Any bytes are read as the set of the entry numbers; what is sent again has every number once. -/
theorem C45_entries (L : Lib) (s : List UInt8) : ∃ (S : List Int) (b : List UInt8),
    accessParse registry L (schedHeader 0x0D ++ s) = .ok (schedReport 0x0D (.dict [("entry_ids", .set S)]), []) ∧
    (∀ k, k ∈ S ↔ ∃ x ∈ s, (x.toNat : Int) = k) ∧ S.Pairwise (· < ·) ∧
    (∀ L', (accessBuild registry L' (schedReport 0x0D (.dict [("entry_ids", .set S)]))).map Prod.fst = .ok (schedHeader 0x0D ++ b)) ∧
    b.Nodup ∧ ∀ x, x ∈ b ↔ x ∈ s := by
  obtain ⟨S, -, h2, h3⟩ := intSet_ok (vs := s.map fun x => .int x.toNat) (ks := s.map fun x => (x.toNat : Int)) (by simp [asInt])
  have hS : ∀ k, k ∈ S ↔ ∃ x ∈ s, (x.toNat : Int) = k := by intro k; rw [h2]; simp
  have hnat : ∀ k ∈ S, 0 ≤ k ∧ k < 256 := by
    intro k hk
    obtain ⟨x, -, rfl⟩ := (hS k).1 hk
    have := x.toNat_lt
    omega
  have hlist : (S.map Int.toNat).map (fun (n : Nat) => Val.int (n : Int)) = S.map Val.int := by
    rw [List.map_map]
    apply List.map_congr_left
    intro k hk
    have := hnat k hk
    simp only [Function.comp, Val.int.injEq]
    omega
  refine ⟨S, (S.map Int.toNat).map UInt8.ofNat, ?_, hS, h3, fun L' => ?_, ?_, ?_⟩
  · have := (C28_entries_any_order L (xs := s.map UInt8.toNat) (s := S) (u := .list ((s.map UInt8.toNat).map fun (n : Nat) => .int (n : Int)))
      (d := [("opcode", .int 0xE83601), ("params", .dict [("subopcode", .int 0x0D), ("payload", .dict [("entry_ids",
        .list ((s.map UInt8.toNat).map fun (n : Nat) => .int (n : Int)))])])])
      (by intro n hn; obtain ⟨x, -, rfl⟩ := List.mem_map.1 hn; exact x.toNat_lt) (by intro k; rw [hS]; simp) h3 rfl
      ⟨⟨_, rfl, .inl rfl⟩, _, rfl, ⟨_, rfl, rfl⟩, rfl⟩).2
    rwa [List.map_map, show (UInt8.ofNat ∘ UInt8.toNat) = id by funext x; simp, List.map_id] at this
  · exact (C28_entries_any_order L' (xs := S.map Int.toNat) (s := S) (u := .set S) (d := [("opcode", .enum "RRuleSchedulerOpcode" 0xE83601),
      ("silvair_rrule_scheduler", .dict [("subopcode", .enum "RRuleSchedulerSubOpcode" 0x0D), ("payload", .dict [("entry_ids", .set S)])])])
      (by intro n hn; obtain ⟨k, hk, rfl⟩ := List.mem_map.1 hn; have := hnat k hk; omega)
      (by
        intro k
        constructor
        · intro hk; exact ⟨k.toNat, List.mem_map.2 ⟨k, hk, rfl⟩, by have := hnat k hk; omega⟩
        · rintro ⟨n, hn, rfl⟩
          obtain ⟨k, hk, rfl⟩ := List.mem_map.1 hn
          have := hnat k hk
          rwa [show ((k.toNat : Nat) : Int) = k by omega]) h3 (by rw [hlist]; rfl)
      ⟨⟨_, rfl, .inl rfl⟩, _, rfl, ⟨_, rfl, rfl⟩, rfl⟩).1
  · rw [List.map_map]
    refine (List.nodup_map_iff_inj_on (h3.imp (fun h => by omega))).2 ?_
    intro a ha b hb he
    have ha := hnat a ha
    have hb := hnat b hb
    have := congrArg UInt8.toNat he
    simp at this
    omega
  · intro x
    rw [List.map_map, List.mem_map]
    constructor
    · rintro ⟨k, hk, rfl⟩
      obtain ⟨y, hy, rfl⟩ := (hS k).1 hk
      simpa using hy
    · intro hx
      exact ⟨x.toNat, (hS _).2 ⟨x, hx, rfl⟩, by simp⟩

/-! Examples: a byte, a text and a float are read and sent again; what follows the unknown kind 0x10 is not; a size in the old form is
sent in the new form. -/

example : Params [0x00, 0x05, 0x0B, 0x02, 0x68, 0x69, 0x08, 0x00, 0x00, 0x80, 0x3F, 0x10, 0x00]
    [⟨0, [0x05]⟩, ⟨11, [0x02, 0x68, 0x69]⟩, ⟨8, [0x00, 0x00, 0x80, 0x3F]⟩] [0x10, 0x00] := by
  refine .next (t := [0x0B, 0x02, 0x68, 0x69, 0x08, 0x00, 0x00, 0x80, 0x3F, 0x10, 0x00]) ⟨.inl ⟨"uint8", by decide⟩, rfl⟩
    (.next (t := [0x08, 0x00, 0x00, 0x80, 0x3F, 0x10, 0x00]) ⟨.inr (.inl ⟨rfl, "hi", by decide, by decide⟩), rfl⟩
    (.next (t := [0x10, 0x00]) ⟨.inl ⟨"float", by decide⟩, rfl⟩ (.stop ?_)))
  rintro ⟨k, b⟩ rest ⟨hv, he⟩
  have hk := hv.kind_lt
  dsimp only at he hk
  simp only [List.cons.injEq] at he
  have : k = 0x10 := by
    have := congrArg UInt8.toNat he.1
    simp at this
    omega
  subst this
  rcases hv with ⟨name, h⟩ | ⟨h, -⟩ | ⟨h, -⟩ | ⟨h, -⟩ <;> simp [paramSizes] at h

example : ¬ Param.NaN ⟨8, [0x00, 0x00, 0x80, 0x3F]⟩ := by
  unfold Param.NaN NanBits
  decide

end BM.Props
