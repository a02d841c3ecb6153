import Verif.MeetsProperty
/-!
# Values of device properties (C17)
-/
namespace BM.Props
open F Spec

/-- A scale of the package: number of decimals rounded to (0: none), resolution as written in the code, the number meant, and whether
values are whole numbers. -/
structure Scale where
  digits : Nat
  res : Res
  unit : Rat
  whole : Bool := false

/-- The scales used by the package (properties.py, silvair messages): 1, 1/64, 1/65535, the decimal fractions, and 1 and 1000 for whole
numbers. -/
def scales : List Scale := [
  ⟨0, .f 1, 1, false⟩, ⟨0, .f (fdiv 1 64), 1 / 64, false⟩, ⟨0, .f (fdiv 1 65535), rnd (1 / 65535), false⟩, ⟨1, .f (rnd (1 / 2)), 1 / 2, false⟩,
  ⟨1, .f (rnd (1 / 10)), 1 / 10, false⟩, ⟨2, .f (rnd (1 / 100)), 1 / 100, false⟩, ⟨3, .f (rnd (1 / 1000)), 1 / 1000, false⟩,
  ⟨4, .f (rnd (1 / 10000)), 1 / 10000, false⟩, ⟨5, .f (rnd (1 / 100000)), 1 / 100000, false⟩, ⟨1, .i 1, 1, true⟩, ⟨1, .i 1000, 1000, true⟩]

theorem scales_ok {s : Scale} (h : s ∈ scales) : CountOK s.digits s.res s.unit s.whole := by
  simp only [scales, List.mem_cons, List.not_mem_nil, or_false] at h
  rcases h with rfl | rfl | rfl | rfl | rfl | rfl | rfl | rfl | rfl | rfl | rfl <;> dsimp only <;> countok

/-- The value of the count `n`: `unknown` (the largest float) for the reserved count; otherwise the float nearest to
`n` units - or `n` units exactly. -/
def Scale.value (s : Scale) (reserved : Option Int) (n : Int) : Val :=
  if reserved = some n then .flt floatMax else if s.whole then .int (n * s.unit.num) else .flt (rnd (n * s.unit))

/-- The all-ones count, if `unknown` is allowed. -/
def reserved (w : Nat) (unknown : Bool) : Option Int := if unknown then some ((256 ^ w : Nat) - 1) else none

theorem count_roundtrip {s : Scale} (hs : s ∈ scales) {w : Nat} {unk : Bool} {n : Int} (hn : |n| < 2 ^ 33)
    {c : Con UInt8} {b : List UInt8} {L : Lib} {ctx : Dict} {rest : List UInt8} (hp : c.parse L ctx (b ++ rest) = .ok (.int n, rest))
    (hb : ∀ ctx, ∃ o, c.build L ctx (.int n) = .ok (b, o)) :
    (defaultCount c w s.digits s.res unk).parse L ctx (b ++ rest) = .ok (s.value (reserved w unk) n, rest) ∧
    ∃ o, (defaultCount c w s.digits s.res unk).build L ctx (s.value (reserved w unk) n) = .ok (b, o) := by
  have hok := scales_ok hs
  by_cases hu : unk = true ∧ n = (256 ^ w : Nat) - 1
  · have e : s.value (reserved w unk) n = .flt floatMax := by simp [Scale.value, reserved, hu.1, hu.2]
    rw [e]
    constructor
    · simp [defaultCount, adapter, hp, countDecode, asInt, hu.1, hu.2]
    · obtain ⟨o, ho⟩ := hb ctx
      refine ⟨.flt floatMax, ?_⟩
      have hc : countEncode w s.res unk (.flt floatMax) = .ok (.int n) := by rw [countEncode_num rfl, if_pos ⟨hu.1, rfl⟩, hu.2]
      simp [defaultCount, adapter, hc, ho]
  · have e : s.value (reserved w unk) n = countValue s.unit s.whole n := by
      unfold Scale.value reserved countValue
      rw [if_neg]
      intro h
      split at h
      · exact hu ⟨by assumption, by injection h with h; exact h.symm⟩
      · cases h
    rw [e]
    constructor
    · simp [defaultCount, adapter, hp, hok.dec hn hu]
    · obtain ⟨x, hx, hne, hr⟩ := hok.num hn
      obtain ⟨o, ho⟩ := hb ctx
      refine ⟨countValue s.unit s.whole n, ?_⟩
      have hc : countEncode w s.res unk (countValue s.unit s.whole n) = .ok (.int n) := by
        rw [countEncode_num hx, if_neg (fun h => hne h.2), hok.val, hr]
      simp [defaultCount, adapter, hc, ho]

/-- **C17 (unsigned).** Every unsigned raw value of a scaled field of up to four bytes is reported as the nearest float to its
exact value (all ones: as unknown, where the field has it), and what is reported is written back as the same bytes. -/
theorem C17_unsigned {s : Scale} (hs : s ∈ scales) {w k : Nat} (hw : w ≤ 4) (hk : k < 256 ^ w) (unk : Bool) {c : Con UInt8}
    (hc : c = uintLE w ∨ c = bytesIntLE w) (L : Lib) (ctx : Dict) (rest : List UInt8) :
    (defaultCount c w s.digits s.res unk).parse L ctx (leBytes w k ++ rest) = .ok (s.value (reserved w unk) k, rest) ∧
    ∃ o, (defaultCount c w s.digits s.res unk).build L ctx (s.value (reserved w unk) k) = .ok (leBytes w k, o) := by
  have hg : uint w (.int k) (leBytes w k) (.int k) := ⟨k, rfl, trivial, leBytes_length _ _, leNat_leBytes _ _ hk, rfl⟩
  have hn : |(k : Int)| < 2 ^ 33 := by
    have h2 : (256 : Nat) ^ w ≤ 256 ^ 4 := Nat.pow_le_pow_right (by norm_num) hw
    rw [abs_of_nonneg (by omega)]; norm_num at h2 ⊢; omega
  have hm : Meets ⟨False, True, True, True⟩ false c (uint w) := by
    rcases hc with rfl | rfl
    · exact meets_uint w
    · exact meets_bytesInt w trivial
  exact count_roundtrip hs hn (hm.dec hg L ctx rest (by simp)) (fun ctx => hm.enc hg L ctx False.elim)

/-- **C17 (signed).** Likewise for signed fields (whose reserved count, where there is one, lies outside the field). -/
theorem C17_signed {s : Scale} (hs : s ∈ scales) {w : Nat} {b : List UInt8} (h0 : 0 < w) (hw : w ≤ 4) (hb : b.length = w) (unk : Bool)
    (L : Lib) (ctx : Dict) (rest : List UInt8) :
    let n := toSigned (256 ^ w) (leNat b)
    (defaultCount (sintLE w) w s.digits s.res unk).parse L ctx (b ++ rest) = .ok (s.value none n, rest) ∧
    ∃ o, (defaultCount (sintLE w) w s.digits s.res unk).build L ctx (s.value none n) = .ok (b, o) := by
  intro n
  have hg : sint w (.int n) b (.int n) := ⟨n, rfl, hb, rfl, rfl⟩
  have hn : |n| < 2 ^ 33 := by
    obtain ⟨n', h1, -, h3, -⟩ := intFmt_sint h0 hw hg
    simp only [asInt, Option.some.injEq] at h1; rw [h1]; exact h3
  have hm : Meets ⟨False, True, True, True⟩ false (sintLE w) (sint w) := meets_sint w h0
  have := count_roundtrip (w := w) (unk := unk) hs hn (hm.dec hg L ctx rest (by simp)) (fun ctx => hm.enc hg L ctx False.elim)
  have e : s.value (reserved w unk) n = s.value none n := by
    unfold Scale.value
    rw [if_neg, if_neg (show ¬ (none : Option Int) = some n by simp)]
    unfold reserved
    have hr := sint_range h0 hb
    intro h
    split at h
    · injection h with h
      have h1 : n < (256 ^ w : Nat) - 1 := by
        have h256 : 256 ^ 1 ≤ 256 ^ w := Nat.pow_le_pow_right (by norm_num) h0
        have : n = toSigned (256 ^ w) (leNat b) := rfl
        omega
      omega
    · cases h
  rwa [e] at this

/-- **C17 (requests).** What is written for a number is the nearest count: the value differs from the request by at most half a
unit (and the error of the floating point division). -/
theorem C17_request {s : Scale} (hs : s ∈ scales) {w : Nat} (hw : w ≤ 4) {unk : Bool} {c : Con UInt8} (hc : c = uintLE w ∨ c = bytesIntLE w)
    {L : Lib} (hL : L.Strict) {ctx : Dict} {u : Val} {q : Rat} (hu : asNum u = some q) (hq : q ≠ floatMax) {b o}
    (hb : (defaultCount c w s.digits s.res unk).build L ctx u = .ok (b, o)) :
    b.length = w ∧ |leNat b * s.unit - q| ≤ s.unit * (1 / 2 + 1 / 100000) := by
  have hok := scales_ok hs
  have hm : Meets ⟨False, True, True, True⟩ false c (uint w) := by
    rcases hc with rfl | rfl
    · exact meets_uint w
    · exact meets_bytesInt w trivial
  simp only [defaultCount, adapter, bind_ok] at hb
  obtain ⟨x, hx, ⟨b', o'⟩, hb, h⟩ := hb
  simp only [Except.ok.injEq, Prod.mk.injEq] at h
  obtain ⟨rfl, -⟩ := h
  rw [countEncode_num hu, if_neg (fun h => hq h.2), hok.val] at hx
  cases hx
  obtain ⟨v, k, hk, -, hl, hlk, -⟩ := hm.sound (fun _ => hL) hb
  refine ⟨hl, ?_⟩
  simp only [asInt, Option.some.injEq] at hk
  have hk33 : (leNat b' : Rat) ≤ 2 ^ 32 := by
    have h1 := leNat_lt b'
    have h2 : (256 : Nat) ^ w ≤ 256 ^ 4 := Nat.pow_le_pow_right (by norm_num) hw
    rw [hl] at h1
    have : leNat b' ≤ 2 ^ 32 := by norm_num at h2 ⊢; omega
    exact_mod_cast this
  have hk0 : (0 : Rat) ≤ leNat b' := by positivity
  have he := rhe_err (fdiv q (rnd s.unit))
  rw [hk, ← hlk] at he
  have hpos := hok.pos.1
  obtain ⟨d2, hd2, h2⟩ := rnd_rel s.unit
  unfold fdiv at he
  obtain ⟨d3, hd3, h3⟩ := rnd_rel (q / rnd s.unit)
  rw [h3, h2] at he
  rw [abs_le] at hd2 hd3 he
  push_cast at he
  have p2 : (0 : Rat) < 1 + d2 := by norm_num at hd2 ⊢; linarith
  have p3 : (0 : Rat) < 1 + d3 := by norm_num at hd3 ⊢; linarith
  set x : Rat := q / (s.unit * (1 + d2)) * (1 + d3) with hxdef
  have hqx : q = s.unit * (x * (1 + d2) / (1 + d3)) := by rw [hxdef]; field_simp
  have hx1 : x ≤ 2 ^ 32 + 1 := by linarith
  have hx0 : -1 ≤ x := by linarith
  -- the quotient of the two error terms is within 2 ^ -51 of one
  have hr : |(1 + d2) / (1 + d3) - 1| ≤ 1 / 2 ^ 51 := by
    have : (1 + d2) / (1 + d3) - 1 = (d2 - d3) / (1 + d3) := by field_simp; ring
    rw [this, abs_div, abs_of_pos p3, div_le_iff₀ p3, abs_le]
    norm_num at hd2 hd3 ⊢
    constructor <;> linarith [hd2.1, hd2.2, hd3.1, hd3.2]
  have hxx : |x * (1 + d2) / (1 + d3) - x| ≤ 1 / 100000 := by
    have : x * (1 + d2) / (1 + d3) - x = x * ((1 + d2) / (1 + d3) - 1) := by ring
    rw [this, abs_mul]
    have hxa : |x| ≤ 2 ^ 32 + 1 := abs_le.2 ⟨by linarith, hx1⟩
    calc |x| * |(1 + d2) / (1 + d3) - 1| ≤ (2 ^ 32 + 1) * (1 / 2 ^ 51) := mul_le_mul hxa hr (abs_nonneg _) (by norm_num)
      _ ≤ 1 / 100000 := by norm_num
  rw [hqx, show (leNat b' : Rat) * s.unit - s.unit * (x * (1 + d2) / (1 + d3)) = s.unit * (leNat b' - x * (1 + d2) / (1 + d3)) by ring,
    abs_mul, abs_of_pos hpos]
  apply mul_le_mul_of_nonneg_left _ hpos.le
  rw [abs_le] at hxx ⊢
  constructor <;> linarith [he.1, he.2, hxx.1, hxx.2]

variable [Platform]

/-- **C17 (properties).** Every device property of the table but "presence detected" is lossless: whatever bytes its value is
read from, what is reported is written as the same bytes. -/
theorem C17_properties {p : PropSpec} (hp : p ∈ Spec.properties) (hne : p.id ≠ 0x4D) :
    ∃ c, findCase p.id Property.propertyDict = some c ∧ ∀ {L ctx s v rest}, c.parse L ctx s = .ok (v, rest) →
      ∃ b, s = b ++ rest ∧ ∀ L ctx, ∃ o, c.build L ctx v = .ok (b, o) := by
  have hp' : p ∈ exactProperties := by
    rcases List.mem_append.1 hp with h | h
    · exact h
    · simp only [flagProperties, List.mem_cons, List.not_mem_nil, or_false] at h; subst h; exact absurd rfl hne
  obtain ⟨N, -, -, c, hc, -, hm⟩ := exactProperties_cover p hp'
  refine ⟨c, hc, fun h => ?_⟩
  obtain ⟨b, hs, hg⟩ := hm.exact trivial h
  exact ⟨b, hs, fun L ctx => hm.enc hg L ctx False.elim⟩

/-- **C17 (presence detected).** "Presence detected" reports whether its byte is nonzero, and writes 0 or 1. -/
theorem C17_presence : ∃ c, findCase 0x4D Property.propertyDict = some c ∧ (∀ L ctx x rest,
      c.parse L ctx (x :: rest) = .ok (.dict [("presence_detected", .bool (x != 0))], rest)) ∧
    ∀ L ctx (t : Bool), ∃ o, c.build L ctx (.dict [("presence_detected", .bool t)]) = .ok ([if t then 1 else 0], o) := by
  obtain ⟨N, -, -, c, hc, -, hm⟩ := flagProperties_cover (prop 0x4D "presence_detected" (record [fld "presence_detected" byteFlag])) (List.Mem.head _)
  refine ⟨c, hc, fun L ctx x rest => ?_, fun L ctx t => ?_⟩
  · cases hc
    have t : takeN 1 (x :: rest) = .ok ([x], rest) := by simp [takeN]
    have e : ([x] != [(0 : UInt8)]) = (x != 0) := by simp [bne]
    simp [struct, Property.presence, parseItems, field, flag, t, dset, e]
  · cases hc; cases t <;> exact ⟨_, rfl⟩

end BM.Props
