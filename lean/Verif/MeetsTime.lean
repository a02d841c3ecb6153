import Verif.SpecTime
import Verif.MeetsSilvair
import Verif.MeetsRRule
/-!
# Proofs about the time messages
-/
namespace BM
open F

/-- `omega`, with `us` unfolded. -/
macro "usomega" : tactic => `(tactic| ((try simp only [us, abs_lt, abs_le] at *); omega))

/-! ### Offsets and differences -/

theorem secondsF_eq (m : Int) : totalSeconds m = secondsF m := by
  unfold totalSeconds secondsF; norm_num

theorem secondsF_err {m c : Int} (h : |m| ≤ c) : |secondsF m - (m : Rat) / 10 ^ 6| ≤ (c : Rat) / 10 ^ 6 / 2 ^ 53 := by
  refine (rnd_err _).trans ?_
  apply div_le_div_of_nonneg_right _ (by norm_num)
  rw [abs_div, abs_of_pos (by norm_num : (0 : Rat) < 10 ^ 6)]
  apply div_le_div_of_nonneg_right _ (by norm_num)
  exact_mod_cast h

theorem secondsF_whole {n : Int} (h : |n| < 2 ^ 53) : secondsF (n * us) = n := by
  unfold secondsF
  rw [show ((n * us : Int) : Rat) / 10 ^ 6 = (n : Rat) by push_cast; ring]
  exact rnd_int n h

/-- Of the differences below 2^32 seconds, exactly the whole ones are whole as doubles. -/
theorem whole_iff {td : Int} (h : td.natAbs < 2 ^ 32 * 1000000) : (secondsF td).den = 1 ↔ us ∣ td := by
  constructor
  · intro hd
    have hz : secondsF td = ((secondsF td).num : Rat) := (Rat.den_eq_one_iff _).1 hd |>.symm
    have hb : |td| ≤ 2 ^ 32 * 1000000 := by usomega
    have he := secondsF_err hb
    rw [hz, abs_le] at he
    obtain ⟨h1, h2⟩ := he
    have e : (td : Rat) / 10 ^ 6 * 10 ^ 6 = td := by field_simp
    have h3 : (((secondsF td).num * us : Int) : Rat) < td + 1 := by
      push_cast at h2 ⊢
      have : ((secondsF td).num : Rat) * 10 ^ 6 ≤ ((td : Rat) / 10 ^ 6) * 10 ^ 6 + 1 / 2 := by
        rw [← sub_le_iff_le_add']
        have := mul_le_mul_of_nonneg_right h2 (by norm_num : (0 : Rat) ≤ 10 ^ 6)
        rw [sub_mul] at this
        refine this.trans ?_
        norm_num
      rw [e] at this
      linarith
    have h4 : (td : Rat) - 1 < (((secondsF td).num * us : Int) : Rat) := by
      push_cast at h1 ⊢
      have : ((td : Rat) / 10 ^ 6) * 10 ^ 6 - 1 / 2 ≤ ((secondsF td).num : Rat) * 10 ^ 6 := by
        have := mul_le_mul_of_nonneg_right h1 (by norm_num : (0 : Rat) ≤ 10 ^ 6)
        rw [sub_mul] at this
        have h5 : -(1 / 2 : Rat) ≤ -(2 ^ 32 * 1000000 / 10 ^ 6 / 2 ^ 53) * 10 ^ 6 := by norm_num
        linarith
      rw [e] at this
      linarith
    generalize (secondsF td).num = z at *
    have h5 : z * us < td + 1 := by exact_mod_cast h3
    have h6 : td - 1 < z * us := by exact_mod_cast h4
    exact ⟨z, by usomega⟩
  · rintro ⟨n, rfl⟩
    rw [mul_comm, secondsF_whole (by usomega)]
    exact Rat.den_intCast _

theorem deltaEncode_ok {td n : Int} (h : Time.deltaEncode td = .ok n) (hb : td.natAbs < 2 ^ 32 * 1000000) : td = (n - 255) * us := by
  simp only [Time.deltaEncode, secondsF_eq] at h
  split at h
  · rename_i hd
    obtain ⟨k, rfl⟩ := (whole_iff hb).1 hd
    rw [mul_comm us k, secondsF_whole (by usomega)] at h
    unfold fadd at h
    rw [show (k : Rat) + 255 = ((k + 255 : Int) : Rat) by push_cast; rfl, rnd_int _ (by usomega), ftrunc_int] at h
    cases h
    ring
  · cases h

theorem deltaEncode_eq {n : Int} (hb : |n| < 2 ^ 50) : Time.deltaEncode ((n - 255) * us) = .ok n := by
  simp only [Time.deltaEncode, secondsF_eq]
  have hb' : |n - 255| < 2 ^ 53 := by usomega
  rw [secondsF_whole hb', if_pos (Rat.den_intCast _)]
  unfold fadd
  rw [show ((n - 255 : Int) : Rat) + 255 = (n : Rat) by push_cast; ring, rnd_int _ (by usomega), ftrunc_int]

theorem ftrunc_zero {q : Rat} (h0 : 0 ≤ q) : ftrunc q = 0 ↔ q < 1 := by
  unfold ftrunc
  rw [if_pos h0, rfloor_eq, Int.floor_eq_zero_iff, Set.mem_Ico]
  exact ⟨fun h => h.2, fun h => ⟨h0, h⟩⟩

/-- The offset conversion, in exact arithmetic. -/
theorem tzEncode_iff {off n : Int} (hb : -86400 * us < off ∧ off < 86400 * us) :
    Time.tzEncode off = .ok n ↔ Quarters off (n - 64) := by
  have hab : |off| ≤ 86400 * us := by usomega
  have he := secondsF_err hab
  -- the quotient and the remainder of the exact division
  obtain ⟨k, r, hoff, hr0, hr1⟩ : ∃ k r : Int, off = k * 900 * us + r ∧ 0 ≤ r ∧ r < 900 * us :=
    ⟨off / (900 * us), off % (900 * us), by have := Int.mul_ediv_add_emod off (900 * us); linarith,
      Int.emod_nonneg _ (by decide), Int.emod_lt_of_pos _ (by decide)⟩
  have hk : |k| < 200 := by usomega
  -- the double is exact at whole numbers of seconds and close elsewhere
  have hwhole : ∀ j : Int, r = j * us → secondsF off = (k * 900 + j : Int) := by
    intro j hj
    rw [hoff, hj, show k * 900 * us + j * us = (k * 900 + j) * us by ring]
    exact secondsF_whole (by usomega)
  have hq : (off : Rat) / 10 ^ 6 = (k : Rat) * 900 + r / 10 ^ 6 := by
    rw [hoff]; push_cast; ring
  rw [hq, abs_le] at he
  have hsmall : ((86400 * us : Int) : Rat) / 10 ^ 6 / 2 ^ 53 ≤ 1 / 10 ^ 10 := by norm_num
  have hlo : (k : Rat) * 900 + r / 10 ^ 6 - 1 / 10 ^ 10 ≤ secondsF off := by linarith [he.1]
  have hhi : secondsF off ≤ (k : Rat) * 900 + r / 10 ^ 6 + 1 / 10 ^ 10 := by linarith [he.2]
  -- the floor
  have hf : (secondsF off / 900).floor = k := by
    rw [rfloor_eq, Int.floor_eq_iff]
    by_cases h0 : r = 0
    · rw [hwhole 0 (by simp [h0])]; push_cast
      constructor <;> linarith
    · have h1 : (1 : Rat) ≤ r := by exact_mod_cast (show (1 : Int) ≤ r by usomega)
      have h2 : (r : Rat) ≤ 899999999 := by exact_mod_cast (show r ≤ 899999999 by usomega)
      constructor
      · rw [le_div_iff₀ (by norm_num)]; linarith
      · rw [div_lt_iff₀ (by norm_num)]; linarith
  have hnn : (0 : Rat) ≤ secondsF off - 900 * k := by
    by_cases h0 : r = 0
    · rw [hwhole 0 (by simp [h0])]; push_cast; linarith
    · have h1 : (1 : Rat) ≤ r := by exact_mod_cast (show (1 : Int) ≤ r by usomega)
      linarith
  have hle : secondsF off - 900 * k ≤ 900 + 1 / 10 ^ 10 := by
    have h2 : (r : Rat) ≤ 900000000 := by exact_mod_cast (show r ≤ 900000000 by usomega)
    linarith
  have hrn : (0 : Rat) ≤ rnd (secondsF off - 900 * k) := by
    have := rnd_err (secondsF off - 900 * k)
    rw [abs_of_nonneg hnn, abs_le] at this
    have h1 : (secondsF off - 900 * k) / 2 ^ 53 ≤ secondsF off - 900 * k := div_le_self hnn (by norm_num)
    linarith [this.1]
  have hlt : rnd (secondsF off - 900 * k) < 1 ↔ r < us := by
    have h9 := rnd_err (secondsF off - 900 * k)
    rw [abs_of_nonneg hnn, abs_le] at h9
    constructor
    · intro h
      by_contra hc
      by_cases h1 : r = us
      · have := hwhole 1 (by rw [h1]; ring)
        rw [this, show ((k * 900 + 1 : Int) : Rat) - 900 * k = ((1 : Int) : Rat) by push_cast; ring, rnd_int 1 (by decide)] at h
        norm_num at h
      · have h2 : (1000001 : Rat) ≤ r := by exact_mod_cast (show (1000001 : Int) ≤ r by usomega)
        have : (secondsF off - 900 * k) / 2 ^ 53 ≤ 1 / 10 ^ 7 := by
          rw [div_le_iff₀ (by norm_num)]; refine hle.trans ?_; norm_num
        linarith [h9.1]
    · intro h
      have h2 : (r : Rat) ≤ 999999 := by exact_mod_cast (show r ≤ 999999 by usomega)
      have : (secondsF off - 900 * k) / 2 ^ 53 ≤ 1 / 10 ^ 7 := by
        rw [div_le_iff₀ (by norm_num)]; refine hle.trans ?_; norm_num
      linarith [h9.2]
  unfold Time.tzEncode
  simp only [secondsF_eq, hf]
  split
  · rename_i h
    have hrl := hlt.1 ((ftrunc_zero hrn).1 h)
    constructor
    · intro h'; cases h'
      exact ⟨r, hr0, hrl, by rw [hoff]; ring⟩
    · rintro ⟨r', h1, h2, h3⟩
      congr 1
      have : k * 900 * us + r = (n - 64) * 900 * us + r' := by rw [← hoff]; exact h3
      usomega
  · rename_i h
    constructor
    · intro h'; cases h'
    · rintro ⟨r', h1, h2, h3⟩
      refine absurd ((ftrunc_zero hrn).2 (hlt.2 ?_)) h
      have : k * 900 * us + r = (n - 64) * 900 * us + r' := by rw [← hoff]; exact h3
      usomega

/-! ### The message -/

/-- The items after the check for unknown times. -/
abbrev timeRest : List (Item UInt8) := [field "subsecond" (uintLE 1), field "uncertainty" (uintLE 1),
  embeddedBitStruct "_" 2 true [field "tai_utc_delta" (ubits 15), field "time_authority" flagBit],
  field "time_zone_offset" (uintLE 1)]
abbrev timeRestR : List (RI UInt8) := [F.fld "subsecond" (F.uint 1), F.fld "uncertainty" (F.uint 1),
  F.bitGroup "_" 2 true [F.fld "tai_utc_delta" (F.bitsU 15), F.fld "time_authority" F.bit], F.fld "time_zone_offset" (F.uint 1)]

theorem meets_timeRest : MeetsIs lossless true timeRest timeRestR := by
  refine .cons (meetsI_field rfl (meets_uint 1)) (.cons (meetsI_field rfl (meets_uint 1)) (.cons ?_ (.last (meetsI_field rfl (meets_uint 1)))))
  refine meetsI_bitGroup (.cons (meetsI_field rfl (meets_ubits 15 trivial)) (.last (meetsI_field rfl meets_flagBit))) ?_ (by decide)
  exact (LenEqIs.cons (m := 15) (lenEqI_fld (lenEq_bitsU 15)) (.cons (m := 1) (lenEqI_fld lenEq_bit) .nil))

theorem uint1_rel {d : Dict} {k : String} {n : Nat} (h : dget d k = some (.int n)) (hn : n < 256) :
    (F.fld k (F.uint 1)).rel d [UInt8.ofNat n] [(k, .int n)] :=
  ⟨.int n, .int n, h, ⟨n, rfl, trivial, rfl, leNat_one hn, rfl⟩, rfl⟩

theorem delta_bits {n : Nat} {a : Bool} (hn : n < 2 ^ 15) :
    bytesBits (leBytes 2 (2 * n + a.toNat)).reverse = natBits 15 n ++ [a] := by
  have ha : a.toNat < 2 := by cases a <;> decide
  have h1 : natBits (15 + 1) (n * 2 ^ 1 + a.toNat) = natBits 15 n ++ natBits 1 a.toNat := natBits_add hn (by simpa using ha)
  have h2 : natBits 1 a.toNat = [a] := by cases a <;> rfl
  rw [← h2, ← h1]
  have e : n * 2 ^ 1 + a.toNat = 2 * n + a.toNat := by omega
  rw [e]
  have hlt : 2 * n + a.toNat < 2 ^ 16 := by omega
  generalize 2 * n + a.toNat = k at hlt
  have : bytesBits (leBytes 2 k).reverse = natBits 16 (bitsNat (bytesBits (leBytes 2 k).reverse)) := by
    have hl : (bytesBits (leBytes 2 k).reverse).length = 16 := by simp [bytesBits_length, leBytes_length]
    rw [← hl, natBits_bitsNat]
  rw [this, bitsNat_rev, leNat_leBytes _ _ (by omega)]

/-- The fields as the struct of the code. -/
abbrev timeDict (tai sub unc delta : Int) (auth : Bool) (tz : Int) : Dict :=
  [("tai_seconds", .int tai), ("subsecond", .int sub), ("uncertainty", .int unc), ("tai_utc_delta", .int delta), ("time_authority", .bool auth),
   ("time_zone_offset", .int tz)]

theorem timeRest_rel {f : TimeFields} (d : Dict) (h2 : f.sub < 256) (h3 : f.unc < 256) (h4 : f.delta < 2 ^ 15) (h5 : f.tz < 256)
    (e2 : dget d "subsecond" = some (.int f.sub)) (e3 : dget d "uncertainty" = some (.int f.unc)) (e4 : dget d "tai_utc_delta" = some (.int f.delta))
    (e6 : dget d "time_authority" = some (.bool f.auth)) (e5 : dget d "time_zone_offset" = some (.int f.tz)) :
    seqRel timeRestR d ([UInt8.ofNat f.sub, UInt8.ofNat f.unc] ++ leBytes 2 (2 * f.delta + f.auth.toNat) ++ [UInt8.ofNat f.tz])
      [("subsecond", .int f.sub), ("uncertainty", .int f.unc), ("_", .dict [("tai_utc_delta", .int f.delta), ("time_authority", .bool f.auth)]),
        ("tai_utc_delta", .int f.delta), ("time_authority", .bool f.auth), ("time_zone_offset", .int f.tz)] := by
  refine ⟨[_], _, [_], _, rfl, rfl, uint1_rel e2 h2, [_], _, [_], _, rfl, rfl, uint1_rel e3 h3,
    leBytes 2 (2 * f.delta + f.auth.toNat), [UInt8.ofNat f.tz], [_, _, _], [_], rfl, rfl, ?_,
    [_], [], [_], [], rfl, rfl, uint1_rel e5 h5, rfl, rfl⟩
  refine ⟨_, leBytes_length _ _, ?_, rfl⟩
  simp only [if_true]
  rw [delta_bits h4]
  refine ⟨natBits 15 f.delta, [f.auth], [_], [_], rfl, rfl, ⟨_, _, e4, ⟨f.delta, rfl, natBits_length _ _, bitsNat_natBits _ _ h4, rfl⟩, rfl⟩,
    [f.auth], [], [_], [], rfl, rfl, ⟨_, _, e6, ⟨rfl, rfl⟩, rfl⟩, rfl, rfl⟩

theorem timePre_build {L : Lib} {d : Dict} {tai : Nat} (h : tai < 2 ^ 40) (e : dget d "tai_seconds" = some (.int tai)) (ctx : Dict) :
    buildItems L d [field "tai_seconds" (bytesIntLE 5)] ctx = .ok (leBytes 5 tai, dset (dset ctx "tai_seconds" (.int tai)) "tai_seconds" (.int tai)) := by
  have hb : (bytesIntLE 5).build L (dset ctx "tai_seconds" (.int tai)) (.int tai) = .ok (leBytes 5 tai, .int tai) := by
    simp only [bytesIntLE, asInt]
    rw [if_pos (by constructor <;> omega)]; simp
  have hbn : (bytesIntLE 5).buildNone = false := rfl
  simp only [buildItems, field, hbn, Bool.false_eq_true, if_false, dgetE, e, ok_bind, hb, List.append_nil]

theorem taiZero_set (ctx : Dict) (tai : Nat) :
    Time.taiZero (dset (dset ctx "tai_seconds" (.int tai)) "tai_seconds" (.int tai)) = .ok (decide (tai = 0)) := by
  simp only [Time.taiZero, dgetE, dget_dset_self, ok_bind, hashInt, asInt]
  congr 1
  rw [Bool.eq_iff_iff]
  simp

/-- A time that fits is written in ten bytes. -/
theorem time_build {f : TimeFields} (L : Lib) (ctx : Dict) (h1 : f.tai < 2 ^ 40) (h0 : f.tai ≠ 0) (h2 : f.sub < 256) (h3 : f.unc < 256)
    (h4 : f.delta < 2 ^ 15) (h5 : f.tz < 256) :
    ∃ r, Time.time.build L ctx (.dict (timeDict f.tai f.sub f.unc f.delta f.auth f.tz)) = .ok (f.bytes, r) := by
  obtain ⟨ctx', hc⟩ := items_enc meets_timeRest (timeRest_rel (timeDict f.tai f.sub f.unc f.delta f.auth f.tz) h2 h3 h4 h5 rfl rfl rfl rfl rfl) L
    (dset (dset (timeDict f.tai f.sub f.unc f.delta f.auth f.tz) "tai_seconds" (.int f.tai)) "tai_seconds" (.int f.tai)) (fun h => h.elim)
  refine ⟨.dict (timeDict f.tai f.sub f.unc f.delta f.auth f.tz), ?_⟩
  have hs : Time.timeOptional.build L ctx (.dict (timeDict f.tai f.sub f.unc f.delta f.auth f.tz)) = .ok (f.bytes, .dict ctx') := by
    simp only [Time.timeOptional, Time.structStop, asDict, ok_bind, timePre_build h1 (d := timeDict f.tai f.sub f.unc f.delta f.auth f.tz) rfl, taiZero_set, h0,
      decide_false, Bool.false_eq_true, if_false, hc]
    rfl
  have hn : dget (timeDict f.tai f.sub f.unc f.delta f.auth f.tz) "optional" = none := rfl
  simp only [Time.time, namedSelect, select, List.map_cons, List.map_nil, selectBuild, nameAdapter, hn, Option.getD_none, hs, ok_bind]

/-- The unknown time is written in five bytes. -/
theorem time_build_zero (L : Lib) (ctx : Dict) (sub unc delta : Int) (auth : Bool) (tz : Int) :
    ∃ r, Time.time.build L ctx (.dict (timeDict 0 sub unc delta auth tz)) = .ok (List.replicate 5 0, r) := by
  refine ⟨.dict (timeDict 0 sub unc delta auth tz), ?_⟩
  have hp := timePre_build (L := L) (d := timeDict 0 sub unc delta auth tz) (tai := 0) (by decide) rfl (timeDict 0 sub unc delta auth tz)
  have hs : ∃ r, Time.timeOptional.build L ctx (.dict (timeDict 0 sub unc delta auth tz)) = .ok (List.replicate 5 0, r) := by
    refine ⟨.dict (dset (dset (timeDict 0 sub unc delta auth tz) "tai_seconds" (Val.int (0 : Nat))) "tai_seconds" (Val.int (0 : Nat))), ?_⟩
    simp only [Time.timeOptional, Time.structStop, asDict, ok_bind, hp, taiZero_set, decide_true, if_true]
    rfl
  obtain ⟨r, hs⟩ := hs
  have hn : dget (timeDict 0 sub unc delta auth tz) "optional" = none := rfl
  simp only [Time.time, namedSelect, select, List.map_cons, List.map_nil, selectBuild, nameAdapter, hn, Option.getD_none, hs, ok_bind]

/-- Only numbers of seconds below 2^40 are written. -/
theorem time_build_range {L : Lib} (hL : L.Strict) {ctx : Dict} {d : Dict} {tai : Int} {b r}
    (hd : dget d "tai_seconds" = some (.int tai)) (h1 : dget d "optional" = none) (h2 : dget d "minimal" = none)
    (h : Time.time.build L ctx (.dict d) = .ok (b, r)) : 0 ≤ tai ∧ tai < 2 ^ 40 := by
  have key : ∀ {ctx' b r}, buildItems L d [field "tai_seconds" (bytesIntLE 5)] ctx' = .ok (b, r) → 0 ≤ tai ∧ tai < 2 ^ 40 := by
    intro ctx' b r hb
    obtain ⟨dv, hr⟩ := items_sound (M := lossless) (e := true) (rs := [F.fld "tai_seconds" (F.uint 5)])
      (.last (meetsI_field rfl (meets_bytesInt 5 trivial))) (fun _ => hL) hb
    obtain ⟨b1, b2, d1, d2, -, -, ⟨u, v, hu, ⟨k, hk, -, hl, hbk, -⟩, -⟩, -⟩ := hr
    rw [hd] at hu
    cases hu
    simp only [asInt, Option.some.injEq] at hk
    have := lt_of_leNat hl hbk
    omega
  simp only [Time.time, namedSelect, select, List.map_cons, List.map_nil, selectBuild, nameAdapter, h1, h2, Option.getD_none] at h
  split at h
  · next hb =>
    simp only [bind_ok] at hb
    obtain ⟨a, ha, -⟩ := hb
    simp only [Time.timeOptional, Time.structStop, asDict, ok_bind, bind_ok] at ha
    obtain ⟨a', ha', -⟩ := ha
    exact key ha'
  · split at h
    · next hb =>
      simp only [bind_ok] at hb
      obtain ⟨a, ha, -⟩ := hb
      simp only [Time.timeMinimal, struct, asDict, ok_bind, bind_ok] at ha
      obtain ⟨a', ha', -⟩ := ha
      exact key ha'
    · cases h

/-! ### The adapter -/

theorem intField_ok {d : Dict} {k : String} {lo hi n : Int} : intField d k lo hi = .ok n ↔ IntIs d k lo hi n := by
  unfold intField IntIs dgetE
  cases dget d k with
  | none => simp
  | some x =>
    simp only [ok_bind, Option.some.injEq, exists_eq_left']
    cases asInt x with
    | none => simp
    | some m =>
      simp only [Option.some.injEq]
      split
      · rename_i h
        constructor
        · intro h'; cases h'; exact ⟨rfl, h⟩
        · rintro ⟨rfl, -⟩; rfl
      · rename_i h
        constructor
        · intro h'; cases h'
        · rintro ⟨rfl, h'⟩; exact absurd h' h

theorem dgetE_iff {d : Dict} {k : String} {x : Val} : dgetE d k = .ok x ↔ dget d k = some x := by
  unfold dgetE
  cases dget d k <;> simp

theorem dateOf_of {u : Val} {m off : Int} (h : InstantMeans u m off) : Time.dateOf u = .ok (m, off) := by
  obtain ⟨hr, rfl | ⟨d, y, mo, dd, z, days, h, mi, s, mu, rfl, h1, h2, h3, h4, h5, h6, h7, h8, h9, h10, rfl⟩⟩ := h
  · rfl
  · simp only [Time.dateOf, Time.dictDate, dgetE_iff.2 h1, dgetE_iff.2 h2, dgetE_iff.2 h3, dgetE_iff.2 h9, ok_bind, intField_ok.2 h5, intField_ok.2 h6,
      intField_ok.2 h7, intField_ok.2 h8, h4, h10, hr, and_self, if_true]

theorem dateOf_ok {u : Val} {m off : Int} (h : Time.dateOf u = .ok (m, off)) :
    InstantMeans u m off ∨ (u = .datetime m off ∧ ¬ (-86400 * us < off ∧ off < 86400 * us)) := by
  unfold Time.dateOf at h
  split at h
  · next d =>
    left
    simp only [Time.dictDate, bind_ok, dgetE_iff, intField_ok] at h
    obtain ⟨z, h9, off', h10, y, h1, mo, h2, dd, h3, hh, h5, mi, h6, s, h7, mu, h8, h⟩ := h
    split at h
    · rename_i hr
      simp only [bind_ok, Except.ok.injEq, Prod.mk.injEq] at h
      obtain ⟨days, h4, rfl, rfl⟩ := h
      exact ⟨hr, .inr ⟨d, y, mo, dd, z, days, hh, mi, s, mu, rfl, h1, h2, h3, h4, h5, h6, h7, h8, h9, h10, rfl⟩⟩
    · cases h
  · cases h
    by_cases hr : -86400 * us < off ∧ off < 86400 * us
    · exact .inl ⟨hr, .inl rfl⟩
    · exact .inr ⟨rfl, hr⟩
  · cases h

theorem deltaOf_iff {u : Val} {td : Int} : Time.deltaOf u = .ok td ↔ DeltaMeans u td := by
  unfold Time.deltaOf DeltaMeans
  split
  · next n =>
    constructor
    · intro h; cases h; exact .inl rfl
    · rintro (h | ⟨n, h, -⟩)
      · cases h; rfl
      · simp [asInt] at h
  · next hne =>
    cases h : asInt u with
    | none =>
      constructor
      · intro h'; cases h'
      · rintro (rfl | ⟨n, h', -⟩)
        · exact absurd rfl (hne td)
        · cases h'
    | some n =>
      constructor
      · intro h'; exact .inr ⟨n, rfl, h'⟩
      · rintro (rfl | ⟨n, h', h''⟩)
        · exact absurd rfl (hne td)
        · cases h'; exact h''

theorem uncertaintyOf_iff {u : Val} {unc : Int} : Time.uncertaintyOf u = .ok unc ↔ UncertaintyMeans u unc := by
  unfold Time.uncertaintyOf UncertaintyMeans
  split
  · next n =>
    constructor
    · intro h; cases h; exact .inl rfl
    · rintro (h | ⟨n, h, -⟩)
      · cases h; rfl
      · cases h
  · next q =>
    constructor
    · intro h; exact .inr ⟨q, rfl, h⟩
    · rintro (h | ⟨n, h, h'⟩)
      · cases h
      · exact h'
  · next h1 h2 =>
    constructor
    · intro h; cases h
    · rintro (h | ⟨n, h, h'⟩)
      · exact absurd h (h1 _)
      · exact absurd h (h2 _)

theorem totalTime_eq (t : TimeVal) : Time.totalTime t.m t.off = t.seconds := by
  unfold Time.totalTime TimeVal.seconds fsub Time.meshEpoch
  simp only [secondsF_eq]
  norm_num

/-- What the adapter hands to the struct. -/
abbrev timeWords (t : TimeVal) (delta tz : Int) : Dict :=
  timeDict (ftrunc t.seconds) (rhe (rnd (rnd (t.seconds - ftrunc t.seconds) * 256))) (ftrunc (rnd (secondsF t.unc * 100))) delta t.auth tz

theorem timeEncode_of {u : Val} {t : TimeVal} {delta tz : Int} (h : TimeMeans u t) (hd : Time.deltaEncode t.td = .ok delta)
    (hz : Time.tzEncode t.off = .ok tz) : Time.timeEncode u = .ok (.dict (timeWords t delta tz)) := by
  obtain ⟨d, ud, uu, ut, ua, rfl, h1, h2, h3, h4, h5, h6, h7, h8⟩ := h
  simp only [Time.timeEncode, dgetE_iff.2 h1, dgetE_iff.2 h3, dgetE_iff.2 h5, dgetE_iff.2 h7, ok_bind, dateOf_of h2, uncertaintyOf_iff.2 h4, deltaOf_iff.2 h6, hd, hz,
    ← h8, totalTime_eq]
  simp only [Time.subsecond, Time.centiseconds, fmul, fsub, secondsF_eq]

theorem timeEncode_ok {u w : Val} (h : Time.timeEncode u = .ok w) :
    (∃ t delta tz, TimeMeans u t ∧ Time.deltaEncode t.td = .ok delta ∧ Time.tzEncode t.off = .ok tz ∧ w = .dict (timeWords t delta tz)) ∨
    (∃ d m off, u = .dict d ∧ dget d "date" = some (.datetime m off) ∧ ¬ (-86400 * us < off ∧ off < 86400 * us)) := by
  have h0 := h
  unfold Time.timeEncode at h
  split at h
  · next d =>
    simp only [bind_ok, dgetE_iff] at h
    obtain ⟨ud, h1, ⟨m, off⟩, h2, uu, h3, unc, h4, ut, h5, td, h6, delta, hd, ua, h7, tz, hz, h⟩ := h
    rcases dateOf_ok h2 with h2 | ⟨rfl, h2'⟩
    · left
      have ht : TimeMeans (.dict d) ⟨m, off, unc, td, truthy ua⟩ :=
        ⟨d, ud, uu, ut, ua, rfl, h1, h2, h3, uncertaintyOf_iff.1 h4, h5, deltaOf_iff.1 h6, h7, rfl⟩
      refine ⟨_, delta, tz, ht, hd, hz, ?_⟩
      rw [timeEncode_of ht hd hz] at h0
      cases h0; rfl
    · exact .inr ⟨d, m, off, rfl, h1, h2'⟩
  · cases h

theorem tai_parse (L : Lib) (tai : Nat) (h : tai < 2 ^ 40) (rest : List UInt8) :
    parseItems L [field "tai_seconds" (bytesIntLE 5)] [] (leBytes 5 tai ++ rest) = .ok ([("tai_seconds", .int tai)], rest) := by
  have := items_dec (M := lossless) (e := false) (its := [field "tai_seconds" (bytesIntLE 5)]) (rs := [F.fld "tai_seconds" (F.uint 5)])
    (.last (meetsI_field rfl (meets_bytesInt 5 trivial))) (du := [("tai_seconds", .int tai)]) (b := leBytes 5 tai) (dv := [("tai_seconds", .int tai)])
    ⟨leBytes 5 tai, [], [_], [], by simp, rfl, ⟨_, _, rfl, ⟨tai, rfl, trivial, leBytes_length _ _, leNat_leBytes _ _ (by omega), rfl⟩, rfl⟩, rfl, rfl⟩
    L [] rest (by simp)
  rw [this]; rfl

theorem taiZero_one (tai : Nat) : Time.taiZero [("tai_seconds", .int tai)] = .ok (decide (tai = 0)) := by
  simp only [Time.taiZero, dgetE, dget, if_true, ok_bind, hashInt, asInt]
  congr 1
  rw [Bool.eq_iff_iff]
  simp

theorem time_parse {f : TimeFields} (L : Lib) (ctx : Dict) (h1 : f.tai < 2 ^ 40) (h0 : f.tai ≠ 0) (h2 : f.sub < 256) (h3 : f.unc < 256)
    (h4 : f.delta < 2 ^ 15) (h5 : f.tz < 256) :
    Time.time.parse L ctx f.bytes = .ok (.dict [("tai_seconds", .int f.tai), ("subsecond", .int f.sub), ("uncertainty", .int f.unc),
      ("_", .dict [("tai_utc_delta", .int f.delta), ("time_authority", .bool f.auth)]),
        ("tai_utc_delta", .int f.delta), ("time_authority", .bool f.auth), ("time_zone_offset", .int f.tz), ("_name", .str "optional")], []) := by
  have hp := items_dec meets_timeRest (timeRest_rel (timeDict f.tai f.sub f.unc f.delta f.auth f.tz) h2 h3 h4 h5 rfl rfl rfl rfl rfl) L
    [("tai_seconds", .int f.tai)] [] (by simp)
  rw [List.append_nil] at hp
  have hs : Time.timeOptional.parse L ctx f.bytes = .ok (.dict [("tai_seconds", .int f.tai), ("subsecond", .int f.sub), ("uncertainty", .int f.unc),
      ("_", .dict [("tai_utc_delta", .int f.delta), ("time_authority", .bool f.auth)]),
        ("tai_utc_delta", .int f.delta), ("time_authority", .bool f.auth), ("time_zone_offset", .int f.tz)], []) := by
    have e : f.bytes = leBytes 5 f.tai ++ ([UInt8.ofNat f.sub, UInt8.ofNat f.unc] ++ leBytes 2 (2 * f.delta + f.auth.toNat) ++ [UInt8.ofNat f.tz]) := by
      simp [TimeFields.bytes]
    rw [e]
    simp only [Time.timeOptional, Time.structStop, tai_parse L f.tai h1, ok_bind, taiZero_one, h0, decide_false, Bool.false_eq_true, if_false, hp]
    rfl
  simp only [Time.time, namedSelect, select, List.map_cons, List.map_nil, selectParse, nameAdapter, hs, ok_bind]
  rfl

theorem time_parse_zero (L : Lib) (ctx : Dict) (rest : List UInt8) :
    Time.time.parse L ctx (List.replicate 5 0 ++ rest) = .ok (.dict [("tai_seconds", .int 0), ("_name", .str "optional")], rest) := by
  have hp := tai_parse L 0 (by decide) rest
  have hs : Time.timeOptional.parse L ctx (List.replicate 5 0 ++ rest) = .ok (.dict [("tai_seconds", .int 0)], rest) := by
    have e : (List.replicate 5 0 : List UInt8) = leBytes 5 0 := by decide
    rw [e]
    simp only [Time.timeOptional, Time.structStop, hp, ok_bind, taiZero_one, decide_true, if_true]
    rfl
  simp only [Time.time, namedSelect, select, List.map_cons, List.map_nil, selectParse, nameAdapter, hs, ok_bind]
  rfl

theorem timeDecode_eq {f : TimeFields} {v : Val} (h : f.Reads v) (h0 : f.tai ≠ 0) (h5 : f.tz < 160) :
    Time.timeDecode (.dict [("tai_seconds", .int f.tai), ("subsecond", .int f.sub), ("uncertainty", .int f.unc),
      ("_", .dict [("tai_utc_delta", .int f.delta), ("time_authority", .bool f.auth)]),
        ("tai_utc_delta", .int f.delta), ("time_authority", .bool f.auth), ("time_zone_offset", .int f.tz), ("_name", .str "optional")]) = .ok v := by
  obtain ⟨h1, h2, rfl⟩ := h
  have e : f.instant = ((f.tai : Int) + Time.meshEpoch + ((f.tz : Int) - 64) * 900) * us + rhe (((f.sub : Int) : Rat) * 15625 / 4) := by
    unfold TimeFields.instant TimeFields.off Time.meshEpoch
    rw [show ((f.sub : Nat) : Rat) * 10 ^ 6 / 256 = ((f.sub : Int) : Rat) * 15625 / 4 by push_cast; ring]
    ring
  have e2 : f.off = ((f.tz : Int) - 64) * 900 * us := rfl
  have ht : ¬ (f.tai : Int) = 0 := by omega
  generalize hD : ([("tai_seconds", .int f.tai), ("subsecond", .int f.sub), ("uncertainty", .int f.unc),
      ("_", .dict [("tai_utc_delta", .int f.delta), ("time_authority", .bool f.auth)]),
        ("tai_utc_delta", .int f.delta), ("time_authority", .bool f.auth), ("time_zone_offset", .int f.tz), ("_name", .str "optional")] : Dict) = D
  have i1 : Time.intEntry D "tai_seconds" = .ok (f.tai : Int) := by rw [← hD]; rfl
  have i2 : Time.intEntry D "subsecond" = .ok (f.sub : Int) := by rw [← hD]; rfl
  have i3 : Time.intEntry D "uncertainty" = .ok (f.unc : Int) := by rw [← hD]; rfl
  have i4 : Time.intEntry D "tai_utc_delta" = .ok (f.delta : Int) := by rw [← hD]; rfl
  have i5 : Time.intEntry D "time_zone_offset" = .ok (f.tz : Int) := by rw [← hD]; rfl
  have i6 : dgetE D "time_authority" = .ok (.bool f.auth) := by rw [← hD]; rfl
  simp only [Time.timeDecode, i1, i2, i3, i4, i5, i6, ok_bind, ht, if_false]
  rw [← e, ← e2, if_pos ⟨by omega, h1, h2⟩]
  have e3 : truthy (.bool f.auth) = f.auth := rfl
  simp only [Time.deltaDecode, e3]

theorem time_nodiv (L : Lib) (ctx : Dict) (s : List UInt8) : Time.timeSet.parse L ctx s ≠ .error .diverge := by
  have hpre := items_nodiv (M := lossless) (e := true) (its := [field "tai_seconds" (bytesIntLE 5)]) (rs := [F.fld "tai_seconds" (F.uint 5)])
    (.last (meetsI_field rfl (meets_bytesInt 5 trivial)))
  have hpost := items_nodiv meets_timeRest
  intro h
  simp only [Time.timeSet, adapter, bind_err] at h
  have hd : ∀ v, Time.timeDecode v ≠ .error .diverge := by
    intro v
    have hi : ∀ d k, Time.intEntry d k ≠ .error .diverge := by
      intro d k h
      unfold Time.intEntry dgetE at h
      cases hg : dget d k with
      | none => rw [hg] at h; cases h
      | some x => rw [hg] at h; simp only [ok_bind] at h; split at h <;> cases h
    have hg : ∀ d k, dgetE d k ≠ .error .diverge := by
      intro d k h
      unfold dgetE at h
      split at h <;> cases h
    intro h
    unfold Time.timeDecode at h
    split at h
    · simp only [bind_err] at h
      rcases h with h | ⟨_, _, h⟩
      · exact hi _ _ h
      split at h
      · cases h
      simp only [bind_err] at h
      rcases h with h | ⟨_, _, h⟩
      · exact hi _ _ h
      rcases h with h | ⟨_, _, h⟩
      · exact hi _ _ h
      split at h
      · simp only [bind_err] at h
        rcases h with h | ⟨_, _, h | ⟨_, _, h | ⟨_, _, h⟩⟩⟩
        · exact hi _ _ h
        · exact hg _ _ h
        · exact hi _ _ h
        · cases h
      · injection h with h; split at h <;> cases h
    · cases h
  have hz : ∀ d, Time.taiZero d ≠ .error .diverge := by
    intro d h
    unfold Time.taiZero dgetE at h
    cases hg : dget d "tai_seconds" with
    | none => rw [hg] at h; cases h
    | some x => rw [hg] at h; cases h
  have hopt : ∀ ctx s, (nameAdapter "optional" Time.timeOptional).parse L ctx s ≠ .error .diverge := by
    intro ctx s h
    simp only [nameAdapter, Time.timeOptional, Time.structStop, bind_err] at h
    rcases h with (h | ⟨_, _, h | ⟨t, _, h⟩⟩) | ⟨_, _, h⟩
    · exact hpre _ _ _ h
    · exact hz _ h
    · split at h
      · cases h
      · simp only [bind_err] at h
        rcases h with h | ⟨_, _, h⟩
        · exact hpost _ _ _ h
        · cases h
    · split at h <;> cases h
  have hmin : ∀ ctx s, (nameAdapter "minimal" Time.timeMinimal).parse L ctx s ≠ .error .diverge := by
    intro ctx s h
    simp only [nameAdapter, Time.timeMinimal, struct, bind_err] at h
    rcases h with (h | ⟨_, _, h⟩) | ⟨_, _, h⟩
    · exact hpre _ _ _ h
    · cases h
    · split at h <;> cases h
  rcases h with h | ⟨_, _, h | ⟨_, _, h⟩⟩
  · simp only [Time.time, namedSelect, select, List.map_cons, List.map_nil, selectParse] at h
    split at h
    · cases h
    · next er hp =>
      split at h
      · rename_i he; rw [he] at hp; exact hopt _ _ hp
      · split at h
        · cases h
        · next er' hp' =>
          split at h
          · rename_i he; rw [he] at hp'; exact hmin _ _ hp'
          · cases h
  · exact hd _ h
  · cases h

theorem meets_time : MeetsBut OddTime plain true Time.timeSet F.time where
  enc := by
    rintro u b v ⟨t, hm, ⟨f, hf, hr, rfl⟩ | ⟨h0, hd, hb, ⟨k, hq⟩, rfl, rfl⟩⟩ L ctx _
    · have hoff : -86400 * us < t.off ∧ t.off < 86400 * us := by obtain ⟨_, _, _, _, _, _, _, h, _⟩ := hm; exact h.1
      have hde : Time.deltaEncode t.td = .ok (f.delta : Int) := by
        rw [hf.delta.1]; exact deltaEncode_eq (by rw [abs_lt]; have := hf.delta.2; omega)
      have he := timeEncode_of hm hde ((tzEncode_iff hoff).2 hf.tz.1)
      obtain ⟨r, hb⟩ := time_build (f := f) L ctx hf.tai.2.1 hf.tai.2.2 hf.sub.2 hf.unc.2 hf.delta.2 (by have := hf.tz.2; omega)
      refine ⟨u, ?_⟩
      simp only [Time.timeSet, adapter, he, ok_bind, timeWords, ← hf.tai.1, ← hf.unc.1, ← hf.auth]
      have hs := hf.sub.1
      rw [show ((f.tai : Nat) : Rat) = ((f.tai : Int) : Rat) by push_cast; rfl] at hs
      rw [← hs, hb]; rfl
    · have hoff : -86400 * us < t.off ∧ t.off < 86400 * us := by obtain ⟨_, _, _, _, _, _, _, h, _⟩ := hm; exact h.1
      obtain ⟨n, hn⟩ := hd
      have hde : Time.deltaEncode t.td = .ok (n + 255) := by
        rw [show t.td = (n + 255 - 255) * us by rw [hn]; ring]; exact deltaEncode_eq (by usomega)
      have he := timeEncode_of hm hde ((tzEncode_iff (n := k + 64) hoff).2 (by simpa using hq))
      refine ⟨u, ?_⟩
      simp only [Time.timeSet, adapter, he, ok_bind, timeWords, h0]
      obtain ⟨r, hb⟩ := time_build_zero L ctx (rhe (rnd (rnd (t.seconds - (0 : Int)) * 256))) (ftrunc (rnd (secondsF t.unc * 100))) (n + 255) t.auth (k + 64)
      rw [hb]; rfl
  dec := by
    rintro u b v ⟨t, hm, ⟨f, hf, hr, rfl⟩ | ⟨h0, hd, hb, ⟨k, hq⟩, rfl, rfl⟩⟩ L ctx rest hrest
    · rw [hrest rfl, List.append_nil]
      simp only [Time.timeSet, adapter, time_parse (f := f) L ctx hf.tai.2.1 hf.tai.2.2 hf.sub.2 hf.unc.2 hf.delta.2 (by have := hf.tz.2; omega),
        ok_bind, timeDecode_eq hr hf.tai.2.2 hf.tz.2]
    · simp only [Time.timeSet, adapter, time_parse_zero, ok_bind]
      rfl
  sound := by
    intro L ctx u b r hL ho hb
    simp only [Time.timeSet, adapter, bind_ok] at hb
    obtain ⟨w, he, ⟨b', r'⟩, hb, h3⟩ := hb
    cases h3
    rcases timeEncode_ok he with ⟨t, delta, tz, hm, hd, hz, rfl⟩ | h
    · have hoff : -86400 * us < t.off ∧ t.off < 86400 * us := by obtain ⟨_, _, _, _, _, _, _, h, _⟩ := hm; exact h.1
      have hrange := time_build_range (hL trivial) (tai := ftrunc t.seconds) rfl rfl rfl hb
      have htd : t.td.natAbs < 2 ^ 32 * 1000000 := by
        by_contra hc
        exact ho (.inr (.inl ⟨t, hm, by omega⟩))
      have hdelta := deltaEncode_ok hd htd
      have hq := (tzEncode_iff hoff).1 hz
      by_cases h0 : ftrunc t.seconds = 0
      · refine ⟨unknownTime, t, hm, .inr ⟨h0, ⟨delta - 255, by rw [hdelta]; ring⟩, htd, ⟨_, hq⟩, ?_, rfl⟩⟩
        obtain ⟨r, hb'⟩ := time_build_zero L ctx (rhe (rnd (rnd (t.seconds - ftrunc t.seconds) * 256))) (ftrunc (rnd (secondsF t.unc * 100))) delta t.auth tz
        simp only [timeWords] at hb
        rw [show timeDict (ftrunc t.seconds) (rhe (rnd (rnd (t.seconds - ftrunc t.seconds) * 256))) (ftrunc (rnd (secondsF t.unc * 100))) delta t.auth tz =
          timeDict 0 (rhe (rnd (rnd (t.seconds - ftrunc t.seconds) * 256))) (ftrunc (rnd (secondsF t.unc * 100))) delta t.auth tz by rw [h0], hb'] at hb
        cases hb; rfl
      · by_cases hfit : ∃ f v, TimeFits t f ∧ f.Reads v
        · obtain ⟨f, v, hf, hr⟩ := hfit
          refine ⟨v, t, hm, .inl ⟨f, hf, hr, ?_⟩⟩
          have e1 : delta = f.delta := by have := hf.delta.1; rw [hdelta] at this; usomega
          have e2 : tz = f.tz := by
            obtain ⟨r1, a1, a2, a3⟩ := hq
            obtain ⟨r2, b1, b2, b3⟩ := hf.tz.1
            rw [a3] at b3
            usomega
          obtain ⟨r, hb'⟩ := time_build (f := f) L ctx hf.tai.2.1 hf.tai.2.2 hf.sub.2 hf.unc.2 hf.delta.2 (by have := hf.tz.2; omega)
          have hs := hf.sub.1
          rw [show ((f.tai : Nat) : Rat) = ((f.tai : Int) : Rat) by push_cast; rfl] at hs
          simp only [timeWords, ← hf.tai.1, ← hf.unc.1, ← hf.auth, ← hs, e1, e2] at hb
          rw [hb'] at hb
          cases hb; rfl
        · exact absurd (.inl ⟨t, hm, by omega, hrange.2, hfit⟩) ho
    · exact absurd (.inr (.inr h)) ho
  refl := False.elim
  inv := False.elim
  exact := False.elim
  nodiv := time_nodiv

/-! ### Other messages -/

theorem dset_twice {k : String} (acc : Dict) (A B : Val) : dset (dset acc k A) k B = dset acc k B := by
  induction acc with
  | nil => simp [dset]
  | cons p acc ih =>
    obtain ⟨j, y⟩ := p
    by_cases h1 : j = k
    · subst h1; simp [dset]
    · simp only [dset, h1, if_false, ih]

theorem dset_swap {k c : String} (hkc : k ≠ c) (acc : Dict) (A B x : Val) :
    dset (dset (dset acc k A) c x) k B = dset (dset acc k B) c x := by
  induction acc with
  | nil => simp [dset, hkc]
  | cons p acc ih =>
    obtain ⟨j, y⟩ := p
    by_cases h1 : j = k
    · subst h1; simp [dset, hkc]
    · by_cases h2 : j = c
      · subst h2; simp only [dset, h1, if_false, if_true, dset_twice]
      · simp only [dset, h1, h2, if_false, ih]

theorem delta_word {n : Nat} (hn : n < 2 ^ 15) : bytesBits (leBytes 2 n).reverse = [false] ++ natBits 15 n := by
  have h1 : natBits (1 + 15) (0 * 2 ^ 15 + n) = natBits 1 0 ++ natBits 15 n := natBits_add (by decide) hn
  rw [show natBits 1 0 = [false] from rfl, Nat.zero_mul, Nat.zero_add] at h1
  rw [← h1]
  refine bitsNat_inj (by rw [bytesBits_length, List.length_reverse, leBytes_length, natBits_length]) ?_
  rw [bitsNat_rev, leNat_leBytes _ _ (by omega), bitsNat_natBits _ _ (by omega)]

abbrev deltaGroup (k : String) : RI UInt8 := F.bitGroup "_" 2 true [F.zeros false 1, F.fld k (F.bitsU 15)]

theorem meets_deltaField (k : String) (hk : k ≠ "_") : MeetsI stable e (Time.deltaField k) (deltaGroup k) := by
  refine meetsI_bitGroup (.cons (meetsI_zeros false 1 id) (.last (meetsI_field rfl (meets_ubits 15 trivial)))) ?_ ?_
  · exact (LenEqIs.cons (m := 1) (lenEqI_zeros false 1) (.cons (m := 15) (lenEqI_fld (lenEq_bitsU 15)) .nil))
  · simpa [F.zeros, F.fld] using Ne.symm hk

theorem deltaGroup_iff {k : String} {du dv : Dict} {b : List UInt8} : (deltaGroup k).rel du b dv ↔
    ∃ u, ∃ n : Nat, dget du k = some u ∧ asInt u = some (n : Int) ∧ n < 2 ^ 15 ∧ b = leBytes 2 n ∧ dv = [("_", .dict [(k, .int n)]), (k, .int n)] := by
  constructor
  · rintro ⟨d, hl, ⟨b1, b2, d1, d2, hb, rfl, ⟨rfl, rfl⟩, b3, b4, d3, d4, rfl, rfl, ⟨u, v, hu, ⟨n, hn, hl', hbn, rfl⟩, rfl⟩, rfl, rfl⟩, rfl⟩
    simp only [if_true, List.append_nil, List.replicate_one, List.nil_append] at hb
    have hn15 : n < 2 ^ 15 := by
      have := bitsNat_lt b3; rw [hl', hbn] at this; exact this
    refine ⟨u, n, hu, hn, hn15, ?_, rfl⟩
    have h1 := bitsNat_rev b
    rw [hb, bitsNat_append] at h1
    have : leNat b = n := by rw [← h1, hbn]; simp [bitsNat]
    rw [← this, ← hl, leBytes_leNat]
  · rintro ⟨u, n, hu, hn, h15, rfl, rfl⟩
    refine ⟨[(k, .int n)], leBytes_length _ _, ?_, rfl⟩
    simp only [if_true]
    rw [delta_word h15]
    exact ⟨[false], natBits 15 n, [], [_], rfl, rfl, ⟨rfl, rfl⟩, natBits 15 n, [], [_], [], by simp, rfl,
      ⟨u, _, hu, ⟨n, hn, natBits_length _ _, bitsNat_natBits _ _ h15, rfl⟩, rfl⟩, rfl, rfl⟩

theorem meets_deltaPair {k₁ k₂ : String} (h1 : k₁ ≠ "_") (h2 : k₂ ≠ "_") (h12 : k₁ ≠ k₂) :
    MeetsI stable e (grouped [Time.deltaField k₁, Time.deltaField k₂]) (F.deltaPair k₁ k₂) := by
  have m1 : MeetsI stable false (Time.deltaField k₁) (deltaGroup k₁) := meets_deltaField k₁ h1
  have m2 : MeetsI stable false (Time.deltaField k₂) (deltaGroup k₂) := meets_deltaField k₂ h2
  have hmerge : ∀ (acc : Dict) (n₁ n₂ : Nat), dmerge (dmerge acc [("_", .dict [(k₁, .int n₁)]), (k₁, .int n₁)]) [("_", .dict [(k₂, .int n₂)]), (k₂, .int n₂)] =
      dmerge acc [("_", .dict [(k₂, .int n₂)]), (k₁, .int n₁), (k₂, .int n₂)] := by
    intro acc n₁ n₂
    simp only [dmerge]
    rw [dset_swap (Ne.symm h1)]
  have hself : ∀ n₁ n₂ : Nat, n₁ < 2 ^ 15 → n₂ < 2 ^ 15 → (F.deltaPair k₁ k₂).rel [("_", .dict [(k₂, .int n₂)]), (k₁, .int n₁), (k₂, .int n₂)]
      (leBytes 2 n₁ ++ leBytes 2 n₂) [("_", .dict [(k₂, .int n₂)]), (k₁, .int n₁), (k₂, .int n₂)] := by
    intro n₁ n₂ a1 a2
    refine ⟨.int n₁, .int n₂, n₁, n₂, ?_, ?_, rfl, rfl, a1, a2, rfl, rfl⟩
    · simp [dget, Ne.symm h1]
    · simp [dget, Ne.symm h2, h12]
  exact {
    enc := by
      rintro du b dv ⟨u₁, u₂, n₁, n₂, hu1, hu2, hn1, hn2, hl1, hl2, rfl, rfl⟩ L ctx hT
      obtain ⟨c1, hc1⟩ := m1.enc (deltaGroup_iff.2 ⟨u₁, n₁, hu1, hn1, hl1, rfl, rfl⟩) L ctx hT
      obtain ⟨c2, hc2⟩ := m2.enc (deltaGroup_iff.2 ⟨u₂, n₂, hu2, hn2, hl2, rfl, rfl⟩) L c1 hT
      exact ⟨c2, by simp only [grouped, buildItems, hc1, hc2, ok_bind, List.append_nil]⟩
    dec := by
      rintro du b dv ⟨u₁, u₂, n₁, n₂, hu1, hu2, hn1, hn2, hl1, hl2, rfl, rfl⟩ L acc rest _
      have p1 := m1.dec (deltaGroup_iff.2 ⟨u₁, n₁, hu1, hn1, hl1, rfl, rfl⟩) L acc (leBytes 2 n₂ ++ rest) (by simp)
      have p2 := m2.dec (deltaGroup_iff.2 ⟨u₂, n₂, hu2, hn2, hl2, rfl, rfl⟩) L (dmerge acc [("_", .dict [(k₁, .int n₁)]), (k₁, .int n₁)]) rest (by simp)
      rw [List.append_assoc]
      simp only [grouped, parseItems, p1, p2, ok_bind, hmerge]
    sound := by
      intro L du ctx b ctx' hL hb
      simp only [grouped, buildItems, bind_ok] at hb
      obtain ⟨⟨b1, c1⟩, hb1, ⟨b2, c2⟩, ⟨⟨b3, c3⟩, hb3, ⟨b4, c4⟩, hb4, h5⟩, h6⟩ := hb
      cases hb4; cases h5; cases h6
      obtain ⟨d1, hd1⟩ := m1.sound hL hb1
      obtain ⟨d2, hd2⟩ := m2.sound hL hb3
      obtain ⟨u₁, n₁, hu1, hn1, hl1, rfl, -⟩ := deltaGroup_iff.1 hd1
      obtain ⟨u₂, n₂, hu2, hn2, hl2, rfl, -⟩ := deltaGroup_iff.1 hd2
      exact ⟨_, u₁, u₂, n₁, n₂, hu1, hu2, hn1, hn2, hl1, hl2, by simp, rfl⟩
    refl := by
      rintro - du b dv ⟨u₁, u₂, n₁, n₂, hu1, hu2, hn1, hn2, hl1, hl2, rfl, rfl⟩
      exact hself n₁ n₂ hl1 hl2
    inv := by
      intro hS L acc s acc' rest hp
      simp only [grouped, parseItems, bind_ok] at hp
      obtain ⟨⟨a1, s1⟩, hp1, ⟨a2, s2⟩, hp2, hp3⟩ := hp
      cases hp3
      obtain ⟨b1, d1, rfl, hr1⟩ := m1.inv hS hp1
      obtain ⟨b2, d2, rfl, hr2⟩ := m2.inv hS hp2
      obtain ⟨u₁, n₁, hu1, hn1, hl1, rfl, rfl⟩ := deltaGroup_iff.1 hr1
      obtain ⟨u₂, n₂, hu2, hn2, hl2, rfl, rfl⟩ := deltaGroup_iff.1 hr2
      exact ⟨_, _, hmerge acc n₁ n₂, hself n₁ n₂ hl1 hl2⟩
    exact := False.elim
    nodiv := by
      intro L acc s hp
      simp only [grouped, parseItems, bind_err] at hp
      rcases hp with hp | ⟨_, _, hp | ⟨_, _, hp⟩⟩
      · exact m1.nodiv _ _ _ hp
      · exact m2.nodiv _ _ _ hp
      · cases hp
    keys := by
      rintro du b dv ⟨u₁, u₂, n₁, n₂, hu1, hu2, hn1, hn2, hl1, hl2, rfl, rfl⟩
      rfl
    loc := by
      rintro du du' b dv hk ⟨u₁, u₂, n₁, n₂, hu1, hu2, hn1, hn2, hl1, hl2, rfl, rfl⟩
      exact ⟨u₁, u₂, n₁, n₂, by rw [← hk k₁ (by simp [F.deltaPair])]; exact hu1, by rw [← hk k₂ (by simp [F.deltaPair])]; exact hu2, hn1, hn2, hl1, hl2, rfl, rfl⟩ }

theorem meets_deltaStatus : Meets stable true Time.deltaStatus (record [F.deltaPair "tai_utc_delta_current" "tai_utc_delta_new",
    F.fld "tai_of_delta_change" (F.uint 5)]) := by
  rw [show Time.deltaStatus = struct [grouped [Time.deltaField "tai_utc_delta_current", Time.deltaField "tai_utc_delta_new"],
    field "tai_of_delta_change" (bytesIntLE 5)] from struct_ext (grouped_append [_, _] [_])]
  exact meets_struct (.cons (meets_deltaPair (by decide) (by decide) (by decide)) (.last (meetsI_field rfl (meets_bytesInt 5 trivial)))) (by decide)

theorem meets_deltaSet : Meets stable true Time.deltaSet (record [deltaGroup "tai_utc_delta_new", F.fld "tai_of_delta_change" (F.uint 5)]) :=
  meets_struct (.cons (meets_deltaField _ (by decide)) (.last (meetsI_field rfl (meets_bytesInt 5 trivial)))) (by decide)

macro_rules | `(tactic| meets1) => `(tactic| with_reducible first
  | exact meets_deltaStatus | exact meets_deltaSet)

variable [Platform]

theorem time_lossless : Covers lossless E.TimeOpcode Tables.timeCases Spec.timeLossless := by
  unfold Spec.timeLossless; covers
theorem time_stable : Covers stable E.TimeOpcode Tables.timeCases Spec.timeStable := by
  unfold Spec.timeStable; covers
theorem time_plain : Covers plain E.TimeOpcode Tables.timeCases Spec.timePlain := by
  unfold Spec.timePlain
  refine covers_consBut rfl (by rfl) (by dsimp only; decide +kernel) (by rfl) meets_time ?_
  exact covers_consBut rfl (by rfl) (by dsimp only; decide +kernel) (by rfl) meets_time covers_nil

end BM
