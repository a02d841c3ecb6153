import Verif.Props.Access
import Verif.Props.Opcodes
/-!
# Times (C23) and time stamps (C24)
-/
namespace BM.Props
open Tables F Spec

/-! ### Rounding -/

/-- Rounding to binary64 does not cross an integer. -/
theorem int_le_rnd {q : Rat} {n : Int} (hq : |q| < 2 ^ 53) (h : (n : Rat) ≤ q) : (n : Rat) ≤ rnd q := by
  unfold rnd
  split
  · rename_i h0; rw [h0] at h; exact h
  · rename_i h0
    obtain ⟨h1, -⟩ := ilog2_spec h0
    set e := ilog2 q
    have he : e < 53 := by
      apply pow2_lt
      refine lt_of_le_of_lt h1 ?_
      have : pow2 53 = (2 : ℚ) ^ 53 := by rw [pow2_eq]; norm_num
      rw [this]; exact hq
    obtain ⟨m, hm⟩ := Int.eq_ofNat_of_zero_le (a := 52 - e) (by omega)
    have hp : pow2 (52 - e) = ((2 ^ m : Int) : ℚ) := by rw [hm, pow2_eq]; simp
    have hpos : (0 : ℚ) < ((2 ^ m : Int) : ℚ) := by rw [← hp]; exact pow2_pos _
    simp only [hp]
    rw [le_div_iff₀ hpos]
    have h2 := rhe_mono (mul_le_mul_of_nonneg_right h hpos.le)
    rw [← Int.cast_mul, rhe_int] at h2
    exact_mod_cast h2

theorem nonneg_rnd {q : Rat} (hq : |q| < 2 ^ 53) (h : 0 ≤ q) : 0 ≤ rnd q := by
  have := int_le_rnd (n := 0) hq (by exact_mod_cast h)
  exact_mod_cast this

/-- Double precision is good for 29 microseconds within the calendar. -/
theorem rnd_near {q : Rat} (h : |q| ≤ 255000000000) : |rnd q - q| ≤ 29 / 10 ^ 6 := by
  refine (rnd_err q).trans ?_
  rw [div_le_iff₀ (by norm_num)]
  refine h.trans (by norm_num)

theorem rnd_small {q : Rat} (h : |q| ≤ 300) : |rnd q - q| ≤ 1 / 10 ^ 6 := by
  refine (rnd_err q).trans ?_
  rw [div_le_iff₀ (by norm_num)]
  refine h.trans (by norm_num)

/-! ### The seconds and the fraction that are sent -/

/-- The number of seconds sent is the number of whole seconds, and the fraction is off by at most 87 microseconds. -/
theorem seconds_near {t : TimeVal} {z : Int} (hoff : t.off = z * us) (hz : |z| ≤ 86400) (h0 : 0 ≤ t.m) (h1 : t.m < endSecond * us) :
    ((t.m / us - z - 946684800 : Int) : Rat) ≤ t.seconds ∧
    |t.seconds - ((t.m / us - z - 946684800 : Int) + (t.m % us : Int) / 10 ^ 6)| ≤ 87 / 10 ^ 6 := by
  have hdm := Int.emod_add_mul_ediv t.m us
  have hm0 := Int.emod_nonneg t.m (show us ≠ 0 by decide)
  have hm1 := Int.emod_lt_of_pos t.m (show 0 < us by decide)
  set M := t.m / us with hM
  set r := t.m % us with hr
  have hM0 : 0 ≤ M := by usomega
  have hM1 : M < endSecond := by usomega
  have hes : endSecond = 253402300800 := rfl
  have hq : (t.m : Rat) / 10 ^ 6 = M + (r : Rat) / 10 ^ 6 := by
    rw [← hdm]; push_cast; field_simp; ring
  have hrq : (0 : Rat) ≤ r := by exact_mod_cast hm0
  have hr0 : (0 : Rat) ≤ (r : Rat) / 10 ^ 6 := by positivity
  have hr1 : (r : Rat) / 10 ^ 6 < 1 := by
    have : (r : Rat) < 1000000 := by exact_mod_cast hm1
    rw [div_lt_one (by norm_num)]; linarith
  have hMq0 : (0 : Rat) ≤ M := by exact_mod_cast hM0
  have hMq1 : (M : Rat) ≤ 253402300800 := by rw [hes] at hM1; exact_mod_cast hM1.le
  have hz' := abs_le.1 hz
  have hzq0 : (-86400 : Rat) ≤ z := by exact_mod_cast hz'.1
  have hzq1 : (z : Rat) ≤ 86400 := by exact_mod_cast hz'.2
  -- the Unix time
  have a0 : |(t.m : Rat) / 10 ^ 6| ≤ 255000000000 := by rw [hq, abs_le]; constructor <;> linarith
  have a1 := abs_le.1 (rnd_near a0)
  have a2 : (M : Rat) ≤ secondsF t.m := int_le_rnd (by rw [hq, abs_lt]; constructor <;> linarith) (by rw [hq]; linarith)
  have a3 : secondsF t.m = rnd ((t.m : Rat) / 10 ^ 6) := rfl
  rw [← a3, hq] at a1
  -- since 2000
  have b0 : |secondsF t.m - 946684800| ≤ 255000000000 := by rw [abs_le]; constructor <;> linarith
  have b1 := abs_le.1 (rnd_near b0)
  have b2 : ((M - 946684800 : Int) : Rat) ≤ rnd (secondsF t.m - 946684800) :=
    int_le_rnd (by rw [abs_lt]; constructor <;> linarith) (by push_cast; linarith)
  -- less the offset
  have hso : secondsF t.off = z := by rw [hoff]; exact secondsF_whole (by omega)
  have c0 : |rnd (secondsF t.m - 946684800) - z| ≤ 255000000000 := by rw [abs_le]; constructor <;> linarith
  have c1 := abs_le.1 (rnd_near c0)
  have c2 : ((M - z - 946684800 : Int) : Rat) ≤ rnd (rnd (secondsF t.m - 946684800) - z) :=
    int_le_rnd (by rw [abs_lt]; constructor <;> linarith) (by push_cast at b2 ⊢; linarith)
  have hs : t.seconds = rnd (rnd (secondsF t.m - 946684800) - z) := by unfold TimeVal.seconds; rw [hso]
  rw [hs]
  refine ⟨c2, ?_⟩
  rw [abs_le]
  push_cast
  constructor <;> linarith

theorem fraction_near {t : TimeVal} {z : Int} (hoff : t.off = z * us) (hz : |z| ≤ 86400) (h0 : 0 ≤ t.m) (h1 : t.m < endSecond * us)
    (hf : t.m % us ≤ 997900) :
    ∃ sub : Nat, sub < 256 ∧ (sub : Int) = rhe (rnd (rnd (t.seconds - (t.m / us - z - 946684800 : Int)) * 256)) ∧
      |(sub : Rat) * 15625 / 4 - (t.m % us : Int)| ≤ 2043 ∧
      |rnd (rnd (t.seconds - (t.m / us - z - 946684800 : Int)) * 256) - (t.m % us : Int) * 256 / 10 ^ 6| ≤ 23 / 1000 := by
  obtain ⟨s1, s2⟩ := seconds_near hoff hz h0 h1
  have hm0 := Int.emod_nonneg t.m (show us ≠ 0 by decide)
  set N : Int := t.m / us - z - 946684800
  set r := t.m % us
  have hr0 : (0 : Rat) ≤ r := by exact_mod_cast hm0
  have hr1 : (r : Rat) ≤ 997900 := by exact_mod_cast hf
  have s2 := abs_le.1 s2
  set d := t.seconds - (N : Rat) with hd
  have d0 : 0 ≤ d := by linarith
  have d1 : |d - (r : Rat) / 10 ^ 6| ≤ 87 / 10 ^ 6 := by rw [abs_le]; constructor <;> linarith
  have d1' := abs_le.1 d1
  have e0 : |d| ≤ 300 := by rw [abs_le]; constructor <;> linarith
  have e1 := abs_le.1 (rnd_small e0)
  have e2 : (0 : Rat) ≤ rnd d := by
    have := int_le_rnd (q := d) (n := 0) (lt_of_le_of_lt e0 (by norm_num)) (by exact_mod_cast d0)
    exact_mod_cast this
  have g0 : |rnd d * 256| ≤ 300 := by rw [abs_le]; constructor <;> linarith
  have g1 := abs_le.1 (rnd_small g0)
  have g2 : (0 : Rat) ≤ rnd (rnd d * 256) := by
    have := int_le_rnd (q := rnd d * 256) (n := 0) (lt_of_le_of_lt g0 (by norm_num)) (by push_cast; positivity)
    exact_mod_cast this
  set G := rnd (rnd d * 256)
  have hG : |G - (r : Rat) * 256 / 10 ^ 6| ≤ 23 / 1000 := by rw [abs_le]; constructor <;> linarith
  have hG' := abs_le.1 hG
  have k0 : 0 ≤ rhe G := by
    have := rhe_mono g2
    have h0 := rhe_int 0
    rw [show ((0 : Int) : Rat) = 0 by norm_num] at h0
    omega
  have k1 : rhe G < 256 := by
    have := (abs_le.1 (rhe_err G)).2
    have : ((rhe G : Int) : Rat) < 256 := by linarith
    exact_mod_cast this
  obtain ⟨sub, hsub⟩ := Int.eq_ofNat_of_zero_le k0
  have hsub : (sub : Int) = rhe G := hsub.symm
  refine ⟨sub, by omega, hsub, ?_, hG⟩
  have k2 := abs_le.1 (rhe_err G)
  have e : ((sub : Nat) : Rat) = ((rhe G : Int) : Rat) := by rw [← hsub]; push_cast; rfl
  rw [e, abs_le]
  constructor <;> linarith

/-! ### Round trip -/

/-- A time that can be sent: a zone of whole quarters of an hour between -16 and +24 hours, a TAI-UTC difference of whole seconds that fits 15
bits, an uncertainty below 2.56 s, an instant at least a second after the beginning of 2000 (in the sense of the package, which takes
the zone off the UTC time) and before the end of the calendar, and not in the last 2.1 milliseconds of a second. -/
structure Sendable (t : TimeVal) (k n : Int) : Prop where
  zone : t.off = k * 900 * us ∧ -64 ≤ k ∧ k < 96
  delta : t.td = n * us ∧ -255 ≤ n ∧ n < 2 ^ 15 - 255
  unc : 0 ≤ t.unc ∧ t.unc < 2560000
  start : 946684801 * us ≤ t.m - t.off
  finish : t.m + 2100 < endSecond * us ∧ t.m + t.off + 2100 < endSecond * us
  fraction : t.m % us ≤ 997900

theorem Sendable.fits {t : TimeVal} {k n : Int} (h : Sendable t k n) : ∃ f : TimeFields, ∃ v, TimeFits t f ∧ f.Reads v ∧
    (f.tai : Int) = t.m / us - k * 900 - 946684800 ∧ f.tz = (k + 64).toNat ∧ f.delta = (n + 255).toNat ∧ f.auth = t.auth ∧
    f.off = t.off ∧ |f.instant - t.m| ≤ 2050 ∧ |(f.sub : Rat) * 15625 / 4 - (t.m % us : Int)| ≤ 2043 ∧
    -1 ≤ t.unc - f.unc * 10000 ∧ t.unc - f.unc * 10000 ≤ 10001 := by
  obtain ⟨⟨z1, z2, z3⟩, ⟨d1, d2, d3⟩, ⟨u1, u2⟩, st, ⟨f1, f2⟩, fr⟩ := h
  have hes : endSecond = 253402300800 := rfl
  have hz : |k * 900| ≤ 86400 := by rw [abs_le]; constructor <;> omega
  have hm : 0 ≤ t.m := by usomega
  have hm1 : t.m < endSecond * us := by usomega
  have hfr0 := Int.emod_nonneg t.m (show us ≠ 0 by decide)
  obtain ⟨s1, s2⟩ := seconds_near (t := t) (z := k * 900) z1 hz hm hm1
  obtain ⟨sub, hs1, hs2, hs3, -⟩ := fraction_near (t := t) (z := k * 900) z1 hz hm hm1 fr
  have hN1 : 1 ≤ t.m / us - k * 900 - 946684800 := by usomega
  have hN2 : t.m / us - k * 900 - 946684800 < 2 ^ 40 := by usomega
  obtain ⟨tai, htai⟩ := Int.eq_ofNat_of_zero_le (show 0 ≤ t.m / us - k * 900 - 946684800 by omega)
  have hsec : ftrunc t.seconds = t.m / us - k * 900 - 946684800 := by
    refine ftrunc_eq (by omega) s1 ?_
    have : ((t.m % us : Int) : Rat) ≤ 997900 := by exact_mod_cast fr
    have := (abs_le.1 s2).2
    linarith
  -- uncertainty
  have v0 : |secondsF t.unc - (t.unc : Rat) / 10 ^ 6| ≤ ((2560000 : Int) : Rat) / 10 ^ 6 / 2 ^ 53 := secondsF_err (by rw [abs_le]; constructor <;> omega)
  have v0 : |secondsF t.unc - (t.unc : Rat) / 10 ^ 6| ≤ 1 / 10 ^ 12 := v0.trans (by norm_num)
  have v0 := abs_le.1 v0
  have q0 : (0 : Rat) ≤ t.unc := by exact_mod_cast u1
  have q1 : (t.unc : Rat) ≤ 2559999 := by exact_mod_cast (by omega : t.unc ≤ 2559999)
  have w0 : (0 : Rat) ≤ secondsF t.unc := by
    exact nonneg_rnd (by rw [abs_lt]; constructor <;> linarith) (by positivity)
  have x0 : |secondsF t.unc * 100| ≤ 300 := by rw [abs_le]; constructor <;> linarith
  have x1 : |rnd (secondsF t.unc * 100) - secondsF t.unc * 100| ≤ 1 / 10 ^ 12 := by
    refine (rnd_err _).trans ?_
    rw [div_le_iff₀ (by norm_num)]
    exact x0.trans (by norm_num)
  have x1 := abs_le.1 x1
  have x2 : (0 : Rat) ≤ rnd (secondsF t.unc * 100) := by
    have := int_le_rnd (q := secondsF t.unc * 100) (n := 0) (lt_of_le_of_lt x0 (by norm_num)) (by push_cast; positivity)
    exact_mod_cast this
  set X := rnd (secondsF t.unc * 100)
  have y0 : ftrunc X = X.floor := by unfold ftrunc; rw [if_pos x2]
  have y1 := Rat.floor_le X
  have y2 : X < (X.floor : Rat) + 1 := by rw [rfloor_eq]; exact Int.lt_floor_add_one X
  have y3 : 0 ≤ X.floor := by rw [rfloor_eq]; exact Int.floor_nonneg.2 x2
  have y4 : X.floor < 256 := by
    have : (X.floor : Rat) < 256 := by linarith
    exact_mod_cast this
  obtain ⟨unc, hunc⟩ := Int.eq_ofNat_of_zero_le y3
  have yq : (unc : Rat) = (X.floor : Rat) := by rw [hunc]; push_cast; rfl
  have b1 : -1 ≤ t.unc - unc * 10000 := by
    have : (-1 : Rat) ≤ t.unc - unc * 10000 := by rw [yq]; linarith
    exact_mod_cast this
  have b2 : t.unc - unc * 10000 ≤ 10001 := by
    have : (t.unc : Rat) - unc * 10000 ≤ 10001 := by rw [yq]; linarith
    exact_mod_cast this
  let f : TimeFields := ⟨tai, sub, unc, (n + 255).toNat, t.auth, (k + 64).toNat⟩
  have htz : ((k + 64).toNat : Int) = k + 64 := Int.toNat_of_nonneg (by omega)
  have hdl : ((n + 255).toNat : Int) = n + 255 := Int.toNat_of_nonneg (by omega)
  have hoff : f.off = t.off := by simp only [TimeFields.off, f, htz, z1]; ring
  have hinst : |f.instant - t.m| ≤ 2050 := by
    have hdm := Int.emod_add_mul_ediv t.m us
    have e1 : f.instant - t.m = rhe ((sub : Rat) * 10 ^ 6 / 256) - t.m % us := by
      simp only [TimeFields.instant, hoff, f, z1]
      generalize rhe ((sub : Rat) * 10 ^ 6 / 256) = R
      clear * - hdm htai
      generalize t.m = m at *
      usomega
    have e2 := abs_le.1 (rhe_err ((sub : Rat) * 10 ^ 6 / 256))
    have e3 := abs_le.1 hs3
    rw [e1]
    have : |((rhe ((sub : Rat) * 10 ^ 6 / 256) - t.m % us : Int) : Rat)| ≤ (2050 : Int) := by
      rw [abs_le]; push_cast; constructor <;> linarith
    exact_mod_cast this
  refine ⟨f, _, ⟨⟨?_, ?_, ?_⟩, ⟨?_, hs1⟩, ⟨?_, ?_⟩, ⟨?_, ?_⟩, ⟨⟨0, ?_⟩, ?_⟩, rfl⟩, ⟨?_, ?_, rfl⟩, ?_, rfl, rfl, rfl, hoff, hinst, hs3, b1, b2⟩
  · simp only [f]; omega
  · simp only [f]; omega
  · simp only [f]; omega
  · simp only [f]
    rw [hs2, htai]; push_cast; rfl
  · simp only [f]; rw [y0, hunc]
  · simp only [f]; omega
  · simp only [f, hdl, d1]; ring
  · simp only [f]; omega
  · simp only [f, htz, z1]; usomega
  · simp only [f]; omega
  · have := abs_le.1 hinst
    clear * - this f1 hes
    generalize f.instant = I at *
    usomega
  · have := abs_le.1 hinst; rw [hoff]
    clear * - this f2 hes
    generalize f.instant = I at *
    generalize t.off = o at *
    usomega
  · simp only [f]; omega

/-- The object of a time message: the opcode and the parameters, under the name of the message or under `params`. -/
def Carrying (op : Nat) (name : String) (d : Dict) (u : Val) : Prop :=
  ∃ k, dget d "opcode" = some k ∧ (hashInt k = some (op : Int) ∨ k = .str (upper name)) ∧ (dget d name).or (dget d "params") = some u

/-- What is reported for a time. -/
def timeReport (cls : String) (op : Nat) (name : String) (m off td unc : Int) (auth : Bool) : Val :=
  .dict [("opcode", .enum cls op), (name, .dict [("date", .datetime m off), ("tai_utc_delta", .timedelta td), ("time_authority", .bool auth),
    ("uncertainty", .timedelta unc)])]

variable [Platform]

theorem time_messages {op : Nat} {name : String} (h : (op, name) ∈ [(0x5C, "time_set"), (0x5D, "time_status")]) :
    msgBut op name F.time OddTime ∈ Spec.messages := by
  simp only [List.mem_cons, Prod.mk.injEq, List.not_mem_nil, or_false] at h
  simp only [Spec.messages, Spec.plainOnly, Spec.timePlain, List.mem_append, List.mem_cons]
  rcases h with ⟨rfl, rfl⟩ | ⟨rfl, rfl⟩ <;> tauto

/-- **C23 (round trip).** A time that can be sent is sent in ten bytes, whose first five hold the whole seconds since 2000 exactly, less the
zone; parsing returns the instant within 2.05 ms (half of 1/256 s and the rounding errors), exactly the same zone and TAI-UTC difference
and authority, and the uncertainty rounded down to 10 ms (up to a microsecond). -/
theorem C23_roundtrip {op : Nat} {name : String} (hop : (op, name) ∈ [(0x5C, "time_set"), (0x5D, "time_status")]) {u : Val} {t : TimeVal}
    (hu : TimeMeans u t) {k n : Int} (ht : Sendable t k n) (L : Lib) {d : Dict} (hd : Carrying op name d u) :
    ∃ f : TimeFields, (∃ o, accessBuild registry L (.dict d) = .ok (wireOpcode op ++ f.bytes, o)) ∧
      ((f.tai : Int) = (t.m - t.off) / us - 946684800 ∧ (f.tz : Int) = k + 64 ∧ (f.delta : Int) = n + 255 ∧ f.auth = t.auth) ∧
      ∃ cls m' unc', accessParse registry L (wireOpcode op ++ f.bytes) = .ok (timeReport cls op name m' t.off t.td unc' t.auth, []) ∧
        |m' - t.m| ≤ 2050 ∧ -1 ≤ t.unc - unc' ∧ t.unc - unc' ≤ 10001 := by
  obtain ⟨f, v, h1, h2, h3, h4, h5, h6, h7, h8, -, h9, h10⟩ := ht.fits
  obtain ⟨kv, hk, hs, hp⟩ := hd
  obtain ⟨hb, cls, scls, hpar⟩ := C05_encode_decode (time_messages hop) (u := u) (b := f.bytes) (v := v) ⟨t, hu, .inl ⟨f, h1, h2, rfl⟩⟩ L hk hs hp
  have hh : header (msgBut op name F.time OddTime) = wireOpcode op := by simp [header]
  rw [hh] at hb hpar
  refine ⟨f, hb, ⟨?_, ?_, ?_, h6⟩, cls, f.instant, f.unc * 10000, ?_, h8, h9, h10⟩
  · rw [h3, ht.zone.1]; usomega
  · have := ht.zone; omega
  · have := ht.delta; omega
  · rw [hpar]
    obtain ⟨-, -, rfl⟩ := h2
    rw [h1.delta.1, ← h7, ← h6]
    rfl

/-- **C23 (the unknown time).** Five zero bytes, whatever follows, are reported as a time all of whose entries are `None`; such an object
cannot be sent. -/
theorem C23_unknown {op : Nat} {name : String} (hop : (op, name) ∈ [(0x5C, "time_set"), (0x5D, "time_status")]) (L : Lib) (s : List UInt8) :
    ∃ cls, accessParse registry L (wireOpcode op ++ (List.replicate 5 0 ++ s)) = .ok (.dict [("opcode", .enum cls op), (name, unknownTime)], s) ∧
      ∃ e, accessBuild registry L (.dict [("opcode", .enum cls op), (name, unknownTime)]) = .error e := by
  have he : (E.TimeOpcode, timeCases) ∈ registry := by inreg
  have key : ∀ {N : String}, lower N = name → (N, (op : Int)) ∈ E.TimeOpcode.members → findCase op timeCases = some Time.timeSet →
      ∃ cls, accessParse registry L (wireOpcode op ++ (List.replicate 5 0 ++ s)) = .ok (.dict [("opcode", .enum cls op), (name, unknownTime)], s) ∧
        ∃ e, accessBuild registry L (.dict [("opcode", .enum cls op), (name, unknownTime)]) = .error e := by
    intro N hl hN hc
    refine ⟨"TimeOpcode", ?_, ?_⟩
    · have := C04_parse he hN L (List.replicate 5 0 ++ s)
      rw [hc, Option.getD_some, hl] at this
      rw [this]
      simp only [Time.timeSet, adapter, time_parse_zero, ok_bind]
      rfl
    · have hne : name ≠ "opcode" := by
        simp only [List.mem_cons, Prod.mk.injEq, List.not_mem_nil, or_false] at hop
        rcases hop with ⟨-, rfl⟩ | ⟨-, rfl⟩ <;> decide
      have := C04_build he hN (by rw [hl]; exact hne) L (d := [("opcode", .enum "TimeOpcode" op), (name, unknownTime)])
        (k := .enum "TimeOpcode" op) rfl (.inl rfl)
      simp only [hl, hc, Option.getD_some, dget, if_neg (Ne.symm hne), if_true, Option.some_or] at this
      cases hb : accessBuild registry L (.dict [("opcode", .enum "TimeOpcode" op), (name, unknownTime)]) with
      | error e => exact ⟨e, rfl⟩
      | ok r =>
        rw [hb] at this
        cases this
  simp only [List.mem_cons, Prod.mk.injEq, List.not_mem_nil, or_false] at hop
  rcases hop with ⟨rfl, rfl⟩ | ⟨rfl, rfl⟩
  · exact key (N := "TIME_SET") (by decide) (by simp [E.TimeOpcode]) rfl
  · exact key (N := "TIME_STATUS") (by decide) (by simp [E.TimeOpcode]) rfl

/-- The fields are in the ranges of the message, and the time is known. -/
structure InRange (f : TimeFields) : Prop where
  tai : 0 < f.tai ∧ f.tai < 2 ^ 40
  sub : f.sub < 256
  unc : f.unc < 256
  delta : f.delta < 2 ^ 15
  tz : f.tz < 256

/-- **C23 (reading).** A time is reported exactly if its zone is below +24 hours and it lies within the calendar, in UTC and locally. -/
theorem C23_read {op : Nat} {name : String} (hop : (op, name) ∈ [(0x5C, "time_set"), (0x5D, "time_status")]) {f : TimeFields} (hf : InRange f) (L : Lib) :
    (f.tz < 160 ∧ f.instant < endSecond * us ∧ f.instant + f.off < endSecond * us →
      accessParse registry L (wireOpcode op ++ f.bytes) = .ok (timeReport "TimeOpcode" op name f.instant f.off ((f.delta - 255) * us) (f.unc * 10000) f.auth, [])) ∧
    (¬ (f.tz < 160 ∧ f.instant < endSecond * us ∧ f.instant + f.off < endSecond * us) →
      ∃ e, accessParse registry L (wireOpcode op ++ f.bytes) = .error e) := by
  have he : (E.TimeOpcode, timeCases) ∈ registry := by inreg
  have key : ∀ {N : String}, lower N = name → (N, (op : Int)) ∈ E.TimeOpcode.members → findCase op timeCases = some Time.timeSet →
      accessParse registry L (wireOpcode op ++ f.bytes) =
        (do let (v, rest) ← Time.timeSet.parse L [("opcode", .enum "TimeOpcode" op)] f.bytes
            .ok (.dict [("opcode", .enum "TimeOpcode" op), (name, v)], rest)) := by
    intro N hl hN hc
    have := C04_parse he hN L f.bytes
    rw [hc, Option.getD_some, hl] at this
    exact this
  have hp : accessParse registry L (wireOpcode op ++ f.bytes) =
        (do let (v, rest) ← Time.timeSet.parse L [("opcode", .enum "TimeOpcode" op)] f.bytes
            .ok (.dict [("opcode", .enum "TimeOpcode" op), (name, v)], rest)) := by
    simp only [List.mem_cons, Prod.mk.injEq, List.not_mem_nil, or_false] at hop
    rcases hop with ⟨rfl, rfl⟩ | ⟨rfl, rfl⟩
    · exact key (N := "TIME_SET") (by decide) (by simp [E.TimeOpcode]) rfl
    · exact key (N := "TIME_STATUS") (by decide) (by simp [E.TimeOpcode]) rfl
  have h0 : f.tai ≠ 0 := by have := hf.tai.1; omega
  have ht := time_parse (f := f) L [("opcode", .enum "TimeOpcode" op)] hf.tai.2 h0 hf.sub hf.unc hf.delta hf.tz
  rw [hp]
  simp only [Time.timeSet, adapter, ht, ok_bind]
  constructor
  · rintro ⟨h1, h2, h3⟩
    rw [timeDecode_eq ⟨h2, h3, rfl⟩ h0 h1]
    rfl
  · intro hn
    have hd : ∃ e, Time.timeDecode (.dict [("tai_seconds", .int f.tai), ("subsecond", .int f.sub), ("uncertainty", .int f.unc),
      ("_", .dict [("tai_utc_delta", .int f.delta), ("time_authority", .bool f.auth)]),
        ("tai_utc_delta", .int f.delta), ("time_authority", .bool f.auth), ("time_zone_offset", .int f.tz), ("_name", .str "optional")]) = .error e := by
      have e : f.instant = ((f.tai : Int) + Time.meshEpoch + ((f.tz : Int) - 64) * 900) * us + rhe (((f.sub : Int) : Rat) * 15625 / 4) := by
        unfold TimeFields.instant TimeFields.off Time.meshEpoch
        rw [show ((f.sub : Nat) : Rat) * 10 ^ 6 / 256 = ((f.sub : Int) : Rat) * 15625 / 4 by push_cast; ring]
        ring
      have e2 : f.off = ((f.tz : Int) - 64) * 900 * us := rfl
      have htt : ¬ (f.tai : Int) = 0 := by omega
      generalize hD : ([("tai_seconds", .int f.tai), ("subsecond", .int f.sub), ("uncertainty", .int f.unc),
          ("_", .dict [("tai_utc_delta", .int f.delta), ("time_authority", .bool f.auth)]),
            ("tai_utc_delta", .int f.delta), ("time_authority", .bool f.auth), ("time_zone_offset", .int f.tz), ("_name", .str "optional")] : Dict) = D
      have i1 : Time.intEntry D "tai_seconds" = .ok (f.tai : Int) := by rw [← hD]; rfl
      have i2 : Time.intEntry D "subsecond" = .ok (f.sub : Int) := by rw [← hD]; rfl
      have i5 : Time.intEntry D "time_zone_offset" = .ok (f.tz : Int) := by rw [← hD]; rfl
      refine ⟨if (f.tz : Int) - 64 < 96 ∧ f.instant < endSecond * us then .overflow else .value, ?_⟩
      simp only [Time.timeDecode, i1, i2, i5, ok_bind, htt, if_false]
      rw [← e, ← e2, if_neg]
      rintro ⟨h1, h2, h3⟩
      exact hn ⟨by omega, h2, h3⟩
    obtain ⟨e, he⟩ := hd
    exact ⟨e, by rw [he]; rfl⟩

/-- The uncertainties (in units of 10 ms) that are sent again one unit lower, because `int` truncates a product just below an integer. -/
def uncertaintyExceptions : List Nat := [29, 57, 58, 113, 114, 115, 116, 201, 203, 205, 207, 226, 228, 230, 232, 251, 253, 255]

omit [Platform] in
theorem uncertainty_again : ∀ n < 256, ftrunc (rnd (secondsF ((n : Nat) * 10000) * 100)) = ((if n ∈ uncertaintyExceptions then n - 1 else n : Nat) : Int) := by
  decide +kernel

omit [Platform] in
theorem again_fits {f : TimeFields} (hf : InRange f) (h1 : f.tz < 160) (h2 : f.instant < endSecond * us) :
    TimeFits ⟨f.instant, f.off, f.unc * 10000, (f.delta - 255) * us, f.auth⟩
      { f with unc := if f.unc ∈ uncertaintyExceptions then f.unc - 1 else f.unc } := by
  have hr := abs_le.1 (rhe_err ((f.sub : Rat) * 10 ^ 6 / 256))
  have hs0 : (0 : Rat) ≤ f.sub := by positivity
  have hs1 : (f.sub : Rat) ≤ 255 := by have := hf.sub; exact_mod_cast (by omega : f.sub ≤ 255)
  set R := rhe ((f.sub : Rat) * 10 ^ 6 / 256) with hR
  have hR0 : 0 ≤ R := by
    have : (-1 : Rat) < R := by linarith
    have : -1 < R := by exact_mod_cast this
    omega
  have hR1 : R ≤ 996094 := by
    have : (R : Rat) < 996095 := by linarith
    have : R < 996095 := by exact_mod_cast this
    omega
  set t : TimeVal := ⟨f.instant, f.off, f.unc * 10000, (f.delta - 255) * us, f.auth⟩ with ht
  have hi : t.m = ((f.tai : Int) + 946684800 + ((f.tz : Int) - 64) * 900) * us + R := by
    simp only [ht, TimeFields.instant, TimeFields.off, ← hR]; ring
  have ho : t.off = ((f.tz : Int) - 64) * 900 * us := rfl
  have hz : |((f.tz : Int) - 64) * 900| ≤ 86400 := by rw [abs_le]; constructor <;> omega
  have hm0 : 0 ≤ t.m := by
    have := hf.tai
    clear_value t
    clear * - hi hR0 this
    generalize t.m = m at *
    usomega
  have hmod : t.m % us = R := by
    clear_value t
    clear * - hi hR0 hR1
    generalize t.m = m at *
    usomega
  have hdiv : t.m / us - ((f.tz : Int) - 64) * 900 - 946684800 = (f.tai : Int) := by
    clear_value t
    clear * - hi hR0 hR1
    generalize t.m = m at *
    usomega
  obtain ⟨s1, s2⟩ := seconds_near (t := t) ho hz hm0 h2
  obtain ⟨sub, -, k2, -, k4⟩ := fraction_near (t := t) ho hz hm0 h2 (by rw [hmod]; exact hR1.trans (by norm_num))
  rw [hdiv] at s1 s2 k2 k4
  rw [hmod] at s2 k4
  have hRq : (R : Rat) ≤ 996094 := by exact_mod_cast hR1
  have hsec : ftrunc t.seconds = f.tai := by
    refine ftrunc_eq (by omega) s1 ?_
    have := (abs_le.1 s2).2
    linarith
  have hsub : rhe (rnd (rnd (t.seconds - (f.tai : Int)) * 256)) = (f.sub : Int) := by
    apply rhe_near
    have := abs_le.1 k4
    rw [abs_lt]
    push_cast at this ⊢
    constructor <;> linarith
  refine ⟨⟨hsec.symm, hf.tai.2, by have := hf.tai.1; clear * - this; simp only; omega⟩, ⟨?_, hf.sub⟩, ⟨(uncertainty_again f.unc hf.unc).symm, ?_⟩, ⟨rfl, hf.delta⟩,
    ⟨⟨0, by decide, by decide, by simp only [ho]; ring⟩, h1⟩, rfl⟩
  · simp only; rw [← hsub]; push_cast; rfl
  · have := hf.unc; simp only; split <;> omega

/-- **C23 (sending a received time).** A received time is sent again with all its fields unchanged, except that 18 values of the uncertainty
are sent one unit (10 ms) lower. -/
theorem C23_again {op : Nat} {name : String} (hop : (op, name) ∈ [(0x5C, "time_set"), (0x5D, "time_status")]) {f : TimeFields} (hf : InRange f) (L : Lib)
    {v : Val} {rest : List UInt8} (h : accessParse registry L (wireOpcode op ++ f.bytes) = .ok (v, rest)) :
    ∃ o, accessBuild registry L v =
      .ok (wireOpcode op ++ { f with unc := if f.unc ∈ uncertaintyExceptions then f.unc - 1 else f.unc }.bytes, o) := by
  obtain ⟨r1, r2⟩ := C23_read hop hf L
  by_cases hc : f.tz < 160 ∧ f.instant < endSecond * us ∧ f.instant + f.off < endSecond * us
  · rw [r1 hc] at h
    cases h
    have hfit := again_fits hf hc.1 hc.2.1
    have hoff : -86400 * us < f.off ∧ f.off < 86400 * us := by
      have := hc.1
      simp only [TimeFields.off]
      usomega
    have hpay : payload (msgBut op name F.time OddTime) [("opcode", .enum "TimeOpcode" op), (name, .dict [("date", .datetime f.instant f.off),
        ("tai_utc_delta", .timedelta ((f.delta - 255) * us)), ("time_authority", .bool f.auth), ("uncertainty", .timedelta (f.unc * 10000))])] =
        some (.dict [("date", .datetime f.instant f.off),
        ("tai_utc_delta", .timedelta ((f.delta - 255) * us)), ("time_authority", .bool f.auth), ("uncertainty", .timedelta (f.unc * 10000))]) := by
      have hne : "opcode" ≠ name := by
        simp only [List.mem_cons, Prod.mk.injEq, List.not_mem_nil, or_false] at hop
        rcases hop with ⟨-, rfl⟩ | ⟨-, rfl⟩ <;> decide
      simp [payload, outerPayload, dget, hne]
    obtain ⟨hb, -⟩ := C05_encode_decode (time_messages hop) (u := .dict [("date", .datetime f.instant f.off), ("tai_utc_delta", .timedelta ((f.delta - 255) * us)),
        ("time_authority", .bool f.auth), ("uncertainty", .timedelta (f.unc * 10000))]) (v := .dict [("date", .datetime f.instant f.off),
        ("tai_utc_delta", .timedelta ((f.delta - 255) * us)), ("time_authority", .bool f.auth),
        ("uncertainty", .timedelta ((if f.unc ∈ uncertaintyExceptions then f.unc - 1 else f.unc : Nat) * 10000))])
      (b := { f with unc := if f.unc ∈ uncertaintyExceptions then f.unc - 1 else f.unc }.bytes)
      ⟨_, ⟨_, _, _, _, _, rfl, rfl, ⟨hoff, .inl rfl⟩, rfl, .inl rfl, rfl, .inl rfl, rfl, rfl⟩, .inl ⟨_, hfit, ⟨hc.2.1, hc.2.2, rfl⟩, rfl⟩⟩ L
      (d := [("opcode", .enum "TimeOpcode" op), (name, .dict [("date", .datetime f.instant f.off), ("tai_utc_delta", .timedelta ((f.delta - 255) * us)),
        ("time_authority", .bool f.auth), ("uncertainty", .timedelta (f.unc * 10000))])]) (k := .enum "TimeOpcode" op) rfl (.inl rfl) hpay
    obtain ⟨o, hb⟩ := hb
    exact ⟨o, by simpa [header, timeReport] using hb⟩
  · obtain ⟨e, he⟩ := r2 hc
    rw [he] at h; cases h

/-! ### Times that do not fit -/

omit [Platform] in
/-- If the fraction or the uncertainty does not fit its byte, only the seconds are written. -/
theorem time_build_short (L : Lib) (ctx : Dict) {tai : Nat} (h1 : tai < 2 ^ 40) (h0 : tai ≠ 0) {sub unc delta : Int} {auth : Bool} {tz : Int}
    (hbad : ¬ (0 ≤ sub ∧ sub < 256) ∨ ¬ (0 ≤ unc ∧ unc < 256)) :
    ∃ r, Time.time.build L ctx (.dict (timeDict tai sub unc delta auth tz)) = .ok (leBytes 5 tai, r) := by
  set d := timeDict tai sub unc delta auth tz with hd
  have hpre := timePre_build (L := L) (d := d) (tai := tai) h1 rfl
  have hu : ∀ (n : Int) ctx, ¬ (0 ≤ n ∧ n < 256) → (uintLE 1).build L ctx (.int n) = .error .formatField := by
    intro n ctx hn
    simp only [uintLE, asInt]
    rw [if_neg (by simpa using hn)]
  have hopt : ∃ e, Time.timeOptional.build L ctx (.dict d) = .error e := by
    simp only [Time.timeOptional, Time.structStop, asDict, ok_bind, hpre, taiZero_set, h0, decide_false, Bool.false_eq_true, if_false]
    have hb : (uintLE 1).buildNone = false := rfl
    have g1 : dget d "subsecond" = some (.int sub) := rfl
    have g2 : dget d "uncertainty" = some (.int unc) := rfl
    by_cases hs : 0 ≤ sub ∧ sub < 256
    · have hc : ¬ (0 ≤ unc ∧ unc < 256) := hbad.resolve_left (not_not.mpr hs)
      obtain ⟨b, r, hbs⟩ : ∃ b r, (field "subsecond" (uintLE 1)).build L d (dset (dset d "tai_seconds" (.int tai)) "tai_seconds" (.int tai)) = .ok (b, r) := by
        have hk : ∃ r, (uintLE 1).build L (dset (dset (dset d "tai_seconds" (.int tai)) "tai_seconds" (.int tai)) "subsecond" (.int sub)) (.int sub) = .ok (leBytes 1 sub.toNat, r) := by
          refine ⟨.int sub, ?_⟩
          simp only [uintLE, asInt]
          rw [if_pos (by simpa using hs)]
        obtain ⟨r, hk⟩ := hk
        exact ⟨_, _, by simp only [field, hb, Bool.false_eq_true, if_false, dgetE, g1, ok_bind, hk]; rfl⟩
      refine ⟨.formatField, ?_⟩
      simp only [buildItems, hbs, ok_bind]
      simp only [field, hb, Bool.false_eq_true, if_false, dgetE, g2, ok_bind, hu unc _ hc, error_bind]
    · refine ⟨.formatField, ?_⟩
      simp only [buildItems, field, hb, Bool.false_eq_true, if_false, dgetE, g1, ok_bind, hu sub _ hs, error_bind]
  obtain ⟨e, he⟩ := hopt
  have hn1 : dget d "optional" = none := rfl
  have hn2 : dget d "minimal" = none := rfl
  refine ⟨.dict d, ?_⟩
  have hmin : ∃ r, Time.timeMinimal.build L ctx (.dict d) = .ok (leBytes 5 tai, r) := by
    exact ⟨_, by simp only [Time.timeMinimal, struct, asDict, ok_bind, hpre]; rfl⟩
  obtain ⟨r, hm⟩ := hmin
  simp only [Time.time, namedSelect, select, List.map_cons, List.map_nil, selectBuild, nameAdapter, hn1, hn2, Option.getD_none, he, hm, ok_bind, error_bind]


theorem time_access_parse {op : Nat} {name : String} (hop : (op, name) ∈ [(0x5C, "time_set"), (0x5D, "time_status")]) (L : Lib) (s : List UInt8) :
    accessParse registry L (wireOpcode op ++ s) = (do
      let (v, rest) ← Time.timeSet.parse L [("opcode", .enum "TimeOpcode" op)] s
      .ok (.dict [("opcode", .enum "TimeOpcode" op), (name, v)], rest)) := by
  have he : (E.TimeOpcode, timeCases) ∈ registry := by inreg
  have key : ∀ {N : String}, lower N = name → (N, (op : Int)) ∈ E.TimeOpcode.members → findCase op timeCases = some Time.timeSet →
      accessParse registry L (wireOpcode op ++ s) =
        (do let (v, rest) ← Time.timeSet.parse L [("opcode", .enum "TimeOpcode" op)] s
            .ok (.dict [("opcode", .enum "TimeOpcode" op), (name, v)], rest)) := by
    intro N hl hN hc
    have := C04_parse he hN L s
    rw [hc, Option.getD_some, hl] at this
    exact this
  simp only [List.mem_cons, Prod.mk.injEq, List.not_mem_nil, or_false] at hop
  rcases hop with ⟨rfl, rfl⟩ | ⟨rfl, rfl⟩
  · exact key (N := "TIME_SET") (by decide) (by simp [E.TimeOpcode]) rfl
  · exact key (N := "TIME_STATUS") (by decide) (by simp [E.TimeOpcode]) rfl

theorem time_access_build {op : Nat} {name : String} (hop : (op, name) ∈ [(0x5C, "time_set"), (0x5D, "time_status")]) (L : Lib) {d : Dict} {u : Val}
    (hd : Carrying op name d u) {b : List UInt8} (hb : ∀ ctx, ∃ r, Time.timeSet.build L ctx u = .ok (b, r)) :
    ∃ o, accessBuild registry L (.dict d) = .ok (wireOpcode op ++ b, o) := by
  obtain ⟨k, hk, hs, hp⟩ := hd
  have he : (E.TimeOpcode, timeCases) ∈ registry := by inreg
  have key : ∀ {N : String}, lower N = name → upper name = N → (N, (op : Int)) ∈ E.TimeOpcode.members → findCase op timeCases = some Time.timeSet →
      ∃ o, accessBuild registry L (.dict d) = .ok (wireOpcode op ++ b, o) := by
    intro N hl hu hN hc
    have hne : name ≠ "opcode" := by
      simp only [List.mem_cons, Prod.mk.injEq, List.not_mem_nil, or_false] at hop
      rcases hop with ⟨-, rfl⟩ | ⟨-, rfl⟩ <;> decide
    have := C04_build he hN (by rw [hl]; exact hne) L (d := d) (k := k) hk (by rw [hu] at hs; exact hs)
    rw [hl, hp, hc, Option.getD_some] at this
    obtain ⟨r, hr⟩ := hb [("opcode", .enum E.TimeOpcode.cls op), ("params", u)]
    simp only [hr, Except.map] at this
    cases hbd : accessBuild registry L (.dict d) with
    | error e => rw [hbd] at this; cases this
    | ok x => rw [hbd] at this; exact ⟨x.2, by rw [← Except.ok.inj this]⟩
  simp only [List.mem_cons, Prod.mk.injEq, List.not_mem_nil, or_false] at hop
  rcases hop with ⟨rfl, rfl⟩ | ⟨rfl, rfl⟩
  · exact key (N := "TIME_SET") (by decide) (by decide) (by simp [E.TimeOpcode]) rfl
  · exact key (N := "TIME_STATUS") (by decide) (by decide) (by simp [E.TimeOpcode]) rfl

/-- **C23 (incomplete times).** Fewer than ten bytes are not a time, unless they begin with five zeros. -/
theorem C23_incomplete {op : Nat} {name : String} (hop : (op, name) ∈ [(0x5C, "time_set"), (0x5D, "time_status")]) (L : Lib) {s : List UInt8}
    (h : s.length < 10) (h0 : ¬ List.replicate 5 0 <+: s) : ∃ e, accessParse registry L (wireOpcode op ++ s) = .error e := by
  rw [time_access_parse hop]
  suffices hs : ∃ e, Time.timeSet.parse L [("opcode", .enum "TimeOpcode" op)] s = .error e by
    obtain ⟨e, he⟩ := hs
    exact ⟨e, by rw [he]; rfl⟩
  cases hp : Time.timeSet.parse L [("opcode", .enum "TimeOpcode" op)] s with
  | error e => exact ⟨e, rfl⟩
  | ok r =>
    exfalso
    by_cases h5 : s.length < 5
    · have hpre : ∃ e, parseItems L [field "tai_seconds" (bytesIntLE 5)] [] s = .error e := by
        cases hq : parseItems L [field "tai_seconds" (bytesIntLE 5)] [] s with
        | error e => exact ⟨e, rfl⟩
        | ok q =>
          have := minLen_items (its := [field "tai_seconds" (bytesIntLE 5)]) (m := 5 + 0) (by mins) hq
          omega
      obtain ⟨e, he⟩ := hpre
      simp only [Time.timeSet, adapter, Time.time, namedSelect, select, List.map_cons, List.map_nil, selectParse, nameAdapter, Time.timeOptional, Time.structStop,
        Time.timeMinimal, struct, he, error_bind] at hp
      by_cases hed : e = .diverge <;> simp [hed] at hp
    · obtain ⟨tai, s', h1, hh, rfl⟩ : ∃ tai s', tai < 2 ^ 40 ∧ s'.length < 5 ∧ s = leBytes 5 tai ++ s' := by
        have hl : (s.take 5).length = 5 := by rw [List.length_take]; omega
        refine ⟨leNat (s.take 5), s.drop 5, ?_, by rw [List.length_drop]; omega, ?_⟩
        · have := leNat_lt (s.take 5); rw [hl] at this; omega
        · have := leBytes_leNat (s.take 5)
          rw [hl] at this
          rw [this, List.take_append_drop]
      have ht : tai ≠ 0 := by
        rintro rfl
        exact h0 ⟨s', by rw [show leBytes 5 0 = List.replicate 5 0 by decide]⟩
      have hpost : ∃ e, parseItems L timeRest [("tai_seconds", .int tai)] s' = .error e := by
        cases hq : parseItems L timeRest [("tai_seconds", .int tai)] s' with
        | error e => exact ⟨e, rfl⟩
        | ok q =>
          have := minLen_items (its := timeRest) (m := 1 + (1 + (2 + (1 + 0)))) (by mins) hq
          omega
      obtain ⟨e, he⟩ := hpost
      simp only [Time.timeSet, adapter, Time.time, namedSelect, select, List.map_cons, List.map_nil, selectParse, nameAdapter, Time.timeOptional, Time.structStop,
        Time.timeMinimal, struct, tai_parse L tai h1, ok_bind, taiZero_one, ht, decide_false, Bool.false_eq_true, if_false, he, error_bind] at hp
      have htt : ¬ (tai : Int) = 0 := by omega
      have hk : Time.intEntry (dset [("tai_seconds", .int tai)] "_name" (.str "minimal")) "tai_seconds" = .ok (tai : Int) := rfl
      have hk2 : Time.intEntry (dset [("tai_seconds", .int tai)] "_name" (.str "minimal")) "time_zone_offset" = .error .key := rfl
      by_cases hed : e = .diverge
      · simp [hed] at hp
      · simp only [hed, if_false, ok_bind, Time.timeDecode, hk, hk2, error_bind, htt] at hp
        cases hp

omit [Platform] in
/-- The fraction, before it is rounded to a number of 1/256 s. -/
theorem fraction_sent {t : TimeVal} {z : Int} (hoff : t.off = z * us) (hz : |z| ≤ 86400) (h0 : 0 ≤ t.m) (h1 : t.m < endSecond * us) :
    |rnd (rnd (t.seconds - (t.m / us - z - 946684800 : Int)) * 256) - (t.m % us : Int) * 256 / 10 ^ 6| ≤ 23 / 1000 := by
  obtain ⟨-, s2⟩ := seconds_near hoff hz h0 h1
  have hm0 := Int.emod_nonneg t.m (show us ≠ 0 by decide)
  have hm1 := Int.emod_lt_of_pos t.m (show 0 < us by decide)
  set N : Int := t.m / us - z - 946684800
  set r := t.m % us
  have hr0 : (0 : Rat) ≤ r := by exact_mod_cast hm0
  have hr1 : (r : Rat) ≤ 1000000 := by exact_mod_cast hm1.le
  have s2 := abs_le.1 s2
  set d := t.seconds - (N : Rat) with hd
  have d1 : |d - (r : Rat) / 10 ^ 6| ≤ 87 / 10 ^ 6 := by rw [abs_le]; constructor <;> linarith
  have d1' := abs_le.1 d1
  have e0 : |d| ≤ 300 := by rw [abs_le]; constructor <;> linarith
  have e1 := abs_le.1 (rnd_small e0)
  have g0 : |rnd d * 256| ≤ 300 := by rw [abs_le]; constructor <;> linarith
  have g1 := abs_le.1 (rnd_small g0)
  rw [abs_le]
  constructor <;> linarith

/-- A time in the last two milliseconds of a second (but not the very last 100 microseconds), or with an uncertainty of 2.57 s or more; otherwise as
in `Sendable`. -/
structure Unsendable (t : TimeVal) (k n : Int) : Prop where
  zone : t.off = k * 900 * us ∧ -96 < k ∧ k < 96
  delta : t.td = n * us ∧ |n| < 2 ^ 32
  start : 946684801 * us ≤ t.m - t.off
  finish : t.m < endSecond * us
  fraction : t.m % us ≤ 999900
  misfit : 998200 ≤ t.m % us ∨ 2570000 ≤ t.unc

/-- **C23 (times that are lost).** A time in the last two milliseconds of a second, or whose uncertainty is 2.57 s or more, is sent without an error,
but without anything except its seconds; the receiver cannot read it. -/
theorem C23_lost {op : Nat} {name : String} (hop : (op, name) ∈ [(0x5C, "time_set"), (0x5D, "time_status")]) {u : Val} {t : TimeVal}
    (hu : TimeMeans u t) {k n : Int} (ht : Unsendable t k n) (L : Lib) {d : Dict} (hd : Carrying op name d u) :
    ∃ tai : Nat, (tai : Int) = (t.m - t.off) / us - 946684800 ∧ (∃ o, accessBuild registry L (.dict d) = .ok (wireOpcode op ++ leBytes 5 tai, o)) ∧
      ∃ e, accessParse registry L (wireOpcode op ++ leBytes 5 tai) = .error e := by
  obtain ⟨⟨z1, z2, z3⟩, ⟨d1, d2⟩, st, fi, fr, mis⟩ := ht
  have hes : endSecond = 253402300800 := rfl
  have hz : |k * 900| ≤ 86400 := by rw [abs_le]; constructor <;> omega
  have hm : 0 ≤ t.m := by usomega
  obtain ⟨s1, s2⟩ := seconds_near (t := t) (z := k * 900) z1 hz hm fi
  have hG := abs_le.1 (fraction_sent (t := t) (z := k * 900) z1 hz hm fi)
  have hN1 : 1 ≤ t.m / us - k * 900 - 946684800 := by usomega
  have hN2 : t.m / us - k * 900 - 946684800 < 2 ^ 40 := by usomega
  have hsec : ftrunc t.seconds = t.m / us - k * 900 - 946684800 := by
    refine ftrunc_eq (by omega) s1 ?_
    have : ((t.m % us : Int) : Rat) ≤ 999900 := by exact_mod_cast fr
    have := (abs_le.1 s2).2
    linarith
  obtain ⟨tai, htai⟩ := Int.eq_ofNat_of_zero_le (show 0 ≤ t.m / us - k * 900 - 946684800 by omega)
  have h0 : tai ≠ 0 := by omega
  have hq : Quarters t.off ((k + 64) - 64) := ⟨0, by decide, by decide, by rw [z1]; ring⟩
  have hoffb : -86400 * us < t.off ∧ t.off < 86400 * us := by rw [z1]; usomega
  have hde : Time.deltaEncode t.td = .ok (n + 255) := by
    have := deltaEncode_eq (n := n + 255) (by rw [abs_lt] at d2 ⊢; constructor <;> omega)
    rw [d1]; simpa using this
  have hze : Time.tzEncode t.off = .ok (k + 64) := (tzEncode_iff hoffb).2 hq
  have henc := timeEncode_of hu hde hze
  have hbad : ¬ (0 ≤ rhe (rnd (rnd (t.seconds - ftrunc t.seconds) * 256)) ∧ rhe (rnd (rnd (t.seconds - ftrunc t.seconds) * 256)) < 256) ∨
      ¬ (0 ≤ ftrunc (rnd (secondsF t.unc * 100)) ∧ ftrunc (rnd (secondsF t.unc * 100)) < 256) := by
    rcases mis with hm | hm
    · left
      rw [hsec]
      set G := rnd (rnd (t.seconds - ((t.m / us - k * 900 - 946684800 : Int) : Rat)) * 256)
      have hr : (998200 : Rat) ≤ (t.m % us : Int) := by exact_mod_cast hm
      have h1 : (255.51 : Rat) ≤ G := by linarith
      have h2 := abs_le.1 (rhe_err G)
      have h3 : (255 : Rat) < (rhe G : Int) := by linarith
      have h4 : 255 < rhe G := by exact_mod_cast h3
      omega
    · right
      have hu0 : (2570000 : Rat) ≤ t.unc := by exact_mod_cast hm
      have e1 := abs_le.1 (rnd_err ((t.unc : Rat) / 10 ^ 6))
      rw [abs_of_nonneg (by positivity)] at e1
      have a1 : (256.9 : Rat) / 100 ≤ secondsF t.unc := by unfold secondsF; linarith
      have e2 := abs_le.1 (rnd_err (secondsF t.unc * 100))
      rw [abs_of_nonneg (by linarith)] at e2
      have a2 : (256.5 : Rat) ≤ rnd (secondsF t.unc * 100) := by linarith
      set X := rnd (secondsF t.unc * 100)
      have y0 : ftrunc X = X.floor := by unfold ftrunc; rw [if_pos (by linarith)]
      have y2 : X < (X.floor : Rat) + 1 := by rw [rfloor_eq]; exact Int.lt_floor_add_one X
      rw [y0]
      have h3 : (255 : Rat) < (X.floor : Int) := by linarith
      have h4 : 255 < X.floor := by exact_mod_cast h3
      omega
  have hsec' : ftrunc t.seconds = (tai : Int) := by omega
  refine ⟨tai, by rw [z1]; usomega, time_access_build hop L hd ?_, ?_⟩
  · intro ctx
    obtain ⟨r, hr⟩ := time_build_short L ctx (tai := tai) (by omega) h0 (delta := n + 255) (auth := t.auth) (tz := k + 64) hbad
    have henc' : Time.timeEncode u = .ok (.dict (timeDict tai (rhe (rnd (rnd (t.seconds - ftrunc t.seconds) * 256))) (ftrunc (rnd (secondsF t.unc * 100))) (n + 255) t.auth (k + 64))) := by
      rw [henc, timeWords, hsec']
    refine ⟨u, ?_⟩
    simp only [Time.timeSet, adapter, henc', ok_bind, hr]
  · have := C23_incomplete hop L (s := leBytes 5 tai) (by rw [leBytes_length]; decide) (by
      rintro ⟨q, hq⟩
      have hl := congrArg List.length hq
      rw [List.length_append, List.length_replicate, leBytes_length] at hl
      have : q = [] := List.length_eq_zero_iff.1 (by omega)
      rw [this, List.append_nil] at hq
      have e := congrArg leNat hq
      rw [leNat_leBytes 5 tai (by omega)] at e
      have : leNat (List.replicate 5 0) = 0 := by decide
      omega)
    exact this

/-- 2023-11-14 22:13:20.25 UTC seen at +01:00, with an uncertainty of 0.5 s. -/
abbrev someTime : TimeVal := ⟨1700000000250000, 3600000000, 500000, 37000000, true⟩
example : Sendable someTime 4 37 := by constructor <;> decide
example : TimeMeans (.dict [("date", .datetime someTime.m someTime.off), ("uncertainty", .timedelta 500000), ("tai_utc_delta", .int 37), ("time_authority", .bool true)])
    someTime :=
  ⟨_, _, _, _, _, rfl, rfl, ⟨by decide, .inl rfl⟩, rfl, .inl rfl, rfl, .inr ⟨37, rfl, by decide⟩, rfl, rfl⟩
example : Unsendable { someTime with m := 1700000000999000 } 4 37 := by constructor <;> decide
example : InRange ⟨753311600, 64, 50, 292, true, 68⟩ := by constructor <;> decide

end BM.Props
