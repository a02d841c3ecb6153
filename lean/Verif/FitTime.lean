import Verif.FitProps
import Verif.Props.DictTimes
/-!
# Decoded values and the schema (C50): times
-/
namespace BM.Capnp
open BM.Schema BM.Case BM.Props Config
open BM.F (TimeFields)

/-- Times without the check of the end of the message. -/
theorem meets_timeRest' : MeetsIs lossless false timeRest timeRestR := by
  refine .cons (meetsI_field rfl (meets_uint 1)) (.cons (meetsI_field rfl (meets_uint 1)) (.cons ?_ (.last (meetsI_field rfl (meets_uint 1)))))
  refine meetsI_bitGroup (.cons (meetsI_field rfl (meets_ubits 15 trivial)) (.last (meetsI_field rfl meets_flagBit))) ?_ (by decide)
  exact (LenEqIs.cons (m := 15) (lenEqI_fld (lenEq_bitsU 15)) (.cons (m := 1) (lenEqI_fld lenEq_bit) .nil))

theorem time_fields {tai : Nat} (h1 : tai < 2 ^ 40) (h0 : tai ≠ 0) {s : List UInt8} (h : 5 ≤ s.length) :
    ∃ f : TimeFields, ∃ rest, InRange f ∧ leBytes 5 tai ++ s = f.bytes ++ rest := by
  match s, h with
  | x :: y :: a :: b :: z :: rest, _ =>
    have hw : leNat [a, b] < 65536 := by simpa using leNat_lt [a, b]
    refine ⟨⟨tai, x.toNat, y.toNat, leNat [a, b] / 2, decide (leNat [a, b] % 2 = 1), z.toNat⟩, rest,
      ⟨⟨by dsimp only; omega, h1⟩, x.toNat_lt, y.toNat_lt, by dsimp only; omega, z.toNat_lt⟩, ?_⟩
    have e : 2 * (leNat [a, b] / 2) + (decide (leNat [a, b] % 2 = 1)).toNat = leNat [a, b] := by
      by_cases hb : leNat [a, b] % 2 = 1
      · simp only [hb, decide_true, Bool.toNat_true]; omega
      · simp only [hb, decide_false, Bool.toNat_false]; omega
    have e2 : leBytes 2 (leNat [a, b]) = [a, b] := leBytes_leNat [a, b]
    simp only [TimeFields.bytes, e, e2]
    simp

theorem time_parse_rest {f : TimeFields} (hf : InRange f) (L : Lib) (ctx : Dict) (rest : List UInt8) :
    Time.time.parse L ctx (f.bytes ++ rest) = .ok (.dict [("tai_seconds", .int f.tai), ("subsecond", .int f.sub), ("uncertainty", .int f.unc),
      ("_", .dict [("tai_utc_delta", .int f.delta), ("time_authority", .bool f.auth)]),
        ("tai_utc_delta", .int f.delta), ("time_authority", .bool f.auth), ("time_zone_offset", .int f.tz), ("_name", .str "optional")], rest) := by
  have h0 : f.tai ≠ 0 := by have := hf.tai.1; omega
  have hp := items_dec meets_timeRest' (timeRest_rel (timeDict f.tai f.sub f.unc f.delta f.auth f.tz) hf.sub hf.unc hf.delta hf.tz rfl rfl rfl rfl rfl) L
    [("tai_seconds", .int f.tai)] rest (by simp)
  have hs : Time.timeOptional.parse L ctx (f.bytes ++ rest) = .ok (.dict [("tai_seconds", .int f.tai), ("subsecond", .int f.sub), ("uncertainty", .int f.unc),
      ("_", .dict [("tai_utc_delta", .int f.delta), ("time_authority", .bool f.auth)]),
        ("tai_utc_delta", .int f.delta), ("time_authority", .bool f.auth), ("time_zone_offset", .int f.tz)], rest) := by
    have e : f.bytes ++ rest = leBytes 5 f.tai ++ ([UInt8.ofNat f.sub, UInt8.ofNat f.unc] ++ leBytes 2 (2 * f.delta + f.auth.toNat) ++ [UInt8.ofNat f.tz] ++ rest) := by
      simp [TimeFields.bytes]
    rw [e]
    simp only [Time.timeOptional, Time.structStop, tai_parse L f.tai hf.tai.2, ok_bind, taiZero_one, h0, decide_false, Bool.false_eq_true, if_false, hp]
    rfl
  simp only [Time.time, namedSelect, select, List.map_cons, List.map_nil, selectParse, nameAdapter, hs, ok_bind]
  rfl

/-- What a message with a known time is read as. -/
theorem timeSet_ok {L : Lib} {ctx : Dict} {s : List UInt8} {v : Val} {r : List UInt8} (h0 : ¬ List.replicate 5 0 <+: s)
    (hp : Time.timeSet.parse L ctx s = .ok (v, r)) : ∃ f : TimeFields, InRange f ∧ f.tz < 160 ∧ f.Reads v := by
  by_cases h5 : s.length < 5
  · exfalso
    have hpre : ∃ e, parseItems L [field "tai_seconds" (bytesIntLE 5)] [] s = .error e := by
      cases hq : parseItems L [field "tai_seconds" (bytesIntLE 5)] [] s with
      | error e => exact ⟨e, rfl⟩
      | ok q =>
        have := minLen_items (its := [field "tai_seconds" (bytesIntLE 5)]) (m := 5 + 0) (by mins) hq
        omega
    obtain ⟨e, he⟩ := hpre
    simp only [Time.timeSet, adapter, Time.time, namedSelect, select, List.map_cons, List.map_nil, selectParse, nameAdapter, Time.timeOptional, Time.structStop,
      Time.timeMinimal, struct, he, error_bind] at hp
    by_cases hed : e = .diverge <;> simp [hed] at hp
  · obtain ⟨tai, s', h1, rfl⟩ : ∃ tai s', tai < 2 ^ 40 ∧ s = leBytes 5 tai ++ s' := by
      have hl : (s.take 5).length = 5 := by rw [List.length_take]; omega
      refine ⟨leNat (s.take 5), s.drop 5, ?_, ?_⟩
      · have := leNat_lt (s.take 5); rw [hl] at this; omega
      · have := leBytes_leNat (s.take 5)
        rw [hl] at this
        rw [this, List.take_append_drop]
    have ht : tai ≠ 0 := by
      rintro rfl
      exact h0 ⟨s', by rw [show leBytes 5 0 = List.replicate 5 0 by decide]⟩
    by_cases hl : s'.length < 5
    · exfalso
      have hpost : ∃ e, parseItems L timeRest [("tai_seconds", .int tai)] s' = .error e := by
        cases hq : parseItems L timeRest [("tai_seconds", .int tai)] s' with
        | error e => exact ⟨e, rfl⟩
        | ok q =>
          have := minLen_items (its := timeRest) (m := 1 + (1 + (2 + (1 + 0)))) (by mins) hq
          omega
      obtain ⟨e, he⟩ := hpost
      simp only [Time.timeSet, adapter, Time.time, namedSelect, select, List.map_cons, List.map_nil, selectParse, nameAdapter, Time.timeOptional, Time.structStop,
        Time.timeMinimal, struct, tai_parse L tai h1, ok_bind, taiZero_one, ht, decide_false, Bool.false_eq_true, if_false, he, error_bind] at hp
      have htt : ¬ (tai : Int) = 0 := by omega
      have hk : Time.intEntry (dset [("tai_seconds", .int tai)] "_name" (.str "minimal")) "tai_seconds" = .ok (tai : Int) := rfl
      have hk2 : Time.intEntry (dset [("tai_seconds", .int tai)] "_name" (.str "minimal")) "time_zone_offset" = .error .key := rfl
      by_cases hed : e = .diverge
      · simp [hed] at hp
      · simp only [hed, if_false, ok_bind, Time.timeDecode, hk, hk2, error_bind, htt] at hp
        cases hp
    · obtain ⟨f, rest, hf, he⟩ := time_fields h1 ht (s := s') (by omega)
      rw [he] at hp
      simp only [Time.timeSet, adapter, time_parse_rest hf, ok_bind] at hp
      have hc : f.tz < 160 ∧ f.instant < endSecond * us ∧ f.instant + f.off < endSecond * us := by
        by_contra hc
        revert hp
        generalize hD : ([("tai_seconds", .int f.tai), ("subsecond", .int f.sub), ("uncertainty", .int f.unc),
          ("_", .dict [("tai_utc_delta", .int f.delta), ("time_authority", .bool f.auth)]),
            ("tai_utc_delta", .int f.delta), ("time_authority", .bool f.auth), ("time_zone_offset", .int f.tz), ("_name", .str "optional")] : Dict) = D
        have i1 : Time.intEntry D "tai_seconds" = .ok (f.tai : Int) := by rw [← hD]; rfl
        have i2 : Time.intEntry D "subsecond" = .ok (f.sub : Int) := by rw [← hD]; rfl
        have i5 : Time.intEntry D "time_zone_offset" = .ok (f.tz : Int) := by rw [← hD]; rfl
        have ht : ¬ (f.tai : Int) = 0 := by have := hf.tai.1; omega
        have e : f.instant = ((f.tai : Int) + Time.meshEpoch + ((f.tz : Int) - 64) * 900) * us + rhe (((f.sub : Int) : Rat) * 15625 / 4) := by
          unfold TimeFields.instant TimeFields.off Time.meshEpoch
          rw [show ((f.sub : Nat) : Rat) * 10 ^ 6 / 256 = ((f.sub : Int) : Rat) * 15625 / 4 by push_cast; ring]
          ring
        have e2 : f.off = ((f.tz : Int) - 64) * 900 * us := rfl
        simp only [Time.timeDecode, i1, i2, i5, ok_bind, ht, if_false]
        rw [← e, ← e2, if_neg (by rintro ⟨a, b, c⟩; exact hc ⟨by omega, b, c⟩)]
        intro h; cases h
      have h0' : f.tai ≠ 0 := by have := hf.tai.1; omega
      rw [timeDecode_eq (v := .dict [("date", .datetime f.instant f.off), ("tai_utc_delta", .timedelta (((f.delta : Int) - 255) * us)),
        ("time_authority", .bool f.auth), ("uncertainty", .timedelta (f.unc * 10000))]) ⟨hc.2.1, hc.2.2, rfl⟩ h0' hc.1] at hp
      injection hp with hp; injection hp with hp _; subst hp
      exact ⟨f, hf, hc.1, hc.2.1, hc.2.2, rfl⟩

/-! ### Numbers -/

theorem in_i16 {k : Int} (h0 : -32768 ≤ k) (h : k < 32768) : Accepts schema "Int16" (.flt k) :=
  .whole (s := true) (w := 16) (by simp [intTypes]) (by simp only [Holds, if_true]; norm_num; omega)
theorem in_u32 {k : Int} (h0 : 0 ≤ k) (h : k < 4294967296) : Accepts schema "UInt32" (.int k) := .int (s := false) (w := 32) (by simp [intTypes]) (holds_small h0 h)

/-- Seconds between TAI and UTC. -/
theorem takes_delta {k : Int} (h0 : -32768 ≤ k) (h : k < 32768) : Slot.Takes (.type "Int16") (toCamelcaseDict (.timedelta (k * us))) := by
  show Accepts schema "Int16" (.flt (totalSeconds (k * us)))
  rw [whole_seconds (by rw [abs_lt]; omega)]
  exact in_i16 h0 h

/-- A date and time of the calendar. -/
theorem takes_datetime {m k : Int} (hk : |k| < 1440) (h1 : minSecond * us ≤ m + k * 60000000) (h2 : m + k * 60000000 < endSecond * us) :
    Slot.Takes (.type "DateTime") (toCamelcaseDict (.datetime m (k * 60000000))) := by
  show Accepts schema "DateTime" (dateTimeDict m (k * 60000000))
  obtain ⟨y, mo, d, hc, a1, a2, a3, a4, -, hy⟩ := civil_date ((m + k * 60000000) / (86400 * us))
  obtain ⟨hy1, hy2⟩ := hy (by simp only [minSecond, us] at h1 ⊢; omega) (by simp only [endSecond, us, Property.lastDay] at h2 ⊢; omega)
  have hmd := month_days y mo
  have hk' := abs_lt.1 hk
  simp only [dateTimeDict, hc, minutes_exact hk]
  have b1 : 0 ≤ (m + k * 60000000) % (86400 * us) := Int.emod_nonneg _ (by decide)
  have b2 : (m + k * 60000000) % (86400 * us) < 86400 * us := Int.emod_lt_of_pos _ (by decide)
  generalize (m + k * 60000000) % (86400 * us) = t at b1 b2
  refine .struct (IsPlain.mem (T := "DateTime")) (.mk ?_ fun us hm => absurd hm (IsPlain.plain "DateTime" us))
  refine forall_pair_cons ?_ (forall_pair_cons ?_ (forall_pair_cons ?_ (forall_pair_cons ?_ (forall_pair_cons ?_ (forall_pair_cons ?_ (forall_pair_cons ?_ (forall_pair_cons ?_ forall_pair_nil)))))))
  · exact HasMember.takes (T := .type "UInt16") _ (in_u16 (by omega) (by omega))
  · exact HasMember.takes (T := .type "UInt8") _ (in_u8 (by omega) (by omega))
  · exact HasMember.takes (T := .type "UInt8") _ (in_u8 (by omega) (by omega))
  · exact HasMember.takes (T := .type "UInt8") _ (in_u8 (by usomega) (by usomega))
  · exact HasMember.takes (T := .type "UInt8") _ (in_u8 (by usomega) (by usomega))
  · exact HasMember.takes (T := .type "UInt8") _ (in_u8 (by usomega) (by usomega))
  · exact HasMember.takes (T := .type "UInt32") _ (in_u32 (by usomega) (by usomega))
  · exact HasMember.takes (T := .type "Int16") _ (in_i16 (by omega) (by omega))

/-- A known time. -/
theorem takes_time {T : String} {fs : List Tree} [hT : IsPlain T fs] [m1 : HasMember fs "date" (.type "DateTime")] [m2 : HasMember fs "taiUtcDelta" (.type "Int16")]
    [m3 : HasMember fs "timeAuthority" (.type "Bool")] [m4 : HasMember fs "uncertainty" (.type "Float32")] {L : Lib} {ctx : Dict} {s : List UInt8} {v : Val} {r : List UInt8}
    (h0 : ¬ List.replicate 5 0 <+: s) (hp : Time.timeSet.parse L ctx s = .ok (v, r)) : Slot.Takes (.type T) (toCamelcaseDict v) := by
  obtain ⟨f, hf, htz, h1, h2, rfl⟩ := timeSet_ok h0 hp
  have hd := hf.delta
  have hoff : f.off = zoneMinutes f.tz * 60000000 := zone_off f.tz
  have ht := hf.tai
  have hsub : 0 ≤ rhe ((f.sub : Rat) * 10 ^ 6 / 256) := by
    have := rhe_mono (p := 0) (q := (f.sub : Rat) * 10 ^ 6 / 256) (by positivity)
    rwa [show rhe 0 = 0 from rhe_int 0] at this
  have ho : Ok fs [("date", .datetime f.instant f.off), ("tai_utc_delta", .timedelta (((f.delta : Int) - 255) * us)), ("time_authority", .bool f.auth), ("uncertainty", .timedelta (f.unc * 10000))] := by
    refine forall_pair_cons ⟨by decide, .inr ?_⟩ (forall_pair_cons ⟨by decide, .inr ?_⟩ (forall_pair_cons ⟨by decide, .inr ?_⟩ (forall_pair_cons ⟨by decide, .inr ?_⟩ forall_pair_nil)))
    · rw [show camelcase "date" = "date" by decide +kernel, hoff]
      refine m1.takes _ (takes_datetime (zone_small htz) ?_ ?_)
      · rw [← hoff]
        unfold TimeFields.instant TimeFields.off
        simp only [minSecond, us]
        omega
      · rw [← hoff]; exact h2
    · rw [show camelcase "tai_utc_delta" = "taiUtcDelta" by decide +kernel]
      exact m2.takes _ (takes_delta (by omega) (by omega))
    · rw [show camelcase "time_authority" = "timeAuthority" by decide +kernel]
      exact m3.takes _ .bool
    · rw [show camelcase "uncertainty" = "uncertainty" by decide +kernel]
      exact m4.takes _ (.float (by simp))
  rw [ho.camel]
  exact .struct hT.mem (ho.members hT.plain)

/-! ### Timestamps -/

theorem parse_cons {it : Item UInt8} {its : List (Item UInt8)} {L acc s d r} (h : parseItems L (it :: its) acc s = .ok (d, r)) :
    ∃ d' t, it.parse L acc s = .ok (d', t) ∧ parseItems L its d' t = .ok (d, r) := by
  simp only [parseItems] at h
  cases hc : it.parse L acc s with
  | error e => rw [hc] at h; cases h
  | ok x => rw [hc] at h; exact ⟨x.1, x.2, rfl, h⟩

theorem fit_timestamp : Fit (.type "EmergencyLightingTestMessageParams") ELT.timestampC := by
  intro L ctx s v r hp
  obtain ⟨u, hu, hd⟩ := parse_adapter hp
  obtain ⟨d, rfl, hi⟩ := parse_struct hu
  obtain ⟨d1, t1, p1, hi⟩ := parse_cons hi
  obtain ⟨d2, t2, p2, hi⟩ := parse_cons hi
  obtain ⟨d3, t3, p3, hi⟩ := parse_cons hi
  injection hi with hi; injection hi with hi _; subst hi
  obtain ⟨v1, q1, rfl⟩ := parse_field p1
  obtain ⟨v2, q2, rfl⟩ := parse_field p2
  obtain ⟨v3, q3, rfl⟩ := parse_field p3
  obtain ⟨b1, hb1, rfl⟩ := parse_take (f := fun b => .int (leNat b)) q1
  obtain ⟨b2, hb2, rfl⟩ := parse_take (f := fun b => .int (leNat b)) q2
  obtain ⟨b3, hb3, rfl⟩ := parse_take (f := fun b => .int (leNat b)) q3
  generalize leNat b1 = tai at hd
  generalize leNat b2 = tz at hd
  generalize leNat b3 = raw at hd
  have i1 : Time.intEntry (dset (dset (dset [] "tai_seconds" (.int tai)) "time_zone_offset" (.int tz)) "tai_utc_delta_raw" (.int raw)) "tai_seconds" = .ok (tai : Int) := rfl
  have i2 : Time.intEntry (dset (dset (dset [] "tai_seconds" (.int tai)) "time_zone_offset" (.int tz)) "tai_utc_delta_raw" (.int raw)) "time_zone_offset" = .ok (tz : Int) := rfl
  have i3 : Time.intEntry (dset (dset (dset [] "tai_seconds" (.int tai)) "time_zone_offset" (.int tz)) "tai_utc_delta_raw" (.int raw)) "tai_utc_delta_raw" = .ok (raw : Int) := rfl
  simp only [ELT.timestampDecode, i1, i2, i3, ok_bind, Time.deltaDecode] at hd
  split at hd
  · cases hd
  · rcases ite_eq_iff.1 hd with ⟨hc, hd⟩ | ⟨-, hd⟩
    · injection hd with hd; subst hd
      have hr1 : 0 ≤ (raw : Int) % 32768 := Int.emod_nonneg _ (by decide)
      have hr2 : (raw : Int) % 32768 < 32768 := Int.emod_lt_of_pos _ (by decide)
      generalize (raw : Int) % 32768 = x at hr1 hr2 hc
      obtain ⟨c1, c2, c3, c4⟩ := hc
      have htz : tz < 160 := by omega
      rw [zone_off] at c3 c4 ⊢
      have hz := zone_small htz
      have hz' := abs_lt.1 hz
      have ho : Ok s_EmergencyLightingTestMessageParams [("date", .datetime (((tai : Int) + Time.meshEpoch) * us - (x - 255) * us) (zoneMinutes tz * 60000000)), ("tai_utc_delta", .timedelta ((x - 255) * us))] := by
        refine forall_pair_cons ⟨by decide, .inr ?_⟩ (forall_pair_cons ⟨by decide, .inr ?_⟩ forall_pair_nil)
        · rw [show camelcase "date" = "date" by decide +kernel]
          refine HasMember.takes (T := .type "DateTime") _ (takes_datetime hz ?_ ?_)
          · simp only [minSecond, us, Time.meshEpoch]; omega
          · have : ((tai : Int) + Time.meshEpoch) * us - (x - 255) * us + zoneMinutes tz * 60000000 = ((tai : Int) + Time.meshEpoch) * us + zoneMinutes tz * 60000000 - (x - 255) * us := by ring
            rw [this]; exact c4
        · rw [show camelcase "tai_utc_delta" = "taiUtcDelta" by decide +kernel]
          exact HasMember.takes (T := .type "Int16") _ (takes_delta (by omega) (by omega))
      rw [ho.camel]
      exact .struct (IsPlain.mem (T := "EmergencyLightingTestMessageParams")) (ho.members (IsPlain.plain "EmergencyLightingTestMessageParams"))
    · cases hd

end BM.Capnp
