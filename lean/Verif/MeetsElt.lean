import Verif.MeetsTime
/-!
# The emergency lighting test model meets its specification
-/
namespace BM
open F Time

abbrev stampRec : Fmt UInt8 := record [fld "tai_seconds" (uint 5), fld "time_zone_offset" (uint 1), fld "tai_utc_delta_raw" (uint 2)]

theorem meets_stampRec {e : Bool} : Meets lossless e ELT.timestamp stampRec := by
  have h : Meets lossless false ELT.timestamp stampRec :=
    meets_struct (.cons (meetsI_field rfl (meets_bytesInt 5 trivial)) (.cons (meetsI_field rfl (meets_uint 1))
      (.last (meetsI_field rfl (meets_bytesInt 2 trivial))))) (by keys)
  exact h.end

abbrev stampDict (tai raw tz : Int) : Dict := [("tai_seconds", .int tai), ("tai_utc_delta_raw", .int raw), ("time_zone_offset", .int tz)]
abbrev stampOut (tai tz raw : Int) : Dict := [("tai_seconds", .int tai), ("time_zone_offset", .int tz), ("tai_utc_delta_raw", .int raw)]

theorem stampRec_rel {tai tz raw : Nat} (h1 : tai < 2 ^ 40) (h2 : tz < 256) (h3 : raw < 65536) :
    stampRec (.dict (stampDict tai raw tz)) (leBytes 5 tai ++ [UInt8.ofNat tz] ++ leBytes 2 raw) (.dict (stampOut tai tz raw)) := by
  refine ⟨_, _, rfl, ⟨leBytes 5 tai, [UInt8.ofNat tz] ++ leBytes 2 raw, _, _, by simp, rfl,
    ⟨_, _, rfl, ⟨tai, rfl, trivial, leBytes_length _ _, leNat_leBytes _ _ (by omega), rfl⟩, rfl⟩,
    [UInt8.ofNat tz], leBytes 2 raw, _, _, rfl, rfl, ⟨_, _, rfl, ⟨tz, rfl, trivial, rfl, leNat_one h2, rfl⟩, rfl⟩,
    leBytes 2 raw, [], _, _, by simp, rfl, ⟨_, _, rfl, ⟨raw, rfl, trivial, leBytes_length _ _, leNat_leBytes _ _ (by omega), rfl⟩, rfl⟩, rfl, rfl⟩, rfl⟩

theorem stampRec_inv {tai raw tz : Int} {b v} (h : stampRec (.dict (stampDict tai raw tz)) b v) :
    ∃ tai' tz' raw' : Nat, tai = tai' ∧ tz = tz' ∧ raw = raw' ∧ tai' < 2 ^ 40 ∧ tz' < 256 ∧ raw' < 65536 ∧
      b = leBytes 5 tai' ++ [UInt8.ofNat tz'] ++ leBytes 2 raw' := by
  obtain ⟨_, _, h0, ⟨b1, b2, _, _, rfl, -, ⟨u1, v1, e1, ⟨n1, a1, -, l1, c1, -⟩, -⟩,
    b3, b4, _, _, rfl, -, ⟨u2, v2, e2, ⟨n2, a2, -, l2, c2, -⟩, -⟩,
    b5, b6, _, _, rfl, -, ⟨u3, v3, e3, ⟨n3, a3, -, l3, c3, -⟩, -⟩, rfl, -⟩, -⟩ := h
  cases h0
  have e1' : u1 = .int tai := by simpa [dget] using e1.symm
  have e2' : u2 = .int tz := by simpa [dget] using e2.symm
  have e3' : u3 = .int raw := by simpa [dget] using e3.symm
  subst e1' e2' e3'
  simp only [asInt, Option.some.injEq] at a1 a2 a3
  have t1 := leNat_lt b1; have t2 := leNat_lt b3; have t3 := leNat_lt b5
  rw [l1] at t1; rw [l2] at t2; rw [l3] at t3
  have q1 := leBytes_leNat b1; have q3 := leBytes_leNat b5
  rw [l1] at q1; rw [l3] at q3
  obtain ⟨x, rfl⟩ : ∃ x, b3 = [x] := List.length_eq_one_iff.1 l2
  have hx : UInt8.ofNat n2 = x := by
    have : x.toNat = n2 := by simpa [leNat] using c2
    rw [← this]; simp
  rw [c1] at t1 q1; rw [c2] at t2; rw [c3] at t3 q3
  refine ⟨n1, n2, n3, a1, a2, a3, ?_, ?_, ?_, ?_⟩
  · exact t1.trans_eq (by norm_num)
  · exact t2.trans_eq (by norm_num)
  · exact t3.trans_eq (by norm_num)
  · rw [q1, q3, hx]; simp

theorem F.InstantMeans.unique {u : Val} {m off m' off' : Int} (h : InstantMeans u m off) (h' : InstantMeans u m' off') : m = m' ∧ off = off' := by
  have a := dateOf_of h
  rw [dateOf_of h'] at a
  simp only [Except.ok.injEq, Prod.mk.injEq] at a
  exact ⟨a.1.symm, a.2.symm⟩

theorem F.DeltaMeans.unique {u : Val} {m m' : Int} (h : DeltaMeans u m) (h' : DeltaMeans u m') : m = m' := by
  have a := deltaOf_iff.2 h
  rw [deltaOf_iff.2 h'] at a
  cases a; rfl

theorem F.StampMeans.unique {u : Val} {m off td m' off' td' : Int} (h : StampMeans u m off td) (h' : StampMeans u m' off' td') :
    m = m' ∧ off = off' ∧ td = td' := by
  obtain ⟨d, ud, ut, rfl, h1, h2, h3, h4⟩ := h
  obtain ⟨_, ud', ut', h0, h1', h2', h3', h4'⟩ := h'
  cases h0
  rw [h1] at h1'; cases h1'
  rw [h3] at h3'; cases h3'
  exact ⟨(h2.unique h2').1, (h2.unique h2').2, h4.unique h4'⟩

theorem timestampEncode_of {u : Val} {m off td raw tz : Int} (h : StampMeans u m off td) (h1 : inCalendar m) (h2 : inCalendar (m + td))
    (hd : deltaEncode td = .ok raw) (hz : tzEncode off = .ok tz) :
    ELT.timestampEncode u = .ok (.dict (stampDict (ftrunc (secondsF (m + td)) - 946684800) raw tz)) := by
  obtain ⟨d, ud, ut, rfl, e1, e2, e3, e4⟩ := h
  simp only [ELT.timestampEncode, dgetE_iff.2 e1, dgetE_iff.2 e3, ok_bind, dateOf_of e2, deltaOf_iff.2 e4, h1, h2, Bool.and_self, if_true, hd, hz,
    secondsF_eq, meshEpoch]

theorem timestampEncode_ok {u w : Val} (h : ELT.timestampEncode u = .ok w) :
    (∃ m off td raw tz, StampMeans u m off td ∧ inCalendar m ∧ inCalendar (m + td) ∧ deltaEncode td = .ok raw ∧ tzEncode off = .ok tz ∧
      w = .dict (stampDict (ftrunc (secondsF (m + td)) - 946684800) raw tz)) ∨
    (∃ d m off, u = .dict d ∧ dget d "date" = some (.datetime m off) ∧ ¬ (-86400 * us < off ∧ off < 86400 * us)) := by
  have h0 := h
  unfold ELT.timestampEncode at h
  split at h
  · next d =>
    simp only [bind_ok, dgetE_iff] at h
    obtain ⟨ud, h1, ⟨m, off⟩, h2, ut, h5, td, h6, h⟩ := h
    split at h
    · rename_i hc
      simp only [Bool.and_eq_true] at hc
      simp only [bind_ok] at h
      obtain ⟨raw, hd, tz, hz, h⟩ := h
      rcases dateOf_ok h2 with h2 | ⟨rfl, h2'⟩
      · left
        have ht : StampMeans (.dict d) m off td := ⟨d, ud, ut, rfl, h1, h2, h5, deltaOf_iff.1 h6⟩
        refine ⟨m, off, td, raw, tz, ht, hc.1, hc.2, hd, hz, ?_⟩
        rw [timestampEncode_of ht hc.1 hc.2 hd hz] at h0
        cases h0; rfl
      · exact .inr ⟨d, m, off, rfl, h1, h2'⟩
    · cases h
  · cases h

theorem timestampDecode_eq {f : StampFields} {v : Val} (h : f.Reads v) (h4 : f.delta < 2 ^ 15) (h5 : f.tz < 160) :
    ELT.timestampDecode (.dict (stampOut f.tai f.tz f.delta)) = .ok v := by
  obtain ⟨h1, h2, h3, rfl⟩ := h
  generalize hD : stampOut f.tai f.tz f.delta = D
  have i1 : intEntry D "tai_seconds" = .ok (f.tai : Int) := by rw [← hD]; rfl
  have i4 : intEntry D "tai_utc_delta_raw" = .ok (f.delta : Int) := by rw [← hD]; rfl
  have i5 : intEntry D "time_zone_offset" = .ok (f.tz : Int) := by rw [← hD]; rfl
  have e1 : (f.delta : Int) % 32768 = f.delta := by omega
  have e2 : ¬ ((f.delta : Int) / 32768 % 2 ≠ 0) := by omega
  simp only [ELT.timestampDecode, i1, i4, i5, ok_bind, e1, e2, if_false]
  have e3 : ((f.tai : Int) + meshEpoch) * us = f.instant := rfl
  have e4 : ((f.tz : Int) - 64) * 900 * us = f.off := rfl
  have e5 : deltaDecode (f.delta : Int) = f.td := rfl
  rw [e3, e4, e5, if_pos ⟨by omega, h1, h2, h3⟩]

theorem intEntry_nodiv (d : Dict) (k : String) : intEntry d k ≠ .error .diverge := by
  intro h
  unfold intEntry dgetE at h
  cases hg : dget d k with
  | none => rw [hg] at h; cases h
  | some x => rw [hg] at h; simp only [ok_bind] at h; split at h <;> cases h

theorem meets_stamp {e : Bool} : MeetsBut OddStamp plain e ELT.timestampC F.timestamp where
  enc := by
    rintro u b v ⟨m, off, td, f, hm, c1, c2, hf, hr, rfl⟩ L ctx _
    have hoff : -86400 * us < off ∧ off < 86400 * us := by obtain ⟨_, _, _, _, _, h, _⟩ := hm; exact h.1
    have hde : deltaEncode td = .ok (f.delta : Int) := by
      rw [hf.delta.1]; exact deltaEncode_eq (by rw [abs_lt]; have := hf.delta.2; omega)
    have he := timestampEncode_of hm c1 c2 hde ((tzEncode_iff hoff).2 hf.tz.1)
    obtain ⟨r, hb⟩ := (meets_stampRec (e := e)).enc (stampRec_rel (tz := f.tz) (raw := f.delta) hf.tai.2 (by have := hf.tz.2; omega) (by have := hf.delta.2; omega)) L ctx False.elim
    refine ⟨u, ?_⟩
    simp only [ELT.timestampC, adapter, he, ok_bind, ← hf.tai.1, hb]
    rfl
  dec := by
    rintro u b v ⟨m, off, td, f, hm, c1, c2, hf, hr, rfl⟩ L ctx rest hrest
    have hp := (meets_stampRec (e := e)).dec (stampRec_rel (tz := f.tz) (raw := f.delta) hf.tai.2 (by have := hf.tz.2; omega) (by have := hf.delta.2; omega)) L ctx rest hrest
    simp only [ELT.timestampC, adapter, StampFields.bytes, hp, ok_bind, timestampDecode_eq hr hf.delta.2 hf.tz.2]
  sound := by
    intro L ctx u b r hL ho hb
    simp only [ELT.timestampC, adapter, bind_ok] at hb
    obtain ⟨w, he, ⟨b', r'⟩, hb, h3⟩ := hb
    cases h3
    rcases timestampEncode_ok he with ⟨m, off, td, raw, tz, hm, c1, c2, hd, hz, rfl⟩ | h
    · have hoff : -86400 * us < off ∧ off < 86400 * us := by obtain ⟨_, _, _, _, _, h, _⟩ := hm; exact h.1
      by_cases hfit : ∃ f v, StampFits m off td f ∧ f.Reads v
      · obtain ⟨f, v, hf, hr⟩ := hfit
        refine ⟨v, m, off, td, f, hm, c1, c2, hf, hr, ?_⟩
        obtain ⟨v', hv⟩ := (meets_stampRec (e := e)).sound (fun _ => hL trivial) hb
        obtain ⟨n1, n2, n3, q1, q2, q3, -, -, -, rfl⟩ := stampRec_inv hv
        have e1 : n1 = f.tai := by have := hf.tai.1; omega
        have e3 : n3 = f.delta := by
          have := hf.delta.1
          rw [this, deltaEncode_eq (by rw [abs_lt]; have := hf.delta.2; omega)] at hd
          cases hd; omega
        have e2 : n2 = f.tz := by
          rw [(tzEncode_iff hoff).2 hf.tz.1] at hz
          cases hz; omega
        rw [e1, e2, e3]; rfl
      · exact absurd (.inl ⟨m, off, td, hm, c1, c2, hfit⟩) ho
    · exact absurd (.inr h) ho
  refl := False.elim
  inv := False.elim
  exact := False.elim
  nodiv := by
    intro L ctx s h
    simp only [ELT.timestampC, adapter, bind_err] at h
    rcases h with h | ⟨_, _, h | ⟨_, _, h⟩⟩
    · exact (meets_stampRec (e := e)).nodiv _ _ _ h
    · unfold ELT.timestampDecode at h
      split at h
      · simp only [bind_err] at h
        rcases h with h | ⟨_, _, h⟩
        · exact intEntry_nodiv _ _ h
        split at h
        · cases h
        simp only [bind_err] at h
        rcases h with h | ⟨_, _, h | ⟨_, _, h⟩⟩
        · exact intEntry_nodiv _ _ h
        · exact intEntry_nodiv _ _ h
        split at h <;> cases h
      · cases h
    · cases h

theorem stamp_not_odd {u b v} (h : F.timestamp u b v) : ¬ OddStamp u := by
  obtain ⟨m, off, td, f, hm, c1, c2, hf, hr, rfl⟩ := h
  rintro (⟨m', off', td', hm', -, -, hn⟩ | ⟨d, m', off', rfl, h1, h2⟩)
  · obtain ⟨rfl, rfl, rfl⟩ := hm.unique hm'
    exact hn ⟨f, _, hf, hr⟩
  · obtain ⟨d', ud, ut, h0, h3, h4, -⟩ := hm
    cases h0
    rw [h1] at h3; cases h3
    obtain ⟨h5, h6 | ⟨_, _, _, _, _, _, _, _, _, _, h6, -⟩⟩ := h4
    · cases h6; exact h2 h5
    · cases h6

theorem stamp_len : LenEq F.timestamp 8 := by
  rintro u b v ⟨m, off, td, f, -, -, -, -, -, rfl⟩
  simp [StampFields.bytes, leBytes_length]

theorem meets_tameStamp {e : Bool} : Meets plain e (tame OddStamp ELT.timestampC) F.timestamp := meets_stamp.tame stamp_not_odd

/-- Fields with time stamps, for objects that are not odd. -/
noncomputable abbrev tameMinimal (r : List (Item UInt8)) : List (Item UInt8) := field "tai_timestamp" (tame OddStamp ELT.timestampC) :: r

theorem agrees_stamped (r : List (Item UInt8)) :
    AgreesIs (fun d => ∃ x, dget d "tai_timestamp" = some x ∧ OddStamp x) (field "tai_timestamp" ELT.timestampC :: r) (tameMinimal r) := by
  refine .cons (agreesI_tame rfl) ?_
  induction r with
  | nil => exact .nil
  | cons it r ih => exact .cons .rfl ih

theorem agreesI_embedded {α} {odd : Dict → Prop} {its its' : List (Item α)} (h : AgreesIs odd its its') :
    AgreesI odd (embedded its) (embedded its') where
  none := h.none
  parse := by
    funext L acc s
    simp only [embedded, h.parse]
  build := by
    intro L obj ctx ho
    simp only [embedded, h.build ho]
  fwd := by
    intro L obj ctx r hb
    simp only [embedded, bind_ok] at hb ⊢
    obtain ⟨a, h1, h2⟩ := hb
    exact ⟨a, h.fwd h1, h2⟩

theorem minLen_stamp : MinLen ELT.timestampC 8 := by
  intro L ctx s v rest h
  simp only [ELT.timestampC, adapter, bind_ok] at h
  obtain ⟨⟨w, r⟩, h1, w', h2, h3⟩ := h
  cases h3
  obtain ⟨b, rfl, hg⟩ := (meets_stampRec (e := false)).exact trivial h1
  have : LenEq stampRec 8 := by lensc
  rw [List.length_append, this hg]
  exact (Nat.add_comm _ _).le

/-- A message with a time stamp and, in the long form, a relative time stamp. -/
theorem meets_stamped {r : List (Item UInt8)} {rr : List (RI UInt8)} {n : Nat} (hr : MeetsIs plain true (tameMinimal r) (fld "tai_timestamp" F.timestamp :: rr))
    (hr' : MeetsIs plain false (tameMinimal r) (fld "tai_timestamp" F.timestamp :: rr))
    (hn : ("_name" :: "optional" :: "minimal" :: "relative_timestamp" :: "tai_timestamp" :: rr.flatMap RI.keys).Nodup)
    (hmin : MinLenIs r n) (hlen : LenEqIs rr n) :
    MeetsBut (fun u => OddLong "relative_timestamp" [embed (fld "tai_timestamp" F.timestamp :: rr), fld "relative_timestamp" (uint 4)] u ∨ OddStamped u)
      plain true (optionalMinimal [embedded (field "tai_timestamp" ELT.timestampC :: r), field "relative_timestamp" (uintLE 4)]
        (field "tai_timestamp" ELT.timestampC :: r))
      (longShort "relative_timestamp" [embed (fld "tai_timestamp" F.timestamp :: rr), fld "relative_timestamp" (uint 4)]
        (fld "tai_timestamp" F.timestamp :: rr)) := by
  have a2 := agrees_stamped r
  have a1 : AgreesIs (fun d => ∃ x, dget d "tai_timestamp" = some x ∧ OddStamp x)
      [embedded (field "tai_timestamp" ELT.timestampC :: r), field "relative_timestamp" (uintLE 4)]
      [embedded (tameMinimal r), field "relative_timestamp" (uintLE 4)] := .cons (agreesI_embedded a2) (.cons .rfl .nil)
  have k1 : ∀ l : List (RI UInt8), (fld "tai_timestamp" F.timestamp :: l).flatMap RI.keys = "tai_timestamp" :: l.flatMap RI.keys := fun _ => rfl
  have k2 : [embed (fld "tai_timestamp" F.timestamp :: rr), fld "relative_timestamp" (uint 4)].flatMap RI.keys =
      "tai_timestamp" :: (rr.flatMap RI.keys ++ ["relative_timestamp"]) := by simp [embed, fld]
  simp only [List.nodup_cons, List.mem_cons, not_or] at hn
  obtain ⟨⟨n1, n2, n3, n4, n5⟩, ⟨n6, n7, n8, n9⟩, ⟨n10, n11, n12⟩, ⟨n13, n14⟩, n15, n16⟩ := hn
  have i1 : MeetsIs plain true [embedded (tameMinimal r), field "relative_timestamp" (uintLE 4)]
      [embed (fld "tai_timestamp" F.timestamp :: rr), fld "relative_timestamp" (uint 4)] :=
    .cons (meetsI_embedded hr' (by rw [k1, List.nodup_cons]; exact ⟨n15, n16⟩)) (.last (meetsI_field rfl (meets_uint 4)))
  have m1 := meets_named (name := "optional") (meets_struct i1 (by
      rw [k2, List.nodup_cons, List.nodup_append]; simp only [List.mem_append, List.mem_singleton, not_or]
      exact ⟨⟨n15, by decide⟩, n16, by simp, fun a ha b hb h => n14 (by subst hb h; exact ha)⟩)) (reports_record i1)
    (by rw [k2]; simp only [List.mem_cons, List.mem_append, List.not_mem_nil, not_or]; exact ⟨by decide, n5, by decide, id⟩)
    (by rw [k2]; simp only [List.mem_cons, List.mem_append, List.not_mem_nil, not_or]; exact ⟨by decide, n9, by decide, id⟩) (by decide)
    (record_loc i1 (by rw [k2]; simp only [List.mem_cons, List.mem_append, List.not_mem_nil, not_or]; exact ⟨by decide, n5, by decide, id⟩))
  have m2 := meets_named (name := "minimal") (meets_struct hr (by rw [k1, List.nodup_cons]; exact ⟨n15, n16⟩)) (reports_record hr)
    (by rw [k1]; simp only [List.mem_cons, not_or]; exact ⟨by decide, n5⟩) (by rw [k1]; simp only [List.mem_cons, not_or]; exact ⟨by decide, n12⟩) (by decide)
    (record_loc hr (by rw [k1]; simp only [List.mem_cons, not_or]; exact ⟨by decide, n5⟩))
  have m1' := (agrees_named (a1.struct (by simp [dget]))).but m1
  have m2' := (agrees_named (a2.struct (by simp [dget]))).but m2
  refine (meets_longShortBut (it := field "relative_timestamp" (uintLE 4)) (m₁ := 8 + n + 4) (m₂ := 8 + n) "relative_timestamp" m1' m2' hr id ?_ (by simp)
    (buildNeeds_field rfl) ?_ ?_ ?_ (by omega)).mono ?_
  · rw [k1]; simp only [List.nodup_cons, List.mem_cons, not_or]
    exact ⟨⟨n1, n2, by decide, n5⟩, ⟨n6, by decide, n9⟩, ⟨by decide, n12⟩, n15, n16⟩
  · rw [k1]; simp only [List.mem_cons, not_or]; exact ⟨by decide, by decide, n14⟩
  · exact .cons (minLenI_embedded (.cons (minLenI_field minLen_stamp) hmin)) (.cons (m := 4) (minLenI_field (minLen_uint 4)) .nil)
  · exact LenEqIs.cons (lenEqI_fld stamp_len) hlen
  · rintro u ((⟨d, rfl, d', h1, x, hx, hn⟩ | h) | ⟨d, rfl, d', h1, x, hx, hn⟩)
    · exact .inr ⟨d, rfl, "optional", by simp, d', x, h1, hx, hn⟩
    · exact .inl h
    · exact .inr ⟨d, rfl, "minimal", by simp, d', x, h1, hx, hn⟩

theorem meets_functionalStatus : MeetsBut (fun u => OddLong "relative_timestamp" Spec.functionalLong u ∨ OddStamped u) plain true ELT.functionalStatus
    (longShort "relative_timestamp" Spec.functionalLong Spec.functionalShort) := by
  refine meets_stamped (n := 2) ?_ ?_ (by keys) ?_ ?_
  · exact .cons (meetsI_field rfl meets_tameStamp) (by meets)
  · exact .cons (meetsI_field rfl meets_tameStamp) (by meets)
  · exact .cons (m := 1) (m' := 1) (minLenI_field (minLen_enum (minLen_uint 1))) (.cons (m := 1) (m' := 0) (minLenI_field (minLen_bitwise 1 _)) .nil)
  · lensc

theorem meets_durationStatus : MeetsBut (fun u => OddLong "relative_timestamp" Spec.durationLong u ∨ OddStamped u) plain true ELT.durationStatus
    (longShort "relative_timestamp" Spec.durationLong Spec.durationShort) := by
  refine meets_stamped (n := 4) ?_ ?_ (by keys) ?_ ?_
  · exact .cons (meetsI_field rfl meets_tameStamp) (by meets)
  · exact .cons (meetsI_field rfl meets_tameStamp) (by meets)
  · exact .cons (m := 1) (m' := 3) (minLenI_field (minLen_enum (minLen_uint 1))) (.cons (m := 1) (m' := 2) (minLenI_field (minLen_bitwise 1 _))
      (.cons (m := 2) (m' := 0) (minLenI_field (minLen_uint 2)) .nil))
  · lensc

section
variable [Platform]

theorem elt_cover : PropCovers stable E.EmergencyLightingTestProperty ELT.propertyDict Spec.eltProperties := by
  unfold Spec.eltProperties; propcovers

theorem elt_hall : ∀ k c, findCase k ELT.propertyDict = some c → E.EmergencyLightingTestProperty.has k = true → ∃ p ∈ Spec.eltProperties, (p.id : Int) = k := by
  intro k c _ h
  obtain ⟨m, hm, rfl⟩ := (has_iff _ k).1 h
  simp only [E.EmergencyLightingTestProperty, List.mem_cons, List.not_mem_nil, or_false] at hm
  rcases hm with rfl | rfl | rfl | rfl | rfl | rfl | rfl | rfl <;> simp [Spec.eltProperties, Spec.prop]

theorem meets_eltValue {odd : Val → Prop} {e : Bool} : MeetsBut odd stable e ELT.propertySet Spec.eltValue := by
  refine (meets_propertyMixin (by meets) idHeader_enum elt_cover elt_hall (by simp [Spec.eltProperties, fld, Spec.prop])).mono ?_
  rintro u ⟨d, id, p, -, -, hp, -, ho⟩
  simp only [Spec.eltProperties, List.mem_cons, List.not_mem_nil, or_false] at hp
  rcases hp with rfl | rfl | rfl | rfl | rfl | rfl | rfl | rfl <;> exact False.elim ho

theorem elt_lossless : SubCovers lossless E.EmergencyLightingTestSubOpcode Tables.emergencyLightingTestParamsCases Spec.eltLossless := by
  unfold Spec.eltLossless; subcovers
theorem elt_stable : SubCovers stable E.EmergencyLightingTestSubOpcode Tables.emergencyLightingTestParamsCases Spec.eltStable := by
  unfold Spec.eltStable
  subBut meets_eltValue; subBut meets_eltValue; subBut meets_eltValue; exact subCovers_nil
theorem elt_plain : SubCovers plain E.EmergencyLightingTestSubOpcode Tables.emergencyLightingTestParamsCases Spec.eltPlain := by
  unfold Spec.eltPlain
  subBut meets_functionalStatus; subBut meets_durationStatus; exact subCovers_nil
end

end BM
