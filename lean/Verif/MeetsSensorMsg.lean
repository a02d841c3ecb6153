import Verif.MeetsSensor
/-!
# Tables of property and sensor messages
-/
namespace BM
open F

/-! ### Lists of things that are sometimes odd -/

/-- Oddness only matters for objects outside the format. -/
theorem MeetsBut.tight {α e odd} {M : Mode} {c : Con α} {G : Fmt α} (h : MeetsBut odd M e c G) (hT : ¬ M.T) :
    MeetsBut (fun u => odd u ∧ Unencodable G u) M e c G :=
  { h with
    sound := by
      intro L ctx u b r hL ho hb
      by_cases hu : odd u
      · have : ∃ b v, G u b v := by
          refine Classical.byContradiction fun hn => ho ⟨hu, hn⟩
        obtain ⟨b', v, hg⟩ := this
        obtain ⟨r', hr⟩ := h.enc hg L ctx (fun t => absurd t hT)
        rw [hb] at hr; cases hr
        exact ⟨v, hg⟩
      · exact h.sound hL hu hb }

open Classical in
/-- The construct without its odd objects. -/
noncomputable def tame {α} (odd : Val → Prop) (c : Con α) : Con α where
  buildNone := c.buildNone
  parse := c.parse
  build L ctx u := if odd u then .error .type else c.build L ctx u

theorem MeetsBut.tame {α e odd} {M : Mode} {c : Con α} {G : Fmt α} (h : MeetsBut odd M e c G) (hx : ∀ {u b v}, G u b v → ¬ odd u) :
    Meets M e (tame odd c) G :=
  { h with
    enc := by
      intro u b v hg L ctx hT
      obtain ⟨r, hr⟩ := h.enc hg L ctx hT
      exact ⟨r, by simp only [BM.tame, if_neg (hx hg), hr]⟩
    sound := by
      intro L ctx u b r hL hb
      by_cases ho : odd u
      · simp [BM.tame, ho] at hb
      · simp only [BM.tame, if_neg ho] at hb
        exact h.sound hL ho hb }

theorem many_tame {α} {odd : Val → Prop} {c : Con α} {L ctx} : ∀ {us : List Val} {b},
    buildMany ((tame odd c).build L ctx) us = .ok b → buildMany (c.build L ctx) us = .ok b := by
  intro us
  induction us with
  | nil => exact id
  | cons u us ih =>
    intro b h
    simp only [buildMany, bind_ok] at h ⊢
    obtain ⟨⟨b1, r⟩, h1, bs, h2, h3⟩ := h
    refine ⟨(b1, r), ?_, bs, ih h2, h3⟩
    by_cases ho : odd u
    · simp [tame, ho] at h1
    · simpa only [tame, if_neg ho] using h1

theorem many_untame {α} {odd : Val → Prop} {c : Con α} {L ctx} : ∀ {us : List Val} {b}, (∀ u ∈ us, ¬ odd u) →
    buildMany (c.build L ctx) us = .ok b → buildMany ((tame odd c).build L ctx) us = .ok b := by
  intro us
  induction us with
  | nil => exact fun _ => id
  | cons u us ih =>
    intro b ho h
    simp only [buildMany, bind_ok] at h ⊢
    obtain ⟨⟨b1, r⟩, h1, bs, h2, h3⟩ := h
    refine ⟨(b1, r), ?_, bs, ih (fun x hx => ho x (List.mem_cons_of_mem _ hx)) h2, h3⟩
    simp only [tame, if_neg (ho u List.mem_cons_self), h1]

theorem meets_greedyBut {α odd} {M : Mode} {c : Con α} {G : Fmt α} (hc : MeetsBut odd M false c G) (hT : ¬ M.T) (hge : LenGe G 1) (hmin : MinLen c 1) :
    MeetsBut (fun u => ∃ us, iter u = .ok us ∧ ∃ x ∈ us, odd x) M true (greedyRange c) (listOf G) := by
  have ht : Meets M false (tame (fun u => odd u ∧ Unencodable G u) c) G :=
    (hc.tight hT).tame (fun hg h => h.2 ⟨_, _, hg⟩)
  have hg : Meets M true (greedyRange (tame (fun u => odd u ∧ Unencodable G u) c)) (listOf G) := meets_greedy ht hge hmin
  refine Agrees.but (c' := greedyRange (tame (fun u => odd u ∧ Unencodable G u) c)) ⟨fun _ _ _ => rfl, ?_, ?_⟩ hg
  · intro L ctx u b r h
    simp only [greedyRange, bind_ok] at h ⊢
    obtain ⟨us, h1, b', h2, h3⟩ := h
    cases h3
    exact ⟨_, us, h1, _, many_tame h2, rfl⟩
  · intro L ctx u b r ho h
    simp only [greedyRange, bind_ok] at h ⊢
    obtain ⟨us, h1, b', h2, h3⟩ := h
    cases h3
    exact ⟨_, us, h1, _, many_untame (fun x hx hxo => ho ⟨us, h1, x, hx, hxo.1⟩) h2, rfl⟩

/-! ### Identifier headers -/

theorem idFmt {u b v} (h : propertyId u b v) : (∀ k, hashInt u = some k → hashInt v = some k) ∧ ((∃ s, u = .str s) ∨ ∃ k, hashInt u = some k) ∧
    ∃ k, v = if E.PropertyID.has k then .enum E.PropertyID.cls k else .int k := by
  rcases h with h | ⟨hn, k, hu, -, hl, hb, rfl⟩
  · obtain ⟨k, hm, hl, hb, rfl⟩ := enumOf_uint_iff.1 h
    refine ⟨?_, ?_, k, by rw [if_pos hm.has]⟩
    · rcases hm with ⟨s, rfl, -⟩ | ⟨h1, -⟩
      · intro k' h'; simp [hashInt, asInt] at h'
      · intro k' h'; rw [h1] at h'; exact h'
    · rcases hm with ⟨s, rfl, -⟩ | ⟨h1, -⟩
      · exact .inl ⟨s, rfl⟩
      · exact .inr ⟨_, h1⟩
  · have hh := hashInt_of_asInt hu
    refine ⟨fun k' h' => by rw [hh] at h'; exact h', .inr ⟨_, hh⟩, k, ?_⟩
    split
    · rename_i ht; exact absurd ⟨b, _, enum_encodable hh ht hl hb⟩ hn
    · rfl

theorem idHeader_of {K : String} {rs : List (RI UInt8)} (hn : (rs.flatMap RI.keys).Nodup) (hm : K ∈ rs.flatMap RI.keys)
    (h : ∀ {du b dh}, seqRel rs du b dh → ∃ u v b', dget du K = some u ∧ dget dh K = some v ∧ propertyId u b' v) : IdHeader E.PropertyID K rs where
  nodup := hn
  mem := hm
  fwd hs := by
    obtain ⟨u, v, b', h1, h2, h3⟩ := h hs
    exact ⟨u, v, h1, h2, (idFmt h3).1⟩
  known hs hd := by
    obtain ⟨u, v, b', h1, h2, h3⟩ := h hs
    rw [hd] at h1; cases h1
    exact (idFmt h3).2.1
  report hs hd := by
    obtain ⟨u, v, b', h1, h2, h3⟩ := h hs
    rw [hd] at h2; cases h2
    exact (idFmt h3).2.2

theorem header1 : IdHeader E.PropertyID "property_id" [Spec.propId "property_id"] := by
  refine idHeader_of (by keys) (by keys) ?_
  rintro du b dh ⟨b1, b2, d1, d2, rfl, rfl, ⟨u, v, hu, hg, rfl⟩, rfl, rfl⟩
  exact ⟨u, v, b1, hu, rfl, hg⟩

theorem header2 : IdHeader E.PropertyID "property_id" [embed [Spec.propId "property_id"], fld "access" (uint 1)] := by
  refine idHeader_of (by keys) (by keys) ?_
  rintro du b dh ⟨b1, b2, d1, d2, rfl, rfl, ⟨b3, b4, d3, d4, rfl, rfl, ⟨u, v, hu, hg, rfl⟩, rfl, rfl⟩, -⟩
  exact ⟨u, v, b3, hu, rfl, hg⟩

theorem header3 : IdHeader E.PropertyID F.settingKey Spec.settingHeader := by
  refine idHeader_of (by keys) (by keys) ?_
  rintro du b dh ⟨b1, b2, d1, d2, rfl, rfl, ⟨b3, b4, d3, d4, rfl, rfl, ⟨u, v, hu, hg, rfl⟩, rfl, rfl⟩, ⟨b5, b6, d5, d6, rfl, rfl, ⟨u', v', hu', hg', rfl⟩, rfl, rfl⟩⟩
  exact ⟨u', v', b5, hu', rfl, hg'⟩

theorem header4 : IdHeader E.PropertyID F.settingKey Spec.settingAccess := by
  refine idHeader_of (by keys) (by keys) ?_
  rintro du b dh ⟨b1, b2, d1, d2, rfl, rfl, hs, -⟩
  obtain ⟨id, i, h⟩ := header3.fwd hs
  obtain ⟨b3, b4, d3, d4, rfl, rfl, ⟨b7, b8, d7, d8, rfl, rfl, ⟨u, v, hu, hg, rfl⟩, rfl, rfl⟩, ⟨b5, b6, d5, d6, rfl, rfl, ⟨u', v', hu', hg', rfl⟩, rfl, rfl⟩⟩ := hs
  exact ⟨u', v', b5, hu', rfl, hg'⟩

section
variable [Platform]

set_option maxRecDepth 100000 in
set_option maxHeartbeats 4000000 in
theorem property_names : ∀ p ∈ Spec.properties, p.name ∉ ["property_id", "access", "sensor_property_id", F.settingKey, "sensor_setting_access",
    "format", "length"] := by
  have h : Spec.properties.all (fun p => decide (p.name ∉ ["property_id", "access", "sensor_property_id", F.settingKey, "sensor_setting_access",
    "format", "length"])) = true := by
    with_unfolding_all exact (Eq.refl true)
  intro p hp
  exact of_decide_eq_true (List.all_eq_true.1 h p hp)

theorem property_hall : ∀ k c, findCase k Property.propertyDict = some c → E.PropertyID.has k = true → ∃ p ∈ Spec.properties, (p.id : Int) = k :=
  fun k _ _ h => properties_all k h

theorem meets_userProperty {e : Bool} : MeetsBut (OddProperty Spec.properties) stable e GenericProperty.userPropertySet Spec.propertyValue :=
  meets_propertyMixin (by meets) header1 properties_cover property_hall
    (fun p hp h => property_names p hp (by simp [fld] at h; simp [h]))

theorem meets_propertyAccess {e : Bool} : MeetsBut (OddProperty Spec.properties) stable e GenericProperty.propertyStatus Spec.propertyAccess :=
  meets_propertyMixin (by meets) header2 properties_cover property_hall
    (fun p hp h => property_names p hp (by simp [fld, embed] at h; simp; tauto))

theorem meets_settingSet : MeetsBut (OddSettingMsg Spec.properties) stable true Sensor.settingSet (settingMsg Spec.properties Spec.settingHeader) :=
  meets_settingCon (by meets) header3 (by keys) (fun p hp h => property_names p hp (by simp [fld, embed] at h; simp; tauto))

theorem meets_settingStatus : MeetsBut (OddSettingMsg Spec.properties) stable true Sensor.settingStatus (settingMsg Spec.properties Spec.settingAccess) :=
  meets_settingCon (by meets) header4 (by keys) (fun p hp h => property_names p hp (by simp [fld, embed] at h; simp; tauto))


/-! ### Marshalled property headers -/

omit [Platform] in
theorem leNat_pair (x y : UInt8) : leNat [x, y] = x.toNat + 256 * y.toNat := by simp [leNat]
omit [Platform] in
theorem leNat_triple (x y z : UInt8) : leNat [x, y, z] = x.toNat + 256 * (y.toNat + 256 * z.toNat) := by simp [leNat]

omit [Platform] in
theorem or_shift {a b i : Nat} (h : b < 2 ^ i) : b ||| a <<< i = a * 2 ^ i + b := by
  rw [Nat.or_comm, ← Nat.shiftLeft_add_eq_or_of_lt h, Nat.shiftLeft_eq]

omit [Platform] in
theorem mpid_parse {f : Bool} {l id : Nat} {b : List UInt8} (h : Mpid f l id b) (rest : List UInt8) :
    Sensor.mpidParse (b ++ rest) = .ok (((if f then 1 else 0), l, id), rest) := by
  cases f with
  | false =>
    obtain ⟨h1, h2, h3, h4, h5⟩ := h
    match b, h4 with
    | [x, y], _ =>
      rw [leNat_pair] at h5
      have hx := x.toNat_lt
      have hy := y.toNat_lt
      have e0 : x.toNat &&& 1 = 0 := by rw [Nat.and_one_is_mod]; omega
      have e1 : (x.toNat >>> 1 &&& 15) + 1 = l := by
        rw [show (15 : Nat) = 2 ^ 4 - 1 by rfl, Nat.and_two_pow_sub_one_eq_mod, Nat.shiftRight_eq_div_pow]; omega
      have e2 : (x.toNat >>> 5 &&& 7) ||| (y.toNat <<< 3) = id := by
        rw [show (7 : Nat) = 2 ^ 3 - 1 by rfl, Nat.and_two_pow_sub_one_eq_mod, Nat.shiftRight_eq_div_pow, or_shift (Nat.mod_lt _ (by decide))]; omega
      have t := takeN_append (n := 2) (b := [x, y]) (rest := rest) rfl
      simp only [Sensor.mpidParse, t, ok_bind, e0, e1, e2]; rfl
  | true =>
    obtain ⟨h1, h2, h3, h4, h5⟩ := h
    match b, h4 with
    | [x, y, z], _ =>
      rw [leNat_triple] at h5
      have hx := x.toNat_lt
      have hy := y.toNat_lt
      have hz := z.toNat_lt
      have e0 : x.toNat &&& 1 = 1 := by rw [Nat.and_one_is_mod]; omega
      have e1 : (x.toNat >>> 1) + 1 = l := by rw [Nat.shiftRight_eq_div_pow]; omega
      have e2 : y.toNat ||| (z.toNat <<< 8) = id := by rw [or_shift (by omega)]; omega
      have t := takeN_append (n := 2) (b := [x, y]) (rest := z :: rest) rfl
      have t' := takeN_append (n := 1) (b := [z]) (rest := rest) rfl
      simp only [List.cons_append, List.nil_append] at t t' ⊢
      simp only [Sensor.mpidParse, t, t', ok_bind, e0, e1, e2, if_true]

omit [Platform] in
theorem oneByte_eq {n : Nat} (h : n < 256) : Sensor.oneByte (n : Int) = .ok [UInt8.ofNat n] := by
  unfold Sensor.oneByte; rw [if_pos ⟨by omega, by omega⟩]; rfl

omit [Platform] in
theorem oneByte_ok {n : Int} {b} (h : Sensor.oneByte n = .ok b) : ∃ m : Nat, n = m ∧ m < 256 ∧ b = [UInt8.ofNat m] := by
  unfold Sensor.oneByte at h; split at h
  · cases h; exact ⟨n.toNat, by omega, by omega, rfl⟩
  · cases h

omit [Platform] in
theorem toNat_ofNat {n : Nat} (h : n < 256) : (UInt8.ofNat n).toNat = n := UInt8.toNat_ofNat_of_lt' h

omit [Platform] in
theorem mpid_unique {f : Bool} {l id : Nat} {b b' : List UInt8} (h : Mpid f l id b) (h' : Mpid f l id b') : b = b' := by
  cases f
  · obtain ⟨-, -, -, h1, h2⟩ := h
    obtain ⟨-, -, -, h3, h4⟩ := h'
    rw [← leBytes_leNat b, ← leBytes_leNat b', h1, h2, h3, h4]
  · obtain ⟨-, -, -, h1, h2⟩ := h
    obtain ⟨-, -, -, h3, h4⟩ := h'
    rw [← leBytes_leNat b, ← leBytes_leNat b', h1, h2, h3, h4]

omit [Platform] in
theorem mpidB {l n : Nat} (h1 : 1 ≤ l) (h2 : l ≤ 128) (h3 : n < 65536) : Mpid true l n (UInt8.ofNat ((l - 1) * 2 + 1) :: leBytes 2 n) := by
  refine ⟨h1, h2, h3, by simp [leBytes_length], ?_⟩
  have e : (UInt8.ofNat ((l - 1) * 2 + 1)).toNat = (l - 1) * 2 + 1 := toNat_ofNat (by omega)
  have e2 : leNat (leBytes 2 n) = n := leNat_leBytes _ _ (by omega)
  simp only [leNat, e, e2]
  omega

omit [Platform] in
theorem mpidB_build {l n : Nat} {b : List UInt8} (hm : Mpid true l n b) :
    (do let b0 ← (if 1 ≤ (l : Int) then Sensor.oneByte ((((l : Int) - 1).toNat <<< 1 ||| 1 : Nat) : Int) else .error .value : R (List UInt8))
        if 0 ≤ (n : Int) ∧ (n : Int) < 65536 then .ok (b0 ++ leBytes 2 (n : Int).toNat) else .error .overflow : R (List UInt8)) = .ok b := by
  obtain ⟨h1, h2, h3, -⟩ := id hm
  have e1 : ((((l : Int) - 1).toNat <<< 1 ||| 1 : Nat)) = (l - 1) * 2 + 1 := by
    rw [← Nat.shiftLeft_add_eq_or_of_lt (by decide), Nat.shiftLeft_eq]; omega
  have e2 := mpid_unique (mpidB h1 h2 h3) hm
  have e3 : 0 ≤ (n : Int) ∧ (n : Int) < 65536 := ⟨by omega, by omega⟩
  rw [if_pos (by omega), e1, oneByte_eq (by omega), ok_bind, if_pos e3, ← e2]
  rfl

omit [Platform] in
/-- The header is written exactly when it exists (format A with a length of at most 16). -/
theorem mpid_build {uf ul uid : Val} (hA : truthy uf = false → ∀ l, asInt ul = some l → l ≤ 16) {b} :
    Sensor.mpidBuild uf ul uid = .ok b ↔ ∃ l n : Nat, asInt ul = some (l : Int) ∧ asInt uid = some (n : Int) ∧ Mpid (truthy uf) l n b := by
  constructor
  · intro h
    unfold Sensor.mpidBuild at h
    split at h
    · rename_i l i hl hi
      split at h
      · rename_i hf
        simp only [bind_ok] at h
        obtain ⟨b0, h1, h2⟩ := h
        split at h1
        · obtain ⟨m, hm, hm', rfl⟩ := oneByte_ok h1
          split at h2
          · rename_i hi2
            cases h2
            rw [Nat.or_comm, Nat.or_comm, ← Nat.shiftLeft_add_eq_or_of_lt (by decide), Nat.shiftLeft_eq] at hm
            refine ⟨l.toNat, i.toNat, by rw [hl, Int.toNat_of_nonneg (by omega)], by rw [hi, Int.toNat_of_nonneg (by omega)], ?_⟩
            rw [hf]
            refine ⟨by omega, by omega, by omega, by simp [leBytes_length], ?_⟩
            rw [show [UInt8.ofNat m] ++ leBytes 2 i.toNat = UInt8.ofNat m :: leBytes 2 i.toNat from rfl]
            rw [show leNat (UInt8.ofNat m :: leBytes 2 i.toNat) = (UInt8.ofNat m).toNat + 256 * leNat (leBytes 2 i.toNat) from rfl,
              leNat_leBytes _ _ (by omega), toNat_ofNat hm']
            omega
          · cases h2
        · cases h1
      · rename_i hf
        simp only [bind_ok] at h
        obtain ⟨b0, h1, b1, h2, h3⟩ := h
        split at h1
        · obtain ⟨m, hm, hm', rfl⟩ := oneByte_ok h1
          obtain ⟨m2, hm2, hm2', rfl⟩ := oneByte_ok h2
          cases h3
          have hf' : truthy uf = false := by simpa using hf
          have hl16 := hA hf' l hl
          rw [or_shift (by rw [Nat.shiftLeft_eq]; omega), Nat.shiftLeft_eq] at hm
          refine ⟨l.toNat, i.toNat, by rw [hl, Int.toNat_of_nonneg (by omega)], by rw [hi, Int.toNat_of_nonneg (by omega)], ?_⟩
          rw [hf']
          refine ⟨by omega, by omega, by omega, rfl, ?_⟩
          rw [List.cons_append, List.nil_append, leNat_pair, toNat_ofNat hm', toNat_ofNat hm2']
          omega
        · cases h1
    · cases h
  · rintro ⟨l, n, hl, hn, hm⟩
    unfold Sensor.mpidBuild
    simp only [hl, hn]
    cases hf : truthy uf
    · rw [hf] at hm
      have hm' := hm
      obtain ⟨h1, h2, h3, h4, h5⟩ := hm
      have e1 : ((((l : Int) - 1).toNat <<< 1 ||| ((n : Int) % 8).toNat <<< 5 : Nat)) = (l - 1) * 2 + n % 8 * 32 := by
        rw [or_shift (by rw [Nat.shiftLeft_eq]; omega), Nat.shiftLeft_eq]; omega
      have e2 : (n : Int) / 8 = ((n / 8 : Nat) : Int) := by omega
      simp only [Bool.false_eq_true, if_false]
      rw [if_pos (by omega), e1, oneByte_eq (by omega), e2, oneByte_eq (by omega)]
      simp only [ok_bind, Except.ok.injEq]
      refine mpid_unique (f := false) (l := l) (id := n) ⟨h1, h2, h3, rfl, ?_⟩ hm'
      rw [List.cons_append, List.nil_append, leNat_pair, toNat_ofNat (by omega), toNat_ofNat (by omega)]
      omega
    · rw [hf] at hm
      exact mpidB_build hm

omit [Platform] in
theorem setting_hash {P d id b dv} (h : setting P d id b dv) : ∃ k, hashInt id = some k := by
  rcases h with ⟨p, vv, -, h, -⟩ | ⟨k, h, -⟩ <;> exact ⟨_, h⟩

theorem meets_sensorData : MeetsBut (OddData Spec.properties) plain false Sensor.data (sensorData Spec.properties) := by
  constructor
  · rintro u b v ⟨d, id, uf, ul, n, l, b₁, b₂, dv, rfl, hid, hf, hl, hn, hl', hm, hset, hlen, rfl, rfl⟩ L ctx hT
    refine ⟨.dict d, ?_⟩
    have hA : truthy uf = false → ∀ l, asInt ul = some l → l ≤ 16 := by
      intro h l2 h2
      rw [hl'] at h2; cases h2
      rw [h] at hm
      exact_mod_cast hm.2.1
    simp only [Sensor.data, dgetE_eq hid, dgetE_eq hf, dgetE_eq hl, ok_bind, (mpid_build hA).2 ⟨l, n, hl', hn, hm⟩, setting_enc hset]
  · rintro u b v ⟨d, id, uf, ul, n, l, b₁, b₂, dv, rfl, hid, hf, hl, hn, hl', hm, hset, hlen, rfl, rfl⟩ L ctx rest hr
    obtain ⟨x, name, y, rfl, hnm, -, hp⟩ := setting_dec hset
    have hname : name ≠ F.settingKey ∧ name ≠ "format" ∧ name ≠ "length" := by
      rcases hnm with rfl | ⟨p, hpm, rfl⟩
      · decide
      · have := property_names p hpm
        simp only [List.mem_cons, not_or] at this
        exact ⟨this.2.2.2.1, this.2.2.2.2.2.1, this.2.2.2.2.2.2.1⟩
    have hi : hashInt (.int (n : Int)) = hashInt id := by rw [hashInt_of_asInt hn]; rfl
    have ht : (b₂ ++ rest).take l = b₂ := by rw [← hlen, List.take_left]
    have hd : (b₂ ++ rest).drop l = rest := by rw [← hlen, List.drop_left]
    simp only [Sensor.data, List.append_assoc, mpid_parse hm, ok_bind, ht, hd]
    rw [hp hi (fun k hk _ => by cases hk; rfl)]
    simp only [ok_bind, Except.ok.injEq, Prod.mk.injEq, and_true, Val.dict.injEq]
    rw [dset_of_not_mem _ F.settingKey _ (by simp [dkeys]; decide), dset_of_not_mem _ name]
    · cases truthy uf <;> rfl
    · simp only [dkeys, List.map_append, List.map_cons, List.map_nil, List.mem_append, List.mem_cons, List.not_mem_nil, or_false, not_or]
      exact ⟨⟨hname.2.1, hname.2.2⟩, hname.1⟩
  · intro L ctx u b r hL ho h
    simp only [Sensor.data] at h
    split at h
    · rename_i d
      simp only [bind_ok] at h
      obtain ⟨id, h1, uf, h2, ul, h3, hb, h4, b2, h5, h6⟩ := h
      cases h6
      replace h1 := dgetE_ok h1
      replace h2 := dgetE_ok h2
      replace h3 := dgetE_ok h3
      have hA : truthy uf = false → ∀ l, asInt ul = some l → l ≤ 16 := by
        intro hf l hl
        refine Decidable.byContradiction fun hc => ho ⟨d, id, uf, ul, rfl, h1, h2, h3, .inr (.inr ⟨hf, l, hl, by omega⟩)⟩
      obtain ⟨l, n, hl, hn, hm⟩ := (mpid_build hA).1 h4
      obtain ⟨dv, hset⟩ := setting_sound (hL trivial) ⟨_, hashInt_of_asInt hn⟩ (fun h => ho ⟨d, id, uf, ul, rfl, h1, h2, h3, .inl h⟩) h5
      have hlen : b2.length = l := by
        refine Decidable.byContradiction fun hc => ho ⟨d, id, uf, ul, rfl, h1, h2, h3, .inr (.inl ⟨b2, dv, hset, ?_⟩)⟩
        rw [hl]; simp only [ne_eq, Option.some.injEq, Int.natCast_inj]; exact Ne.symm hc
      exact ⟨_, d, id, uf, ul, n, l, hb, b2, dv, rfl, h1, h2, h3, hn, hl, hm, hset, hlen, rfl, rfl⟩
    · cases h
  · exact False.elim
  · exact False.elim
  · exact False.elim
  · intro L ctx s h
    simp only [Sensor.data, bind_err] at h
    rcases h with h | ⟨⟨⟨f, l, i⟩, s'⟩, -, h | ⟨_, -, h⟩⟩
    · unfold Sensor.mpidParse at h
      simp only [bind_err] at h
      rcases h with h | ⟨⟨hd, s'⟩, -, h⟩
      · have := (takeN_err h).1; cases this
      · split at h
        · split at h
          · rcases bind_err.1 h with h | ⟨⟨h', s''⟩, -, h⟩
            · have := (takeN_err h).1; cases this
            · simp only at h; split at h <;> cases h
          · cases h
        · cases h
    · exact parseSetting_nodiv h
    · cases h

omit [Platform] in
theorem lenGe_sensorData {P} : LenGe (sensorData P) 1 := by
  rintro u b v ⟨d, id, uf, ul, n, l, b₁, b₂, dv, -, -, -, -, -, -, hm, -, -, rfl, -⟩
  rw [List.length_append]
  cases hf : truthy uf <;> rw [hf] at hm <;> have := hm.2.2.2.1 <;> omega

omit [Platform] in
theorem mpidParse_len {s r s'} (h : Sensor.mpidParse s = .ok (r, s')) : s'.length + 2 ≤ s.length := by
  unfold Sensor.mpidParse at h
  simp only [bind_ok] at h
  obtain ⟨⟨hd, s1⟩, h1, h2⟩ := h
  obtain ⟨rfl, hl⟩ := takeN_ok h1
  simp only at h2
  split at h2
  · split at h2
    · obtain ⟨⟨h', s2⟩, h3, h4⟩ := bind_ok.1 h2
      obtain ⟨rfl, hl'⟩ := takeN_ok h3
      simp only at h4
      split at h4
      · cases h4; simp
      · cases h4
    · cases h2; simp
  · cases h2

theorem minLen_sensorData : MinLen Sensor.data 1 := by
  intro L ctx s v rest h
  simp only [Sensor.data, bind_ok] at h
  obtain ⟨⟨⟨f, l, i⟩, s'⟩, h1, ⟨v', r'⟩, h2, h3⟩ := h
  cases h3
  have := mpidParse_len h1
  simp only [List.length_drop] at *; omega

theorem meets_sensorStatus : MeetsBut (fun u => ∃ us, iter u = .ok us ∧ ∃ x ∈ us, OddData Spec.properties x) plain true Sensor.status
    (listOf (sensorData Spec.properties)) :=
  meets_greedyBut meets_sensorData id lenGe_sensorData minLen_sensorData

end
end BM
