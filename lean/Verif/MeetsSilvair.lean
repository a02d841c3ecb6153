import Verif.MeetsTag
import Verif.SpecSilvair
/-!
# The vendor messages meet their formats
-/
namespace BM
open F Config

section
variable {M : Mode} {e : Bool}

macro "guard_subs" : tactic => `(tactic| with_reducible (refine id (α := SubCovers _ _ _ _) ?_))
macro "subBut" t:term : tactic => `(tactic|
  refine subCovers_cons rfl rfl (by rfl) (by dsimp only; decide +kernel) (by rfl) $t ?_)
macro "subFix" t:term : tactic => `(tactic|
  refine subCovers_fix rfl rfl (by rfl) (by dsimp only; decide +kernel) (by rfl) (by dsimp only; lensc) $t ?_)
/-- Prove a `SubCovers` statement entry by entry. -/
macro "subcovers" : tactic => `(tactic| repeat' first
  | exact subCovers_nil
  | refine subCovers_cons rfl rfl (by rfl) (by dsimp only; decide +kernel) (by rfl) (Meets.but ?_) ?_
  | refine subCovers_fix rfl rfl (by rfl) (by dsimp only; decide +kernel) (by rfl) (by dsimp only; lensc) (Meets.but ?_) ?_
  | (guard_subs; dsimp only)
  | meets1)

/-! ### Debug -/

theorem bytewise_parse (n : Nat) (L ctx s) : (bytewise n (bytesIntBE n)).parse L ctx s = (ubits (8 * n)).parse L ctx s := by
  simp only [bytewise, ubits]
  rcases ht : takeN (8 * n) s with er | ⟨bs, rest⟩
  · rfl
  · obtain ⟨rfl, hl⟩ := takeN_ok ht
    obtain ⟨b, hb, hn⟩ := bitsBytes_of_length hl
    have h1 : takeN n b = .ok (b, []) := by simpa using takeN_append (rest := []) hn
    simp only [ok_bind, hb, bytesIntBE, h1]
    rw [← bytesBits_bitsBytes hb, ← bitsNat_rev, List.reverse_reverse]

theorem meets_bytewise (n : Nat) (hU : M.U) : Meets M e (bytewise n (bytesIntBE n)) (bitsU (8 * n)) := by
  have h := meets_ubits (M := M) (e := e) (8 * n) hU
  refine ⟨?_, fun hg L ctx rest hr => by rw [bytewise_parse]; exact h.dec hg L ctx rest hr, ?_, h.refl,
    fun hS L ctx s v rest hp => h.inv hS (by rw [← bytewise_parse]; exact hp),
    fun hX L ctx s v rest hp => h.exact hX (by rw [← bytewise_parse]; exact hp), fun L ctx s => by rw [bytewise_parse]; exact h.nodiv L ctx s⟩
  · rintro u b v ⟨k, hu, hl, rfl, rfl⟩ L ctx hT
    have hlt := bitsNat_lt b
    rw [hl, show 2 ^ (8 * n) = 256 ^ n by rw [pow_mul]; norm_num] at hlt
    refine ⟨u, ?_⟩
    simp only [bytewise, bytesIntBE, hu]
    simp only [Int.natCast_nonneg, Int.toNat_natCast, hlt, and_self, if_true, ok_bind, List.length_reverse, leBytes_length, bytesBits_rev_leBytes hlt]
    rw [← hl, natBits_bitsNat]
  · intro L ctx u b r hL hb
    simp only [bytewise, bytesIntBE, bind_ok] at hb
    obtain ⟨⟨p, r'⟩, h1, h2⟩ := hb
    split at h1
    · rename_i k hk
      split at h1
      · rename_i hr
        cases h1
        simp only [List.length_reverse, leBytes_length, if_true, bytesBits_rev_leBytes hr.2] at h2
        cases h2
        exact ⟨_, k.toNat, by rw [hk]; congr 1; omega, natBits_length _ _,
          bitsNat_natBits _ _ (by rw [pow_mul]; exact hr.2), rfl⟩
      · obtain ⟨er, he⟩ := (hL hU).bytes n false k
        rw [he] at h1; simp at h1
    · simp at h1

theorem meets_bytewise3 (hU : M.U) : Meets M e (bytewise 3 (bytesIntBE 3)) (bitsU 24) := meets_bytewise 3 hU

macro_rules | `(tactic| meets1) => `(tactic| with_reducible first
  | exact meets_text | exact meets_paddedText _ | exact meetsI_reserved _ _ (fun h => h)
  | exact meets_bytewise3 trivial | exact meets_mac | exact meets_ip (fun h => h) (fun h => h))

theorem meets_arapNodes (hU : M.U) : Meets M true (greedyRange Debug.arapNode) (listOf Spec.arapNode) := by
  have h : Meets ⟨M.T, True, M.S, M.X⟩ false Debug.arapNode Spec.arapNode := by meets
  exact meets_greedy (h.weaken id (fun _ => hU) id id) ((lenEq_packedLE 5 _).ge (by decide)) ((minLen_reversed 5 _).le (by decide))

theorem meets_systemStats : Meets stable true (greedyRange Debug.systemStat) (listOf (record [
    fld "name" (paddedText 8), Spec.u32 "high_water_mark", reserved "_rfu" 2])) := by
  refine meets_greedy (by meets) ?_ ?_
  · exact (lenEq_record (m := 14) (.cons (lenEqI_fld (lenEq_paddedText 8)) (.cons (lenEqI_fld (lenEq_uint 4)) (.cons (lenEqI_reserved _ 2) .nil)))).ge (by decide)
  · exact (minLen_struct (m := 14) (.cons (minLenI_field (minLen_paddedString 8)) (.cons (minLenI_field (minLen_uint 4))
      (.cons (minLenI_field (minLen_padding _ 2)) .nil)))).le (by decide)

macro_rules | `(tactic| meets1) => `(tactic| with_reducible first
  | exact meets_arapNodes trivial | exact meets_systemStats)

section
variable [Platform]
theorem debug_lossless : SubCovers lossless E.DebugSubOpcode Tables.debugParamsCases Spec.debugLossless := by
  unfold Spec.debugLossless; subcovers
theorem debug_stable : SubCovers stable E.DebugSubOpcode Tables.debugParamsCases Spec.debugStable := by
  unfold Spec.debugStable; subcovers
theorem meets_arapSize : Meets plain true Debug.arapListSizeStatus
    (orElse (named "new" (record [Spec.u16 "capacity", Spec.u16 "size"])) (named "old" (record [Spec.u8 "capacity", Spec.u8 "size"]))) := by
  have i1 : MeetsIs ⟨False, False, False, False⟩ true Debug.arapSize16 [Spec.u16 "capacity", Spec.u16 "size"] := by meets
  have i2 : MeetsIs plain true Debug.arapSize8 [Spec.u8 "capacity", Spec.u8 "size"] := by meets
  have m1 := meets_named (name := "new") (meets_struct i1 (by keys)) (reports_record i1) (by decide) (by decide) (by decide) (record_loc i1 (by decide))
  have m2 := meets_named (name := "old") (meets_struct i2 (by keys)) (reports_record i2) (by decide) (by decide) (by decide) (record_loc i2 (by decide))
  refine meets_select2 m1 m2 False.elim False.elim False.elim False.elim False.elim False.elim ?_ (fun h => by rcases h with h | h <;> exact h.elim)
  have a : MinLen (nameAdapter "new" (struct Debug.arapSize16)) 4 := minLen_named (minLen_struct (.cons (minLenI_field (minLen_uint 2)) (.cons (minLenI_field (minLen_uint 2)) .nil)))
  have b : LenLe (F.record [Spec.u8 "capacity", Spec.u8 "size"]) 2 := LenEq.le (m := 2) (lenEq_record (by lensc)) (Nat.le_refl _)
  have b' : LenLe (F.named "old" (F.record [Spec.u8 "capacity", Spec.u8 "size"])) 2 := lenLe_named b
  exact fun {_ _ _} hg => MinLen.short a b' (by decide) hg

theorem debug_plain : SubCovers plain E.DebugSubOpcode Tables.debugParamsCases Spec.debugPlain := by
  unfold Spec.debugPlain; subBut (Meets.but meets_arapSize); exact subCovers_nil

end

/-! ### Gateway -/

theorem grouped_pair {α} (x y : Item α) : grouped [x, y] = grouped [grouped [x, y]] := grouped_append [x, y] []

abbrev setMinimal' : List (Item UInt8) := [
  field "mtu_size" (uintLE 2), field "mac_address" macAddress, field "server_port_number" (uintLE 2),
  field "reconnect_interval" (uintLE 2), grouped [field "server_address_length" (uintLE 1),
  field "server_address" (Gateway.sizedString "server_address_length")]]

theorem setMinimal_grouped : grouped Gateway.setMinimal = grouped setMinimal' :=
  grouped_cons (grouped_cons (grouped_cons (grouped_cons (grouped_pair _ _))))

theorem meets_serverAddress : MeetsI M e (grouped [field "server_address_length" (uintLE 1),
    field "server_address" (Gateway.sizedString "server_address_length")]) Spec.serverAddress := meetsI_sizedText _ _ (by decide)

macro_rules | `(tactic| meets1) => `(tactic| with_reducible exact meets_serverAddress)

theorem meets_gatewayAuto {T U : Prop} : MeetsIs ⟨T, U, False, False⟩ e setMinimal' Spec.gatewayAuto := by meets

theorem meets_gatewayDns {T U : Prop} : MeetsIs ⟨T, U, False, False⟩ e Gateway.setDns Spec.gatewayDns := by
  have h : embedded Gateway.setMinimal = embedded setMinimal' := embedded_ext setMinimal_grouped
  unfold Gateway.setDns; rw [h]; meets

theorem meets_gatewayStatic {T U : Prop} : MeetsIs ⟨T, U, False, False⟩ e Gateway.setStatic Spec.gatewayStatic := by
  have h : MeetsI ⟨T, U, False, False⟩ false (embedded Gateway.setDns) (embed Spec.gatewayDns) := meetsI_embedded meets_gatewayDns (by keys)
  exact .cons h (by meets)

theorem ip_empty (k L acc) : ∃ er, (field k ipAddress).parse L acc [] = .error er := ⟨_, rfl⟩

theorem ext_short {its : List (Item UInt8)} {rs} (h : MeetsIs M false its rs) {x : Item UInt8} {r : List (Item UInt8)}
    (hx : ∀ L acc, ∃ er, x.parse L acc [] = .error er) {du b dv} (hg : seqRel rs du b dv) (L acc) :
    ∃ er, parseItems L (embedded its :: x :: r) acc b = .error er := by
  have := items_dec h hg L [] [] (by simp)
  rw [List.append_nil] at this
  obtain ⟨er, he⟩ := hx L (dmerge acc (dmerge [] dv))
  exact ⟨er, by simp only [parseItems, embedded, this, ok_bind, he]; rfl⟩

theorem select3 {α} (a b c : Con α) : select [a, b, c] = select [a, select [b, c]] := by
  have h : ∀ L ctx s, selectParse L ctx [a, b, c] s = selectParse L ctx [a, select [b, c]] s := by
    intro L ctx s
    simp only [selectParse, select]
    rcases a.parse L ctx s with ea | _ <;> simp only
    rcases b.parse L ctx s with eb | _ <;> simp only
    rcases c.parse L ctx s with ec | _ <;> simp only
    all_goals (by_cases ea = .diverge <;> simp_all)
    all_goals (by_cases eb = .diverge <;> simp_all)
    all_goals (by_cases ec = .diverge <;> simp_all)
  have h' : ∀ L ctx u, selectBuild L ctx [a, b, c] u = selectBuild L ctx [a, select [b, c]] u := by
    intro L ctx u
    simp only [selectBuild, select]
    rcases a.build L ctx u with ea | _ <;> simp only
    rcases b.build L ctx u with eb | _ <;> simp only
    rcases c.build L ctx u with ec | _ <;> simp only
  unfold select
  congr 1
  · simp
  · funext L ctx s; exact h L ctx s
  · funext L ctx u; exact h' L ctx u

theorem meets_gatewaySet : Meets plain true Gateway.configurationSet
    (orElse (record Spec.gatewayStatic) (orElse (record Spec.gatewayDns) (record Spec.gatewayAuto))) := by
  have h1 : Meets ⟨False, False, False, False⟩ true (struct Gateway.setStatic) (record Spec.gatewayStatic) := meets_struct meets_gatewayStatic (by keys)
  have h2 : Meets ⟨False, False, False, False⟩ true (struct Gateway.setDns) (record Spec.gatewayDns) := meets_struct meets_gatewayDns (by keys)
  have h3 : Meets plain true (struct Gateway.setMinimal) (record Spec.gatewayAuto) := by
    rw [struct_ext setMinimal_grouped]
    exact meets_struct meets_gatewayAuto (by keys)
  unfold Gateway.configurationSet
  rw [select3]
  have he : embedded Gateway.setMinimal = embedded setMinimal' := embedded_ext setMinimal_grouped
  have h23 := meets_select2 h2 h3 False.elim False.elim False.elim False.elim False.elim False.elim ?_ (fun h => by rcases h with h | h <;> exact h.elim)
  refine meets_select2 h1 h23 False.elim False.elim False.elim False.elim False.elim False.elim ?_ (fun h => by rcases h with h | h <;> exact h.elim)
  · rintro u b v (⟨du, dv, -, hg, rfl⟩ | ⟨-, ⟨du, dv, -, hg, rfl⟩⟩) L ctx
    · obtain ⟨er, hr⟩ := ext_short (M := plain) meets_gatewayDns (r := [field "gateway_ip_address" ipAddress, field "netmask" (uintLE 1)]) (ip_empty "ip_address") hg L []
      exact ⟨er, by simp only [struct, Gateway.setStatic, hr]; rfl⟩
    · obtain ⟨er, hr⟩ := ext_short (M := plain) meets_gatewayAuto (r := []) (ip_empty "dns_ip_address") hg L []
      rw [← he] at hr
      exact ⟨er, by simp only [struct, Gateway.setStatic, parseItems]; unfold embedded; simp only [Gateway.setDns, hr]; rfl⟩
  · rintro u b v ⟨du, dv, -, hg, rfl⟩ L ctx
    obtain ⟨er, hr⟩ := ext_short (M := plain) meets_gatewayAuto (r := []) (ip_empty "dns_ip_address") hg L []
    rw [← he] at hr
    exact ⟨er, by simp only [struct, Gateway.setDns, hr]; rfl⟩

theorem meets_serverSet : Meets M e Gateway.setServerAddrAndPortNr (record [Spec.u16 "server_port_number", Spec.serverAddress]) := by
  unfold Gateway.setServerAddrAndPortNr
  rw [struct_ext (grouped_cons (grouped_pair _ _))]
  meets

theorem meets_gatewayStatus : Meets plain true Gateway.configurationStatus (record [Spec.u8 "chip_revision_id", embed Spec.gatewayStatic,
    fld "flags" (enumOf (uint 1) E.DhcpFlag), fld "status_code" (enumOf (uint 1) E.GatewayStatusCode)]) := by
  refine meets_struct (.cons (by meets) (.cons (meetsI_embedded meets_gatewayStatic (by keys)) (by meets))) (by keys)

macro_rules | `(tactic| meets1) => `(tactic| with_reducible first
  | exact meets_gatewaySet | exact meets_serverSet | exact meets_gatewayStatus)

section
variable [Platform]
theorem gateway_lossless : SubCovers lossless E.GatewayConfigServerSubOpcode Tables.gatewayConfigParamsCases Spec.gatewayLossless := by
  unfold Spec.gatewayLossless; subcovers
theorem gateway_plain : SubCovers plain E.GatewayConfigServerSubOpcode Tables.gatewayConfigParamsCases Spec.gatewayPlain := by
  unfold Spec.gatewayPlain; subcovers
end

/-! ### Network diagnostics -/

theorem meets_registry : Meets M true (greedyRange NDS.registryRecord) (listOf (record [Spec.ndsSource, Spec.u16 "count",
    fld "min_hops" sevenBit, fld "max_hops" sevenBit])) := by
  refine meets_greedy (by meets) ?_ ?_
  · exact (lenEq_record (m := 6) (.cons (lenEqI_fld (lenEq_uintWhere _ _)) (.cons (lenEqI_fld (lenEq_uint 2)) (.cons (lenEqI_fld (lenEq_uintWhere _ _))
      (.cons (lenEqI_fld (lenEq_uintWhere _ _)) .nil))))).ge (by decide)
  · exact (minLen_struct (m := 6) (.cons (minLenI_field (minLen_validator (minLen_uint 2))) (.cons (minLenI_field (minLen_uint 2))
      (.cons (minLenI_field (minLen_validator (minLen_uint 1))) (.cons (minLenI_field (minLen_validator (minLen_uint 1))) .nil))))).le (by decide)

theorem meets_int12 : Meets M e int12ul (uintWhere 2 (· < 4096)) := by
  refine meets_uintWhere 2 _ _ ?_
  intro u k hk hu
  simp only [hu, Int.toNat_natCast, and_F000 (show k < 65536 from hk)]
  congr 1
  rw [Bool.eq_iff_iff]; simp

theorem meets_features : Meets M e (rangeValidator (uintLE 2) none (some 3)) (uintWhere 2 (· ≤ 3)) := by
  refine meets_uintWhere 2 _ _ ?_
  intro u k hk hu
  simp only [inRange, asNum_of_asInt hu]
  simp only [Bool.true_and, Int.cast_natCast, Int.cast_ofNat, not_lt]
  congr 1
  rw [Bool.eq_iff_iff]; simp only [decide_eq_true_eq]; norm_cast

macro_rules | `(tactic| meets1) => `(tactic| with_reducible first
  | exact meets_registry | exact meets_int12 | exact meets_features | exact meets_ttBits trivial)

theorem meets_publication : MeetsBut (OddLong "features" Spec.ndsLong) lossless true NDS.publicationSet (longShort "features" Spec.ndsLong Spec.ndsShort) := by
  have i1 : MeetsIs lossless true NDS.publicationSetOptional Spec.ndsLong := by meets
  have i2 : MeetsIs lossless true NDS.publicationSetMinimal Spec.ndsShort := by meets
  have m1 := meets_named (name := "optional") (meets_struct i1 (by keys)) (reports_record i1) (by decide) (by decide) (by decide) (record_loc i1 (by decide))
  refine (meets_longShort (odd := fun _ => False) (it := field "features" (rangeValidator (uintLE 2) none (some 3))) (m₁ := 10) (m₂ := 8)
    "features" m1.but i2 id (by keys) (by simp) (buildNeeds_field rfl) (by keys) ?_ ?_ (by decide)).mono (fun u h => h.elim False.elim id)
  · refine .cons (minLenI_embedded ?_) (.cons (minLenI_field (minLen_validator (minLen_uint 2))) .nil)
    exact .cons (m := 2) (minLenI_field (minLen_validator (minLen_uint 2))) (.cons (m := 2) (minLenI_field (minLen_uint 2))
      (.cons (m := 1) (minLenI_field (minLen_bitwise _ _)) (.cons (m := 1) (minLenI_field (minLen_validator (minLen_uint 1)))
        (.cons (m := 2) (minLenI_field (minLen_validator (minLen_uint 2))) .nil))))
  · lensc

section
variable [Platform]
theorem nds_lossless : SubCovers lossless E.NetworkDiagnosticServerSubOpcode Tables.networkDiagnosticServerParamsCases Spec.ndsLossless := by
  unfold Spec.ndsLossless; subcovers
theorem ndsSetup_lossless : SubCovers lossless E.NetworkDiagnosticSetupServerSubOpcode Tables.networkDiagnosticSetupServerParamsCases Spec.ndsSetupLossless := by
  unfold Spec.ndsSetupLossless
  subFix (Meets.but (by meets)); subBut meets_publication; subBut meets_publication; exact subCovers_nil

/-! ### Extended light controller, emergency lighting -/

omit [Platform] in
theorem idHeader_enum {E : EnumDef} {K : String} : IdHeader E K [fld K (enumOf (uint 2) E)] where
  nodup := by simp [fld]
  mem := by simp [fld]
  fwd := by
    rintro du b dh ⟨b1, b2, d1, d2, rfl, rfl, ⟨u, v, hu, hg, rfl⟩, rfl, rfl⟩
    obtain ⟨k, hm, hl, hb, rfl⟩ := enumOf_uint_iff.1 hg
    refine ⟨u, _, hu, by simp [dget]; rfl, ?_⟩
    rcases hm with ⟨s, rfl, -⟩ | ⟨h1, -⟩
    · intro k' h'; simp [hashInt, asInt] at h'
    · intro k' h'; rw [h1] at h'; exact h'
  known := by
    rintro du b dh id ⟨b1, b2, d1, d2, rfl, rfl, ⟨u, v, hu, hg, rfl⟩, rfl, rfl⟩ hd
    rw [hd] at hu; cases hu
    obtain ⟨k, hm, hl, hb, rfl⟩ := enumOf_uint_iff.1 hg
    rcases hm with ⟨s, rfl, -⟩ | ⟨h1, -⟩
    · exact .inl ⟨s, rfl⟩
    · exact .inr ⟨_, h1⟩
  report := by
    rintro du b dh i ⟨b1, b2, d1, d2, rfl, rfl, ⟨u, v, hu, hg, rfl⟩, rfl, rfl⟩ hd
    simp only [dget, List.append_nil, List.find?_cons_of_pos, Option.map_some, Option.some.injEq] at hd
    obtain ⟨k, hm, hl, hb, rfl⟩ := enumOf_uint_iff.1 hg
    refine ⟨k, ?_⟩
    rw [if_pos hm.has]
    simpa [dget] using hd.symm

omit [Platform] in
theorem keyDict_flag : KeyDict flag := by
  intro L ctx u h
  simp [flag] at h

theorem lec_cover : PropCovers stable E.LightExtendedControllerProperty LEC.propertyDict Spec.lecProperties := by
  unfold Spec.lecProperties
  refine propCovers_cons (by rfl) (by dsimp only; decide +kernel) (by rfl) keyDict_flag (by meets) ?_
  propcovers
theorem el_cover : PropCovers stable E.EmergencyLightingProperty EL.propertyDict Spec.elProperties := by
  unfold Spec.elProperties; propcovers

theorem lec_hall : ∀ k c, findCase k LEC.propertyDict = some c → E.LightExtendedControllerProperty.has k = true → ∃ p ∈ Spec.lecProperties, (p.id : Int) = k := by
  intro k c h _
  simp only [LEC.propertyDict, findCase] at h
  split at h
  · rename_i hk; exact ⟨_, .head _, hk⟩
  · split at h
    · rename_i hk; exact ⟨_, .tail _ (.head _), hk⟩
    · cases h

theorem el_hall : ∀ k c, findCase k EL.propertyDict = some c → E.EmergencyLightingProperty.has k = true → ∃ p ∈ Spec.elProperties, (p.id : Int) = k := by
  intro k c h _
  simp only [EL.propertyDict, findCase] at h
  split at h
  · rename_i hk; exact ⟨_, .head _, hk⟩
  · split at h
    · rename_i hk; exact ⟨_, .tail _ (.head _), hk⟩
    · split at h
      · rename_i hk; exact ⟨_, .tail _ (.tail _ (.head _)), hk⟩
      · split at h
        · rename_i hk; exact ⟨_, .tail _ (.tail _ (.tail _ (.head _))), hk⟩
        · cases h

theorem meets_lecValue {odd : Val → Prop} : MeetsBut odd stable e LEC.propertySet Spec.lecValue := by
  refine (meets_propertyMixin (by meets) idHeader_enum lec_cover lec_hall (by simp [Spec.lecProperties, fld, Spec.prop])).mono ?_
  rintro u ⟨d, id, p, -, -, hp, -, ho⟩
  simp only [Spec.lecProperties, List.mem_cons, List.not_mem_nil, or_false] at hp
  rcases hp with rfl | rfl <;> exact False.elim ho

theorem meets_elValue {odd : Val → Prop} : MeetsBut odd stable e EL.propertySet Spec.elValue := by
  refine (meets_propertyMixin (by meets) idHeader_enum el_cover el_hall (by simp [Spec.elProperties, fld, Spec.prop])).mono ?_
  rintro u ⟨d, id, p, -, -, hp, -, ho⟩
  simp only [Spec.elProperties, List.mem_cons, List.not_mem_nil, or_false] at hp
  rcases hp with rfl | rfl | rfl | rfl <;> exact False.elim ho

theorem lec_lossless : SubCovers lossless E.LightExtendedControllerSubOpcode Tables.lightExtendedControllerParamsCases Spec.lecLossless := by
  unfold Spec.lecLossless; subcovers
theorem lec_stable : SubCovers stable E.LightExtendedControllerSubOpcode Tables.lightExtendedControllerParamsCases Spec.lecStable := by
  unfold Spec.lecStable
  subBut meets_lecValue; subBut meets_lecValue; subBut meets_lecValue; exact subCovers_nil
theorem el_lossless : SubCovers lossless E.EmergencyLightingSubOpcode Tables.emergencyLightingParamsCases Spec.elLossless := by
  unfold Spec.elLossless; subcovers
theorem el_stable : SubCovers stable E.EmergencyLightingSubOpcode Tables.emergencyLightingParamsCases Spec.elStable := by
  unfold Spec.elStable
  subBut meets_elValue; subBut meets_elValue; subBut meets_elValue; exact subCovers_nil
end

end
end BM
