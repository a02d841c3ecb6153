import Verif.FlatMsgs
import Verif.FlatSubs
import Verif.SpecIntro
import Verif.Props.Access
import Verif.Props.CaseNames
/-!
# Messages as plain dictionaries (C34)
-/
namespace BM.Props
open Tables F Case

variable [Platform]

/-! ### The names of the messages -/

set_option maxRecDepth 100000 in
omit [Platform] in
theorem public_chars : (nameChars.all fun s => goodChars (s.map Char.toLower)) = true := by decide +kernel

theorem good_name {M : Mode} {m : MsgSpec} (h : Served M registry m) : GoodKey m.name := by
  obtain ⟨e, he, h1, h2, -⟩ := h
  have hm : upper m.name ∈ Tables.opcodeEnums.flatMap (fun E => E.members.map Prod.fst) :=
    List.mem_flatMap.2 ⟨e.1, registry_enums ▸ List.mem_map.2 ⟨e, he, rfl⟩, List.mem_map.2 ⟨_, lookupValue_mem h1, rfl⟩⟩
  rw [nameChars_eq] at hm
  obtain ⟨s, hs, e1⟩ := List.mem_map.1 hm
  rw [← h2, ← e1, lower_ofList]
  exact .ofList (List.all_eq_true.1 public_chars s hs)

/-! ### Reports -/

/-- The report of a message, converted to camel case and back. -/
theorem report_plain {m : MsgSpec} (hm : m ∈ Spec.messages) {v : Val} (hc : Convertible v) (cls subcls : String) : ∃ d,
    toSnakecaseDict (toCamelcaseDict (report m cls subcls v)) = .dict d ∧ dget d "opcode" = some (.int m.op) ∧ payload m d = some (plainValue v) := by
  have hS := served_all m hm
  have gn := good_name hS
  have go : GoodKey "opcode" := .ofList (by decide +kernel)
  have gs : GoodKey "subopcode" := .ofList (by decide +kernel)
  have hsub := subs_messages m hm
  obtain ⟨e, -, -, -, hne, C, c, -, -, h5⟩ := hS
  have key : ∀ x, Convertible x → ∃ d, toSnakecaseDict (toCamelcaseDict (.dict [("opcode", .enum cls m.op), (m.name, x)])) = .dict d ∧
      d = [("opcode", .int m.op), (m.name, plainValue x)] := by
    intro x hx
    have gd : GoodDict [("opcode", Val.enum cls m.op), (m.name, x)] :=
      ⟨by simp [dkeys, Ne.symm hne], by simp [dkeys]; exact ⟨go, gn⟩⟩
    refine ⟨_, ?_, rfl⟩
    rw [C30_dict (gd.conv ?_), gd.plain]
    · simp [plainEntries, go.pub, gn.pub, plainValue]
    · simp only [List.mem_cons, List.not_mem_nil, or_false, Prod.mk.injEq]
      rintro k v (⟨-, rfl⟩ | ⟨-, rfl⟩)
      · simp [Convertible]
      · exact hx
  unfold report
  cases hs : m.sub with
  | none =>
    obtain ⟨d, h1, rfl⟩ := key v hc
    exact ⟨_, h1, by simp [dget], by simp [payload, hs, outerPayload, dget, Ne.symm hne]⟩
  | some s =>
    rw [hs] at h5
    have hk := h5.1
    have gk := hsub s hs
    have gd : GoodDict [("subopcode", Val.enum subcls s.num), (s.key, v)] :=
      ⟨by simp [dkeys, Ne.symm hk], by simp [dkeys]; exact ⟨gs, gk⟩⟩
    obtain ⟨d, h1, rfl⟩ := key (.dict [("subopcode", .enum subcls s.num), (s.key, v)]) (gd.conv (by
      simp only [List.mem_cons, List.not_mem_nil, or_false, Prod.mk.injEq]
      rintro k v (⟨-, rfl⟩ | ⟨-, rfl⟩)
      · simp [Convertible]
      · exact hc))
    refine ⟨_, h1, by simp [dget], ?_⟩
    rw [gd.plain]
    simp [payload, hs, outerPayload, dget, Ne.symm hne, innerPayload, Ne.symm hk, hashInt, asInt, plainEntries, gs.pub, gk.pub, plainValue]

/-- **C34.** What was parsed, converted to a dictionary with camel-case keys and plain values, and back, is accepted by the encoder in the
place of the parsed object, and encoded to the same bytes — for every message but the three of `nameClashes`, and every value without byte
strings and durations. -/
theorem C34_bytes {m : MsgSpec} (hm : m ∈ Spec.messages) (hop : m.op ∉ nameClashes) {b : List UInt8} {v : Val} (h : m.fmt v b v) (hr : NoRaw v)
    (L : Lib) (cls subcls : String) :
    (accessBuild registry L (toSnakecaseDict (toCamelcaseDict (report m cls subcls v)))).map Prod.fst = .ok (header m ++ b) := by
  obtain ⟨hc, hf⟩ := flat_messages m hm hop _ _ h hr
  obtain ⟨d, h1, h2, h3⟩ := report_plain hm hc cls subcls
  obtain ⟨cls', hb⟩ := (served_all m hm).build registry_ok hf L False.elim h2 (.inl rfl) h3
  rw [h1, hb]; rfl

theorem noRaw_report {m : MsgSpec} {cls subcls : String} {v : Val} (h : NoRaw (report m cls subcls v)) : NoRaw v := by
  unfold report at h
  cases hs : m.sub with
  | none => rw [hs] at h; simpa [NoRaw, NoRawEntries] using h
  | some s => rw [hs] at h; simpa [NoRaw, NoRawEntries] using h

/-- **C34 (lossless messages).** A received message that is parsed to its end can be passed on as a plain dictionary: the bytes that are built
from it are the received ones. -/
theorem C34_lossless {m : MsgSpec} (hm : m ∈ Spec.lossless) (hop : m.op ∉ nameClashes) (L : Lib) {s : List UInt8} {v : Val}
    (h : accessParse registry L (header m ++ s) = .ok (v, [])) (hr : NoRaw v) :
    (accessBuild registry L (toSnakecaseDict (toCamelcaseDict v))).map Prod.fst = .ok (header m ++ s) := by
  have hS := served_lossless m hm
  obtain ⟨c, cls, scls, hM, hb⟩ := hS.parse registry_ok
  obtain ⟨ctx, hb1⟩ := hb L s
  rw [hb1] at h
  split at h
  · rename_i v' rest' hv
    simp only [Except.ok.injEq, Prod.mk.injEq] at h
    obtain ⟨rfl, rfl⟩ := h
    obtain ⟨b, hs, hG⟩ := hM.exact trivial hv
    rw [List.append_nil] at hs; subst hs
    exact C34_bytes (List.mem_append_left _ (List.mem_append_left _ hm)) hop hG (noRaw_report hr) L cls scls
  · simp at h

/-- **C34 (stable messages).** The bytes built from the plain dictionary of a received message parse to what was received. -/
theorem C34_stable {m : MsgSpec} (hm : m ∈ Spec.stable) (hop : m.op ∉ nameClashes) (L : Lib) {s rest : List UInt8} {v : Val}
    (h : accessParse registry L (header m ++ s) = .ok (v, rest)) (hr : NoRaw v) :
    ∃ bs, (accessBuild registry L (toSnakecaseDict (toCamelcaseDict v))).map Prod.fst = .ok bs ∧ accessParse registry L bs = .ok (v, []) := by
  have hS := served_stable m hm
  obtain ⟨c, cls, scls, hM, hb⟩ := hS.parse registry_ok
  obtain ⟨ctx, hb1⟩ := hb L s
  rw [hb1] at h
  split at h
  · rename_i v' rest' hv
    simp only [Except.ok.injEq, Prod.mk.injEq] at h
    obtain ⟨rfl, rfl⟩ := h
    obtain ⟨b, hG⟩ := hM.inv trivial hv
    refine ⟨header m ++ b, C34_bytes (List.mem_append_left _ hm) hop hG (noRaw_report hr) L cls scls, ?_⟩
    obtain ⟨ctx, hb2⟩ := hb L b
    have := hM.dec hG L ctx [] (fun _ => rfl)
    rw [List.append_nil] at this
    rw [hb2, this]
  · simp at h

/-! ### What cannot be passed on -/

/-- Messages that carry a key as a byte string. -/
def keyMessages : List MsgSpec := [
  msg 0x00 "config_appkey_add" (record [Spec.netAppKey, fld "app_key" (F.bytes 16)]) |>.sized 19,
  msg 0x01 "config_appkey_update" (record [Spec.netAppKey, fld "app_key" (F.bytes 16)]) |>.sized 19,
  msg 0x8040 "config_netkey_add" (record [Spec.keyIndex "net_key_index", fld "net_key" (F.bytes 16)]) |>.sized 18,
  msg 0x8045 "config_netkey_update" (record [Spec.keyIndex "net_key_index", fld "net_key" (F.bytes 16)]) |>.sized 18]

theorem keyMessages_stable : ∀ m ∈ keyMessages, m ∈ Spec.stable := by
  have h1 : ∀ m ∈ Spec.configLossless, m ∈ Spec.stable := fun m hm => List.mem_append_left _ (List.mem_append_left _ hm)
  have h2 : ∀ m ∈ Spec.configStable, m ∈ Spec.stable := fun m hm => List.mem_append_right _ (List.mem_append_left _ hm)
  unfold keyMessages
  each
  · exact h1 _ (List.mem_of_getElem? (i := 0) rfl)
  · exact h1 _ (List.mem_of_getElem? (i := 1) rfl)
  · exact h2 _ (List.mem_of_getElem? (i := 10) rfl)
  · exact h2 _ (List.mem_of_getElem? (i := 14) rfl)

omit [Platform] in
theorem bytes_record {r : RI UInt8} (hr : FlatI r) {k : String} {n : Nat} (hk : GoodKey k) (hnd : (r.keys ++ [k]).Nodup) (h0 : "_name" ∉ r.keys)
    (hno : ∀ du b dv, r.rel du b dv → NoRawEntries dv) {b v} (h : record [r, fld k (F.bytes n)] v b v) :
    Convertible v ∧ Unencodable (record [r, fld k (F.bytes n)]) (plainValue v) := by
  obtain ⟨du, dv, hu, hs, rfl⟩ := h
  injection hu with hu; subst hu
  obtain ⟨b1, b2, d1, d2, rfl, rfl, hr1, b3, b4, d3, d4, rfl, rfl, ⟨u, w, hg, ⟨-, rfl, -⟩, rfl⟩, rfl, rfl⟩ := hs
  have hkeys : dkeys (d1 ++ ([(k, Val.bytes b3)] ++ [])) = r.keys ++ [k] := by rw [dkeys_append, hr.keys hr1]; rfl
  have hnd' : (dkeys (d1 ++ ([(k, Val.bytes b3)] ++ []))).Nodup := by rw [hkeys]; exact hnd
  have hname : "_name" ∉ dkeys (d1 ++ ([(k, Val.bytes b3)] ++ [])) := by
    rw [hkeys, List.mem_append]
    rintro (h | h)
    · exact h0 h
    · rw [List.mem_singleton] at h
      have := hk.pub
      rw [← h, private_name] at this
      cases this
  obtain ⟨c, -⟩ := hr.flat hr1 (fun k' v' hm _ => dget_mem hnd' (List.mem_append_left _ hm)) (hno _ _ _ hr1)
  constructor
  · refine conv_dict hnd' hname ?_
    clear hg hr1 hkeys hnd' hname
    induction d1 with
    | nil => simp [ConvertibleEntries, hk.conv, Convertible]
    | cons kv d1 ih =>
      obtain ⟨k', v'⟩ := kv
      rw [ConvertibleEntries] at c
      rw [List.cons_append, ConvertibleEntries]
      exact ⟨c.1, ih c.2⟩
  · rw [plain_dict hname]
    rintro ⟨b', v', du', dv', hu', hs', -⟩
    injection hu' with hu'; subst hu'
    obtain ⟨c1, c2, e1, e2, -, -, -, c3, c4, e3, e4, -, -, ⟨u', w', hg', ⟨-, -, h2⟩, -⟩, -⟩ := hs'
    rw [plain_dget (k := k) (v := .bytes b3) hnd' (List.mem_append_right _ (by simp)) hk.pub] at hg'
    injection hg' with hg'; subst hg'
    simp only [plainValue] at h2
    rcases h2 with h2 | h2
    · cases h2
    · simp [asInt] at h2

omit [Platform] in
theorem noRaw_bits {name : String} {n : Nat} {rs : List (RI Bool)} (h : ∀ du b dv, seqRel rs du b dv → NoRawEntries dv) (du b dv)
    (hr : (bitGroup name n true rs).rel du b dv) : NoRawEntries dv := by
  obtain ⟨d, -, hs, rfl⟩ := hr
  have := h _ _ _ hs
  rw [NoRawEntries, NoRaw]
  exact ⟨this, this⟩

/-- What is not encodable is not built. -/
theorem not_built {m : MsgSpec} (hm : m ∈ Spec.messages) {L : Lib} (hL : L.Strict) {d : Dict} {k u : Val} (hk : dget d "opcode" = some k) (hs : Spells m k)
    (hp : payload m d = some u) (ho : ¬ m.odd u) (hu : Unencodable m.fmt u) : ∃ e, accessBuild registry L (.dict d) = .error e := by
  cases hb : accessBuild registry L (.dict d) with
  | error e => exact ⟨e, rfl⟩
  | ok r =>
    obtain ⟨b, v, h, -⟩ := C08_build_sound hm hL hk hs hp hb ho
    exact absurd ⟨b, v, h⟩ hu

theorem keyMessages_raw : ∀ m ∈ keyMessages, ∀ b v, m.fmt v b v → Convertible v ∧ Unencodable m.fmt (plainValue v) ∧ ¬ m.odd (plainValue v) := by
  have key : ∀ a b : String, ∀ du bs dv, seqRel [fld a (bitsU 12), fld b (bitsU 12)] du bs dv → NoRawEntries dv := by
    rintro a b du bs dv ⟨_, _, _, _, rfl, rfl, ⟨_, _, -, ⟨k, -, -, -, rfl⟩, rfl⟩, _, _, _, _, rfl, rfl, ⟨_, _, -, ⟨k', -, -, -, rfl⟩, rfl⟩, -, rfl⟩
    simp [NoRawEntries, NoRaw]
  have key' : ∀ a : String, ∀ du bs dv, seqRel [zeros false 4, fld a (bitsU 12)] du bs dv → NoRawEntries dv := by
    rintro a du bs dv ⟨_, _, _, _, rfl, rfl, ⟨-, rfl⟩, _, _, _, _, rfl, rfl, ⟨_, _, -, ⟨k', -, -, -, rfl⟩, rfl⟩, -, rfl⟩
    simp [NoRawEntries, NoRaw]
  unfold keyMessages
  each
  all_goals
    intro b v hG
    have := bytes_record (by flats) (by goodkey) (by decide) (by decide) (by first | exact noRaw_bits (key _ _) | exact noRaw_bits (key' _)) hG
    exact ⟨this.1, this.2, fun h => h⟩

/-- **C34 (byte strings).** A received key, passed on as a plain dictionary, is rejected: it has become a text. -/
theorem C34_keys {m : MsgSpec} (hm : m ∈ keyMessages) {L : Lib} (hL : L.Strict) {s rest : List UInt8} {v : Val}
    (h : accessParse registry L (header m ++ s) = .ok (v, rest)) : ∃ e, accessBuild registry L (toSnakecaseDict (toCamelcaseDict v)) = .error e := by
  have hst := keyMessages_stable m hm
  have hmm : m ∈ Spec.messages := List.mem_append_left _ hst
  have hS := served_stable m hst
  obtain ⟨c, cls, scls, hM, hb⟩ := hS.parse registry_ok
  obtain ⟨ctx, hb1⟩ := hb L s
  rw [hb1] at h
  split at h
  · rename_i v' rest' hv
    simp only [Except.ok.injEq, Prod.mk.injEq] at h
    obtain ⟨rfl, rfl⟩ := h
    obtain ⟨b, hG⟩ := hM.inv trivial hv
    have key := keyMessages_raw m hm _ _ hG
    obtain ⟨d, h1, h2, h3⟩ := report_plain hmm key.1 cls scls
    rw [h1]
    exact not_built hmm hL h2 (.inl rfl) h3 key.2.2 key.2.1
  · simp at h

/-- Messages with a field whose name does not survive the conversion. -/
def proxyMessages : List MsgSpec := [
  msg 0x8013 "config_gatt_proxy_set" (record [fld "GATT_proxy" (Spec.enum8 E.GATTProxy)]) |>.sized 1,
  msg 0x8014 "config_gatt_proxy_status" (record [fld "GATT_proxy" (Spec.enum8 E.GATTProxy)]) |>.sized 1]

theorem proxyMessages_lossless : ∀ m ∈ proxyMessages, m ∈ Spec.configLossless := by
  unfold proxyMessages
  each
  · exact List.mem_of_getElem? (i := 15) rfl
  · exact List.mem_of_getElem? (i := 16) rfl

/-- The converted report of a message with one field. -/
theorem report_renamed {m : MsgSpec} (hm : m ∈ Spec.messages) (hs : m.sub = none) {k k' : String} (hk : isPrivate k = false) (hc : isPrivate (camelcase k) = false)
    (hkk : snakecase (camelcase k) = k') (c cls subcls : String) (n : Int) :
    toSnakecaseDict (toCamelcaseDict (report m cls subcls (.dict [(k, .enum c n)]))) =
      .dict [("opcode", .int m.op), (m.name, .dict [(k', .int n)])] := by
  have hS := served_all m hm
  have gn := good_name hS
  have go : GoodKey "opcode" := .ofList (by decide +kernel)
  obtain ⟨e, -, -, -, hne, -⟩ := hS
  have hcc : camelcase "opcode" ≠ camelcase m.name := by
    intro h
    have := gn.conv
    rw [← h, go.conv] at this
    exact hne this.symm
  have n1 : k ≠ "_name" := by rintro rfl; simp [private_name] at hk
  have n2 : camelcase k ≠ "_name" := by intro h; simp [h, private_name] at hc
  have n3 : m.name ≠ "_name" := by intro h; have := gn.pub; simp [h, private_name] at this
  have p4 := camel_public gn.conv
  have n4 : camelcase m.name ≠ "_name" := by intro h; simp [h, private_name] at p4
  have p5 := camel_public go.conv
  have n5 : camelcase "opcode" ≠ "_name" := by intro h; simp [h, private_name] at p5
  simp [report, hs, toSnakecaseDict, toCamelcaseDict, toCase, toCaseItems, dget, dset, hk, hc, hkk, go.pub, gn.pub, hcc, n1, n2, n3, n4, n5, p4, p5,
    go.conv, gn.conv, Ne.symm hne]

/-- **C34 (names).** A received GATT proxy state, passed on as a plain dictionary, is rejected: the name of the field has become another. -/
theorem C34_proxy {m : MsgSpec} (hm : m ∈ proxyMessages) {L : Lib} (hL : L.Strict) {s rest : List UInt8} {v : Val}
    (h : accessParse registry L (header m ++ s) = .ok (v, rest)) : ∃ e, accessBuild registry L (toSnakecaseDict (toCamelcaseDict v)) = .error e := by
  have hl : m ∈ Spec.lossless := List.mem_append_left _ (proxyMessages_lossless m hm)
  have hmm : m ∈ Spec.messages := List.mem_append_left _ (List.mem_append_left _ hl)
  have hS := served_lossless m hl
  obtain ⟨c, cls, scls, hM, hb⟩ := hS.parse registry_ok
  obtain ⟨ctx, hb1⟩ := hb L s
  rw [hb1] at h
  split at h
  · rename_i v' rest' hv
    simp only [Except.ok.injEq, Prod.mk.injEq] at h
    obtain ⟨rfl, rfl⟩ := h
    obtain ⟨b, hG⟩ := hM.inv trivial hv
    have hf : m.fmt = record [fld "GATT_proxy" (Spec.enum8 E.GATTProxy)] ∧ m.sub = none ∧ m.odd = fun _ => False := by
      simp only [proxyMessages, List.mem_cons, List.not_mem_nil, or_false] at hm
      rcases hm with rfl | rfl <;> exact ⟨rfl, rfl, rfl⟩
    obtain ⟨hf, hs, ho⟩ := hf
    rw [hf] at hG
    obtain ⟨du, dv, hu, ⟨b1, b2, d1, d2, rfl, rfl, ⟨u, w, -, ⟨n, w', -, -, rfl⟩, rfl⟩, -, rfl⟩, rfl⟩ := hG
    have e := report_renamed hmm hs (k := "GATT_proxy") (k' := "gatt_proxy") (by decide +kernel) (by decide +kernel) (by decide +kernel)
      E.GATTProxy.cls cls scls n
    simp only [List.append_nil] at *
    rw [e]
    obtain ⟨_, -, -, -, hne, -⟩ := hS
    refine not_built hmm hL (k := .int m.op) (u := .dict [("gatt_proxy", .int n)]) (by simp [dget]) (.inl rfl) (by simp [payload, hs, outerPayload, dget, Ne.symm hne])
      (by rw [ho]; exact fun h => h) ?_
    rw [hf]
    rintro ⟨b', v', du', dv', hu', ⟨c1, c2, d1, d2, -, -, ⟨u', w', hg, -⟩, -⟩, -⟩
    injection hu' with hu'; subst hu'
    simp [dget] at hg
  · simp at h

/-- A scene register with two scenes, as it is parsed: its opcode and its status code are members of enumerations. -/
def someScenes : Val := .dict [("status_code", .enum E.SceneStatusCode.cls 0), ("current_scene", .int 2), ("scenes", .list [.int 2, .int 513])]

omit [Platform] in
theorem someScenes_fmt : record [Spec.sceneStatusCode, Spec.u16 "current_scene", fld "scenes" (listOf (uint 2))] someScenes [0, 2, 0, 2, 0, 1, 2] someScenes := by
  refine F.record_mk (b := [0] ++ ([2, 0] ++ [2, 0, 1, 2])) (F.seq_cons (F.fld_mk rfl (F.enumOf_mk (n := 1) (k := 0) (by decide) (by decide) rfl))
    (F.seq_cons (F.fld_mk (u := .int 2) rfl (F.uint_mk (n := 2) (k := 2) (by decide))) (F.seq_one (F.fld_mk (u := .list [.int 2, .int 513]) rfl ?_))))
  exact F.listOf_map (fun (n : Nat) => .int (n : Int)) (fun n => leBytes 2 n) (fun (n : Nat) => .int (n : Int)) [2, 513] (by
    intro x hx
    simp only [List.mem_cons, List.not_mem_nil, or_false] at hx
    rcases hx with rfl | rfl <;> exact F.uint_mk (by decide))

example (L : Lib) (cls : String) :
    (accessBuild registry L (toSnakecaseDict (toCamelcaseDict (.dict [("opcode", .enum cls 0x8245), ("scene_register_status", someScenes)])))).map Prod.fst =
      .ok [0x82, 0x45, 0, 2, 0, 2, 0, 1, 2] :=
  C34_bytes (m := msg 0x8245 "scene_register_status" (record [Spec.sceneStatusCode, Spec.u16 "current_scene", fld "scenes" (listOf (uint 2))]))
    (List.mem_append_left _ (List.mem_append_left _ (by
      simp only [Spec.lossless, List.mem_append]
      iterate 9 right
      left
      exact List.mem_of_getElem? (i := 2) rfl))) (by decide) someScenes_fmt (by simp [someScenes, NoRaw, NoRawEntries, NoRawList]) L cls ""

/-- There are such messages: the GATT proxy is enabled. -/
example (L : Lib) : ∃ m ∈ proxyMessages, ∃ s v, accessParse registry L (header m ++ s) = .ok (v, []) := by
  refine ⟨_, List.mem_cons_self, [1], ?_⟩
  obtain ⟨-, cls, subcls, h⟩ := C05_encode_decode (m := msg 0x8013 "config_gatt_proxy_set" (record [fld "GATT_proxy" (Spec.enum8 E.GATTProxy)]) |>.sized 1)
    (List.mem_append_left _ (List.mem_append_left _ (List.mem_append_left _ (proxyMessages_lossless _ List.mem_cons_self))))
    (u := .dict [("GATT_proxy", .int 1)]) (b := [1])
    (F.record_mk (F.seq_one (F.fld_mk (u := .int 1) rfl (F.enumOf_mk (n := 1) (k := 1) (by decide) (by decide) rfl)))) L
    (d := [("opcode", .int 0x8013), ("params", .dict [("GATT_proxy", .int 1)])]) (k := .int 0x8013) rfl (.inl rfl) rfl
  exact ⟨_, h⟩

/-- A received network key. -/
example (L : Lib) : ∃ m ∈ keyMessages, ∃ s v, accessParse registry L (header m ++ s) = .ok (v, []) := by
  have hm : (msg 0x8040 "config_netkey_add" (record [Spec.keyIndex "net_key_index", fld "net_key" (F.bytes 16)]) |>.sized 18) ∈ keyMessages :=
    List.mem_of_getElem? (i := 2) rfl
  refine ⟨_, hm, [3, 0] ++ List.replicate 16 7, ?_⟩
  obtain ⟨-, cls, subcls, h⟩ := C05_encode_decode (List.mem_append_left _ (keyMessages_stable _ hm))
    (u := .dict [("net_key_index", .int 3), ("net_key", .bytes (List.replicate 16 7))]) (b := [3, 0] ++ List.replicate 16 7)
    (F.record_mk (F.seq_cons (b₁ := [3, 0]) ⟨_, rfl, F.seq_cons (r := zeros false 4) (b₁ := List.replicate 4 false)
      (b₂ := natBits 12 3) (d₁ := []) ⟨rfl, rfl⟩ (F.seq_one (F.fld_mk (u := .int 3) (v := .int 3) rfl ⟨3, rfl, by decide, by decide, rfl⟩)), rfl⟩ (F.seq_one (F.fld_mk (b := List.replicate 16 7) rfl ⟨rfl, rfl, .inl rfl⟩)))) L
    (d := [("opcode", .int 0x8040), ("params", .dict [("net_key_index", .int 3), ("net_key", .bytes (List.replicate 16 7))])]) (k := .int 0x8040) rfl (.inl rfl) rfl
  exact ⟨_, h⟩

end BM.Props
