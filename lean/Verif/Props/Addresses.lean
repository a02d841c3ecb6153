import Verif.Props.Vendor
import Verif.SpecIntro
import Verif.MeetsSilvair
/-!
# MAC and IP addresses (C25)
-/
namespace BM.Props
open Tables F

/-- The digit `i < 16`, in lower case. -/
def lowerDigit (i : Nat) : Char := "0123456789abcdef".toList.getD i '?'
/-- The digit `i < 16`, in upper case. -/
def upperDigit (i : Nat) : Char := "0123456789ABCDEF".toList.getD i '?'

/-- Colon notation: each byte as two lower-case hexadecimal digits. -/
def colonHex (b : List UInt8) : String := ":".intercalate (b.map fun x => String.ofList [lowerDigit (x.toNat / 16), lowerDigit (x.toNat % 16)])
/-- Dotted notation: each byte in decimal. -/
def dotted (b : List UInt8) : String := ".".intercalate (b.map fun x => toString x.toNat)

theorem lowerDigit_eq : ∀ i < 16, lowerDigit i = hexDigit i := by decide +kernel

theorem joinChars_eq (sep : Char) : ∀ parts : List (List Char), joinChars sep parts = [sep].intercalate parts
  | [] => rfl
  | [p] => by simp [joinChars, List.intercalate]
  | p :: q :: ps => by
    have := joinChars_eq sep (q :: ps)
    simp only [joinChars, this, List.intercalate, List.intersperse_cons₂, List.flatten_cons]
    simp

theorem colonHex_eq (b : List UInt8) : colonHex b = String.ofList (joinChars ':' (b.map hexByte)) := by
  rw [← String.toList_inj, joinChars_eq]
  simp only [colonHex, String.toList_intercalate, String.toList_ofList, List.map_map]
  congr 1
  refine List.map_congr_left fun x _ => ?_
  have := x.toNat_lt
  simp only [Function.comp, String.toList_ofList, hexByte]
  rw [lowerDigit_eq _ (by omega), lowerDigit_eq _ (by omega)]

/-- **C25 (reading a MAC address).** Six bytes are reported in colon notation, and that text is written as the same six bytes. -/
theorem C25_mac (L : Lib) (ctx : Dict) {b : List UInt8} (hb : b.length = 6) (rest : List UInt8) :
    macAddress.parse L ctx (b ++ rest) = .ok (.str (colonHex b), rest) ∧ ∃ o, macAddress.build L ctx (.str (colonHex b)) = .ok (b, o) := by
  have hG : mac (.str (colonHex b)) b (.str (colonHex b)) := by
    rw [colonHex_eq]
    exact ⟨_, rfl, hb, separated_hex (by rintro rfl; simp at hb), rfl⟩
  have hm : Meets lossless false macAddress mac := meets_mac
  exact ⟨hm.dec hG L ctx rest (by simp), hm.enc hG L ctx False.elim⟩

/-- `p` consists of two hexadecimal digits, in either case, for the number `n`. -/
def HexPair (p : List Char) (n : Nat) : Prop :=
  ∃ i < 16, ∃ j < 16, n = 16 * i + j ∧ ∃ c ∈ [lowerDigit i, upperDigit i], ∃ d ∈ [lowerDigit j, upperDigit j], p = [c, d]

theorem hexPair_int {p : List Char} {n : Nat} (h : HexPair p n) : pyInt 16 p = some (n : Int) ∧ ':' ∉ p := by
  obtain ⟨i, hi, j, hj, rfl, c, hc, d, hd, rfl⟩ := h
  have key : ∀ i < 16, ∀ j < 16, ∀ c ∈ [lowerDigit i, upperDigit i], ∀ d ∈ [lowerDigit j, upperDigit j],
      pyInt 16 [c, d] = some ((16 * i + j : Nat) : Int) ∧ ':' ∉ [c, d] := by decide +kernel
  exact key i hi j hj c hc d hd

theorem forall2_map {α β γ} {R : α → β → Prop} {f : α → γ} {g : β → γ} (h : ∀ a b, R a b → f a = g b) :
    ∀ {l m}, List.Forall₂ R l m → l.map f = m.map g
  | _, _, .nil => rfl
  | _, _, .cons h1 h2 => by simp [h _ _ h1, forall2_map h h2]

theorem forall2_left {α β} {R : α → β → Prop} {P : α → Prop} (h : ∀ a b, R a b → P a) : ∀ {l m}, List.Forall₂ R l m → ∀ a ∈ l, P a
  | _, _, .nil => by simp
  | _, _, .cons h1 h2 => by
    intro a ha
    rcases List.mem_cons.1 ha with rfl | ha
    · exact h _ _ h1
    · exact forall2_left h h2 a ha

/-- **C25 (writing a MAC address).** The digits may be given in upper or lower case. -/
theorem C25_mac_case (L : Lib) (ctx : Dict) {b : List UInt8} (hb : b.length = 6) {parts : List (List Char)}
    (hp : List.Forall₂ (fun p x => HexPair p x.toNat) parts b) :
    ∃ o, macAddress.build L ctx (.str (String.ofList ([':'].intercalate parts))) = .ok (b, o) := by
  have hm : Meets lossless false macAddress mac := meets_mac
  refine hm.enc (v := .str _) ⟨_, rfl, hb, ⟨parts, by rw [String.toList_ofList, joinChars_eq], ?_, ?_, ?_⟩, rfl⟩ L ctx False.elim
  · exact forall2_left (R := fun p (x : UInt8) => HexPair p x.toNat) (fun p x h => (hexPair_int h).2) hp
  · rintro rfl; cases hp; simp at hb
  · exact forall2_map (R := fun p (x : UInt8) => HexPair p x.toNat) (fun p x h => (hexPair_int h).1) hp

/-- **C25 (nothing else).** Text that does not consist of six numbers separated by colons, and anything that is not text, is not a MAC address. -/
theorem C25_mac_only {L : Lib} {ctx : Dict} {u : Val} {b : List UInt8} {o : Val} (h : macAddress.build L ctx u = .ok (b, o)) :
    ∃ s, u = .str s ∧ b.length = 6 ∧ ∃ parts : List (List Char), s.toList = [':'].intercalate parts ∧ (∀ p ∈ parts, ':' ∉ p) ∧ parts.length = 6 ∧
      parts.map (pyInt 16) = b.map fun x => some (x.toNat : Int) := by
  have hm : Meets ⟨False, False, True, True⟩ false macAddress mac := meets_mac
  obtain ⟨v, s, rfl, hl, ⟨parts, h1, h2, -, h4⟩, -⟩ := hm.sound False.elim h
  refine ⟨s, rfl, hl, parts, by rw [h1, joinChars_eq], h2, ?_, h4⟩
  have := congrArg List.length h4
  simpa [hl] using this

theorem decimal_digits : (List.range 256).all (fun n => decide (pyInt 10 (Nat.toDigits 10 n) = some (n : Int)) && decide ('.' ∉ Nat.toDigits 10 n)) = true := by
  decide +kernel

theorem decimal_int (x : UInt8) : pyInt 10 (toString x.toNat).toList = some (x.toNat : Int) ∧ '.' ∉ (toString x.toNat).toList := by
  have h := List.all_eq_true.1 decimal_digits x.toNat (List.mem_range.2 x.toNat_lt)
  have e : (toString x.toNat).toList = Nat.toDigits 10 x.toNat := by
    show (String.ofList (Nat.toDigits 10 x.toNat)).toList = _
    rw [String.toList_ofList]
  rw [e]
  simpa using h

theorem ip_dotted {b : List UInt8} (hb : b.length = 4) : ip (.str (dotted b)) b (.ipv4 b) := by
  refine ⟨_, rfl, hb, ⟨b.map fun x => (toString x.toNat).toList, ?_, ?_, by rintro h; simp at h; subst h; simp at hb, ?_⟩, rfl⟩
  · rw [joinChars_eq]
    simp only [dotted, String.toList_intercalate, List.map_map]
    rfl
  · intro p hp
    obtain ⟨x, -, rfl⟩ := List.mem_map.1 hp
    exact (decimal_int x).2
  · rw [List.map_map]
    exact List.map_congr_left fun x _ => (decimal_int x).1

/-- **C25 (IP addresses).** Dotted text is written as four bytes; four bytes are reported as an address object, which cannot be written. -/
theorem C25_ip (L : Lib) (ctx : Dict) {b : List UInt8} (hb : b.length = 4) (rest : List UInt8) :
    (∃ o, ipAddress.build L ctx (.str (dotted b)) = .ok (b, o)) ∧ ipAddress.parse L ctx (b ++ rest) = .ok (.ipv4 b, rest) ∧
    ipAddress.build L ctx (.ipv4 b) = .error .attribute := by
  have hm : Meets plain false ipAddress ip := meets_ip (fun h => h) (fun h => h)
  exact ⟨hm.enc (ip_dotted hb) L ctx False.elim, hm.dec (ip_dotted hb) L ctx rest (by simp), rfl⟩

/-- **C25 (nothing else).** Only text consisting of four numbers separated by dots is an IP address. -/
theorem C25_ip_only {L : Lib} {ctx : Dict} {u : Val} {b : List UInt8} {o : Val} (h : ipAddress.build L ctx u = .ok (b, o)) :
    ∃ s, u = .str s ∧ b.length = 4 ∧ ∃ parts : List (List Char), s.toList = ['.'].intercalate parts ∧ (∀ p ∈ parts, '.' ∉ p) ∧ parts.length = 4 ∧
      parts.map (pyInt 10) = b.map fun x => some (x.toNat : Int) := by
  have hm : Meets ⟨False, False, False, False⟩ false ipAddress ip := meets_ip (fun h => h) (fun h => h)
  obtain ⟨v, s, rfl, hl, ⟨parts, h1, h2, -, h4⟩, -⟩ := hm.sound False.elim h
  refine ⟨s, rfl, hl, parts, by rw [h1, joinChars_eq], h2, ?_, h4⟩
  have := congrArg List.length h4
  simpa [hl] using this

variable [Platform]

/-- What `AccessMessage` reports for a gateway message. -/
def gatewayReport (num : Nat) (name : String) (v : Val) : Val :=
  .dict [("opcode", .enum "GatewayConfigServerOpcode" 0xF03601), ("silvair_gateway", .dict [("subopcode", .enum "GatewayConfigServerSubOpcode" num), (name, v)])]

/-- The messages that carry one IP address: number, name and key of the address. -/
def ipMessages : List (Nat × String × String) :=
  [(0x08, "dns_ip_address_set", "dns_ip_address"), (0x09, "ip_address_set", "ip_address"), (0x0A, "gateway_ip_address_set", "gateway_ip_address")]

theorem gateway_parse {num : Nat} {N name : String} (hN : lookupValue E.GatewayConfigServerSubOpcode.members num = some N) (hl : lower N = name)
    (hn : num < 256) (L : Lib) (s : List UInt8) : accessParse registry L (wireOpcode 0xF03601 ++ (UInt8.ofNat num :: s)) =
      (do let (v, rest) ← ((findCase num gatewayConfigParamsCases).getD passC).parse L [("subopcode", .enum "GatewayConfigServerSubOpcode" num)] s
          .ok (gatewayReport num name v, rest)) := by
  subst hl
  exact C33_parse (V := ⟨0xF03601, "GatewayConfigServerOpcode", "silvair_gateway", E.GatewayConfigServerSubOpcode, gatewayConfigParamsCases⟩)
    (by simp [vendorTable]) hN hn L s

theorem gateway_build {num : Nat} {N name : String} (hN : lookupValue E.GatewayConfigServerSubOpcode.members num = some N) (hl : lower N = name)
    (hn : num < 256) (hne : name ≠ "subopcode") (L : Lib) (u : Val) : (accessBuild registry L (gatewayReport num name u)).map Prod.fst =
      (((findCase num gatewayConfigParamsCases).getD passC).build L [("subopcode", .enum "GatewayConfigServerSubOpcode" num), ("payload", u)] u).map
          (fun r => wireOpcode 0xF03601 ++ (UInt8.ofNat num :: r.1)) := by
  have key := C33_build (V := ⟨0xF03601, "GatewayConfigServerOpcode", "silvair_gateway", E.GatewayConfigServerSubOpcode, gatewayConfigParamsCases⟩)
    (by simp [vendorTable]) hN hn L (d := [("opcode", .enum "GatewayConfigServerOpcode" 0xF03601),
      ("silvair_gateway", .dict [("subopcode", .enum "GatewayConfigServerSubOpcode" num), (name, u)])])
    (k := .enum "GatewayConfigServerOpcode" 0xF03601) (k' := .enum "GatewayConfigServerSubOpcode" num) rfl (.inl rfl) rfl rfl rfl
  have hd : dget [("subopcode", .enum "GatewayConfigServerSubOpcode" (num : Int)), (name, u)] name = some u := by
    simp [dget, Ne.symm hne]
  simp only [hl, hd, Option.some_or] at key
  exact key

omit [Platform] in
theorem map_error {α β} {x : R α} {f : α → β} {e} (h : x.map f = .error e) : x = .error e := by
  cases x <;> simp_all [Except.map]

/-- **C25 (IP address messages).** A received message with one IP address is reported with an address object; the report cannot be sent. -/
theorem C25_ip_messages {num : Nat} {name key : String} (hk : (num, name, key) ∈ ipMessages) (L : Lib) {b : List UInt8} (hb : b.length = 4)
    (rest : List UInt8) :
    accessParse registry L (wireOpcode 0xF03601 ++ (UInt8.ofNat num :: (b ++ rest))) = .ok (gatewayReport num name (.dict [(key, .ipv4 b)]), rest) ∧
    (∃ e, accessBuild registry L (gatewayReport num name (.dict [(key, .ipv4 b)])) = .error e) ∧
    ∃ o, accessBuild registry L (gatewayReport num name (.dict [(key, .str (dotted b))])) = .ok (wireOpcode 0xF03601 ++ (UInt8.ofNat num :: b), o) := by
  have main : ∀ {N}, lookupValue E.GatewayConfigServerSubOpcode.members num = some N → lower N = name → num < 256 → name ≠ "subopcode" →
      findCase num gatewayConfigParamsCases = some (struct [field key ipAddress]) →
      accessParse registry L (wireOpcode 0xF03601 ++ (UInt8.ofNat num :: (b ++ rest))) = .ok (gatewayReport num name (.dict [(key, .ipv4 b)]), rest) ∧
      (∃ e, accessBuild registry L (gatewayReport num name (.dict [(key, .ipv4 b)])) = .error e) ∧
      ∃ o, accessBuild registry L (gatewayReport num name (.dict [(key, .str (dotted b))])) = .ok (wireOpcode 0xF03601 ++ (UInt8.ofNat num :: b), o) := by
    intro N hN hl hn hne hc
    obtain ⟨-, hp, hbe⟩ := C25_ip L [] hb rest
    refine ⟨?_, ⟨.attribute, map_error (f := Prod.fst) ?_⟩, ?_⟩
    · rw [gateway_parse hN hl hn, hc]
      have : ∀ ctx, ipAddress.parse L ctx (b ++ rest) = .ok (.ipv4 b, rest) := fun ctx => (C25_ip L ctx hb rest).2.1
      simp [struct, parseItems, field, this, dset]
    · rw [gateway_build hN hl hn hne, hc]
      have : ∀ ctx, ipAddress.build L ctx (.ipv4 b) = .error .attribute := fun ctx => rfl
      simp only [Option.getD_some, struct, asDict, ok_bind, buildItems, field, dgetE, dget, if_true, this, error_bind, show ipAddress.buildNone = false from rfl,
        Bool.false_eq_true, if_false, Except.map]
    · have h2 := gateway_build hN hl hn hne L (.dict [(key, .str (dotted b))])
      have hm : Meets plain false (struct [field key ipAddress]) (record [fld key ip]) :=
        meets_struct (.cons (meetsI_field rfl (meets_ip (fun h => h) (fun h => h))) .nil) (by simp [fld])
      obtain ⟨o, ho⟩ := hm.enc (F.record_mk (F.seq_one (F.fld_mk (k := key) (du := [(key, .str (dotted b))]) (by simp [dget]) (ip_dotted hb)))) L
        [("subopcode", .enum "GatewayConfigServerSubOpcode" num), ("payload", .dict [(key, .str (dotted b))])] False.elim
      rw [hc, Option.getD_some, ho] at h2
      cases hx : accessBuild registry L (gatewayReport num name (.dict [(key, .str (dotted b))])) with
      | error e => rw [hx] at h2; cases h2
      | ok x =>
        obtain ⟨y, o⟩ := x
        rw [hx] at h2
        simp only [Except.map, Except.ok.injEq] at h2
        subst h2
        exact ⟨o, rfl⟩
  simp only [ipMessages, List.mem_cons, Prod.mk.injEq, List.not_mem_nil, or_false] at hk
  rcases hk with ⟨rfl, rfl, rfl⟩ | ⟨rfl, rfl, rfl⟩ | ⟨rfl, rfl, rfl⟩
  · exact main (N := "DNS_IP_ADDRESS_SET") (by decide +kernel) (by decide +kernel) (by decide) (by decide) rfl
  · exact main (N := "IP_ADDRESS_SET") (by decide +kernel) (by decide +kernel) (by decide) (by decide) rfl
  · exact main (N := "GATEWAY_IP_ADDRESS_SET") (by decide +kernel) (by decide +kernel) (by decide) (by decide) rfl

omit [Platform] in
/-- The members of the short form, read back from what they were reported as, followed by other entries. -/
theorem auto_again {o : Dict} {bs : List UInt8} {dv : Dict} (hr : seqRel Spec.gatewayAuto o bs dv) (more : Dict) :
    seqRel Spec.gatewayAuto (dv ++ more) bs dv := by
  obtain ⟨b1, _, d1, _, rfl, rfl, h1, b2, _, d2, _, rfl, rfl, h2, b3, _, d3, _, rfl, rfl, h3, b4, _, d4, _, rfl, rfl, h4, b5, _, d5, _, rfl, rfl, h5,
    rfl, rfl⟩ := hr
  have hu : ∀ {n u b v}, uint n u b v → uint n v b v := fun h => (meets_uint (M := lossless) (e := false) _).refl trivial h
  have hm : ∀ {u b v}, mac u b v → mac v b v := fun h => (meets_mac (M := lossless) (e := false)).refl trivial h
  obtain ⟨u1, v1, -, g1, rfl⟩ := h1
  obtain ⟨u2, v2, -, g2, rfl⟩ := h2
  obtain ⟨u3, v3, -, g3, rfl⟩ := h3
  obtain ⟨u4, v4, -, g4, rfl⟩ := h4
  obtain ⟨ul, s, n, -, -, -, hn, hl, rfl, rfl⟩ := h5
  refine F.seq_cons (F.fld_mk ?_ (hu g1)) (F.seq_cons (F.fld_mk ?_ (hm g2)) (F.seq_cons (F.fld_mk ?_ (hu g3)) (F.seq_cons (F.fld_mk ?_ (hu g4))
    (F.seq_one (d := [("server_address_length", .int n), ("server_address", .str (rstripNul s))]) ?_))))
  all_goals try (simp [dget]; done)
  obtain ⟨h6, h7⟩ := rstripNul_pad s hl
  exact ⟨.int n, rstripNul s, n, by simp [dget], by simp [dget], rfl, hn, h6, by rw [h7, List.append_nil], by rw [rstripNul_idem]⟩

omit [Platform] in
theorem auto_keys {o : Dict} {bs : List UInt8} {dv : Dict} (hr : seqRel Spec.gatewayAuto o bs dv) :
    dkeys dv = ["mtu_size", "mac_address", "server_port_number", "reconnect_interval", "server_address_length", "server_address"] :=
  seqRel_keys (M := plain) (e := false) meets_gatewayAuto hr

omit [Platform] in
theorem dget_more {dv more : Dict} {k : String} (h : k ∉ dkeys dv) : dget (dv ++ more) k = dget more k := by
  induction dv with
  | nil => rfl
  | cons p dv ih =>
    obtain ⟨k', v⟩ := p
    simp only [dkeys, List.map_cons, List.mem_cons, not_or] at h
    simp only [List.cons_append, dget, Ne.symm h.1, if_false]
    exact ih h.2

/-- **C25 (gateway configurations).** A received configuration with IP addresses (for the name server only, or for everything) is reported with
address objects.  Sending the report succeeds, but silently sends the configuration without any IP address. -/
theorem C25_configuration {o : Dict} {bs : List UInt8} {dv : Dict} (hr : seqRel Spec.gatewayAuto o bs dv) {dns : List UInt8} (hd : dns.length = 4)
    (L : Lib) :
    (let v : Val := .dict (dv ++ [("dns_ip_address", .ipv4 dns)])
     accessParse registry L (wireOpcode 0xF03601 ++ (0x01 :: (bs ++ dns))) = .ok (gatewayReport 1 "gateway_configuration_set" v, []) ∧
     ∃ x, accessBuild registry L (gatewayReport 1 "gateway_configuration_set" v) = .ok (wireOpcode 0xF03601 ++ (0x01 :: bs), x)) ∧
    ∀ {addr gate : List UInt8} (mask : UInt8), addr.length = 4 → gate.length = 4 →
     let v : Val := .dict (dv ++ [("dns_ip_address", .ipv4 dns), ("ip_address", .ipv4 addr), ("gateway_ip_address", .ipv4 gate), ("netmask", .int mask.toNat)])
     accessParse registry L (wireOpcode 0xF03601 ++ (0x01 :: (bs ++ dns ++ addr ++ gate ++ [mask]))) = .ok (gatewayReport 1 "gateway_configuration_set" v, []) ∧
     ∃ x, accessBuild registry L (gatewayReport 1 "gateway_configuration_set" v) = .ok (wireOpcode 0xF03601 ++ (0x01 :: bs), x) := by
  have hN : lookupValue E.GatewayConfigServerSubOpcode.members (1 : Nat) = some "GATEWAY_CONFIGURATION_SET" := by decide +kernel
  have hl : lower "GATEWAY_CONFIGURATION_SET" = "gateway_configuration_set" := by decide +kernel
  have hc : findCase (1 : Nat) gatewayConfigParamsCases = some Gateway.configurationSet := rfl
  have hks := auto_keys hr
  have hk : ∀ (more : Dict) {k}, k ∈ ["dns_ip_address", "ip_address", "gateway_ip_address", "netmask"] → dget (dv ++ more) k = dget more k := by
    intro more k hk
    refine dget_more ?_
    rw [hks]
    simp only [List.mem_cons, List.not_mem_nil, or_false] at hk
    rcases hk with rfl | rfl | rfl | rfl <;> decide
  have parse : ∀ {u : Val} {b : List UInt8} {v : Val}, orElse (record Spec.gatewayStatic) (orElse (record Spec.gatewayDns) (record Spec.gatewayAuto)) u b v →
      accessParse registry L (wireOpcode 0xF03601 ++ (0x01 :: b)) = .ok (gatewayReport 1 "gateway_configuration_set" v, []) := by
    intro u b v h
    have := gateway_parse hN hl (by decide) L b
    rw [hc, Option.getD_some] at this
    have hp := meets_gatewaySet.dec h L [("subopcode", .enum "GatewayConfigServerSubOpcode" (1 : Nat))] [] (fun _ => rfl)
    rw [List.append_nil] at hp
    rw [hp] at this
    exact this
  have build : ∀ {more : Dict}, dget more "dns_ip_address" = some (.ipv4 dns) →
      ∃ x, accessBuild registry L (gatewayReport 1 "gateway_configuration_set" (.dict (dv ++ more))) = .ok (wireOpcode 0xF03601 ++ (0x01 :: bs), x) := by
    intro more hm
    have no : ∀ {u : Val}, ip u dns (.ipv4 dns) → u ≠ .ipv4 dns := by rintro u ⟨s, rfl, -⟩; simp
    have nodns : ∀ {b d}, ¬ seqRel Spec.gatewayDns (dv ++ more) b d := by
      rintro b d ⟨_, _, _, _, -, -, -, _, _, _, _, -, -, ⟨u, v, hu, ⟨s, rfl, -⟩, -⟩, -⟩
      rw [hk more (by simp), hm] at hu
      cases hu
    have hu2 : Unencodable (record Spec.gatewayDns) (.dict (dv ++ more)) := by
      rintro ⟨b, v, du, d, h1, h2, -⟩
      cases h1; exact nodns h2
    have hu1 : Unencodable (record Spec.gatewayStatic) (.dict (dv ++ more)) := by
      rintro ⟨b, v, du, d, h1, ⟨_, _, _, _, -, -, h2, -⟩, -⟩
      cases h1; exact nodns h2
    obtain ⟨x, hx⟩ := meets_gatewaySet.enc (u := .dict (dv ++ more)) (.inr ⟨hu1, .inr ⟨hu2, F.record_mk (auto_again hr more)⟩⟩) L
      [("subopcode", .enum "GatewayConfigServerSubOpcode" (1 : Nat)), ("payload", .dict (dv ++ more))] False.elim
    have h2 := gateway_build hN hl (by decide) (by decide) L (.dict (dv ++ more))
    rw [hc, Option.getD_some, hx] at h2
    cases hy : accessBuild registry L (gatewayReport 1 "gateway_configuration_set" (.dict (dv ++ more))) with
    | error e => rw [hy] at h2; cases h2
    | ok y =>
      obtain ⟨y, z⟩ := y
      rw [hy] at h2
      simp only [Except.map, Except.ok.injEq] at h2
      subst h2
      exact ⟨z, rfl⟩
  refine ⟨⟨?_, build rfl⟩, fun {addr gate} mask ha hg => ⟨?_, build rfl⟩⟩
  · have hno : Unencodable (record Spec.gatewayStatic) (.dict (dv ++ [("dns_ip_address", .str (dotted dns))])) := by
      rintro ⟨b, v, du, d, h1, ⟨_, _, _, _, -, -, -, _, _, _, _, -, -, ⟨u, w, hu, -⟩, -⟩, -⟩
      cases h1
      rw [hk _ (by simp)] at hu
      simp [dget] at hu
    refine parse (u := .dict (dv ++ [("dns_ip_address", .str (dotted dns))])) (.inr ⟨hno, .inl (F.record_mk ?_)⟩)
    exact F.seq_cons (r := embed Spec.gatewayAuto) (auto_again hr _) (F.seq_one (F.fld_mk (by rw [hk _ (by simp)]; rfl) (ip_dotted hd)))
  · refine parse (u := .dict (dv ++ [("dns_ip_address", .str (dotted dns)), ("ip_address", .str (dotted addr)), ("gateway_ip_address", .str (dotted gate)),
      ("netmask", .int mask.toNat)])) (.inl ?_)
    have hm : uint 1 (.int mask.toNat) [mask] (.int mask.toNat) := ⟨mask.toNat, rfl, trivial, rfl, by simp [leNat], rfl⟩
    have := F.record_mk (F.seq_cons (r := embed Spec.gatewayDns) (rs := [fld "ip_address" ip, fld "gateway_ip_address" ip, Spec.u8 "netmask"])
      (du := dv ++ [("dns_ip_address", .str (dotted dns)), ("ip_address", .str (dotted addr)), ("gateway_ip_address", .str (dotted gate)),
        ("netmask", .int mask.toNat)])
      (F.seq_cons (r := embed Spec.gatewayAuto) (auto_again hr _) (F.seq_one (F.fld_mk (by rw [hk _ (by simp)]; rfl) (ip_dotted hd))))
      (F.seq_cons (F.fld_mk (by rw [hk _ (by simp)]; rfl) (ip_dotted ha)) (F.seq_cons (F.fld_mk (by rw [hk _ (by simp)]; rfl) (ip_dotted hg))
        (F.seq_one (F.fld_mk (by rw [hk _ (by simp)]; rfl) hm)))))
    simpa using this

example : colonHex [0x00, 0x1A, 0xFF, 0x10, 0x02, 0x9C] = "00:1a:ff:10:02:9c" := by decide +kernel
example : dotted [192, 168, 0, 1] = "192.168.0.1" := by decide +kernel
example : HexPair ['9', 'C'] 0x9C ∧ HexPair ['f', 'F'] 0xFF :=
  ⟨⟨9, by decide, 12, by decide, rfl, '9', by decide, 'C', by decide, rfl⟩, ⟨15, by decide, 15, by decide, rfl, 'f', by decide, 'F', by decide, rfl⟩⟩
/-- A configuration. -/
example : ∃ bs dv, seqRel Spec.gatewayAuto [("mtu_size", .int 1500), ("mac_address", .str (colonHex [2, 0, 0, 0, 0, 1])), ("server_port_number", .int 80),
    ("reconnect_interval", .int 10), ("server_address_length", .int 3), ("server_address", .str "abc")] bs dv :=
  ⟨_, _, F.seq_cons (F.fld_mk rfl (F.uint_mk (k := 1500) (by decide))) (F.seq_cons (F.fld_mk (v := .str _) rfl (by
      rw [colonHex_eq]; exact ⟨_, rfl, rfl, separated_hex (by simp), rfl⟩)) (F.seq_cons (F.fld_mk rfl (F.uint_mk (k := 80) (by decide)))
    (F.seq_cons (F.fld_mk rfl (F.uint_mk (k := 10) (by decide))) (F.seq_one (d := [("server_address_length", .int (3 : Nat)), ("server_address", .str (rstripNul "abc"))])
      ⟨.int 3, "abc", 3, rfl, rfl, rfl, by decide, by decide +kernel, rfl, rfl⟩))))⟩

end BM.Props
