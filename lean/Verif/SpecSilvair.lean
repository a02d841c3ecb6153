import Verif.SpecSensor
import Verif.Addr
/-!
# Wire formats of the vendor messages

Layouts of the Silvair vendor models (debug, gateway configuration, network diagnostics, extended light controller, emergency
lighting, recurrence-rule scheduler), with the field names of this package.
-/
namespace BM
namespace F

/-! ### Text -/

/-- A UTF-8 string up to the end of the message. -/
def text : Fmt UInt8 := fun u b v => ∃ s, u = .str s ∧ b = utf8 s ∧ v = .str s

/-- A UTF-8 string in `n` bytes, padded with zeros; the zeros are not part of the string. -/
def paddedText (n : Nat) : Fmt UInt8 := fun u b v =>
  ∃ s, u = .str s ∧ (utf8 s).length ≤ n ∧ b = utf8 s ++ List.replicate (n - (utf8 s).length) 0 ∧ v = .str (rstripNul s)

/-- A UTF-8 string preceded by its length in bytes. -/
def pascalText : Fmt UInt8 := fun u b v =>
  ∃ s, u = .str s ∧ (utf8 s).length < 256 ∧ b = UInt8.ofNat (utf8 s).length :: utf8 s ∧ v = .str s

/-- Two fields: a length in one byte, and a string padded with zeros to that length. -/
def sizedText (kl ks : String) : RI UInt8 :=
  ⟨[kl, ks], fun du b dv => ∃ ul s, ∃ n : Nat, dget du kl = some ul ∧ dget du ks = some (.str s) ∧ asInt ul = some (n : Int) ∧ n < 256 ∧
    (utf8 s).length ≤ n ∧ b = UInt8.ofNat n :: (utf8 s ++ List.replicate (n - (utf8 s).length) 0) ∧
    dv = [(kl, .int n), (ks, .str (rstripNul s))]⟩

/-- Reserved bytes under a key of their own: written as zeros, reported as `None`. -/
def reserved (k : String) (n : Nat) : RI UInt8 :=
  ⟨[k], fun _ b dv => b = List.replicate n 0 ∧ dv = [(k, .none)]⟩

/-! ### Addresses written as text -/

/-- `s` consists of the numbers `b`, written in the given base (as Python's `int` reads them) and separated by `sep`. -/
def Separated (sep : Char) (base : Nat) (s : String) (b : List UInt8) : Prop :=
  ∃ parts : List (List Char), s.toList = joinChars sep parts ∧ (∀ p ∈ parts, sep ∉ p) ∧ parts ≠ [] ∧
    parts.map (pyInt base) = b.map fun x => some (x.toNat : Int)

/-- A MAC address: six bytes, given in hexadecimal with colons; reported with two lower-case digits for each byte. -/
def mac : Fmt UInt8 := fun u b v =>
  ∃ s, u = .str s ∧ b.length = 6 ∧ Separated ':' 16 s b ∧ v = .str (String.ofList (joinChars ':' (b.map hexByte)))

/-- An IPv4 address: four bytes, given in decimal with dots; reported as an address object. -/
def ip : Fmt UInt8 := fun u b v =>
  ∃ s, u = .str s ∧ b.length = 4 ∧ Separated '.' 10 s b ∧ v = .ipv4 b

/-! ### Sizes, tags and sets -/

/-- `G`, preceded by its length in bytes, in `n` bytes. -/
def withLength (n : Nat) (G : Fmt UInt8) : Fmt UInt8 := fun u b v =>
  ∃ p, G u p v ∧ p.length < 256 ^ n ∧ b = leBytes n p.length ++ p

/-- A list preceded by the number of its elements, in `n` bytes. -/
def withCount (n : Nat) (G : Fmt UInt8) : Fmt UInt8 := fun u b v =>
  ∃ us vs p, iter u = .ok us ∧ us.length < 256 ^ n ∧ manyRel G us p vs ∧ b = leBytes n us.length ++ p ∧ v = .list vs

/-- The elements of a set, up to the end of the message.  Reported is the set of the numbers of the elements. -/
def setOf (G : Fmt UInt8) : Fmt UInt8 := fun u b v =>
  ∃ us vs, ∃ ks s : List Int, iter u = .ok us ∧ manyRel G us b vs ∧ vs.map asInt = ks.map some ∧ (∀ k, k ∈ s ↔ k ∈ ks) ∧ s.Pairwise (· < ·) ∧
    v = .set s

/-- One kind of thing that a tag selects: number of the tag, key of the value, format of the value. -/
structure Tagged where
  num : Nat
  key : String
  fmt : Fmt UInt8

/-- A tag, given by its number (or the member) in one byte under `kt`, and a value whose format it selects, given under the key of
that kind or else under `kp`. -/
def tagged (cls kt kp : String) (T : List Tagged) : Fmt UInt8 := fun u b v =>
  ∃ d ut uv vv p, ∃ t ∈ T, u = .dict d ∧ dget d kt = some ut ∧ hashInt ut = some (t.num : Int) ∧
    (dget d t.key).or (dget d kp) = some uv ∧ t.fmt uv p vv ∧ b = UInt8.ofNat t.num :: p ∧
    v = .dict [(kt, .enum cls t.num), (t.key, vv)]

/-- A tag, given by its number (or the member) in one byte under `kt`, and the value under `kp`. -/
def variant (cls kt kp : String) (T : List (Nat × Fmt UInt8)) : Fmt UInt8 := fun u b v =>
  ∃ d ut uv vv p, ∃ t ∈ T, asDict u = .ok d ∧ dget d kt = some ut ∧ hashInt ut = some (t.1 : Int) ∧ dget d kp = some uv ∧
    t.2 uv p vv ∧ b = UInt8.ofNat t.1 :: p ∧ v = .dict [(kt, .enum cls t.1), (kp, vv)]

/-- The long form of a message, or the short form for objects without `k`. -/
def longShort (k : String) (long short : List (RI UInt8)) : Fmt UInt8 := fun u b v =>
  named "optional" (record long) u b v ∨
  (∃ d, u = .dict d ∧ dget d "optional" = none ∧ dget d k = none) ∧ named "minimal" (record short) u b v

/-- Objects with `k`, whose long form is not encodable: the short form is written. -/
def OddLong (k : String) (long : List (RI UInt8)) (u : Val) : Prop :=
  ¬ (∃ d, u = .dict d ∧ dget d "optional" = none ∧ dget d k = none) ∧ Unencodable (named "optional" (record long)) u

end F

namespace Spec
open F

/-- A vendor message. -/
abbrev vmsg (op : Nat) (name : String) (num : Nat) (key : String) (fmt : Fmt UInt8) : MsgSpec :=
  { op, name, fmt, sub := some ⟨num, key⟩ }
/-- A vendor message with odd objects. -/
abbrev vmsgBut (op : Nat) (name : String) (num : Nat) (key : String) (fmt : Fmt UInt8) (odd : Val → Prop) : MsgSpec :=
  { op, name, fmt, odd, sub := some ⟨num, key⟩ }

abbrev u32 (k : String) : RI UInt8 := fld k (uint 4)

/-! ### Debug -/

abbrev debug : Nat → String → Fmt UInt8 → MsgSpec := vmsg 0xF53601 "silvair_debug"
abbrev fault : Fmt UInt8 := record [u32 "time", fld "fault" text]
abbrev arapNode : Fmt UInt8 := packedLE 5 (record [fld "sequence" (bitsU 24), fld "ivi" (bitsU 1), fld "address" (bitsU 15)])

def debugLossless : List MsgSpec := [
  debug 0x00 "rssi_threshold_get" (record []) |>.sized 0, debug 0x01 "rssi_threshold_set" (record [u8 "rssi_threshold"]) |>.sized 1,
  debug 0x02 "rssi_threshold_status" (record [u8 "rssi_threshold"]) |>.sized 1, debug 0x03 "radio_test" (record [u8 "packet_counter"]) |>.sized 1,
  debug 0x0A "uptime_get" (record []) |>.sized 0, debug 0x0B "uptime_status" (record [u32 "uptime"]) |>.sized 4,
  debug 0x0C "last_sw_fault_get" (record []) |>.sized 0, debug 0x0D "last_sw_fault_clear" (record []) |>.sized 0, debug 0x0E "last_sw_fault_status" fault,
  debug 0x0F "system_stats_get" (record []) |>.sized 0,
  debug 0x11 "last_malloc_fault_get" (record []) |>.sized 0, debug 0x12 "last_malloc_fault_clear" (record []) |>.sized 0,
  debug 0x13 "last_malloc_fault_status" fault,
  debug 0x14 "last_fds_fault_get" (record []) |>.sized 0, debug 0x15 "last_fds_fault_clear" (record []) |>.sized 0, debug 0x16 "last_fds_fault_status" fault,
  debug 0x17 "bytes_before_garbage_collector_get" (record []) |>.sized 0,
  debug 0x18 "bytes_before_garbage_collector_status" (record [u16 "bytes_left"]) |>.sized 2,
  debug 0x19 "provisioned_app_version_get" (record []) |>.sized 0, debug 0x1A "provisioned_app_version_status" (record [u16 "version"]) |>.sized 2,
  debug 0x1B "full_firmware_version_get" (record []) |>.sized 0, debug 0x1C "full_firmware_version_status" (record [fld "version" text]),
  debug 0x1D "iv_index_get" (record []) |>.sized 0, debug 0x1E "iv_index_status" (record [u32 "ivindex"]) |>.sized 4,
  debug 0x1F "garbage_collector_counter_get" (record []) |>.sized 0, debug 0x20 "garbage_collector_counter_status" (record [u16 "counter"]) |>.sized 2,
  debug 0x21 "arap_list_size_get" (record []) |>.sized 0, debug 0x23 "arap_list_content_get" (record [u8 "page"]) |>.sized 1,
  debug 0x24 "arap_list_content_status" (record [u8 "current_page", u8 "last_page", fld "nodes" (listOf arapNode)])]
def debugStable : List MsgSpec := [
  debug 0x10 "system_stats_status" (record [fld "stats" (listOf (record [
    fld "name" (paddedText 8), u32 "high_water_mark", reserved "_rfu" 2]))])]
/-- Sizes of the replay list in 16 bits (new) or 8 bits (old).  A received old message re-encodes as a new one. -/
def debugPlain : List MsgSpec := [
  debug 0x22 "arap_list_size_status" (orElse (named "new" (record [u16 "capacity", u16 "size"])) (named "old" (record [u8 "capacity", u8 "size"])))]

/-! ### Gateway configuration -/

abbrev gateway : Nat → String → Fmt UInt8 → MsgSpec := vmsg 0xF03601 "silvair_gateway"
abbrev serverAddress : RI UInt8 := sizedText "server_address_length" "server_address"
abbrev gatewayAuto : List (RI UInt8) := [
  u16 "mtu_size", fld "mac_address" mac, u16 "server_port_number", u16 "reconnect_interval", serverAddress]
abbrev gatewayDns : List (RI UInt8) := [embed gatewayAuto, fld "dns_ip_address" ip]
abbrev gatewayStatic : List (RI UInt8) := [embed gatewayDns, fld "ip_address" ip, fld "gateway_ip_address" ip, u8 "netmask"]

def gatewayLossless : List MsgSpec := [
  gateway 0x04 "mtu_size_set" (record [u16 "mtu_size"]) |>.sized 2, gateway 0x05 "ethernet_mac_address_set" (record [fld "mac_address" mac]),
  gateway 0x06 "server_address_and_port_number_set" (record [u16 "server_port_number", serverAddress]),
  gateway 0x07 "reconnect_interval_set" (record [u16 "reconnect_interval"]) |>.sized 2, gateway 0x0B "netmask_set" (record [u8 "netmask"]) |>.sized 1,
  gateway 0x0D "gateway_packets_status" (record [u16 "total_eth_rx_errors", u16 "total_eth_tx_errors", u16 "bandwidth",
    fld "connection_state" (packed 1 (record [fld "conn_state" (enumOf (bitsU 3) E.ConnState),
      fld "link_status" (enumOf (bitsU 1) E.LinkStatus), fld "last_error" (enumOf (bitsU 4) E.LastError)]))]) |>.sized 7]
/-- IP addresses are reported as objects that the encoder does not accept. -/
def gatewayPlain : List MsgSpec := [
  gateway 0x01 "gateway_configuration_set" (orElse (record gatewayStatic) (orElse (record gatewayDns) (record gatewayAuto))),
  gateway 0x08 "dns_ip_address_set" (record [fld "dns_ip_address" ip]), gateway 0x09 "ip_address_set" (record [fld "ip_address" ip]),
  gateway 0x0A "gateway_ip_address_set" (record [fld "gateway_ip_address" ip]),
  gateway 0x0C "gateway_configuration_status" (record [u8 "chip_revision_id", embed gatewayStatic,
    fld "flags" (enumOf (uint 1) E.DhcpFlag), fld "status_code" (enumOf (uint 1) E.GatewayStatusCode)])]

/-! ### Network diagnostics -/

abbrev nds : Nat → String → Fmt UInt8 → MsgSpec := vmsg 0xFC3601 "silvair_nds"
abbrev ndsDestination : RI UInt8 := fld "destination" (address fun a => IsUnicast a ∨ IsUnassigned a ∨ IsGroup a)
abbrev ndsSource : RI UInt8 := fld "source" (address fun a => IsUnicast a ∨ IsUnassigned a)

def ndsLossless : List MsgSpec := [
  nds 0x00 "subscription_get" (record []) |>.sized 0, nds 0x01 "subscription_set" (record [ndsDestination, u16 "period"]) |>.sized 4,
  nds 0x02 "subscription_set_unacknowledged" (record [ndsDestination, u16 "period"]) |>.sized 4,
  nds 0x03 "subscription_status" (record [ndsDestination, u16 "period", u8 "max_record_count",
    fld "record" (listOf (record [ndsSource, u16 "count", fld "min_hops" sevenBit, fld "max_hops" sevenBit]))]),
  nds 0x04 "radio_stat_get" (record []) |>.sized 0]

abbrev ndsShort : List (RI UInt8) := [
  ndsDestination, u16 "count", fld "period" (packed 1 (record [fld "resolution" (bitsU 2), fld "steps" (bitsU 6)])),
  fld "ttl" sevenBit, fld "net_key_index" (uintWhere 2 (· < 4096))]
abbrev ndsLong : List (RI UInt8) := [embed ndsShort, fld "features" (uintWhere 2 (· ≤ 3))]

/-- A publication whose features are invalid is written without them. -/
def ndsSetupLossless : List MsgSpec := [
  vmsg 0xFD3601 "silvair_nds_setup" 0x00 "publication_get" (record []) |>.sized 0,
  vmsgBut 0xFD3601 "silvair_nds_setup" 0x01 "publication_set" (longShort "features" ndsLong ndsShort) (OddLong "features" ndsLong),
  vmsgBut 0xFD3601 "silvair_nds_setup" 0x02 "publication_status" (longShort "features" ndsLong ndsShort) (OddLong "features" ndsLong)]

section
variable [Platform]

/-! ### Extended light controller, emergency lighting -/

abbrev lecId : RI UInt8 := fld "property_id" (enumOf (uint 2) E.LightExtendedControllerProperty)
def lecProperties : List PropSpec := [
  prop 0xFF71 "auto_resume_mode" byteFlag, prop 0xFF72 "auto_resume_timer" millis]
abbrev lecValue : Fmt UInt8 := propertyMsg "LightExtendedControllerProperty" lecProperties [lecId]
abbrev lec : Nat → String → Fmt UInt8 → MsgSpec := vmsg 0xF63601 "silvair_lec"

def lecLossless : List MsgSpec := [
  lec 0x00 "property_get" (record [lecId]) |>.sized 2, lec 0x09 "sync_integral_status" (record [u16 "sync_integral"]) |>.sized 2]
def lecStable : List MsgSpec := [
  lec 0x01 "property_set" lecValue, lec 0x02 "property_set_unacknowledged" lecValue, lec 0x03 "property_status" lecValue]

abbrev elId : RI UInt8 := fld "property_id" (enumOf (uint 2) E.EmergencyLightingProperty)
def elProperties : List PropSpec := [
  prop 0xFF80 "el_lightness" lightness, prop 0xFF81 "el_lightness_range_min" lightness, prop 0xFF82 "el_lightness_range_max" lightness,
  prop 0xFF83 "el_prolong_time" seconds16]
abbrev elValue : Fmt UInt8 := propertyMsg "EmergencyLightingProperty" elProperties [elId]
abbrev el : Nat → String → Fmt UInt8 → MsgSpec := vmsg 0xEA3601 "silvair_el"

def elLossless : List MsgSpec := [
  el 0x00 "el_inhibit_enter" (record []) |>.sized 0, el 0x01 "el_inhibit_enter_unacknowledged" (record []) |>.sized 0,
  el 0x02 "el_inhibit_exit" (record []) |>.sized 0, el 0x03 "el_inhibit_exit_unacknowledged" (record []) |>.sized 0,
  el 0x04 "el_state_get" (record []) |>.sized 0, el 0x05 "el_state_status" (record [fld "el_state" (enumOf (uint 1) E.ElState)]) |>.sized 1,
  el 0x06 "el_property_get" (record [elId]) |>.sized 2,
  el 0x0A "el_lamp_operation_time_get" (record []) |>.sized 0, el 0x0B "el_lamp_operation_time_clear" (record []) |>.sized 0,
  el 0x0C "el_lamp_operation_time_clear_unacknowledged" (record []) |>.sized 0,
  el 0x0D "el_lamp_operation_time_status" (record [u32 "el_lamp_total_operation_time", u32 "el_lamp_emergency_time"]) |>.sized 8,
  el 0x0E "el_rest_enter" (record []) |>.sized 0, el 0x0F "el_rest_enter_unacknowledged" (record []) |>.sized 0,
  el 0x10 "el_rest_exit" (record []) |>.sized 0, el 0x11 "el_rest_exit_unacknowledged" (record []) |>.sized 0]
def elStable : List MsgSpec := [
  el 0x07 "el_property_set" elValue, el 0x08 "el_property_set_unacknowledged" elValue, el 0x09 "el_property_status" elValue]

end

/-! ### Recurrence-rule scheduler -/

abbrev rrule (num : Nat) (fmt : Fmt UInt8) : MsgSpec := vmsg 0xE83601 "silvair_rrule_scheduler" num "payload" fmt
abbrev slot : Fmt UInt8 := record [u16 "slot_id", u8 "element", fld "slot_parameter" (withLength 1 rest)]
abbrev dateTime : Fmt UInt8 := packedLE 5 (record [fld "second" (bitsU 6), fld "minute" (bitsU 6), fld "hour" (bitsU 5),
  fld "day" (bitsU 5), fld "month" (bitsU 4), fld "year" (bitsU 14)])
/-- The recurrence rules: number and format of the value. -/
def rules : List (Nat × Fmt UInt8) := [
  (0x00, enumOf (uint 1) E.Freqs), (0x01, dateTime), (0x02, uint 2), (0x03, uint 2),
  (0x04, withCount 1 (uint 1)), (0x05, withCount 1 (uint 1)), (0x06, withCount 1 (uint 1)),
  (0x07, withCount 1 (enumOf (sint 1) E.Days)), (0x08, withCount 1 (sint 1)), (0x09, withCount 1 (sint 2)),
  (0x0A, withCount 1 (sint 1)), (0x0B, uint 2), (0x0C, withCount 1 (sint 2)),
  (0x0D, dateTime), (0x0E, withCount 1 dateTime), (0x0F, withCount 1 dateTime)]
abbrev rule : Fmt UInt8 := variant "RuleIDs" "rule_id" "rule" rules
/-- A rule whose identifier is given by name: only the identifier is written. -/
def NamedRule (u : Val) : Prop := ∃ d s, u = .dict d ∧ dget d "rule_id" = some (.str s)
abbrev schedule : Fmt UInt8 := record [fld "array_of_slots" (withCount 1 slot), fld "rules" (listOf rule)]
/-- A schedule with a rule given by name. -/
def NamedRules (u : Val) : Prop := ∃ d x us, u = .dict d ∧ dget d "rules" = some x ∧ iter x = .ok us ∧ ∃ r ∈ us, NamedRule r
/-- An entry with such a schedule. -/
def NamedEntry (u : Val) : Prop := ∃ d x, u = .dict d ∧ dget d "scheduler_register_entry" = some x ∧ NamedRules x
abbrev entryShort : List (RI UInt8) := [u8 "entry_id", fld "status" (enumOf (uint 1) E.StatusCodes)]
abbrev entryLong : List (RI UInt8) := [embed entryShort, fld "scheduler_register_entry" schedule]

def rruleLossless : List MsgSpec := [
  rrule 0x00 (record []) |>.sized 0, rrule 0x02 (record []) |>.sized 0, rrule 0x03 (record [u32 "register_max_size"]) |>.sized 4,
  rrule 0x04 (record []) |>.sized 0, rrule 0x05 (record [fld "scheduler_mode" (enumOf (uint 1) E.SchedulerModes)]) |>.sized 1,
  rrule 0x06 (record [fld "scheduler_mode" (enumOf (uint 1) E.SchedulerModes)]) |>.sized 1,
  rrule 0x07 (record [u8 "entry_id"]) |>.sized 1,
  vmsgBut 0xE83601 "silvair_rrule_scheduler" 0x08 "payload" (record [u8 "entry_id", fld "scheduler_register_entry" schedule]) NamedEntry,
  rrule 0x09 (record [u8 "entry_id"]) |>.sized 1, rrule 0x0A (record []) |>.sized 0,
  vmsgBut 0xE83601 "silvair_rrule_scheduler" 0x0B "payload" (longShort "scheduler_register_entry" entryLong entryShort)
    (fun u => OddLong "scheduler_register_entry" entryLong u ∨ ∃ d, u = .dict d ∧ NamedEntry ((dget d "optional").getD u)),
  rrule 0x0C (record []) |>.sized 0]
/-- Sets are iterated in an order that Python does not promise; see `C28_set_any_order`. -/
def rrulePlain : List MsgSpec := [
  rrule 0x01 (record [fld "rule_ids" (setOf (enumOf (uint 1) E.RuleIDs))]), rrule 0x0D (record [fld "entry_ids" (setOf (uint 1))])]

end Spec
end BM
