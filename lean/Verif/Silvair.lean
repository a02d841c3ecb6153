import Verif.Sensor
import Verif.Str
import Verif.Addr
/-!
# Model of `bluetooth_mesh/messages/silvair/` (debug, gateway, network diagnostics, extended controller, emergency lighting)
-/
namespace BM
open Config

/-- A vendor sub-message: `SwitchStruct("subopcode" / EnumAdapter(Int8ul, E), "payload" / Switch(this.subopcode, cases))`,
e.g. `DebugParams` (silvair/debug.py:197-235). -/
abbrev subMessage (E : EnumDef) (cases : List (Int × Con UInt8)) : Con UInt8 :=
  switchStruct "subopcode" (enumAdapter (uintLE 1) E) E "payload" cases

/-- A vendor sub-message that is a plain `Struct("subopcode" / EnumAdapter(Int8ul, E), "payload" / Switch(this.subopcode, cases))`:
`RRuleSchedulerSubMessage` (silvair/rrule_scheduler.py:242-263). -/
abbrev plainSubMessage (E : EnumDef) (cases : List (Int × Con UInt8)) : Con UInt8 :=
  struct [field "subopcode" (enumAdapter (uintLE 1) E), field "payload" (switchC (this "subopcode") cases)]

/-- `Bytewise(c)` for a `c` of `n` bytes inside a bit-level construct (silvair/debug.py:185). -/
def bytewise (n : Nat) (c : Con UInt8) : Con Bool where
  buildNone := c.buildNone
  parse L ctx s := do
    let (bs, rest) ← takeN (8 * n) s
    match bitsBytes bs with
    | some b => do
      let (v, _) ← c.parse L ctx b
      .ok (v, rest)
    | none => .error .integer
  build L ctx u := do
    let (b, r) ← c.build L ctx u
    if b.length = n then .ok (bytesBits b, r) else .error .integer

namespace Debug

/-- silvair/debug.py:85-87 `RssiThreshold`. -/
abbrev rssiThreshold : Con UInt8 := struct [field "rssi_threshold" (uintLE 1)]
/-- silvair/debug.py:89-91 `RadioTest`. -/
abbrev radioTest : Con UInt8 := struct [field "packet_counter" (uintLE 1)]
/-- silvair/debug.py:95-97 `UptimeStatus`. -/
abbrev uptimeStatus : Con UInt8 := struct [field "uptime" (uintLE 4)]
/-- silvair/debug.py:103-106 `LastSwFaultStatus`, silvair/debug.py:124 `LastMallocFaultStatus`, silvair/debug.py:130 `LastFdsFaultStatus`. -/
abbrev lastSwFaultStatus : Con UInt8 := struct [field "time" (uintLE 4), field "fault" greedyString]
/-- silvair/debug.py:110-114 `SystemStat`. -/
abbrev systemStat : Con UInt8 := struct [
  field "name" (paddedString 8), field "high_water_mark" (uintLE 4), field "_rfu" (padding 0 2)]
/-- silvair/debug.py:116-118 `SystemStatsStatus`. -/
abbrev systemStatsStatus : Con UInt8 := struct [field "stats" (greedyRange systemStat)]
/-- silvair/debug.py:134-136 `BytesBeforeGarbageCollectorStatus`. -/
abbrev bytesBeforeGarbageCollectorStatus : Con UInt8 := struct [field "bytes_left" (uintLE 2)]
/-- silvair/debug.py:140-142 `ProvisionedAppVersionStatus`. -/
abbrev provisionedAppVersionStatus : Con UInt8 := struct [field "version" (uintLE 2)]
/-- silvair/debug.py:146-148 `FullFirmwareVersionStatus`. -/
abbrev fullFirmwareVersionStatus : Con UInt8 := struct [field "version" greedyString]
/-- silvair/debug.py:152-154 `IvIndexStatus`. -/
abbrev ivIndexStatus : Con UInt8 := struct [field "ivindex" (uintLE 4)]
/-- silvair/debug.py:158-160 `GarbageCollectorCounterStatus`. -/
abbrev garbageCollectorCounterStatus : Con UInt8 := struct [field "counter" (uintLE 2)]
/-- silvair/debug.py:162-165 `ArapSize16`. -/
abbrev arapSize16 : List (Item UInt8) := [field "capacity" (uintLE 2), field "size" (uintLE 2)]
/-- silvair/debug.py:167-170 `ArapSize8`. -/
abbrev arapSize8 : List (Item UInt8) := [field "capacity" (uintLE 1), field "size" (uintLE 1)]
/-- silvair/debug.py:174-177 `ArapListSizeStatus`. -/
abbrev arapListSizeStatus : Con UInt8 := namedSelect [("new", struct arapSize16), ("old", struct arapSize8)]
/-- silvair/debug.py:179-181 `ArapListContentGet`. -/
abbrev arapListContentGet : Con UInt8 := struct [field "page" (uintLE 1)]
/-- silvair/debug.py:183-189 `ArapNode`. -/
abbrev arapNode : Con UInt8 := reversed 5 (bitwise 5 (struct [
  field "sequence" (bytewise 3 (bytesIntBE 3)), field "ivi" (ubits 1), field "address" (ubits 15)]))
/-- silvair/debug.py:191-195 `ArapListContentStatus`. -/
abbrev arapListContentStatus : Con UInt8 := struct [
  field "current_page" (uintLE 1), field "last_page" (uintLE 1), field "nodes" (greedyRange arapNode)]

end Debug

namespace Gateway

/-- `PaddedString(this.server_address_length, "utf8")` (e.g. silvair/gateway_config_server.py:140): the length is the value of
an earlier member. -/
def sizedString (k : String) : Con UInt8 where
  parse L ctx s := do
    let n ← countOf k ctx
    (paddedString n).parse L ctx s
  build L ctx u := do
    let n ← countOf k ctx
    (paddedString n).build L ctx u

/-- silvair/gateway_config_server.py:130-132 `ConfigurationSetMtu`. -/
abbrev setMtu : Con UInt8 := struct [field "mtu_size" (uintLE 2)]
/-- silvair/gateway_config_server.py:134-136 `ConfigurationSetMacAddr`. -/
abbrev setMacAddr : Con UInt8 := struct [field "mac_address" macAddress]
/-- silvair/gateway_config_server.py:138-142 `ConfigurationSetServerAddrAndPortNr`. -/
abbrev setServerAddrAndPortNr : Con UInt8 := struct [
  field "server_port_number" (uintLE 2), field "server_address_length" (uintLE 1),
  field "server_address" (sizedString "server_address_length")]
/-- silvair/gateway_config_server.py:144-146 `ConfigurationSetReconnectInterval`. -/
abbrev setReconnectInterval : Con UInt8 := struct [field "reconnect_interval" (uintLE 2)]
/-- silvair/gateway_config_server.py:148-150 `ConfigurationSetDnsIpAddr`. -/
abbrev setDnsIpAddr : Con UInt8 := struct [field "dns_ip_address" ipAddress]
/-- silvair/gateway_config_server.py:152-154 `ConfigurationSetIpAddr`. -/
abbrev setIpAddr : Con UInt8 := struct [field "ip_address" ipAddress]
/-- silvair/gateway_config_server.py:156-158 `ConfigurationSetGatewayIpAddr`. -/
abbrev setGatewayIpAddr : Con UInt8 := struct [field "gateway_ip_address" ipAddress]
/-- silvair/gateway_config_server.py:160-162 `ConfigurationSetNetmask`. -/
abbrev setNetmask : Con UInt8 := struct [field "netmask" (uintLE 1)]
/-- silvair/gateway_config_server.py:164-171 `ConfigurationSetWithoutOptionalAutoDhcpEnabled`. -/
abbrev setMinimal : List (Item UInt8) := [
  field "mtu_size" (uintLE 2), field "mac_address" macAddress, field "server_port_number" (uintLE 2),
  field "reconnect_interval" (uintLE 2), field "server_address_length" (uintLE 1),
  field "server_address" (sizedString "server_address_length")]
/-- silvair/gateway_config_server.py:173-176 `ConfigurationSetWithOptionalDhcpEnabledWithStaticDns`. -/
abbrev setDns : List (Item UInt8) := [embedded setMinimal, field "dns_ip_address" ipAddress]
/-- silvair/gateway_config_server.py:178-183 `ConfigurationSetWithOptionalDhcpDisabled`. -/
abbrev setStatic : List (Item UInt8) := [embedded setDns, field "ip_address" ipAddress,
  field "gateway_ip_address" ipAddress, field "netmask" (uintLE 1)]
/-- silvair/gateway_config_server.py:185-189 `ConfigurationSet`. -/
abbrev configurationSet : Con UInt8 := select [struct setStatic, struct setDns, struct setMinimal]
/-- silvair/gateway_config_server.py:191-196 `ConfigurationStatus`. -/
abbrev configurationStatus : Con UInt8 := struct [field "chip_revision_id" (uintLE 1), embedded setStatic,
  field "flags" (enumAdapter (uintLE 1) E.DhcpFlag), field "status_code" (enumAdapter (uintLE 1) E.GatewayStatusCode)]
/-- silvair/gateway_config_server.py:198-202 `ConnectionState`. -/
abbrev connectionState : Con UInt8 := bitwise 1 (struct [
  field "conn_state" (enumAdapter (ubits 3) E.ConnState), field "link_status" (enumAdapter (ubits 1) E.LinkStatus),
  field "last_error" (enumAdapter (ubits 4) E.LastError)])
/-- silvair/gateway_config_server.py:205-210 `PacketsStatus`. -/
abbrev packetsStatus : Con UInt8 := struct [field "total_eth_rx_errors" (uintLE 2), field "total_eth_tx_errors" (uintLE 2),
  field "bandwidth" (uintLE 2), field "connection_state" connectionState]

end Gateway

namespace NDS

/-- silvair/network_diagnostic_server.py:65-70 `RegistryRecord`. -/
abbrev registryRecord : Con UInt8 := struct [field "source" unicastUnassignedAddress, field "count" (uintLE 2),
  field "min_hops" (rangeValidator (uintLE 1) none (some 0x7F)), field "max_hops" (rangeValidator (uintLE 1) none (some 0x7F))]
/-- silvair/network_diagnostic_server.py:72-78 `NetworkDiagnosticSetupServerPublicationSetMinimal`. -/
abbrev publicationSetMinimal : List (Item UInt8) := [field "destination" unicastUnassignedGroupAddress, field "count" (uintLE 2),
  field "period" transitionTimeBits, field "ttl" ttl, field "net_key_index" int12ul]
/-- silvair/network_diagnostic_server.py:80-83 `NetworkDiagnosticSetupServerPublicationSetOptional`. -/
abbrev publicationSetOptional : List (Item UInt8) := [embedded publicationSetMinimal, field "features" (rangeValidator (uintLE 2) none (some 3))]
/-- silvair/network_diagnostic_server.py:85-88 `NetworkDiagnosticSetupServerPublicationSet`, silvair/network_diagnostic_server.py:90 `NetworkDiagnosticSetupServerPublicationStatus`. -/
abbrev publicationSet : Con UInt8 := optionalMinimal publicationSetOptional publicationSetMinimal
/-- silvair/network_diagnostic_server.py:94-97 `NetworkDiagnosticServerSubscriptionSet`. -/
abbrev subscriptionSet : Con UInt8 := struct [field "destination" unicastUnassignedGroupAddress, field "period" (uintLE 2)]
/-- silvair/network_diagnostic_server.py:99-104 `NetworkDiagnosticServerSubscriptionStatus`. -/
abbrev subscriptionStatus : Con UInt8 := struct [field "destination" unicastUnassignedGroupAddress, field "period" (uintLE 2),
  field "max_record_count" (uintLE 1), field "record" (greedyRange registryRecord)]

end NDS

namespace LEC

/-- silvair/light_extended_controller.py:52-55 `LightExtendedControllerPropertyDict`. -/
abbrev propertyDict : List (Int × Con UInt8) := [(0xFF71, flag), (0xFF72, struct Property.timeMiliseconds24)]
/-- silvair/light_extended_controller.py:77-79 `LightExtendedControllerPropertyGet`. -/
abbrev propertyGet : List (Item UInt8) := [field "property_id" (enumAdapter (uintLE 2) E.LightExtendedControllerProperty)]
/-- silvair/light_extended_controller.py:81 `LightExtendedControllerPropertySet`, silvair/light_extended_controller.py:83 `LightExtendedControllerPropertyStatus` (silvair/light_extended_controller.py:58-73 `_LightExtendedControllerProperty`). -/
abbrev propertySet : Con UInt8 := propertyMixin E.LightExtendedControllerProperty propertyDict propertyGet
/-- silvair/light_extended_controller.py:85-87 `LightExtendedControllerSyncIntegralStatus`. -/
abbrev syncIntegralStatus : Con UInt8 := struct [field "sync_integral" (uintLE 2)]

end LEC

namespace EL

/-- silvair/emergency_lighting.py:82-87 `EmergencyLightingPropertyDict`. -/
abbrev propertyDict : List (Int × Con UInt8) := [
  (0xFF80, struct Property.perceivedLightness), (0xFF81, struct Property.perceivedLightness),
  (0xFF82, struct Property.perceivedLightness), (0xFF83, struct Property.timeSecond16)]
/-- silvair/emergency_lighting.py:115-117 `EmergencyLightingStateStatus`. -/
abbrev stateStatus : Con UInt8 := struct [field "el_state" (enumAdapter (uintLE 1) E.ElState)]
/-- silvair/emergency_lighting.py:119-121 `EmergencyLightingPropertyGet`. -/
abbrev propertyGet : List (Item UInt8) := [field "property_id" (enumAdapter (uintLE 2) E.EmergencyLightingProperty)]
/-- silvair/emergency_lighting.py:123 `EmergencyLightingPropertySet`, silvair/emergency_lighting.py:125 `EmergencyLightingPropertyStatus` (silvair/emergency_lighting.py:90-105 `_EmergencyLightingProperty`). -/
abbrev propertySet : Con UInt8 := propertyMixin E.EmergencyLightingProperty propertyDict propertyGet
/-- silvair/emergency_lighting.py:131-134 `EmergencyLightingLampOperationTimeStatus`. -/
abbrev lampOperationTimeStatus : Con UInt8 := struct [
  field "el_lamp_total_operation_time" (uintLE 4), field "el_lamp_emergency_time" (uintLE 4)]

end EL
end BM
