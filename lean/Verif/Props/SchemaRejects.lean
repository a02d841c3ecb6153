import Verif.NotAccepted
import Verif.SpecCapnpMsgs
import Verif.RaisesMesh
import Verif.Props.Opcodes
/-!
# Messages that the generated Cap'n Proto schema does not take (C50)
-/
namespace BM.Props
open Tables Config Capnp BM.Schema BM.Case
variable [Platform]

/-- Some message that begins with `p` decodes to a value that the generated message type does not accept. -/
def RejectsAt (p : List UInt8) : Prop :=
  ∃ s v rest, p <+: s ∧ (∀ L, accessParse registry L s = .ok (v, rest)) ∧ ¬ Accepts schema "AccessMessage" (toCamelcaseDict v)

theorem rejectsAt {p : List UInt8} (t : List UInt8) (v : Val) (rest : List UInt8) {E : Entry} (he : E ∈ registry) {N : String} {n : Nat}
    (hN : (N, (n : Int)) ∈ E.1.members) {u : List UInt8} (hs : p ++ t = wireOpcode n ++ u)
    (h : ∀ L, ((findCase n E.2).getD passC).parse L [("opcode", .enum E.1.cls n)] u = .ok (v, rest))
    (hm : may schema 12 "AccessMessage" (toCamelcaseDict (.dict [("opcode", .enum E.1.cls n), (lower N, v)])) = false) : RejectsAt p := by
  refine ⟨p ++ t, _, rest, List.prefix_append _ _, fun L => ?_, not_accepts 12 hm⟩
  rw [hs, C04_parse he hN, h]
  rfl

set_option maxRecDepth 1000000 in
set_option maxHeartbeats 4000000 in
theorem rejects0 : RejectsAt [0x80, 0x39] :=
  rejectsAt [0x01, 0x00, 0x10, 0x10, 0x05, 0x00, 0x00, 0x00, 0x00]
    (.dict [("destination", .int 1), ("count", .int 32768), ("period", .int 32768), ("ttl", .int 5), ("features", .set []), ("_", .dict [("net_key_index", .int 0)]), ("net_key_index", .int 0)]) []
    (E := (E.ConfigOpcode, configCases)) (N := "CONFIG_HEARBEAT_PUBLICATION_SET") (n := 0x8039) (u := [0x01, 0x00, 0x10, 0x10, 0x05, 0x00, 0x00, 0x00, 0x00])
    (by inreg) (by dsimp only; decide +kernel) rfl (fun L => by with_unfolding_all rfl) (by dsimp only; decide +kernel)

set_option maxRecDepth 1000000 in
set_option maxHeartbeats 4000000 in
theorem rejects1 : RejectsAt [0x06] :=
  rejectsAt [0x00, 0x01, 0x00, 0x10, 0x10, 0x05, 0x00, 0x00, 0x00, 0x00]
    (.dict [("status", .enum "StatusCode" 0), ("destination", .int 1), ("count", .int 32768), ("period", .int 32768), ("ttl", .int 5), ("features", .set []), ("_", .dict [("net_key_index", .int 0)]), ("net_key_index", .int 0)]) []
    (E := (E.ConfigOpcode, configCases)) (N := "CONFIG_HEARBEAT_PUBLICATION_STATUS") (n := 0x6) (u := [0x00, 0x01, 0x00, 0x10, 0x10, 0x05, 0x00, 0x00, 0x00, 0x00])
    (by inreg) (by dsimp only; decide +kernel) rfl (fun L => by with_unfolding_all rfl) (by dsimp only; decide +kernel)

set_option maxRecDepth 1000000 in
set_option maxHeartbeats 4000000 in
theorem rejects2 : RejectsAt [0x80, 0x3B] :=
  rejectsAt [0x01, 0x00, 0x02, 0x00, 0x11]
    (.dict [("source", .int 1), ("destination", .int 2), ("period_log", .int 65536)]) []
    (E := (E.ConfigOpcode, configCases)) (N := "CONFIG_HEARBEAT_SUBSCRIPTION_SET") (n := 0x803b) (u := [0x01, 0x00, 0x02, 0x00, 0x11])
    (by inreg) (by dsimp only; decide +kernel) rfl (fun L => by with_unfolding_all rfl) (by dsimp only; decide +kernel)

set_option maxRecDepth 1000000 in
set_option maxHeartbeats 4000000 in
theorem rejects3 : RejectsAt [0x80, 0x3C] :=
  rejectsAt [0x00, 0x01, 0x00, 0x02, 0x00, 0x11, 0x11, 0x01, 0x02]
    (.dict [("status", .enum "StatusCode" 0), ("source", .int 1), ("destination", .int 2), ("period_log", .int 65536), ("count", .int 65536), ("min_hops", .int 1), ("max_hops", .int 2)]) []
    (E := (E.ConfigOpcode, configCases)) (N := "CONFIG_HEARBEAT_SUBSCRIPTION_STATUS") (n := 0x803c) (u := [0x00, 0x01, 0x00, 0x02, 0x00, 0x11, 0x11, 0x01, 0x02])
    (by inreg) (by dsimp only; decide +kernel) rfl (fun L => by with_unfolding_all rfl) (by dsimp only; decide +kernel)

set_option maxRecDepth 1000000 in
set_option maxHeartbeats 4000000 in
theorem rejects4 : RejectsAt [0x03] :=
  rejectsAt [0x01, 0x00, 0x02, 0x00, 0x03, 0x00, 0x05, 0x00, 0x00, 0x07, 0x00]
    (.dict [("element_address", .int 1), ("publish_address", .int 2), ("_", .dict [("rfu", .int 0), ("credential_flag", .enum "PublishFriendshipCredentialsFlag" 0), ("app_key_index", .int 3)]), ("rfu", .int 0), ("credential_flag", .enum "PublishFriendshipCredentialsFlag" 0), ("app_key_index", .int 3), ("ttl", .int 5), ("publish_period", .dict [("step_resolution", .enum "PublishPeriodStepResolution" 0), ("number_of_steps", .int 0)]), ("retransmit", .dict [("count", .int 0), ("interval", .int 50)]), ("model", .dict [("model_id", .int 7), ("_name", .str "sig")])]) []
    (E := (E.ConfigOpcode, configCases)) (N := "CONFIG_MODEL_PUBLICATION_SET") (n := 0x3) (u := [0x01, 0x00, 0x02, 0x00, 0x03, 0x00, 0x05, 0x00, 0x00, 0x07, 0x00])
    (by inreg) (by dsimp only; decide +kernel) rfl (fun L => by with_unfolding_all rfl) (by dsimp only; decide +kernel)

set_option maxRecDepth 1000000 in
set_option maxHeartbeats 4000000 in
theorem rejects5 : RejectsAt [0x80, 0x1A] :=
  rejectsAt [0x01, 0x00, 0x07, 0x07, 0x07, 0x07, 0x07, 0x07, 0x07, 0x07, 0x07, 0x07, 0x07, 0x07, 0x07, 0x07, 0x07, 0x07, 0x03, 0x00, 0x05, 0x00, 0x00, 0x07, 0x00]
    (.dict [("element_address", .int 1), ("publish_address", .bytes [7, 7, 7, 7, 7, 7, 7, 7, 7, 7, 7, 7, 7, 7, 7, 7]), ("_", .dict [("rfu", .int 0), ("credential_flag", .enum "PublishFriendshipCredentialsFlag" 0), ("app_key_index", .int 3)]), ("rfu", .int 0), ("credential_flag", .enum "PublishFriendshipCredentialsFlag" 0), ("app_key_index", .int 3), ("ttl", .int 5), ("publish_period", .dict [("step_resolution", .enum "PublishPeriodStepResolution" 0), ("number_of_steps", .int 0)]), ("retransmit", .dict [("count", .int 0), ("interval", .int 50)]), ("model", .dict [("model_id", .int 7), ("_name", .str "sig")])]) []
    (E := (E.ConfigOpcode, configCases)) (N := "CONFIG_MODEL_PUBLICATION_VIRTUAL_ADDRESS_SET") (n := 0x801a) (u := [0x01, 0x00, 0x07, 0x07, 0x07, 0x07, 0x07, 0x07, 0x07, 0x07, 0x07, 0x07, 0x07, 0x07, 0x07, 0x07, 0x07, 0x07, 0x03, 0x00, 0x05, 0x00, 0x00, 0x07, 0x00])
    (by inreg) (by dsimp only; decide +kernel) rfl (fun L => by with_unfolding_all rfl) (by dsimp only; decide +kernel)

set_option maxRecDepth 1000000 in
set_option maxHeartbeats 4000000 in
theorem rejects6 : RejectsAt [0x80, 0x19] :=
  rejectsAt [0x00, 0x01, 0x00, 0x02, 0x00, 0x03, 0x00, 0x05, 0x00, 0x00, 0x07, 0x00]
    (.dict [("status", .enum "StatusCode" 0), ("element_address", .int 1), ("publish_address", .int 2), ("_", .dict [("rfu", .int 0), ("credential_flag", .enum "PublishFriendshipCredentialsFlag" 0), ("app_key_index", .int 3)]), ("rfu", .int 0), ("credential_flag", .enum "PublishFriendshipCredentialsFlag" 0), ("app_key_index", .int 3), ("ttl", .int 5), ("publish_period", .dict [("step_resolution", .enum "PublishPeriodStepResolution" 0), ("number_of_steps", .int 0)]), ("retransmit", .dict [("count", .int 0), ("interval", .int 50)]), ("model", .dict [("model_id", .int 7), ("_name", .str "sig")])]) []
    (E := (E.ConfigOpcode, configCases)) (N := "CONFIG_MODEL_PUBLICATION_STATUS") (n := 0x8019) (u := [0x00, 0x01, 0x00, 0x02, 0x00, 0x03, 0x00, 0x05, 0x00, 0x00, 0x07, 0x00])
    (by inreg) (by dsimp only; decide +kernel) rfl (fun L => by with_unfolding_all rfl) (by dsimp only; decide +kernel)

set_option maxRecDepth 1000000 in
set_option maxHeartbeats 4000000 in
theorem rejects7 : RejectsAt [0x82, 0x32] :=
  rejectsAt []
    (.none) []
    (E := (E.SensorOpcode, sensorCases)) (N := "SENSOR_COLUMN_GET") (n := 0x8232) (u := [])
    (by inreg) (by dsimp only; decide +kernel) rfl (fun L => by with_unfolding_all rfl) (by dsimp only; decide +kernel)

set_option maxRecDepth 1000000 in
set_option maxHeartbeats 4000000 in
theorem rejects8 : RejectsAt [0x53] :=
  rejectsAt []
    (.none) []
    (E := (E.SensorOpcode, sensorCases)) (N := "SENSOR_COLUMN_STATUS") (n := 0x53) (u := [])
    (by inreg) (by dsimp only; decide +kernel) rfl (fun L => by with_unfolding_all rfl) (by dsimp only; decide +kernel)

set_option maxRecDepth 1000000 in
set_option maxHeartbeats 4000000 in
theorem rejects9 : RejectsAt [0x82, 0x33] :=
  rejectsAt []
    (.none) []
    (E := (E.SensorOpcode, sensorCases)) (N := "SENSOR_SERIES_GET") (n := 0x8233) (u := [])
    (by inreg) (by dsimp only; decide +kernel) rfl (fun L => by with_unfolding_all rfl) (by dsimp only; decide +kernel)

set_option maxRecDepth 1000000 in
set_option maxHeartbeats 4000000 in
theorem rejects10 : RejectsAt [0x54] :=
  rejectsAt []
    (.none) []
    (E := (E.SensorOpcode, sensorCases)) (N := "SENSOR_SERIES_STATUS") (n := 0x54) (u := [])
    (by inreg) (by dsimp only; decide +kernel) rfl (fun L => by with_unfolding_all rfl) (by dsimp only; decide +kernel)

set_option maxRecDepth 1000000 in
set_option maxHeartbeats 4000000 in
theorem rejects11 : RejectsAt [0x55] :=
  rejectsAt []
    (.none) []
    (E := (E.SensorSetupOpcode, sensorSetupCases)) (N := "SENSOR_CADENCE_SET") (n := 0x55) (u := [])
    (by inreg) (by dsimp only; decide +kernel) rfl (fun L => by with_unfolding_all rfl) (by dsimp only; decide +kernel)

set_option maxRecDepth 1000000 in
set_option maxHeartbeats 4000000 in
theorem rejects12 : RejectsAt [0x56] :=
  rejectsAt []
    (.none) []
    (E := (E.SensorSetupOpcode, sensorSetupCases)) (N := "SENSOR_CADENCE_SET_UNACKNOWLEDGED") (n := 0x56) (u := [])
    (by inreg) (by dsimp only; decide +kernel) rfl (fun L => by with_unfolding_all rfl) (by dsimp only; decide +kernel)

set_option maxRecDepth 1000000 in
set_option maxHeartbeats 4000000 in
theorem rejects13 : RejectsAt [0x57] :=
  rejectsAt []
    (.none) []
    (E := (E.SensorSetupOpcode, sensorSetupCases)) (N := "SENSOR_CADENCE_STATUS") (n := 0x57) (u := [])
    (by inreg) (by dsimp only; decide +kernel) rfl (fun L => by with_unfolding_all rfl) (by dsimp only; decide +kernel)

set_option maxRecDepth 1000000 in
set_option maxHeartbeats 4000000 in
theorem rejects14 : RejectsAt [0xF0, 0x36, 0x01, 0x00] :=
  rejectsAt []
    (.dict [("subopcode", .enum "GatewayConfigServerSubOpcode" 0), ("gateway_configuration_get", .none)]) []
    (E := (E.GatewayConfigServerOpcode, gatewayConfigCases)) (N := "SILVAIR_GATEWAY") (n := 0xf03601) (u := [0x00])
    (by inreg) (by dsimp only; decide +kernel) rfl (fun L => by with_unfolding_all rfl) (by dsimp only; decide +kernel)

set_option maxRecDepth 1000000 in
set_option maxHeartbeats 4000000 in
theorem rejects15 : RejectsAt [0xF0, 0x36, 0x01, 0x02] :=
  rejectsAt []
    (.dict [("subopcode", .enum "GatewayConfigServerSubOpcode" 2), ("gateway_packets_get", .none)]) []
    (E := (E.GatewayConfigServerOpcode, gatewayConfigCases)) (N := "SILVAIR_GATEWAY") (n := 0xf03601) (u := [0x02])
    (by inreg) (by dsimp only; decide +kernel) rfl (fun L => by with_unfolding_all rfl) (by dsimp only; decide +kernel)

set_option maxRecDepth 1000000 in
set_option maxHeartbeats 4000000 in
theorem rejects16 : RejectsAt [0xF0, 0x36, 0x01, 0x03] :=
  rejectsAt []
    (.dict [("subopcode", .enum "GatewayConfigServerSubOpcode" 3), ("gateway_packets_clear", .none)]) []
    (E := (E.GatewayConfigServerOpcode, gatewayConfigCases)) (N := "SILVAIR_GATEWAY") (n := 0xf03601) (u := [0x03])
    (by inreg) (by dsimp only; decide +kernel) rfl (fun L => by with_unfolding_all rfl) (by dsimp only; decide +kernel)

set_option maxRecDepth 1000000 in
set_option maxHeartbeats 4000000 in
theorem rejects17 : RejectsAt [0xF6, 0x36, 0x01, 0x04] :=
  rejectsAt []
    (.dict [("subopcode", .enum "LightExtendedControllerSubOpcode" 4), ("bulk_lc_property_set", .none)]) []
    (E := (E.LightExtendedControllerOpcode, lightExtendedControllerCases)) (N := "SILVAIR_LEC") (n := 0xf63601) (u := [0x04])
    (by inreg) (by dsimp only; decide +kernel) rfl (fun L => by with_unfolding_all rfl) (by dsimp only; decide +kernel)

set_option maxRecDepth 1000000 in
set_option maxHeartbeats 4000000 in
theorem rejects18 : RejectsAt [0xF6, 0x36, 0x01, 0x05] :=
  rejectsAt []
    (.dict [("subopcode", .enum "LightExtendedControllerSubOpcode" 5), ("bulk_lc_property_status", .none)]) []
    (E := (E.LightExtendedControllerOpcode, lightExtendedControllerCases)) (N := "SILVAIR_LEC") (n := 0xf63601) (u := [0x05])
    (by inreg) (by dsimp only; decide +kernel) rfl (fun L => by with_unfolding_all rfl) (by dsimp only; decide +kernel)

set_option maxRecDepth 1000000 in
set_option maxHeartbeats 4000000 in
theorem rejects19 : RejectsAt [0xF6, 0x36, 0x01, 0x06] :=
  rejectsAt []
    (.dict [("subopcode", .enum "LightExtendedControllerSubOpcode" 6), ("bulk_lec_property_set", .none)]) []
    (E := (E.LightExtendedControllerOpcode, lightExtendedControllerCases)) (N := "SILVAIR_LEC") (n := 0xf63601) (u := [0x06])
    (by inreg) (by dsimp only; decide +kernel) rfl (fun L => by with_unfolding_all rfl) (by dsimp only; decide +kernel)

set_option maxRecDepth 1000000 in
set_option maxHeartbeats 4000000 in
theorem rejects20 : RejectsAt [0xF6, 0x36, 0x01, 0x08] :=
  rejectsAt []
    (.dict [("subopcode", .enum "LightExtendedControllerSubOpcode" 8), ("sync_integral_get", .none)]) []
    (E := (E.LightExtendedControllerOpcode, lightExtendedControllerCases)) (N := "SILVAIR_LEC") (n := 0xf63601) (u := [0x08])
    (by inreg) (by dsimp only; decide +kernel) rfl (fun L => by with_unfolding_all rfl) (by dsimp only; decide +kernel)

set_option maxRecDepth 1000000 in
set_option maxHeartbeats 4000000 in
theorem rejects21 : RejectsAt [0xFC, 0x36, 0x01, 0x05] :=
  rejectsAt []
    (.dict [("subopcode", .enum "NetworkDiagnosticServerSubOpcode" 5), ("radio_stat_set", .none)]) []
    (E := (E.NetworkDiagnosticServerOpcode, networkDiagnosticServerCases)) (N := "SILVAIR_NDS") (n := 0xfc3601) (u := [0x05])
    (by inreg) (by dsimp only; decide +kernel) rfl (fun L => by with_unfolding_all rfl) (by dsimp only; decide +kernel)

set_option maxRecDepth 1000000 in
set_option maxHeartbeats 4000000 in
theorem rejects22 : RejectsAt [0xFC, 0x36, 0x01, 0x06] :=
  rejectsAt []
    (.dict [("subopcode", .enum "NetworkDiagnosticServerSubOpcode" 6), ("radio_stat_status", .none)]) []
    (E := (E.NetworkDiagnosticServerOpcode, networkDiagnosticServerCases)) (N := "SILVAIR_NDS") (n := 0xfc3601) (u := [0x06])
    (by inreg) (by dsimp only; decide +kernel) rfl (fun L => by with_unfolding_all rfl) (by dsimp only; decide +kernel)

set_option maxRecDepth 1000000 in
set_option maxHeartbeats 4000000 in
theorem rejects23 : RejectsAt [0x5C, 0x00, 0x00, 0x00, 0x00, 0x00] :=
  rejectsAt []
    (.dict [("date", .none), ("tai_utc_delta", .none), ("time_authority", .none), ("uncertainty", .none)]) []
    (E := (E.TimeOpcode, timeCases)) (N := "TIME_SET") (n := 0x5c) (u := [0x00, 0x00, 0x00, 0x00, 0x00])
    (by inreg) (by dsimp only; decide +kernel) rfl (fun L => by with_unfolding_all rfl) (by dsimp only; decide +kernel)

set_option maxRecDepth 1000000 in
set_option maxHeartbeats 4000000 in
theorem rejects24 : RejectsAt [0x5D, 0x00, 0x00, 0x00, 0x00, 0x00] :=
  rejectsAt []
    (.dict [("date", .none), ("tai_utc_delta", .none), ("time_authority", .none), ("uncertainty", .none)]) []
    (E := (E.TimeOpcode, timeCases)) (N := "TIME_STATUS") (n := 0x5d) (u := [0x00, 0x00, 0x00, 0x00, 0x00])
    (by inreg) (by dsimp only; decide +kernel) rfl (fun L => by with_unfolding_all rfl) (by dsimp only; decide +kernel)

set_option maxRecDepth 1000000 in
set_option maxHeartbeats 4000000 in
theorem rejects25 : RejectsAt [0xF0, 0x36, 0x01, 0x01] :=
  rejectsAt [0x00, 0x00, 0x00, 0x00, 0x00, 0x00, 0x00, 0x00, 0x00, 0x00, 0x00, 0x00, 0x00]
    (.dict [("subopcode", .enum "GatewayConfigServerSubOpcode" 1), ("gateway_configuration_set", .dict [("mtu_size", .int 0), ("mac_address", .str "00:00:00:00:00:00"), ("server_port_number", .int 0), ("reconnect_interval", .int 0), ("server_address_length", .int 0), ("server_address", .str "")])]) []
    (E := (E.GatewayConfigServerOpcode, gatewayConfigCases)) (N := "SILVAIR_GATEWAY") (n := 0xf03601) (u := [0x01, 0x00, 0x00, 0x00, 0x00, 0x00, 0x00, 0x00, 0x00, 0x00, 0x00, 0x00, 0x00, 0x00])
    (by inreg) (by dsimp only; decide +kernel) rfl (fun L => by with_unfolding_all rfl) (by dsimp only; decide +kernel)

set_option maxRecDepth 1000000 in
set_option maxHeartbeats 4000000 in
theorem rejects26 : RejectsAt [0xF0, 0x36, 0x01, 0x08] :=
  rejectsAt [0x01, 0x02, 0x03, 0x04]
    (.dict [("subopcode", .enum "GatewayConfigServerSubOpcode" 8), ("dns_ip_address_set", .dict [("dns_ip_address", .ipv4 [1, 2, 3, 4])])]) []
    (E := (E.GatewayConfigServerOpcode, gatewayConfigCases)) (N := "SILVAIR_GATEWAY") (n := 0xf03601) (u := [0x08, 0x01, 0x02, 0x03, 0x04])
    (by inreg) (by dsimp only; decide +kernel) rfl (fun L => by with_unfolding_all rfl) (by dsimp only; decide +kernel)

set_option maxRecDepth 1000000 in
set_option maxHeartbeats 4000000 in
theorem rejects27 : RejectsAt [0xF0, 0x36, 0x01, 0x09] :=
  rejectsAt [0x01, 0x02, 0x03, 0x04]
    (.dict [("subopcode", .enum "GatewayConfigServerSubOpcode" 9), ("ip_address_set", .dict [("ip_address", .ipv4 [1, 2, 3, 4])])]) []
    (E := (E.GatewayConfigServerOpcode, gatewayConfigCases)) (N := "SILVAIR_GATEWAY") (n := 0xf03601) (u := [0x09, 0x01, 0x02, 0x03, 0x04])
    (by inreg) (by dsimp only; decide +kernel) rfl (fun L => by with_unfolding_all rfl) (by dsimp only; decide +kernel)

set_option maxRecDepth 1000000 in
set_option maxHeartbeats 4000000 in
theorem rejects28 : RejectsAt [0xF0, 0x36, 0x01, 0x0A] :=
  rejectsAt [0x01, 0x02, 0x03, 0x04]
    (.dict [("subopcode", .enum "GatewayConfigServerSubOpcode" 10), ("gateway_ip_address_set", .dict [("gateway_ip_address", .ipv4 [1, 2, 3, 4])])]) []
    (E := (E.GatewayConfigServerOpcode, gatewayConfigCases)) (N := "SILVAIR_GATEWAY") (n := 0xf03601) (u := [0x0A, 0x01, 0x02, 0x03, 0x04])
    (by inreg) (by dsimp only; decide +kernel) rfl (fun L => by with_unfolding_all rfl) (by dsimp only; decide +kernel)

set_option maxRecDepth 1000000 in
set_option maxHeartbeats 4000000 in
theorem rejects29 : RejectsAt [0xF0, 0x36, 0x01, 0x0C] :=
  rejectsAt [0x00, 0x00, 0x00, 0x00, 0x00, 0x00, 0x00, 0x00, 0x00, 0x00, 0x00, 0x00, 0x00, 0x00, 0x00, 0x00, 0x00, 0x00, 0x00, 0x00, 0x00, 0x00, 0x00, 0x00, 0x00, 0x00, 0x00, 0x00, 0x00, 0x00, 0x00, 0x00, 0x00, 0x00, 0x00]
    (.dict [("subopcode", .enum "GatewayConfigServerSubOpcode" 12), ("gateway_configuration_status", .dict [("chip_revision_id", .int 0), ("mtu_size", .int 0), ("mac_address", .str "00:00:00:00:00:00"), ("server_port_number", .int 0), ("reconnect_interval", .int 0), ("server_address_length", .int 0), ("server_address", .str ""), ("dns_ip_address", .ipv4 [0, 0, 0, 0]), ("ip_address", .ipv4 [0, 0, 0, 0]), ("gateway_ip_address", .ipv4 [0, 0, 0, 0]), ("netmask", .int 0), ("flags", .enum "DhcpFlag" 0), ("status_code", .enum "StatusCode" 0)])]) [0, 0, 0, 0, 0, 0]
    (E := (E.GatewayConfigServerOpcode, gatewayConfigCases)) (N := "SILVAIR_GATEWAY") (n := 0xf03601) (u := [0x0C, 0x00, 0x00, 0x00, 0x00, 0x00, 0x00, 0x00, 0x00, 0x00, 0x00, 0x00, 0x00, 0x00, 0x00, 0x00, 0x00, 0x00, 0x00, 0x00, 0x00, 0x00, 0x00, 0x00, 0x00, 0x00, 0x00, 0x00, 0x00, 0x00, 0x00, 0x00, 0x00, 0x00, 0x00, 0x00])
    (by inreg) (by dsimp only; decide +kernel) rfl (fun L => by with_unfolding_all rfl) (by dsimp only; decide +kernel)

set_option maxRecDepth 1000000 in
set_option maxHeartbeats 4000000 in
theorem rejects30 : RejectsAt [0xE8, 0x36, 0x01, 0x01] :=
  rejectsAt [0x00]
    (.dict [("subopcode", .enum "RRuleSchedulerSubOpcode" 1), ("payload", .dict [("rule_ids", .set [0])])]) []
    (E := (E.RRuleSchedulerOpcode, rRuleSchedulerCases)) (N := "SILVAIR_RRULE_SCHEDULER") (n := 0xe83601) (u := [0x01, 0x00])
    (by inreg) (by dsimp only; decide +kernel) rfl (fun L => by with_unfolding_all rfl) (by dsimp only; decide +kernel)

set_option maxRecDepth 1000000 in
set_option maxHeartbeats 4000000 in
theorem rejects31 : RejectsAt [0xE8, 0x36, 0x01, 0x03] :=
  rejectsAt [0x01, 0x02, 0x03, 0x04]
    (.dict [("subopcode", .enum "RRuleSchedulerSubOpcode" 3), ("payload", .dict [("register_max_size", .int 67305985)])]) []
    (E := (E.RRuleSchedulerOpcode, rRuleSchedulerCases)) (N := "SILVAIR_RRULE_SCHEDULER") (n := 0xe83601) (u := [0x03, 0x01, 0x02, 0x03, 0x04])
    (by inreg) (by dsimp only; decide +kernel) rfl (fun L => by with_unfolding_all rfl) (by dsimp only; decide +kernel)

set_option maxRecDepth 1000000 in
set_option maxHeartbeats 4000000 in
theorem rejects32 : RejectsAt [0xE8, 0x36, 0x01, 0x05] :=
  rejectsAt [0x00]
    (.dict [("subopcode", .enum "RRuleSchedulerSubOpcode" 5), ("payload", .dict [("scheduler_mode", .enum "SchedulerModes" 0)])]) []
    (E := (E.RRuleSchedulerOpcode, rRuleSchedulerCases)) (N := "SILVAIR_RRULE_SCHEDULER") (n := 0xe83601) (u := [0x05, 0x00])
    (by inreg) (by dsimp only; decide +kernel) rfl (fun L => by with_unfolding_all rfl) (by dsimp only; decide +kernel)

set_option maxRecDepth 1000000 in
set_option maxHeartbeats 4000000 in
theorem rejects33 : RejectsAt [0xE8, 0x36, 0x01, 0x06] :=
  rejectsAt [0x00]
    (.dict [("subopcode", .enum "RRuleSchedulerSubOpcode" 6), ("payload", .dict [("scheduler_mode", .enum "SchedulerModes" 0)])]) []
    (E := (E.RRuleSchedulerOpcode, rRuleSchedulerCases)) (N := "SILVAIR_RRULE_SCHEDULER") (n := 0xe83601) (u := [0x06, 0x00])
    (by inreg) (by dsimp only; decide +kernel) rfl (fun L => by with_unfolding_all rfl) (by dsimp only; decide +kernel)

set_option maxRecDepth 1000000 in
set_option maxHeartbeats 4000000 in
theorem rejects34 : RejectsAt [0xE8, 0x36, 0x01, 0x07] :=
  rejectsAt [0x01]
    (.dict [("subopcode", .enum "RRuleSchedulerSubOpcode" 7), ("payload", .dict [("entry_id", .int 1)])]) []
    (E := (E.RRuleSchedulerOpcode, rRuleSchedulerCases)) (N := "SILVAIR_RRULE_SCHEDULER") (n := 0xe83601) (u := [0x07, 0x01])
    (by inreg) (by dsimp only; decide +kernel) rfl (fun L => by with_unfolding_all rfl) (by dsimp only; decide +kernel)

set_option maxRecDepth 1000000 in
set_option maxHeartbeats 4000000 in
theorem rejects35 : RejectsAt [0xE8, 0x36, 0x01, 0x08] :=
  rejectsAt [0x01, 0x00]
    (.dict [("subopcode", .enum "RRuleSchedulerSubOpcode" 8), ("payload", .dict [("entry_id", .int 1), ("scheduler_register_entry", .dict [("array_of_slots", .list []), ("rules", .list [])])])]) []
    (E := (E.RRuleSchedulerOpcode, rRuleSchedulerCases)) (N := "SILVAIR_RRULE_SCHEDULER") (n := 0xe83601) (u := [0x08, 0x01, 0x00])
    (by inreg) (by dsimp only; decide +kernel) rfl (fun L => by with_unfolding_all rfl) (by dsimp only; decide +kernel)

set_option maxRecDepth 1000000 in
set_option maxHeartbeats 4000000 in
theorem rejects36 : RejectsAt [0xE8, 0x36, 0x01, 0x09] :=
  rejectsAt [0x01]
    (.dict [("subopcode", .enum "RRuleSchedulerSubOpcode" 9), ("payload", .dict [("entry_id", .int 1)])]) []
    (E := (E.RRuleSchedulerOpcode, rRuleSchedulerCases)) (N := "SILVAIR_RRULE_SCHEDULER") (n := 0xe83601) (u := [0x09, 0x01])
    (by inreg) (by dsimp only; decide +kernel) rfl (fun L => by with_unfolding_all rfl) (by dsimp only; decide +kernel)

set_option maxRecDepth 1000000 in
set_option maxHeartbeats 4000000 in
theorem rejects37 : RejectsAt [0xE8, 0x36, 0x01, 0x0B] :=
  rejectsAt [0x01, 0x00]
    (.dict [("subopcode", .enum "RRuleSchedulerSubOpcode" 11), ("payload", .dict [("entry_id", .int 1), ("status", .enum "StatusCodes" 0), ("_name", .str "minimal")])]) []
    (E := (E.RRuleSchedulerOpcode, rRuleSchedulerCases)) (N := "SILVAIR_RRULE_SCHEDULER") (n := 0xe83601) (u := [0x0B, 0x01, 0x00])
    (by inreg) (by dsimp only; decide +kernel) rfl (fun L => by with_unfolding_all rfl) (by dsimp only; decide +kernel)

set_option maxRecDepth 1000000 in
set_option maxHeartbeats 4000000 in
theorem rejects38 : RejectsAt [0xE8, 0x36, 0x01, 0x0D] :=
  rejectsAt [0x01, 0x02, 0x03, 0x04]
    (.dict [("subopcode", .enum "RRuleSchedulerSubOpcode" 13), ("payload", .dict [("entry_ids", .set [1, 2, 3, 4])])]) []
    (E := (E.RRuleSchedulerOpcode, rRuleSchedulerCases)) (N := "SILVAIR_RRULE_SCHEDULER") (n := 0xe83601) (u := [0x0D, 0x01, 0x02, 0x03, 0x04])
    (by inreg) (by dsimp only; decide +kernel) rfl (fun L => by with_unfolding_all rfl) (by dsimp only; decide +kernel)

/-- **C50 (exceptions).** Each of the listed beginnings does occur: some message that begins so is decoded, but its value is not accepted. -/
theorem C50_rejects : ∀ p ∈ Spec.capnpRejects, RejectsAt p := by
  unfold Spec.capnpRejects
  exact all_cons rejects0 <| all_cons rejects1 <| all_cons rejects2 <| all_cons rejects3 <| all_cons rejects4 <| all_cons rejects5 <| all_cons rejects6 <| all_cons rejects7 <| all_cons rejects8 <| all_cons rejects9 <| all_cons rejects10 <| all_cons rejects11 <| all_cons rejects12 <| all_cons rejects13 <| all_cons rejects14 <| all_cons rejects15 <| all_cons rejects16 <| all_cons rejects17 <| all_cons rejects18 <| all_cons rejects19 <| all_cons rejects20 <| all_cons rejects21 <| all_cons rejects22 <| all_cons rejects23 <| all_cons rejects24 <| all_cons rejects25 <| all_cons rejects26 <| all_cons rejects27 <| all_cons rejects28 <| all_cons rejects29 <| all_cons rejects30 <| all_cons rejects31 <| all_cons rejects32 <| all_cons rejects33 <| all_cons rejects34 <| all_cons rejects35 <| all_cons rejects36 <| all_cons rejects37 <| all_cons rejects38 <| all_nil

end BM.Props
