import Verif.Generics
import Verif.Property
import Verif.Sensor
import Verif.Time
import Verif.Silvair
import Verif.RRule
/-!
# Message tables

Generated by `tools/gen_tables.py` from the `SwitchStruct` tables of the source text; the payload constructs are the model
definitions that cite the Python names.
-/
namespace BM
open Config
namespace Tables

/-- config.py:1177-1255 `ConfigMessage`: the payload table. -/
def configCases [Platform] : List (Int × Con UInt8) := [
  (0x0, Config.appKeyAdd), -- CONFIG_APPKEY_ADD
  (0x8000, Config.appKeyDelete), -- CONFIG_APPKEY_DELETE
  (0x8001, struct Config.netKeyOnly), -- CONFIG_APPKEY_GET
  (0x8002, Config.appKeyList), -- CONFIG_APPKEY_LIST
  (0x8003, Config.appKeyStatus), -- CONFIG_APPKEY_STATUS
  (0x1, Config.appKeyAdd), -- CONFIG_APPKEY_UPDATE
  (0x8009, struct []), -- CONFIG_BEACON_GET
  (0x800A, Config.beaconSet), -- CONFIG_BEACON_SET
  (0x800B, Config.beaconSet), -- CONFIG_BEACON_STATUS
  (0x8008, Config.compositionDataGet), -- CONFIG_COMPOSITION_DATA_GET
  (0x2, Config.compositionDataStatus), -- CONFIG_COMPOSITION_DATA_STATUS
  (0x800C, struct []), -- CONFIG_DEFAULT_TTL_GET
  (0x800D, Config.defaultTTLSet), -- CONFIG_DEFAULT_TTL_SET
  (0x800E, Config.defaultTTLSet), -- CONFIG_DEFAULT_TTL_STATUS
  (0x800F, struct []), -- CONFIG_FRIEND_GET
  (0x8010, Config.friendSet), -- CONFIG_FRIEND_SET
  (0x8011, Config.friendSet), -- CONFIG_FRIEND_STATUS
  (0x8012, struct []), -- CONFIG_GATT_PROXY_GET
  (0x8013, Config.gattProxySet), -- CONFIG_GATT_PROXY_SET
  (0x8014, Config.gattProxySet), -- CONFIG_GATT_PROXY_STATUS
  (0x8038, struct []), -- CONFIG_HEARBEAT_PUBLICATION_GET
  (0x8039, struct Config.heartbeatPublicationSet), -- CONFIG_HEARBEAT_PUBLICATION_SET
  (0x6, Config.heartbeatPublicationStatus), -- CONFIG_HEARBEAT_PUBLICATION_STATUS
  (0x803A, struct []), -- CONFIG_HEARBEAT_SUBSCRIPTION_GET
  (0x803B, struct Config.heartbeatSubscriptionSet), -- CONFIG_HEARBEAT_SUBSCRIPTION_SET
  (0x803C, Config.heartbeatSubscriptionStatus), -- CONFIG_HEARBEAT_SUBSCRIPTION_STATUS
  (0x8015, struct Config.netKeyOnly), -- CONFIG_KEY_REFRESH_PHASE_GET
  (0x8016, Config.keyRefreshPhaseSet), -- CONFIG_KEY_REFRESH_PHASE_SET
  (0x8017, Config.keyRefreshPhaseStatus), -- CONFIG_KEY_REFRESH_PHASE_STATUS
  (0x802D, struct Config.lpnPollTimeoutGet), -- CONFIG_LOW_POWER_NODE_POLL_TIMEOUT_GET
  (0x802E, Config.lpnPollTimeoutStatus), -- CONFIG_LOW_POWER_NODE_POLL_TIMEOUT_STATUS
  (0x803D, struct Config.modelAppBind), -- CONFIG_MODEL_APP_BIND
  (0x803E, Config.modelAppStatus), -- CONFIG_MODEL_APP_STATUS
  (0x803F, struct Config.modelAppBind), -- CONFIG_MODEL_APP_UNBIND
  (0x8018, Config.modelPublicationGet), -- CONFIG_MODEL_PUBLICATION_GET
  (0x3, struct Config.modelPublicationSet), -- CONFIG_MODEL_PUBLICATION_SET
  (0x8019, Config.modelPublicationStatus), -- CONFIG_MODEL_PUBLICATION_STATUS
  (0x801A, Config.modelPublicationVASet), -- CONFIG_MODEL_PUBLICATION_VIRTUAL_ADDRESS_SET
  (0x801B, Config.modelSubscriptionAdd), -- CONFIG_MODEL_SUBSCRIPTION_ADD
  (0x801C, Config.modelSubscriptionAdd), -- CONFIG_MODEL_SUBSCRIPTION_DELETE
  (0x801D, Config.modelSubscriptionDeleteAll), -- CONFIG_MODEL_SUBSCRIPTION_DELETE_ALL
  (0x801E, Config.modelSubscriptionAdd), -- CONFIG_MODEL_SUBSCRIPTION_OVERWRITE
  (0x801F, Config.modelSubscriptionStatus), -- CONFIG_MODEL_SUBSCRIPTION_STATUS
  (0x8020, Config.modelSubscriptionVAAdd), -- CONFIG_MODEL_SUBSCRIPTION_VIRTUAL_ADDRESS_ADD
  (0x8021, Config.modelSubscriptionVAAdd), -- CONFIG_MODEL_SUBSCRIPTION_VIRTUAL_ADDRESS_DELETE
  (0x8022, Config.modelSubscriptionVAAdd), -- CONFIG_MODEL_SUBSCRIPTION_VIRTUAL_ADDRESS_OVERWRITE
  (0x8040, Config.netKeyAdd), -- CONFIG_NETKEY_ADD
  (0x8041, struct Config.netKeyOnly), -- CONFIG_NETKEY_DELETE
  (0x8042, struct []), -- CONFIG_NETKEY_GET
  (0x8043, Config.netKeyList), -- CONFIG_NETKEY_LIST
  (0x8044, Config.netKeyStatus), -- CONFIG_NETKEY_STATUS
  (0x8045, Config.netKeyAdd), -- CONFIG_NETKEY_UPDATE
  (0x8023, struct []), -- CONFIG_NETWORK_TRANSMIT_GET
  (0x8024, Config.networkRetransmit), -- CONFIG_NETWORK_TRANSMIT_SET
  (0x8025, Config.networkRetransmit), -- CONFIG_NETWORK_TRANSMIT_STATUS
  (0x8046, struct Config.netKeyOnly), -- CONFIG_NODE_IDENTITY_GET
  (0x8047, struct Config.nodeIdentitySet), -- CONFIG_NODE_IDENTITY_SET
  (0x8048, Config.nodeIdentityStatus), -- CONFIG_NODE_IDENTITY_STATUS
  (0x8049, struct []), -- CONFIG_NODE_RESET
  (0x804A, struct []), -- CONFIG_NODE_RESET_STATUS
  (0x8026, struct []), -- CONFIG_RELAY_GET
  (0x8027, Config.relaySet), -- CONFIG_RELAY_SET
  (0x8028, Config.relaySet), -- CONFIG_RELAY_STATUS
  (0x804B, struct Config.sigModelGet), -- CONFIG_SIG_MODEL_APP_GET
  (0x804C, Config.sigModelAppList), -- CONFIG_SIG_MODEL_APP_LIST
  (0x8029, struct Config.sigModelGet), -- CONFIG_SIG_MODEL_SUBSCRIPTION_GET
  (0x802A, Config.sigModelSubscriptionList), -- CONFIG_SIG_MODEL_SUBSCRIPTION_LIST
  (0x804D, struct Config.vendorModelGet), -- CONFIG_VENDOR_MODEL_APP_GET
  (0x804E, Config.vendorModelAppList), -- CONFIG_VENDOR_MODEL_APP_LIST
  (0x802B, struct Config.vendorModelGet), -- CONFIG_VENDOR_MODEL_SUBSCRIPTION_GET
  (0x802C, Config.vendorModelSubscriptionList)] -- CONFIG_VENDOR_MODEL_SUBSCRIPTION_LIST

/-- generic/battery.py:89-98 `GenericBatteryMessage`: the payload table. -/
def genericBatteryCases [Platform] : List (Int × Con UInt8) := [
  (0x8223, struct []), -- GENERIC_BATTERY_GET
  (0x8224, Battery.status)] -- GENERIC_BATTERY_STATUS

/-- generic/level.py:104-119 `GenericLevelMessage`: the payload table. -/
def genericLevelCases [Platform] : List (Int × Con UInt8) := [
  (0x8205, struct []), -- GENERIC_LEVEL_GET
  (0x8206, Level.set), -- GENERIC_LEVEL_SET
  (0x8207, Level.set), -- GENERIC_LEVEL_SET_UNACKNOWLEDGED
  (0x8208, Level.status), -- GENERIC_LEVEL_STATUS
  (0x8209, Level.delta), -- GENERIC_DELTA_SET
  (0x820A, Level.delta), -- GENERIC_DELTA_SET_UNACKNOWLEDGED
  (0x820B, Level.move), -- GENERIC_MOVE_SET
  (0x820C, Level.move)] -- GENERIC_MOVE_SET_UNACKNOWLEDGED

/-- generic/onoff.py:73-84 `GenericOnOffMessage`: the payload table. -/
def genericOnOffCases [Platform] : List (Int × Con UInt8) := [
  (0x8201, struct []), -- GENERIC_ONOFF_GET
  (0x8202, OnOff.set), -- GENERIC_ONOFF_SET
  (0x8203, OnOff.set), -- GENERIC_ONOFF_SET_UNACKNOWLEDGED
  (0x8204, OnOff.status)] -- GENERIC_ONOFF_STATUS

/-- generic/property.py:131-159 `GenericPropertyMessage`: the payload table. -/
def genericPropertyCases [Platform] : List (Int × Con UInt8) := [
  (0x822E, struct GenericProperty.propertiesGet), -- GENERIC_USER_PROPERTIES_GET
  (0x4B, struct GenericProperty.propertiesStatus), -- GENERIC_USER_PROPERTIES_STATUS
  (0x822F, struct GenericProperty.propertyGet), -- GENERIC_USER_PROPERTY_GET
  (0x4C, GenericProperty.userPropertySet), -- GENERIC_USER_PROPERTY_SET
  (0x4D, GenericProperty.userPropertySet), -- GENERIC_USER_PROPERTY_SET_UNACKNOWLEDGED
  (0x4E, GenericProperty.propertyStatus), -- GENERIC_USER_PROPERTY_STATUS
  (0x822C, struct GenericProperty.propertiesGet), -- GENERIC_ADMIN_PROPERTIES_GET
  (0x47, struct GenericProperty.propertiesStatus), -- GENERIC_ADMIN_PROPERTIES_STATUS
  (0x822D, struct GenericProperty.propertyGet), -- GENERIC_ADMIN_PROPERTY_GET
  (0x48, GenericProperty.propertyStatus), -- GENERIC_ADMIN_PROPERTY_SET
  (0x49, GenericProperty.propertyStatus), -- GENERIC_ADMIN_PROPERTY_SET_UNACKNOWLEDGED
  (0x4A, GenericProperty.propertyStatus), -- GENERIC_ADMIN_PROPERTY_STATUS
  (0x822A, struct GenericProperty.propertiesGet), -- GENERIC_MANUFACTURER_PROPERTIES_GET
  (0x43, struct GenericProperty.propertiesStatus), -- GENERIC_MANUFACTURER_PROPERTIES_STATUS
  (0x822B, struct GenericProperty.propertyGet), -- GENERIC_MANUFACTURER_PROPERTY_GET
  (0x44, struct GenericProperty.manufacturerPropertySet), -- GENERIC_MANUFACTURER_PROPERTY_SET
  (0x45, struct GenericProperty.manufacturerPropertySet), -- GENERIC_MANUFACTURER_PROPERTY_SET_UNACKNOWLEDGED
  (0x46, GenericProperty.propertyStatus), -- GENERIC_MANUFACTURER_PROPERTY_STATUS
  (0x4F, struct GenericProperty.propertiesGet), -- GENERIC_CLIENT_PROPERTIES_GET
  (0x50, struct GenericProperty.propertiesStatus)] -- GENERIC_CLIENT_PROPERTIES_STATUS

/-- health.py:95-117 `HealthMessage`: the payload table. -/
def healthCases [Platform] : List (Int × Con UInt8) := [
  (0x8004, struct []), -- HEALTH_ATTENTION_GET
  (0x8005, Health.attention), -- HEALTH_ATTENTION_SET
  (0x8006, Health.attention), -- HEALTH_ATTENTION_SET_UNACKNOWLEDGED
  (0x8007, Health.attention), -- HEALTH_ATTENTION_STATUS
  (0x4, Health.faultStatus), -- HEALTH_CURRENT_STATUS
  (0x802F, Health.companyId), -- HEALTH_FAULT_CLEAR
  (0x8030, Health.companyId), -- HEALTH_FAULT_CLEAR_UNACKNOWLEDGED
  (0x8031, Health.companyId), -- HEALTH_FAULT_GET
  (0x5, Health.faultStatus), -- HEALTH_FAULT_STATUS
  (0x8032, Health.faultTest), -- HEALTH_FAULT_TEST
  (0x8033, Health.faultTest), -- HEALTH_FAULT_TEST_UNACKNOWLEDGED
  (0x8034, struct []), -- HEALTH_PERIOD_GET
  (0x8035, Health.fastPeriodDivisor), -- HEALTH_PERIOD_SET
  (0x8036, Health.fastPeriodDivisor), -- HEALTH_PERIOD_SET_UNACKNOWLEDGED
  (0x8037, Health.fastPeriodDivisor)] -- HEALTH_PERIOD_STATUS

/-- light/ctl.py:144-163 `LightCTLMessage`: the payload table. -/
def lightCTLCases [Platform] : List (Int × Con UInt8) := [
  (0x825D, struct []), -- LIGHT_CTL_GET
  (0x825E, CTL.set), -- LIGHT_CTL_SET
  (0x825F, CTL.set), -- LIGHT_CTL_SET_UNACKNOWLEDGED
  (0x8260, CTL.status), -- LIGHT_CTL_STATUS
  (0x8261, struct []), -- LIGHT_CTL_TEMPERATURE_GET
  (0x8262, struct []), -- LIGHT_CTL_TEMPERATURE_RANGE_GET
  (0x8263, CTL.rangeStatus), -- LIGHT_CTL_TEMPERATURE_RANGE_STATUS
  (0x8264, CTL.temperatureSet), -- LIGHT_CTL_TEMPERATURE_SET
  (0x8265, CTL.temperatureSet), -- LIGHT_CTL_TEMPERATURE_SET_UNACKNOWLEDGED
  (0x8266, CTL.temperatureStatus), -- LIGHT_CTL_TEMPERATURE_STATUS
  (0x8267, struct []), -- LIGHT_CTL_TEMPERATURE_DEFAULT_GET
  (0x8268, struct CTL.default)] -- LIGHT_CTL_TEMPERATURE_DEFAULT_STATUS

/-- light/ctl.py:166-177 `LightCTLSetupMessage`: the payload table. -/
def lightCTLSetupCases [Platform] : List (Int × Con UInt8) := [
  (0x8269, struct CTL.default), -- LIGHT_CTL_SETUP_TEMPERATURE_DEFAULT_SET
  (0x826A, struct CTL.default), -- LIGHT_CTL_SETUP_TEMPERATURE_DEFAULT_SET_UNACKNOWLEDGED
  (0x826B, struct CTL.range), -- LIGHT_CTL_SETUP_TEMPERATURE_RANGE_SET
  (0x826C, struct CTL.range)] -- LIGHT_CTL_SETUP_TEMPERATURE_RANGE_SET_UNACKNOWLEDGED

/-- light/lightness.py:108-129 `LightLightnessMessage`: the payload table. -/
def lightLightnessCases [Platform] : List (Int × Con UInt8) := [
  (0x824B, struct []), -- LIGHT_LIGHTNESS_GET
  (0x824C, Lightness.set), -- LIGHT_LIGHTNESS_SET
  (0x824D, Lightness.set), -- LIGHT_LIGHTNESS_SET_UNACKNOWLEDGED
  (0x824E, Lightness.status), -- LIGHT_LIGHTNESS_STATUS
  (0x824F, struct []), -- LIGHT_LIGHTNESS_LINEAR_GET
  (0x8250, Lightness.set), -- LIGHT_LIGHTNESS_LINEAR_SET
  (0x8251, Lightness.set), -- LIGHT_LIGHTNESS_LINEAR_SET_UNACKNOWLEDGED
  (0x8252, Lightness.status), -- LIGHT_LIGHTNESS_LINEAR_STATUS
  (0x8253, struct []), -- LIGHT_LIGHTNESS_LAST_GET
  (0x8254, Lightness.default), -- LIGHT_LIGHTNESS_LAST_STATUS
  (0x8255, struct []), -- LIGHT_LIGHTNESS_DEFAULT_GET
  (0x8256, Lightness.default), -- LIGHT_LIGHTNESS_DEFAULT_STATUS
  (0x8257, struct []), -- LIGHT_LIGHTNESS_RANGE_GET
  (0x8258, Lightness.rangeStatus)] -- LIGHT_LIGHTNESS_RANGE_STATUS

/-- light/lightness.py:131-142 `LightLightnessSetupMessage`: the payload table. -/
def lightLightnessSetupCases [Platform] : List (Int × Con UInt8) := [
  (0x8259, Lightness.default), -- LIGHT_LIGHTNESS_SETUP_DEFAULT_SET
  (0x825A, Lightness.default), -- LIGHT_LIGHTNESS_SETUP_DEFAULT_SET_UNACKNOWLEDGED
  (0x825B, struct Lightness.range), -- LIGHT_LIGHTNESS_SETUP_RANGE_SET
  (0x825C, struct Lightness.range)] -- LIGHT_LIGHTNESS_SETUP_RANGE_SET_UNACKNOWLEDGED

/-- scene.py:102-120 `SceneMessage`: the payload table. -/
def sceneCases [Platform] : List (Int × Con UInt8) := [
  (0x8241, struct []), -- SCENE_GET
  (0x8242, Scene.recall), -- SCENE_RECALL
  (0x8243, Scene.recall), -- SCENE_RECALL_UNACKNOWLEDGED
  (0x5E, Scene.status), -- SCENE_STATUS
  (0x8244, struct []), -- SCENE_REGISTER_GET
  (0x8245, Scene.registerStatus), -- SCENE_REGISTER_STATUS
  (0x8246, Scene.setupWithValidation), -- SCENE_STORE
  (0x8247, Scene.setupWithValidation), -- SCENE_STORE_UNACKNOWLEDGED
  (0x829E, Scene.setup), -- SCENE_DELETE
  (0x829F, Scene.setup)] -- SCENE_DELETE_UNACKNOWLEDGED

/-- sensor.py:340-355 `SensorMessage`: the payload table. -/
def sensorCases [Platform] : List (Int × Con UInt8) := [
  (0x8230, Sensor.get), -- SENSOR_DESCRIPTOR_GET
  (0x51, Sensor.descriptorStatus), -- SENSOR_DESCRIPTOR_STATUS
  (0x8231, Sensor.get), -- SENSOR_GET
  (0x52, Sensor.status)] -- SENSOR_STATUS

/-- sensor.py:357-374 `SensorSetupMessage`: the payload table. -/
def sensorSetupCases [Platform] : List (Int × Con UInt8) := [
  (0x8234, struct Sensor.getOptional), -- SENSOR_CADENCE_GET
  (0x8235, struct Sensor.settingsGet), -- SENSOR_SETTINGS_GET
  (0x58, struct Sensor.settingsStatus), -- SENSOR_SETTINGS_STATUS
  (0x8236, struct Sensor.settingGet), -- SENSOR_SETTING_GET
  (0x59, Sensor.settingSet), -- SENSOR_SETTING_SET
  (0x5A, Sensor.settingSet), -- SENSOR_SETTING_SET_UNACKNOWLEDGED
  (0x5B, Sensor.settingStatus)] -- SENSOR_SETTING_STATUS

/-- silvair/debug.py:197-235 `DebugParams`: the table of sub-messages. -/
def debugParamsCases [Platform] : List (Int × Con UInt8) := [
  (0x0, struct []), -- RSSI_THRESHOLD_GET
  (0x1, Debug.rssiThreshold), -- RSSI_THRESHOLD_SET
  (0x2, Debug.rssiThreshold), -- RSSI_THRESHOLD_STATUS
  (0x3, Debug.radioTest), -- RADIO_TEST
  (0xA, struct []), -- UPTIME_GET
  (0xB, Debug.uptimeStatus), -- UPTIME_STATUS
  (0xC, struct []), -- LAST_SW_FAULT_GET
  (0xD, struct []), -- LAST_SW_FAULT_CLEAR
  (0xE, Debug.lastSwFaultStatus), -- LAST_SW_FAULT_STATUS
  (0xF, struct []), -- SYSTEM_STATS_GET
  (0x10, Debug.systemStatsStatus), -- SYSTEM_STATS_STATUS
  (0x11, struct []), -- LAST_MALLOC_FAULT_GET
  (0x12, struct []), -- LAST_MALLOC_FAULT_CLEAR
  (0x13, Debug.lastSwFaultStatus), -- LAST_MALLOC_FAULT_STATUS
  (0x14, struct []), -- LAST_FDS_FAULT_GET
  (0x15, struct []), -- LAST_FDS_FAULT_CLEAR
  (0x16, Debug.lastSwFaultStatus), -- LAST_FDS_FAULT_STATUS
  (0x17, struct []), -- BYTES_BEFORE_GARBAGE_COLLECTOR_GET
  (0x18, Debug.bytesBeforeGarbageCollectorStatus), -- BYTES_BEFORE_GARBAGE_COLLECTOR_STATUS
  (0x19, struct []), -- PROVISIONED_APP_VERSION_GET
  (0x1A, Debug.provisionedAppVersionStatus), -- PROVISIONED_APP_VERSION_STATUS
  (0x1B, struct []), -- FULL_FIRMWARE_VERSION_GET
  (0x1C, Debug.fullFirmwareVersionStatus), -- FULL_FIRMWARE_VERSION_STATUS
  (0x1D, struct []), -- IV_INDEX_GET
  (0x1E, Debug.ivIndexStatus), -- IV_INDEX_STATUS
  (0x1F, struct []), -- GARBAGE_COLLECTOR_COUNTER_GET
  (0x20, Debug.garbageCollectorCounterStatus), -- GARBAGE_COLLECTOR_COUNTER_STATUS
  (0x21, struct []), -- ARAP_LIST_SIZE_GET
  (0x22, Debug.arapListSizeStatus), -- ARAP_LIST_SIZE_STATUS
  (0x23, Debug.arapListContentGet), -- ARAP_LIST_CONTENT_GET
  (0x24, Debug.arapListContentStatus)] -- ARAP_LIST_CONTENT_STATUS

/-- silvair/debug.py:237-245 `DebugMessage`: the payload table. -/
def debugCases [Platform] : List (Int × Con UInt8) := [
  (0xF53601, subMessage E.DebugSubOpcode debugParamsCases)] -- SILVAIR_DEBUG

/-- silvair/debugV2.py:155-163 `DebugV2Message`: the payload table. -/
def debugV2Cases [Platform] : List (Int × Con UInt8) := [
  (0xEB3601, DebugV2.subMessage)] -- SILVAIR_DEBUG_V2

/-- silvair/emergency_lighting.py:140-165 `EmergencyLightingParams`: the table of sub-messages. -/
def emergencyLightingParamsCases [Platform] : List (Int × Con UInt8) := [
  (0x0, struct []), -- EL_INHIBIT_ENTER
  (0x1, struct []), -- EL_INHIBIT_ENTER_UNACKNOWLEDGED
  (0x2, struct []), -- EL_INHIBIT_EXIT
  (0x3, struct []), -- EL_INHIBIT_EXIT_UNACKNOWLEDGED
  (0x4, struct []), -- EL_STATE_GET
  (0x5, EL.stateStatus), -- EL_STATE_STATUS
  (0x6, struct EL.propertyGet), -- EL_PROPERTY_GET
  (0x7, EL.propertySet), -- EL_PROPERTY_SET
  (0x8, EL.propertySet), -- EL_PROPERTY_SET_UNACKNOWLEDGED
  (0x9, EL.propertySet), -- EL_PROPERTY_STATUS
  (0xA, struct []), -- EL_LAMP_OPERATION_TIME_GET
  (0xB, struct []), -- EL_LAMP_OPERATION_TIME_CLEAR
  (0xC, struct []), -- EL_LAMP_OPERATION_TIME_CLEAR_UNACKNOWLEDGED
  (0xD, EL.lampOperationTimeStatus), -- EL_LAMP_OPERATION_TIME_STATUS
  (0xE, struct []), -- EL_REST_ENTER
  (0xF, struct []), -- EL_REST_ENTER_UNACKNOWLEDGED
  (0x10, struct []), -- EL_REST_EXIT
  (0x11, struct [])] -- EL_REST_EXIT_UNACKNOWLEDGED

/-- silvair/emergency_lighting.py:167-175 `EmergencyLightingMessage`: the payload table. -/
def emergencyLightingCases [Platform] : List (Int × Con UInt8) := [
  (0xEA3601, subMessage E.EmergencyLightingSubOpcode emergencyLightingParamsCases)] -- SILVAIR_EL

/-- silvair/emergency_lighting_test.py:271-290 `EmergencyLightingTestParams`: the table of sub-messages. -/
def emergencyLightingTestParamsCases [Platform] : List (Int × Con UInt8) := [
  (0x0, struct []), -- ELT_FUNCTIONAL_TEST_GET
  (0x1, struct []), -- ELT_FUNCTIONAL_TEST_START
  (0x2, struct []), -- ELT_FUNCTIONAL_TEST_STOP
  (0x3, ELT.functionalStatus), -- ELT_FUNCTIONAL_TEST_STATUS
  (0x4, struct []), -- ELT_DURATION_TEST_GET
  (0x5, struct []), -- ELT_DURATION_TEST_START
  (0x6, struct []), -- ELT_DURATION_TEST_STOP
  (0x7, ELT.durationStatus), -- ELT_DURATION_TEST_STATUS
  (0x8, struct ELT.propertyGet), -- ELT_PROPERTY_GET
  (0x9, ELT.propertySet), -- ELT_PROPERTY_SET
  (0xA, ELT.propertySet), -- ELT_PROPERTY_SET_UNACKNOWLEDGED
  (0xB, ELT.propertySet)] -- ELT_PROPERTY_STATUS

/-- silvair/emergency_lighting_test.py:292-300 `EmergencyLightingTestMessage`: the payload table. -/
def emergencyLightingTestCases [Platform] : List (Int × Con UInt8) := [
  (0xE93601, subMessage E.EmergencyLightingTestSubOpcode emergencyLightingTestParamsCases)] -- SILVAIR_ELT

/-- silvair/gateway_config_server.py:212-230 `GatewayConfigParams`: the table of sub-messages. -/
def gatewayConfigParamsCases [Platform] : List (Int × Con UInt8) := [
  (0x1, Gateway.configurationSet), -- GATEWAY_CONFIGURATION_SET
  (0x4, Gateway.setMtu), -- MTU_SIZE_SET
  (0x5, Gateway.setMacAddr), -- ETHERNET_MAC_ADDRESS_SET
  (0x6, Gateway.setServerAddrAndPortNr), -- SERVER_ADDRESS_AND_PORT_NUMBER_SET
  (0x7, Gateway.setReconnectInterval), -- RECONNECT_INTERVAL_SET
  (0x8, Gateway.setDnsIpAddr), -- DNS_IP_ADDRESS_SET
  (0x9, Gateway.setIpAddr), -- IP_ADDRESS_SET
  (0xA, Gateway.setGatewayIpAddr), -- GATEWAY_IP_ADDRESS_SET
  (0xB, Gateway.setNetmask), -- NETMASK_SET
  (0xC, Gateway.configurationStatus), -- GATEWAY_CONFIGURATION_STATUS
  (0xD, Gateway.packetsStatus)] -- GATEWAY_PACKETS_STATUS

/-- silvair/gateway_config_server.py:232-240 `GatewayConfigMessage`: the payload table. -/
def gatewayConfigCases [Platform] : List (Int × Con UInt8) := [
  (0xF03601, subMessage E.GatewayConfigServerSubOpcode gatewayConfigParamsCases)] -- SILVAIR_GATEWAY

/-- silvair/light_extended_controller.py:89-101 `LightExtendedControllerParams`: the table of sub-messages. -/
def lightExtendedControllerParamsCases [Platform] : List (Int × Con UInt8) := [
  (0x0, struct LEC.propertyGet), -- PROPERTY_GET
  (0x1, LEC.propertySet), -- PROPERTY_SET
  (0x2, LEC.propertySet), -- PROPERTY_SET_UNACKNOWLEDGED
  (0x3, LEC.propertySet), -- PROPERTY_STATUS
  (0x9, LEC.syncIntegralStatus)] -- SYNC_INTEGRAL_STATUS

/-- silvair/light_extended_controller.py:103-111 `LightExtendedControllerMessage`: the payload table. -/
def lightExtendedControllerCases [Platform] : List (Int × Con UInt8) := [
  (0xF63601, subMessage E.LightExtendedControllerSubOpcode lightExtendedControllerParamsCases)] -- SILVAIR_LEC

/-- silvair/network_diagnostic_server.py:108-120 `NetworkDiagnosticServerParams`: the table of sub-messages. -/
def networkDiagnosticServerParamsCases [Platform] : List (Int × Con UInt8) := [
  (0x0, struct []), -- SUBSCRIPTION_GET
  (0x1, NDS.subscriptionSet), -- SUBSCRIPTION_SET
  (0x2, NDS.subscriptionSet), -- SUBSCRIPTION_SET_UNACKNOWLEDGED
  (0x3, NDS.subscriptionStatus), -- SUBSCRIPTION_STATUS
  (0x4, struct [])] -- RADIO_STAT_GET

/-- silvair/network_diagnostic_server.py:134-142 `NetworkDiagnosticServerMessage`: the payload table. -/
def networkDiagnosticServerCases [Platform] : List (Int × Con UInt8) := [
  (0xFC3601, subMessage E.NetworkDiagnosticServerSubOpcode networkDiagnosticServerParamsCases)] -- SILVAIR_NDS

/-- silvair/network_diagnostic_server.py:122-132 `NetworkDiagnosticSetupServerParams`: the table of sub-messages. -/
def networkDiagnosticSetupServerParamsCases [Platform] : List (Int × Con UInt8) := [
  (0x0, struct []), -- PUBLICATION_GET
  (0x1, NDS.publicationSet), -- PUBLICATION_SET
  (0x2, NDS.publicationSet)] -- PUBLICATION_STATUS

/-- silvair/network_diagnostic_server.py:144-152 `NetworkDiagnosticSetupServerMessage`: the payload table. -/
def networkDiagnosticSetupServerCases [Platform] : List (Int × Con UInt8) := [
  (0xFD3601, subMessage E.NetworkDiagnosticSetupServerSubOpcode networkDiagnosticSetupServerParamsCases)] -- SILVAIR_NDS_SETUP

/-- silvair/rrule_scheduler.py:242-263 `RRuleSchedulerSubMessage`: the table of sub-messages. -/
def rRuleSchedulerSubMessageCases [Platform] : List (Int × Con UInt8) := [
  (0x0, struct []), -- RULES_LIST_GET
  (0x1, RRule.rulesListStatus), -- RULES_LIST_STATUS
  (0x2, struct []), -- REGISTER_MAX_SIZE_GET
  (0x3, RRule.registerMaxSizeStatus), -- REGISTER_MAX_SIZE_STATUS
  (0x4, struct []), -- SCHEDULER_MODE_GET
  (0x5, RRule.schedulerModeSet), -- SCHEDULER_MODE_SET
  (0x6, RRule.schedulerModeSet), -- SCHEDULER_MODE_STATUS
  (0x7, RRule.entryGet), -- SCHEDULE_REGISTER_ENTRY_GET
  (0x8, RRule.entrySet), -- SCHEDULE_REGISTER_ENTRY_SET
  (0x9, RRule.entryGet), -- SCHEDULE_REGISTER_ENTRY_DELETE
  (0xA, struct []), -- SCHEDULE_REGISTER_ENTRY_DELETE_ALL
  (0xB, RRule.entryStatus), -- SCHEDULE_REGISTER_ENTRY_STATUS
  (0xC, struct []), -- SCHEDULE_REGISTER_LIST_GET
  (0xD, RRule.listStatus)] -- SCHEDULE_REGISTER_LIST_STATUS

/-- silvair/rrule_scheduler.py:265-273 `RRuleSchedulerMessage`: the payload table. -/
def rRuleSchedulerCases [Platform] : List (Int × Con UInt8) := [
  (0xE83601, plainSubMessage E.RRuleSchedulerSubOpcode rRuleSchedulerSubMessageCases)] -- SILVAIR_RRULE_SCHEDULER

/-- time.py:308-327 `TimeMessage`: the payload table. -/
def timeCases [Platform] : List (Int × Con UInt8) := [
  (0x8237, struct []), -- TIME_GET
  (0x5C, Time.timeSet), -- TIME_SET
  (0x5D, Time.timeSet), -- TIME_STATUS
  (0x823B, struct []), -- TIME_ZONE_GET
  (0x823C, Time.timeZoneSet), -- TIME_ZONE_SET
  (0x823D, Time.timeZoneStatus), -- TIME_ZONE_STATUS
  (0x823E, struct []), -- TAI_UTC_DELTA_GET
  (0x823F, Time.deltaSet), -- TAI_UTC_DELTA_SET
  (0x8240, Time.deltaStatus), -- TAI_UTC_DELTA_STATUS
  (0x8238, struct []), -- TIME_ROLE_GET
  (0x8239, Time.timeRoleMsg), -- TIME_ROLE_SET
  (0x823A, Time.timeRoleMsg)] -- TIME_ROLE_STATUS

/-- __init__.py:36-60 `_AccessMessage.OPCODES`: opcode enumerations and their message tables, in order. -/
def registry [Platform] : List (EnumDef × List (Int × Con UInt8)) := [
  (E.ConfigOpcode, configCases),
  (E.DebugOpcode, debugCases),
  (E.GatewayConfigServerOpcode, gatewayConfigCases),
  (E.GenericOnOffOpcode, genericOnOffCases),
  (E.GenericBatteryOpcode, genericBatteryCases),
  (E.GenericLevelOpcode, genericLevelCases),
  (E.LightLightnessOpcode, lightLightnessCases),
  (E.LightLightnessSetupOpcode, lightLightnessSetupCases),
  (E.LightCTLOpcode, lightCTLCases),
  (E.LightCTLSetupOpcode, lightCTLSetupCases),
  (E.HealthOpcode, healthCases),
  (E.NetworkDiagnosticServerOpcode, networkDiagnosticServerCases),
  (E.NetworkDiagnosticSetupServerOpcode, networkDiagnosticSetupServerCases),
  (E.SceneOpcode, sceneCases),
  (E.SensorOpcode, sensorCases),
  (E.SensorSetupOpcode, sensorSetupCases),
  (E.LightExtendedControllerOpcode, lightExtendedControllerCases),
  (E.TimeOpcode, timeCases),
  (E.DebugV2Opcode, debugV2Cases),
  (E.RRuleSchedulerOpcode, rRuleSchedulerCases),
  (E.GenericPropertyOpcode, genericPropertyCases),
  (E.EmergencyLightingOpcode, emergencyLightingCases),
  (E.EmergencyLightingTestOpcode, emergencyLightingTestCases)]

/-- The opcode enumerations of the registry. -/
def opcodeEnums : List EnumDef := [
  E.ConfigOpcode,
  E.DebugOpcode,
  E.GatewayConfigServerOpcode,
  E.GenericOnOffOpcode,
  E.GenericBatteryOpcode,
  E.GenericLevelOpcode,
  E.LightLightnessOpcode,
  E.LightLightnessSetupOpcode,
  E.LightCTLOpcode,
  E.LightCTLSetupOpcode,
  E.HealthOpcode,
  E.NetworkDiagnosticServerOpcode,
  E.NetworkDiagnosticSetupServerOpcode,
  E.SceneOpcode,
  E.SensorOpcode,
  E.SensorSetupOpcode,
  E.LightExtendedControllerOpcode,
  E.TimeOpcode,
  E.DebugV2Opcode,
  E.RRuleSchedulerOpcode,
  E.GenericPropertyOpcode,
  E.EmergencyLightingOpcode,
  E.EmergencyLightingTestOpcode]

end Tables
end BM
