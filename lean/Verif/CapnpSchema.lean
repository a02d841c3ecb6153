import Verif.Schema
/-!
# The schema of the messages

Generated by tools/gen_capnp_schema.py: what the model of capnproto/generator.py:286-327 prints for the messages of the repository (evaluated by the
tool; not a theorem).
-/
namespace BM.Capnp
open BM.Schema

/-- A union of the struct `AccessMessage` (printed by capnproto/generator.py:315-321). -/
def g_AccessMessage_genericOnoffSet : List Tree := [.field (some "optional") "GenericOnOffSetOptional", .field (some "minimal") "GenericOnOffSetMinimal"]

/-- A union of the struct `AccessMessage` (printed by capnproto/generator.py:315-321). -/
def g_AccessMessage_genericOnoffSetUnacknowledged : List Tree := [.field (some "optional") "GenericOnOffSetOptional", .field (some "minimal") "GenericOnOffSetMinimal"]

/-- A union of the struct `AccessMessage` (printed by capnproto/generator.py:315-321). -/
def g_AccessMessage_genericOnoffStatus : List Tree := [.field (some "optional") "GenericOnOffStatusOptional", .field (some "minimal") "GenericOnOffStatusMinimal"]

/-- A union of the struct `AccessMessage` (printed by capnproto/generator.py:315-321). -/
def g_AccessMessage_genericLevelSet : List Tree := [.field (some "optional") "GenericLevelSetOptional", .field (some "minimal") "GenericLevelSetMinimal"]

/-- A union of the struct `AccessMessage` (printed by capnproto/generator.py:315-321). -/
def g_AccessMessage_genericLevelSetUnacknowledged : List Tree := [.field (some "optional") "GenericLevelSetOptional", .field (some "minimal") "GenericLevelSetMinimal"]

/-- A union of the struct `AccessMessage` (printed by capnproto/generator.py:315-321). -/
def g_AccessMessage_genericLevelStatus : List Tree := [.field (some "optional") "GenericLevelStatusOptional", .field (some "minimal") "GenericLevelStatusMinimal"]

/-- A union of the struct `AccessMessage` (printed by capnproto/generator.py:315-321). -/
def g_AccessMessage_genericDeltaSet : List Tree := [.field (some "optional") "GenericDeltaSetOptional", .field (some "minimal") "GenericDeltaSetMinimal"]

/-- A union of the struct `AccessMessage` (printed by capnproto/generator.py:315-321). -/
def g_AccessMessage_genericDeltaSetUnacknowledged : List Tree := [.field (some "optional") "GenericDeltaSetOptional", .field (some "minimal") "GenericDeltaSetMinimal"]

/-- A union of the struct `AccessMessage` (printed by capnproto/generator.py:315-321). -/
def g_AccessMessage_genericMoveSet : List Tree := [.field (some "optional") "GenericMoveSetOptional", .field (some "minimal") "GenericMoveSetMinimal"]

/-- A union of the struct `AccessMessage` (printed by capnproto/generator.py:315-321). -/
def g_AccessMessage_genericMoveSetUnacknowledged : List Tree := [.field (some "optional") "GenericMoveSetOptional", .field (some "minimal") "GenericMoveSetMinimal"]

/-- A union of the struct `AccessMessage` (printed by capnproto/generator.py:315-321). -/
def g_AccessMessage_lightLightnessSet : List Tree := [.field (some "optional") "LightLightnessSetOptional", .field (some "minimal") "LightLightnessSetMinimal"]

/-- A union of the struct `AccessMessage` (printed by capnproto/generator.py:315-321). -/
def g_AccessMessage_lightLightnessSetUnacknowledged : List Tree := [.field (some "optional") "LightLightnessSetOptional", .field (some "minimal") "LightLightnessSetMinimal"]

/-- A union of the struct `AccessMessage` (printed by capnproto/generator.py:315-321). -/
def g_AccessMessage_lightLightnessStatus : List Tree := [.field (some "optional") "LightLightnessStatusOptional", .field (some "minimal") "LightLightnessStatusMinimal"]

/-- A union of the struct `AccessMessage` (printed by capnproto/generator.py:315-321). -/
def g_AccessMessage_lightLightnessLinearSet : List Tree := [.field (some "optional") "LightLightnessSetOptional", .field (some "minimal") "LightLightnessSetMinimal"]

/-- A union of the struct `AccessMessage` (printed by capnproto/generator.py:315-321). -/
def g_AccessMessage_lightLightnessLinearSetUnacknowledged : List Tree := [.field (some "optional") "LightLightnessSetOptional", .field (some "minimal") "LightLightnessSetMinimal"]

/-- A union of the struct `AccessMessage` (printed by capnproto/generator.py:315-321). -/
def g_AccessMessage_lightLightnessLinearStatus : List Tree := [.field (some "optional") "LightLightnessStatusOptional", .field (some "minimal") "LightLightnessStatusMinimal"]

/-- A union of the struct `AccessMessage` (printed by capnproto/generator.py:315-321). -/
def g_AccessMessage_lightCtlSet : List Tree := [.field (some "optional") "LightCTLSetOptional", .field (some "minimal") "LightCTLSetMinimal"]

/-- A union of the struct `AccessMessage` (printed by capnproto/generator.py:315-321). -/
def g_AccessMessage_lightCtlSetUnacknowledged : List Tree := [.field (some "optional") "LightCTLSetOptional", .field (some "minimal") "LightCTLSetMinimal"]

/-- A union of the struct `AccessMessage` (printed by capnproto/generator.py:315-321). -/
def g_AccessMessage_lightCtlStatus : List Tree := [.field (some "optional") "LightCTLStatusOptional", .field (some "minimal") "LightCTLStatusMinimal"]

/-- A union of the struct `AccessMessage` (printed by capnproto/generator.py:315-321). -/
def g_AccessMessage_lightCtlTemperatureSet : List Tree := [.field (some "optional") "LightCTLTemperatureSetOptional", .field (some "minimal") "LightCTLTemperatureSetMinimal"]

/-- A union of the struct `AccessMessage` (printed by capnproto/generator.py:315-321). -/
def g_AccessMessage_lightCtlTemperatureSetUnacknowledged : List Tree := [.field (some "optional") "LightCTLTemperatureSetOptional", .field (some "minimal") "LightCTLTemperatureSetMinimal"]

/-- A union of the struct `AccessMessage` (printed by capnproto/generator.py:315-321). -/
def g_AccessMessage_lightCtlTemperatureStatus : List Tree := [.field (some "optional") "LightCTLTemperatureStatusOptional", .field (some "minimal") "LightCTLTemperatureStatusMinimal"]

/-- A union of the struct `AccessMessage` (printed by capnproto/generator.py:315-321). -/
def g_AccessMessage_sceneRecall : List Tree := [.field (some "optional") "SceneRecallWithTransition", .field (some "minimal") "SceneRecallMinimal"]

/-- A union of the struct `AccessMessage` (printed by capnproto/generator.py:315-321). -/
def g_AccessMessage_sceneRecallUnacknowledged : List Tree := [.field (some "optional") "SceneRecallWithTransition", .field (some "minimal") "SceneRecallMinimal"]

/-- A union of the struct `AccessMessage` (printed by capnproto/generator.py:315-321). -/
def g_AccessMessage_sceneStatus : List Tree := [.field (some "optional") "SceneStatusWithTargetScene", .field (some "minimal") "SceneStatusMinimal"]

/-- A union of the struct `AccessMessage` (printed by capnproto/generator.py:315-321). -/
def g_AccessMessage_sensorDescriptorGet : List Tree := [.field (some "optional") "SensorGetOptional", .field (some "minimal") "SensorGetMinimal"]

/-- A union of the struct `AccessMessage` (printed by capnproto/generator.py:315-321). -/
def g_AccessMessage_sensorGet : List Tree := [.field (some "optional") "SensorGetOptional", .field (some "minimal") "SensorGetMinimal"]

/-- A union of the struct `AccessMessage` (printed by capnproto/generator.py:315-321). -/
def u_AccessMessage : List Tree := [.field (some "configAppkeyAdd") "ConfigAppKeyUpdate", .field (some "configAppkeyDelete") "ConfigAppKeyDelete", .field (some "configAppkeyGet") "ConfigAppKeyGet", .field (some "configAppkeyList") "ConfigAppKeyList", .field (some "configAppkeyStatus") "ConfigAppKeyStatus", .field (some "configAppkeyUpdate") "ConfigAppKeyUpdate", .field (some "configBeaconGet") "ConfigBeaconGet", .field (some "configBeaconSet") "ConfigBeaconStatus", .field (some "configBeaconStatus") "ConfigBeaconStatus", .field (some "configCompositionDataGet") "ConfigCompositionDataGet", .field (some "configCompositionDataStatus") "ConfigCompositionDataStatus", .field (some "configDefaultTtlGet") "ConfigDefaultTTLGet", .field (some "configDefaultTtlSet") "ConfigDefaultTTLStatus", .field (some "configDefaultTtlStatus") "ConfigDefaultTTLStatus", .field (some "configFriendGet") "ConfigFriendGet", .field (some "configFriendSet") "ConfigFriendStatus", .field (some "configFriendStatus") "ConfigFriendStatus", .field (some "configGattProxyGet") "ConfigGATTProxyGet", .field (some "configGattProxySet") "ConfigGATTProxyStatus", .field (some "configGattProxyStatus") "ConfigGATTProxyStatus", .field (some "configHearbeatPublicationGet") "ConfigHeartbeatPublicationGet", .field (some "configHearbeatPublicationSet") "ConfigHeartbeatPublicationSet", .field (some "configHearbeatPublicationStatus") "ConfigHeartbeatPublicationStatus", .field (some "configHearbeatSubscriptionGet") "ConfigHeartbeatSubscriptionGet", .field (some "configHearbeatSubscriptionSet") "ConfigHeartbeatSubscriptionSet", .field (some "configHearbeatSubscriptionStatus") "ConfigHeartbeatSubscriptionStatus", .field (some "configKeyRefreshPhaseGet") "ConfigKeyRefreshPhaseGet", .field (some "configKeyRefreshPhaseSet") "ConfigKeyRefreshPhaseSet", .field (some "configKeyRefreshPhaseStatus") "ConfigKeyRefreshPhaseStatus", .field (some "configLowPowerNodePollTimeoutGet") "ConfigLowPowerNodePollTimeoutGet", .field (some "configLowPowerNodePollTimeoutStatus") "ConfigLowPowerNodePollTimeoutStatus", .field (some "configModelAppBind") "ConfigModelAppUnbind", .field (some "configModelAppStatus") "ConfigModelAppStatus", .field (some "configModelAppUnbind") "ConfigModelAppUnbind", .field (some "configModelPublicationGet") "ConfigModelPublicationGet", .field (some "configModelPublicationSet") "ConfigModelPublicationSet", .field (some "configModelPublicationStatus") "ConfigModelPublicationStatus", .field (some "configModelPublicationVirtualAddressSet") "ConfigModelPublicationVASet", .field (some "configModelSubscriptionAdd") "ConfigModelSubscriptionOverwrite", .field (some "configModelSubscriptionDelete") "ConfigModelSubscriptionOverwrite", .field (some "configModelSubscriptionDeleteAll") "ConfigModelSubscriptionDeleteAll", .field (some "configModelSubscriptionOverwrite") "ConfigModelSubscriptionOverwrite", .field (some "configModelSubscriptionStatus") "ConfigModelSubscriptionStatus", .field (some "configModelSubscriptionVirtualAddressAdd") "ConfigModelSubscriptionVAOverwrite", .field (some "configModelSubscriptionVirtualAddressDelete") "ConfigModelSubscriptionVAOverwrite", .field (some "configModelSubscriptionVirtualAddressOverwrite") "ConfigModelSubscriptionVAOverwrite", .field (some "configNetkeyAdd") "ConfigNetKeyUpdate", .field (some "configNetkeyDelete") "ConfigNetKeyDelete", .field (some "configNetkeyGet") "ConfigNetKeyGet", .field (some "configNetkeyList") "ConfigNetKeyList", .field (some "configNetkeyStatus") "ConfigNetKeyStatus", .field (some "configNetkeyUpdate") "ConfigNetKeyUpdate", .field (some "configNetworkTransmitGet") "ConfigNetworkTransmitGet", .field (some "configNetworkTransmitSet") "ConfigNetworkTransmitStatus", .field (some "configNetworkTransmitStatus") "ConfigNetworkTransmitStatus", .field (some "configNodeIdentityGet") "ConfigNodeIdentityGet", .field (some "configNodeIdentitySet") "ConfigNodeIdentitySet", .field (some "configNodeIdentityStatus") "ConfigNodeIdentityStatus", .field (some "configNodeReset") "ConfigNodeReset", .field (some "configNodeResetStatus") "ConfigNodeResetStatus", .field (some "configRelayGet") "ConfigRelayGet", .field (some "configRelaySet") "ConfigRelayStatus", .field (some "configRelayStatus") "ConfigRelayStatus", .field (some "configSigModelAppGet") "ConfigSIGModelAppGet", .field (some "configSigModelAppList") "ConfigSIGModelAppList", .field (some "configSigModelSubscriptionGet") "ConfigSIGModelSubscriptionGet", .field (some "configSigModelSubscriptionList") "ConfigSIGModelSubscriptionList", .field (some "configVendorModelAppGet") "ConfigVendorModelAppGet", .field (some "configVendorModelAppList") "ConfigVendorModelAppList", .field (some "configVendorModelSubscriptionGet") "ConfigVendorModelSubscriptionGet", .field (some "configVendorModelSubscriptionList") "ConfigVendorModelSubscriptionList", .field (some "silvairDebug") "DebugParams", .field (some "silvairGateway") "GatewayConfigParams", .field (some "genericOnoffGet") "GenericOnOffGet", .union (some "genericOnoffSet") g_AccessMessage_genericOnoffSet, .union (some "genericOnoffSetUnacknowledged") g_AccessMessage_genericOnoffSetUnacknowledged, .union (some "genericOnoffStatus") g_AccessMessage_genericOnoffStatus, .field (some "genericBatteryGet") "GenericBatteryGet", .field (some "genericBatteryStatus") "GenericBatteryStatus", .field (some "genericLevelGet") "GenericLevelGet", .union (some "genericLevelSet") g_AccessMessage_genericLevelSet, .union (some "genericLevelSetUnacknowledged") g_AccessMessage_genericLevelSetUnacknowledged, .union (some "genericLevelStatus") g_AccessMessage_genericLevelStatus, .union (some "genericDeltaSet") g_AccessMessage_genericDeltaSet, .union (some "genericDeltaSetUnacknowledged") g_AccessMessage_genericDeltaSetUnacknowledged, .union (some "genericMoveSet") g_AccessMessage_genericMoveSet, .union (some "genericMoveSetUnacknowledged") g_AccessMessage_genericMoveSetUnacknowledged, .field (some "lightLightnessGet") "LightLightnessGet", .union (some "lightLightnessSet") g_AccessMessage_lightLightnessSet, .union (some "lightLightnessSetUnacknowledged") g_AccessMessage_lightLightnessSetUnacknowledged, .union (some "lightLightnessStatus") g_AccessMessage_lightLightnessStatus, .field (some "lightLightnessLinearGet") "LightLightnessGet", .union (some "lightLightnessLinearSet") g_AccessMessage_lightLightnessLinearSet, .union (some "lightLightnessLinearSetUnacknowledged") g_AccessMessage_lightLightnessLinearSetUnacknowledged, .union (some "lightLightnessLinearStatus") g_AccessMessage_lightLightnessLinearStatus, .field (some "lightLightnessLastGet") "LightLightnessGet", .field (some "lightLightnessLastStatus") "LightLightnessDefault", .field (some "lightLightnessDefaultGet") "LightLightnessGet", .field (some "lightLightnessDefaultStatus") "LightLightnessDefault", .field (some "lightLightnessRangeGet") "LightLightnessGet", .field (some "lightLightnessRangeStatus") "LightLightnessRangeStatus", .field (some "lightLightnessSetupDefaultSet") "LightLightnessDefault", .field (some "lightLightnessSetupDefaultSetUnacknowledged") "LightLightnessDefault", .field (some "lightLightnessSetupRangeSet") "LightLightnessRange", .field (some "lightLightnessSetupRangeSetUnacknowledged") "LightLightnessRange", .field (some "lightCtlGet") "LightCTLGet", .union (some "lightCtlSet") g_AccessMessage_lightCtlSet, .union (some "lightCtlSetUnacknowledged") g_AccessMessage_lightCtlSetUnacknowledged, .union (some "lightCtlStatus") g_AccessMessage_lightCtlStatus, .field (some "lightCtlTemperatureGet") "LightCTLGet", .field (some "lightCtlTemperatureRangeGet") "LightCTLGet", .field (some "lightCtlTemperatureRangeStatus") "LightCTLRangeStatus", .union (some "lightCtlTemperatureSet") g_AccessMessage_lightCtlTemperatureSet, .union (some "lightCtlTemperatureSetUnacknowledged") g_AccessMessage_lightCtlTemperatureSetUnacknowledged, .union (some "lightCtlTemperatureStatus") g_AccessMessage_lightCtlTemperatureStatus, .field (some "lightCtlTemperatureDefaultGet") "LightCTLGet", .field (some "lightCtlTemperatureDefaultStatus") "LightCTLDefault", .field (some "lightCtlSetupTemperatureDefaultSet") "LightCTLDefault", .field (some "lightCtlSetupTemperatureDefaultSetUnacknowledged") "LightCTLDefault", .field (some "lightCtlSetupTemperatureRangeSet") "LightCTLRange", .field (some "lightCtlSetupTemperatureRangeSetUnacknowledged") "LightCTLRange", .field (some "healthAttentionGet") "HealthAttentionGet", .field (some "healthAttentionSet") "HealthAttentionStatus", .field (some "healthAttentionSetUnacknowledged") "HealthAttentionStatus", .field (some "healthAttentionStatus") "HealthAttentionStatus", .field (some "healthCurrentStatus") "HealthFaultStatus", .field (some "healthFaultClear") "HealthFaultClear", .field (some "healthFaultClearUnacknowledged") "HealthFaultClear", .field (some "healthFaultGet") "HealthFaultClear", .field (some "healthFaultStatus") "HealthFaultStatus", .field (some "healthFaultTest") "HealthFaultTest", .field (some "healthFaultTestUnacknowledged") "HealthFaultTest", .field (some "healthPeriodGet") "HealthPeriodGet", .field (some "healthPeriodSet") "HealthPeriodStatus", .field (some "healthPeriodSetUnacknowledged") "HealthPeriodStatus", .field (some "healthPeriodStatus") "HealthPeriodStatus", .field (some "silvairNds") "NetworkDiagnosticServerParams", .field (some "silvairNdsSetup") "NetworkDiagnosticSetupServerParams", .field (some "sceneGet") "SceneGet", .union (some "sceneRecall") g_AccessMessage_sceneRecall, .union (some "sceneRecallUnacknowledged") g_AccessMessage_sceneRecallUnacknowledged, .union (some "sceneStatus") g_AccessMessage_sceneStatus, .field (some "sceneRegisterGet") "SceneRegisterGet", .field (some "sceneRegisterStatus") "SceneRegisterStatus", .field (some "sceneStore") "SceneSetupWithValidation", .field (some "sceneStoreUnacknowledged") "SceneSetupWithValidation", .field (some "sceneDelete") "SceneSetup", .field (some "sceneDeleteUnacknowledged") "SceneSetup", .union (some "sensorDescriptorGet") g_AccessMessage_sensorDescriptorGet, .field (some "sensorDescriptorStatus") "List(SensorDescriptorStatusItem)", .union (some "sensorGet") g_AccessMessage_sensorGet, .field (some "sensorStatus") "List(SensorData)", .field (some "sensorCadenceGet") "SensorGetOptional", .field (some "sensorSettingsGet") "SensorSettingsGet", .field (some "sensorSettingsStatus") "SensorSettingsStatus", .field (some "sensorSettingGet") "SensorSettingGet", .field (some "sensorSettingSet") "SensorSettingSet", .field (some "sensorSettingSetUnacknowledged") "SensorSettingSet", .field (some "sensorSettingStatus") "SensorSettingStatus", .field (some "silvairLec") "LightExtendedControllerParams", .field (some "timeGet") "TimeGet", .field (some "timeSet") "TimeSet", .field (some "timeStatus") "TimeStatus", .field (some "timeZoneGet") "TimeZoneGet", .field (some "timeZoneSet") "TimeZoneSet", .field (some "timeZoneStatus") "TimeZoneStatus", .field (some "taiUtcDeltaGet") "TAIUTCDeltaGet", .field (some "taiUtcDeltaSet") "TAIUTCDeltaSet", .field (some "taiUtcDeltaStatus") "TAIUTCDeltaStatus", .field (some "timeRoleGet") "TimeRoleGet", .field (some "timeRoleSet") "TimeRoleStatus", .field (some "timeRoleStatus") "TimeRoleStatus", .field (some "silvairDebugV2") "DebugV2SubMessage", .field (some "silvairRruleScheduler") "RRuleSchedulerSubMessage", .field (some "genericUserPropertiesGet") "GenericPropertiesGet", .field (some "genericUserPropertiesStatus") "GenericPropertiesStatus", .field (some "genericUserPropertyGet") "GenericPropertyGet", .field (some "genericUserPropertySet") "GenericUserPropertySet", .field (some "genericUserPropertySetUnacknowledged") "GenericUserPropertySet", .field (some "genericUserPropertyStatus") "GenericPropertyStatus", .field (some "genericAdminPropertiesGet") "GenericPropertiesGet", .field (some "genericAdminPropertiesStatus") "GenericPropertiesStatus", .field (some "genericAdminPropertyGet") "GenericPropertyGet", .field (some "genericAdminPropertySet") "GenericAdminPropertySet", .field (some "genericAdminPropertySetUnacknowledged") "GenericAdminPropertySet", .field (some "genericAdminPropertyStatus") "GenericPropertyStatus", .field (some "genericManufacturerPropertiesGet") "GenericPropertiesGet", .field (some "genericManufacturerPropertiesStatus") "GenericPropertiesStatus", .field (some "genericManufacturerPropertyGet") "GenericPropertyGet", .field (some "genericManufacturerPropertySet") "GenericManufacturerPropertySet", .field (some "genericManufacturerPropertySetUnacknowledged") "GenericManufacturerPropertySet", .field (some "genericManufacturerPropertyStatus") "GenericPropertyStatus", .field (some "genericClientPropertiesGet") "GenericPropertiesGet", .field (some "genericClientPropertiesStatus") "GenericPropertiesStatus", .field (some "silvairEl") "EmergencyLightingParams", .field (some "silvairElt") "EmergencyLightingTestParams"]

/-- The struct `AccessMessage` (printed by capnproto/generator.py:323-327). -/
def s_AccessMessage : List Tree := [.field (some "opcode") "UInt32", .union none u_AccessMessage]

/-- The struct `ConfigAppKeyUpdate` (printed by capnproto/generator.py:323-327). -/
def s_ConfigAppKeyUpdate : List Tree := [.field (some "appKeyIndex") "UInt16", .field (some "netKeyIndex") "UInt16", .field (some "appKey") "Data"]

/-- The struct `ConfigAppKeyDelete` (printed by capnproto/generator.py:323-327). -/
def s_ConfigAppKeyDelete : List Tree := [.field (some "appKeyIndex") "UInt16", .field (some "netKeyIndex") "UInt16"]

/-- The struct `ConfigAppKeyGet` (printed by capnproto/generator.py:323-327). -/
def s_ConfigAppKeyGet : List Tree := [.field (some "netKeyIndex") "UInt16"]

/-- The struct `ConfigAppKeyList` (printed by capnproto/generator.py:323-327). -/
def s_ConfigAppKeyList : List Tree := [.field (some "status") "UInt8", .field (some "netKeyIndex") "UInt16", .field (some "appKeyIndices") "List(UInt16)"]

/-- The struct `ConfigAppKeyStatus` (printed by capnproto/generator.py:323-327). -/
def s_ConfigAppKeyStatus : List Tree := [.field (some "status") "UInt8", .field (some "appKeyIndex") "UInt16", .field (some "netKeyIndex") "UInt16"]

/-- The struct `ConfigBeaconGet` (printed by capnproto/generator.py:323-327). -/
def s_ConfigBeaconGet : List Tree := []

/-- The struct `ConfigBeaconStatus` (printed by capnproto/generator.py:323-327). -/
def s_ConfigBeaconStatus : List Tree := [.field (some "beacon") "UInt8"]

/-- The struct `ConfigCompositionDataGet` (printed by capnproto/generator.py:323-327). -/
def s_ConfigCompositionDataGet : List Tree := [.field (some "page") "UInt8"]

/-- A union of the struct `ConfigCompositionDataStatus` (printed by capnproto/generator.py:315-321). -/
def u_ConfigCompositionDataStatus : List Tree := [.field (some "zero") "CompositionDataPage0", .field (some "first") "CompositionDataPage1", .field (some "second") "CompositionDataPage2", .field (some "twoHundredAndFiftyFifth") "Data"]

/-- The struct `ConfigCompositionDataStatus` (printed by capnproto/generator.py:323-327). -/
def s_ConfigCompositionDataStatus : List Tree := [.field (some "page") "UInt8", .union none u_ConfigCompositionDataStatus]

/-- The struct `CompositionDataPage0` (printed by capnproto/generator.py:323-327). -/
def s_CompositionDataPage0 : List Tree := [.field (some "cid") "UInt16", .field (some "pid") "UInt16", .field (some "vid") "UInt16", .field (some "crpl") "UInt16", .field (some "features") "UInt16", .field (some "elements") "List(CompositionDataPage0Element)"]

/-- The struct `CompositionDataPage0Element` (printed by capnproto/generator.py:323-327). -/
def s_CompositionDataPage0Element : List Tree := [.field (some "location") "UInt16", .field (some "sigNumber") "UInt8", .field (some "vendorNumber") "UInt8", .field (some "sigModels") "List(SIGModelId)", .field (some "vendorModels") "List(VendorModelId)"]

/-- The struct `SIGModelId` (printed by capnproto/generator.py:323-327). -/
def s_SIGModelId : List Tree := [.field (some "modelId") "UInt16"]

/-- The struct `VendorModelId` (printed by capnproto/generator.py:323-327). -/
def s_VendorModelId : List Tree := [.field (some "vendorId") "UInt16", .field (some "modelId") "UInt16"]

/-- The struct `CompositionDataPage1` (printed by capnproto/generator.py:323-327). -/
def s_CompositionDataPage1 : List Tree := [.field (some "element") "List(CompositionDataPage1Element)"]

/-- The struct `CompositionDataPage1Element` (printed by capnproto/generator.py:323-327). -/
def s_CompositionDataPage1Element : List Tree := [.field (some "numberS") "UInt8", .field (some "numberV") "UInt8", .field (some "sigModels") "List(ModelRelationItem)", .field (some "vendorModels") "List(ModelRelationItem)"]

/-- A union of the struct `ModelRelationItem` (printed by capnproto/generator.py:315-321). -/
def g_ModelRelationItem_extendedModelsItems : List Tree := [.field (some "short") "List(ExtendedModelShortFormat)", .field (some "long") "List(ExtendedModelLongFormat)"]

/-- The struct `ModelRelationItem` (printed by capnproto/generator.py:323-327). -/
def s_ModelRelationItem : List Tree := [.field (some "extendedItemsCount") "UInt8", .field (some "format") "UInt8", .field (some "correspondingPresent") "UInt8", .field (some "correspondingId") "UInt8", .union (some "extendedModelsItems") g_ModelRelationItem_extendedModelsItems]

/-- The struct `ExtendedModelShortFormat` (printed by capnproto/generator.py:323-327). -/
def s_ExtendedModelShortFormat : List Tree := [.field (some "modelItemIndex") "UInt8", .field (some "elementOffset") "Int8"]

/-- The struct `ExtendedModelLongFormat` (printed by capnproto/generator.py:323-327). -/
def s_ExtendedModelLongFormat : List Tree := [.field (some "modelItemIndex") "UInt8", .field (some "elementOffset") "Int8"]

/-- The struct `CompositionDataPage2` (printed by capnproto/generator.py:323-327). -/
def s_CompositionDataPage2 : List Tree := [.field (some "recordList") "List(MeshProfileEntry)"]

/-- The struct `MeshProfileEntry` (printed by capnproto/generator.py:323-327). -/
def s_MeshProfileEntry : List Tree := [.field (some "meshProfileIdentifier") "UInt16", .field (some "version") "Version", .field (some "numElementOffsets") "UInt8", .field (some "elementOffsetList") "List(UInt8)", .field (some "additionalDataLen") "UInt16", .field (some "additionalData") "List(UInt8)"]

/-- The struct `Version` (printed by capnproto/generator.py:323-327). -/
def s_Version : List Tree := [.field (some "versionX") "UInt8", .field (some "versionY") "UInt8", .field (some "versionZ") "UInt8"]

/-- The struct `ConfigDefaultTTLGet` (printed by capnproto/generator.py:323-327). -/
def s_ConfigDefaultTTLGet : List Tree := []

/-- The struct `ConfigDefaultTTLStatus` (printed by capnproto/generator.py:323-327). -/
def s_ConfigDefaultTTLStatus : List Tree := [.field (some "ttl") "UInt8"]

/-- The struct `ConfigFriendGet` (printed by capnproto/generator.py:323-327). -/
def s_ConfigFriendGet : List Tree := []

/-- The struct `ConfigFriendStatus` (printed by capnproto/generator.py:323-327). -/
def s_ConfigFriendStatus : List Tree := [.field (some "friend") "UInt8"]

/-- The struct `ConfigGATTProxyGet` (printed by capnproto/generator.py:323-327). -/
def s_ConfigGATTProxyGet : List Tree := []

/-- The struct `ConfigGATTProxyStatus` (printed by capnproto/generator.py:323-327). -/
def s_ConfigGATTProxyStatus : List Tree := [.field (some "gattProxy") "UInt8"]

/-- The struct `ConfigHeartbeatPublicationGet` (printed by capnproto/generator.py:323-327). -/
def s_ConfigHeartbeatPublicationGet : List Tree := []

/-- The struct `ConfigHeartbeatPublicationSet` (printed by capnproto/generator.py:323-327). -/
def s_ConfigHeartbeatPublicationSet : List Tree := [.field (some "destination") "UInt16", .field (some "count") "UInt8", .field (some "period") "UInt8", .field (some "ttl") "UInt8", .field (some "features") "List(UInt8)", .field (some "netKeyIndex") "UInt16"]

/-- The struct `ConfigHeartbeatPublicationStatus` (printed by capnproto/generator.py:323-327). -/
def s_ConfigHeartbeatPublicationStatus : List Tree := [.field (some "status") "UInt8", .field (some "destination") "UInt16", .field (some "count") "UInt8", .field (some "period") "UInt8", .field (some "ttl") "UInt8", .field (some "features") "List(UInt8)", .field (some "netKeyIndex") "UInt16"]

/-- The struct `ConfigHeartbeatSubscriptionGet` (printed by capnproto/generator.py:323-327). -/
def s_ConfigHeartbeatSubscriptionGet : List Tree := []

/-- The struct `ConfigHeartbeatSubscriptionSet` (printed by capnproto/generator.py:323-327). -/
def s_ConfigHeartbeatSubscriptionSet : List Tree := [.field (some "source") "UInt16", .field (some "destination") "UInt16", .field (some "periodLog") "UInt8"]

/-- The struct `ConfigHeartbeatSubscriptionStatus` (printed by capnproto/generator.py:323-327). -/
def s_ConfigHeartbeatSubscriptionStatus : List Tree := [.field (some "status") "UInt8", .field (some "source") "UInt16", .field (some "destination") "UInt16", .field (some "periodLog") "UInt8", .field (some "count") "UInt8", .field (some "minHops") "UInt8", .field (some "maxHops") "UInt8"]

/-- The struct `ConfigKeyRefreshPhaseGet` (printed by capnproto/generator.py:323-327). -/
def s_ConfigKeyRefreshPhaseGet : List Tree := [.field (some "netKeyIndex") "UInt16"]

/-- The struct `ConfigKeyRefreshPhaseSet` (printed by capnproto/generator.py:323-327). -/
def s_ConfigKeyRefreshPhaseSet : List Tree := [.field (some "netKeyIndex") "UInt16", .field (some "transition") "UInt8"]

/-- The struct `ConfigKeyRefreshPhaseStatus` (printed by capnproto/generator.py:323-327). -/
def s_ConfigKeyRefreshPhaseStatus : List Tree := [.field (some "status") "UInt8", .field (some "netKeyIndex") "UInt16", .field (some "phase") "UInt8"]

/-- The struct `ConfigLowPowerNodePollTimeoutGet` (printed by capnproto/generator.py:323-327). -/
def s_ConfigLowPowerNodePollTimeoutGet : List Tree := [.field (some "lpnAddress") "UInt16"]

/-- The struct `ConfigLowPowerNodePollTimeoutStatus` (printed by capnproto/generator.py:323-327). -/
def s_ConfigLowPowerNodePollTimeoutStatus : List Tree := [.field (some "lpnAddress") "UInt16", .field (some "pollTimeout") "UInt32"]

/-- A union of the struct `ConfigModelAppUnbind` (printed by capnproto/generator.py:315-321). -/
def g_ConfigModelAppUnbind_model : List Tree := [.field (some "vendor") "VendorModelId", .field (some "sig") "SIGModelId"]

/-- The struct `ConfigModelAppUnbind` (printed by capnproto/generator.py:323-327). -/
def s_ConfigModelAppUnbind : List Tree := [.field (some "elementAddress") "UInt16", .field (some "appKeyIndex") "UInt16", .union (some "model") g_ConfigModelAppUnbind_model]

/-- A union of the struct `ConfigModelAppStatus` (printed by capnproto/generator.py:315-321). -/
def g_ConfigModelAppStatus_model : List Tree := [.field (some "vendor") "VendorModelId", .field (some "sig") "SIGModelId"]

/-- The struct `ConfigModelAppStatus` (printed by capnproto/generator.py:323-327). -/
def s_ConfigModelAppStatus : List Tree := [.field (some "status") "UInt8", .field (some "elementAddress") "UInt16", .field (some "appKeyIndex") "UInt16", .union (some "model") g_ConfigModelAppStatus_model]

/-- A union of the struct `ConfigModelPublicationGet` (printed by capnproto/generator.py:315-321). -/
def g_ConfigModelPublicationGet_model : List Tree := [.field (some "vendor") "VendorModelId", .field (some "sig") "SIGModelId"]

/-- The struct `ConfigModelPublicationGet` (printed by capnproto/generator.py:323-327). -/
def s_ConfigModelPublicationGet : List Tree := [.field (some "elementAddress") "UInt16", .union (some "model") g_ConfigModelPublicationGet_model]

/-- A union of the struct `ConfigModelPublicationSet` (printed by capnproto/generator.py:315-321). -/
def g_ConfigModelPublicationSet_model : List Tree := [.field (some "vendor") "VendorModelId", .field (some "sig") "SIGModelId"]

/-- The struct `ConfigModelPublicationSet` (printed by capnproto/generator.py:323-327). -/
def s_ConfigModelPublicationSet : List Tree := [.field (some "elementAddress") "UInt16", .field (some "publishAddress") "UInt16", .field (some "rfu") "UInt8", .field (some "credentialFlag") "Bool", .field (some "appKeyIndex") "UInt16", .field (some "ttl") "UInt8", .field (some "publishPeriod") "PublishPeriod", .field (some "retransmit") "PublishRetransmit", .union (some "model") g_ConfigModelPublicationSet_model]

/-- The struct `PublishPeriod` (printed by capnproto/generator.py:323-327). -/
def s_PublishPeriod : List Tree := [.field (some "stepResolution") "UInt8", .field (some "numberOfSteps") "UInt8"]

/-- The struct `PublishRetransmit` (printed by capnproto/generator.py:323-327). -/
def s_PublishRetransmit : List Tree := [.field (some "count") "UInt8", .field (some "interval") "UInt16"]

/-- A union of the struct `ConfigModelPublicationStatus` (printed by capnproto/generator.py:315-321). -/
def g_ConfigModelPublicationStatus_model : List Tree := [.field (some "vendor") "VendorModelId", .field (some "sig") "SIGModelId"]

/-- The struct `ConfigModelPublicationStatus` (printed by capnproto/generator.py:323-327). -/
def s_ConfigModelPublicationStatus : List Tree := [.field (some "status") "UInt8", .field (some "elementAddress") "UInt16", .field (some "publishAddress") "UInt16", .field (some "rfu") "UInt8", .field (some "credentialFlag") "Bool", .field (some "appKeyIndex") "UInt16", .field (some "ttl") "UInt8", .field (some "publishPeriod") "PublishPeriod", .field (some "retransmit") "PublishRetransmit", .union (some "model") g_ConfigModelPublicationStatus_model]

/-- A union of the struct `ConfigModelPublicationVASet` (printed by capnproto/generator.py:315-321). -/
def g_ConfigModelPublicationVASet_model : List Tree := [.field (some "vendor") "VendorModelId", .field (some "sig") "SIGModelId"]

/-- The struct `ConfigModelPublicationVASet` (printed by capnproto/generator.py:323-327). -/
def s_ConfigModelPublicationVASet : List Tree := [.field (some "elementAddress") "UInt16", .field (some "publishAddress") "Data", .field (some "rfu") "UInt8", .field (some "credentialFlag") "Bool", .field (some "appKeyIndex") "UInt16", .field (some "ttl") "UInt8", .field (some "publishPeriod") "PublishPeriod", .field (some "retransmit") "PublishRetransmit", .union (some "model") g_ConfigModelPublicationVASet_model]

/-- A union of the struct `ConfigModelSubscriptionOverwrite` (printed by capnproto/generator.py:315-321). -/
def g_ConfigModelSubscriptionOverwrite_model : List Tree := [.field (some "vendor") "VendorModelId", .field (some "sig") "SIGModelId"]

/-- The struct `ConfigModelSubscriptionOverwrite` (printed by capnproto/generator.py:323-327). -/
def s_ConfigModelSubscriptionOverwrite : List Tree := [.field (some "elementAddress") "UInt16", .field (some "address") "UInt16", .union (some "model") g_ConfigModelSubscriptionOverwrite_model]

/-- A union of the struct `ConfigModelSubscriptionDeleteAll` (printed by capnproto/generator.py:315-321). -/
def g_ConfigModelSubscriptionDeleteAll_model : List Tree := [.field (some "vendor") "VendorModelId", .field (some "sig") "SIGModelId"]

/-- The struct `ConfigModelSubscriptionDeleteAll` (printed by capnproto/generator.py:323-327). -/
def s_ConfigModelSubscriptionDeleteAll : List Tree := [.field (some "elementAddress") "UInt16", .union (some "model") g_ConfigModelSubscriptionDeleteAll_model]

/-- A union of the struct `ConfigModelSubscriptionStatus` (printed by capnproto/generator.py:315-321). -/
def g_ConfigModelSubscriptionStatus_model : List Tree := [.field (some "vendor") "VendorModelId", .field (some "sig") "SIGModelId"]

/-- The struct `ConfigModelSubscriptionStatus` (printed by capnproto/generator.py:323-327). -/
def s_ConfigModelSubscriptionStatus : List Tree := [.field (some "status") "UInt8", .field (some "elementAddress") "UInt16", .field (some "address") "UInt16", .union (some "model") g_ConfigModelSubscriptionStatus_model]

/-- A union of the struct `ConfigModelSubscriptionVAOverwrite` (printed by capnproto/generator.py:315-321). -/
def g_ConfigModelSubscriptionVAOverwrite_model : List Tree := [.field (some "vendor") "VendorModelId", .field (some "sig") "SIGModelId"]

/-- The struct `ConfigModelSubscriptionVAOverwrite` (printed by capnproto/generator.py:323-327). -/
def s_ConfigModelSubscriptionVAOverwrite : List Tree := [.field (some "elementAddress") "UInt16", .field (some "label") "Data", .union (some "model") g_ConfigModelSubscriptionVAOverwrite_model]

/-- The struct `ConfigNetKeyUpdate` (printed by capnproto/generator.py:323-327). -/
def s_ConfigNetKeyUpdate : List Tree := [.field (some "netKeyIndex") "UInt16", .field (some "netKey") "Data"]

/-- The struct `ConfigNetKeyDelete` (printed by capnproto/generator.py:323-327). -/
def s_ConfigNetKeyDelete : List Tree := [.field (some "netKeyIndex") "UInt16"]

/-- The struct `ConfigNetKeyGet` (printed by capnproto/generator.py:323-327). -/
def s_ConfigNetKeyGet : List Tree := []

/-- The struct `ConfigNetKeyList` (printed by capnproto/generator.py:323-327). -/
def s_ConfigNetKeyList : List Tree := [.field (some "netKeyIndices") "List(UInt16)"]

/-- The struct `ConfigNetKeyStatus` (printed by capnproto/generator.py:323-327). -/
def s_ConfigNetKeyStatus : List Tree := [.field (some "status") "UInt8", .field (some "netKeyIndex") "UInt16"]

/-- The struct `ConfigNetworkTransmitGet` (printed by capnproto/generator.py:323-327). -/
def s_ConfigNetworkTransmitGet : List Tree := []

/-- The struct `ConfigNetworkTransmitStatus` (printed by capnproto/generator.py:323-327). -/
def s_ConfigNetworkTransmitStatus : List Tree := [.field (some "count") "UInt8", .field (some "interval") "UInt16"]

/-- The struct `ConfigNodeIdentityGet` (printed by capnproto/generator.py:323-327). -/
def s_ConfigNodeIdentityGet : List Tree := [.field (some "netKeyIndex") "UInt16"]

/-- The struct `ConfigNodeIdentitySet` (printed by capnproto/generator.py:323-327). -/
def s_ConfigNodeIdentitySet : List Tree := [.field (some "netKeyIndex") "UInt16", .field (some "identity") "UInt8"]

/-- The struct `ConfigNodeIdentityStatus` (printed by capnproto/generator.py:323-327). -/
def s_ConfigNodeIdentityStatus : List Tree := [.field (some "status") "UInt8", .field (some "netKeyIndex") "UInt16", .field (some "identity") "UInt8"]

/-- The struct `ConfigNodeReset` (printed by capnproto/generator.py:323-327). -/
def s_ConfigNodeReset : List Tree := []

/-- The struct `ConfigNodeResetStatus` (printed by capnproto/generator.py:323-327). -/
def s_ConfigNodeResetStatus : List Tree := []

/-- The struct `ConfigRelayGet` (printed by capnproto/generator.py:323-327). -/
def s_ConfigRelayGet : List Tree := []

/-- The struct `ConfigRelayStatus` (printed by capnproto/generator.py:323-327). -/
def s_ConfigRelayStatus : List Tree := [.field (some "relay") "UInt8", .field (some "retransmit") "ConfigNetworkTransmitStatus"]

/-- The struct `ConfigSIGModelAppGet` (printed by capnproto/generator.py:323-327). -/
def s_ConfigSIGModelAppGet : List Tree := [.field (some "elementAddress") "UInt16", .field (some "model") "SIGModelId"]

/-- The struct `ConfigSIGModelAppList` (printed by capnproto/generator.py:323-327). -/
def s_ConfigSIGModelAppList : List Tree := [.field (some "status") "UInt8", .field (some "elementAddress") "UInt16", .field (some "model") "SIGModelId", .field (some "appKeyIndices") "List(UInt16)"]

/-- The struct `ConfigSIGModelSubscriptionGet` (printed by capnproto/generator.py:323-327). -/
def s_ConfigSIGModelSubscriptionGet : List Tree := [.field (some "elementAddress") "UInt16", .field (some "model") "SIGModelId"]

/-- The struct `ConfigSIGModelSubscriptionList` (printed by capnproto/generator.py:323-327). -/
def s_ConfigSIGModelSubscriptionList : List Tree := [.field (some "status") "UInt8", .field (some "elementAddress") "UInt16", .field (some "model") "SIGModelId", .field (some "addresses") "List(UInt16)"]

/-- The struct `ConfigVendorModelAppGet` (printed by capnproto/generator.py:323-327). -/
def s_ConfigVendorModelAppGet : List Tree := [.field (some "elementAddress") "UInt16", .field (some "model") "VendorModelId"]

/-- The struct `ConfigVendorModelAppList` (printed by capnproto/generator.py:323-327). -/
def s_ConfigVendorModelAppList : List Tree := [.field (some "status") "UInt8", .field (some "elementAddress") "UInt16", .field (some "model") "VendorModelId", .field (some "appKeyIndices") "List(UInt16)"]

/-- The struct `ConfigVendorModelSubscriptionGet` (printed by capnproto/generator.py:323-327). -/
def s_ConfigVendorModelSubscriptionGet : List Tree := [.field (some "elementAddress") "UInt16", .field (some "model") "VendorModelId"]

/-- The struct `ConfigVendorModelSubscriptionList` (printed by capnproto/generator.py:323-327). -/
def s_ConfigVendorModelSubscriptionList : List Tree := [.field (some "status") "UInt8", .field (some "elementAddress") "UInt16", .field (some "model") "VendorModelId", .field (some "addresses") "List(UInt16)"]

/-- A union of the struct `DebugParams` (printed by capnproto/generator.py:315-321). -/
def g_DebugParams_arapListSizeStatus : List Tree := [.field (some "new") "ArapSize16", .field (some "old") "ArapSize8"]

/-- A union of the struct `DebugParams` (printed by capnproto/generator.py:315-321). -/
def u_DebugParams : List Tree := [.field (some "rssiThresholdGet") "RssiThresholdGet", .field (some "rssiThresholdSet") "RssiThreshold", .field (some "rssiThresholdStatus") "RssiThreshold", .field (some "radioTest") "RadioTest", .field (some "uptimeGet") "UptimeGet", .field (some "uptimeStatus") "UptimeStatus", .field (some "lastSwFaultGet") "LastSwFaultGet", .field (some "lastSwFaultClear") "LastSwFaultClear", .field (some "lastSwFaultStatus") "LastFdsFaultStatus", .field (some "systemStatsGet") "SystemStatsGet", .field (some "systemStatsStatus") "SystemStatsStatus", .field (some "lastMallocFaultGet") "LastMallocFaultGet", .field (some "lastMallocFaultClear") "LastMallocFaultClear", .field (some "lastMallocFaultStatus") "LastFdsFaultStatus", .field (some "lastFdsFaultGet") "LastFdsFaultGet", .field (some "lastFdsFaultClear") "LastFdsFaultClear", .field (some "lastFdsFaultStatus") "LastFdsFaultStatus", .field (some "bytesBeforeGarbageCollectorGet") "BytesBeforeGarbageCollectorGet", .field (some "bytesBeforeGarbageCollectorStatus") "BytesBeforeGarbageCollectorStatus", .field (some "provisionedAppVersionGet") "ProvisionedAppVersionGet", .field (some "provisionedAppVersionStatus") "ProvisionedAppVersionStatus", .field (some "fullFirmwareVersionGet") "FullFirmwareVersionGet", .field (some "fullFirmwareVersionStatus") "FullFirmwareVersionStatus", .field (some "ivIndexGet") "IvIndexGet", .field (some "ivIndexStatus") "IvIndexStatus", .field (some "garbageCollectorCounterGet") "GarbageCollectorCounterGet", .field (some "garbageCollectorCounterStatus") "GarbageCollectorCounterStatus", .field (some "arapListSizeGet") "ArapListSizeGet", .union (some "arapListSizeStatus") g_DebugParams_arapListSizeStatus, .field (some "arapListContentGet") "ArapListContentGet", .field (some "arapListContentStatus") "ArapListContentStatus"]

/-- The struct `DebugParams` (printed by capnproto/generator.py:323-327). -/
def s_DebugParams : List Tree := [.field (some "subopcode") "UInt8", .union none u_DebugParams]

/-- The struct `RssiThresholdGet` (printed by capnproto/generator.py:323-327). -/
def s_RssiThresholdGet : List Tree := []

/-- The struct `RssiThreshold` (printed by capnproto/generator.py:323-327). -/
def s_RssiThreshold : List Tree := [.field (some "rssiThreshold") "UInt8"]

/-- The struct `RadioTest` (printed by capnproto/generator.py:323-327). -/
def s_RadioTest : List Tree := [.field (some "packetCounter") "UInt8"]

/-- The struct `UptimeGet` (printed by capnproto/generator.py:323-327). -/
def s_UptimeGet : List Tree := []

/-- The struct `UptimeStatus` (printed by capnproto/generator.py:323-327). -/
def s_UptimeStatus : List Tree := [.field (some "uptime") "UInt32"]

/-- The struct `LastSwFaultGet` (printed by capnproto/generator.py:323-327). -/
def s_LastSwFaultGet : List Tree := []

/-- The struct `LastSwFaultClear` (printed by capnproto/generator.py:323-327). -/
def s_LastSwFaultClear : List Tree := []

/-- The struct `LastFdsFaultStatus` (printed by capnproto/generator.py:323-327). -/
def s_LastFdsFaultStatus : List Tree := [.field (some "time") "UInt32", .field (some "fault") "Text"]

/-- The struct `SystemStatsGet` (printed by capnproto/generator.py:323-327). -/
def s_SystemStatsGet : List Tree := []

/-- The struct `SystemStatsStatus` (printed by capnproto/generator.py:323-327). -/
def s_SystemStatsStatus : List Tree := [.field (some "stats") "List(SystemStat)"]

/-- The struct `SystemStat` (printed by capnproto/generator.py:323-327). -/
def s_SystemStat : List Tree := [.field (some "name") "Text", .field (some "highWaterMark") "UInt32"]

/-- The struct `LastMallocFaultGet` (printed by capnproto/generator.py:323-327). -/
def s_LastMallocFaultGet : List Tree := []

/-- The struct `LastMallocFaultClear` (printed by capnproto/generator.py:323-327). -/
def s_LastMallocFaultClear : List Tree := []

/-- The struct `LastFdsFaultGet` (printed by capnproto/generator.py:323-327). -/
def s_LastFdsFaultGet : List Tree := []

/-- The struct `LastFdsFaultClear` (printed by capnproto/generator.py:323-327). -/
def s_LastFdsFaultClear : List Tree := []

/-- The struct `BytesBeforeGarbageCollectorGet` (printed by capnproto/generator.py:323-327). -/
def s_BytesBeforeGarbageCollectorGet : List Tree := []

/-- The struct `BytesBeforeGarbageCollectorStatus` (printed by capnproto/generator.py:323-327). -/
def s_BytesBeforeGarbageCollectorStatus : List Tree := [.field (some "bytesLeft") "UInt16"]

/-- The struct `ProvisionedAppVersionGet` (printed by capnproto/generator.py:323-327). -/
def s_ProvisionedAppVersionGet : List Tree := []

/-- The struct `ProvisionedAppVersionStatus` (printed by capnproto/generator.py:323-327). -/
def s_ProvisionedAppVersionStatus : List Tree := [.field (some "version") "UInt16"]

/-- The struct `FullFirmwareVersionGet` (printed by capnproto/generator.py:323-327). -/
def s_FullFirmwareVersionGet : List Tree := []

/-- The struct `FullFirmwareVersionStatus` (printed by capnproto/generator.py:323-327). -/
def s_FullFirmwareVersionStatus : List Tree := [.field (some "version") "Text"]

/-- The struct `IvIndexGet` (printed by capnproto/generator.py:323-327). -/
def s_IvIndexGet : List Tree := []

/-- The struct `IvIndexStatus` (printed by capnproto/generator.py:323-327). -/
def s_IvIndexStatus : List Tree := [.field (some "ivindex") "UInt32"]

/-- The struct `GarbageCollectorCounterGet` (printed by capnproto/generator.py:323-327). -/
def s_GarbageCollectorCounterGet : List Tree := []

/-- The struct `GarbageCollectorCounterStatus` (printed by capnproto/generator.py:323-327). -/
def s_GarbageCollectorCounterStatus : List Tree := [.field (some "counter") "UInt16"]

/-- The struct `ArapListSizeGet` (printed by capnproto/generator.py:323-327). -/
def s_ArapListSizeGet : List Tree := []

/-- The struct `ArapSize16` (printed by capnproto/generator.py:323-327). -/
def s_ArapSize16 : List Tree := [.field (some "capacity") "UInt16", .field (some "size") "UInt16"]

/-- The struct `ArapSize8` (printed by capnproto/generator.py:323-327). -/
def s_ArapSize8 : List Tree := [.field (some "capacity") "UInt8", .field (some "size") "UInt8"]

/-- The struct `ArapListContentGet` (printed by capnproto/generator.py:323-327). -/
def s_ArapListContentGet : List Tree := [.field (some "page") "UInt8"]

/-- The struct `ArapListContentStatus` (printed by capnproto/generator.py:323-327). -/
def s_ArapListContentStatus : List Tree := [.field (some "currentPage") "UInt8", .field (some "lastPage") "UInt8", .field (some "nodes") "List(ArapNode)"]

/-- The struct `ArapNode` (printed by capnproto/generator.py:323-327). -/
def s_ArapNode : List Tree := [.field (some "sequence") "UInt32", .field (some "ivi") "UInt8", .field (some "address") "UInt16"]

/-- A union of the struct `GatewayConfigParams` (printed by capnproto/generator.py:315-321). -/
def g_GatewayConfigParams_gatewayConfigurationSet : List Tree := [.field (some "static") "ConfigurationSetWithOptionalDhcpDisabled", .field (some "dns") "ConfigurationSetWithOptionalDhcpEnabledWithStaticDns", .field (some "minimal") "ConfigurationSetWithoutOptionalAutoDhcpEnabled"]

/-- A union of the struct `GatewayConfigParams` (printed by capnproto/generator.py:315-321). -/
def u_GatewayConfigParams : List Tree := [.union (some "gatewayConfigurationSet") g_GatewayConfigParams_gatewayConfigurationSet, .field (some "mtuSizeSet") "ConfigurationSetMtu", .field (some "ethernetMacAddressSet") "ConfigurationSetMacAddr", .field (some "serverAddressAndPortNumberSet") "ConfigurationSetServerAddrAndPortNr", .field (some "reconnectIntervalSet") "ConfigurationSetReconnectInterval", .field (some "dnsIpAddressSet") "ConfigurationSetDnsIpAddr", .field (some "ipAddressSet") "ConfigurationSetIpAddr", .field (some "gatewayIpAddressSet") "ConfigurationSetGatewayIpAddr", .field (some "netmaskSet") "ConfigurationSetNetmask", .field (some "gatewayConfigurationStatus") "ConfigurationStatus", .field (some "gatewayPacketsStatus") "PacketsStatus"]

/-- The struct `GatewayConfigParams` (printed by capnproto/generator.py:323-327). -/
def s_GatewayConfigParams : List Tree := [.field (some "subopcode") "UInt8", .union none u_GatewayConfigParams]

/-- The struct `ConfigurationSetWithOptionalDhcpDisabled` (printed by capnproto/generator.py:323-327). -/
def s_ConfigurationSetWithOptionalDhcpDisabled : List Tree := [.field (some "mtuSize") "UInt16", .field (some "macAddress") "Data", .field (some "serverPortNumber") "UInt16", .field (some "reconnectInterval") "UInt16", .field (some "serverAddressLength") "UInt8", .field (some "serverAddress") "Text", .field (some "dnsIpAddress") "Data", .field (some "ipAddress") "Data", .field (some "gatewayIpAddress") "Data", .field (some "netmask") "UInt8"]

/-- The struct `ConfigurationSetWithOptionalDhcpEnabledWithStaticDns` (printed by capnproto/generator.py:323-327). -/
def s_ConfigurationSetWithOptionalDhcpEnabledWithStaticDns : List Tree := [.field (some "mtuSize") "UInt16", .field (some "macAddress") "Data", .field (some "serverPortNumber") "UInt16", .field (some "reconnectInterval") "UInt16", .field (some "serverAddressLength") "UInt8", .field (some "serverAddress") "Text", .field (some "dnsIpAddress") "Data"]

/-- The struct `ConfigurationSetWithoutOptionalAutoDhcpEnabled` (printed by capnproto/generator.py:323-327). -/
def s_ConfigurationSetWithoutOptionalAutoDhcpEnabled : List Tree := [.field (some "mtuSize") "UInt16", .field (some "macAddress") "Data", .field (some "serverPortNumber") "UInt16", .field (some "reconnectInterval") "UInt16", .field (some "serverAddressLength") "UInt8", .field (some "serverAddress") "Text"]

/-- The struct `ConfigurationSetMtu` (printed by capnproto/generator.py:323-327). -/
def s_ConfigurationSetMtu : List Tree := [.field (some "mtuSize") "UInt16"]

/-- The struct `ConfigurationSetMacAddr` (printed by capnproto/generator.py:323-327). -/
def s_ConfigurationSetMacAddr : List Tree := [.field (some "macAddress") "Data"]

/-- The struct `ConfigurationSetServerAddrAndPortNr` (printed by capnproto/generator.py:323-327). -/
def s_ConfigurationSetServerAddrAndPortNr : List Tree := [.field (some "serverPortNumber") "UInt16", .field (some "serverAddressLength") "UInt8", .field (some "serverAddress") "Text"]

/-- The struct `ConfigurationSetReconnectInterval` (printed by capnproto/generator.py:323-327). -/
def s_ConfigurationSetReconnectInterval : List Tree := [.field (some "reconnectInterval") "UInt16"]

/-- The struct `ConfigurationSetDnsIpAddr` (printed by capnproto/generator.py:323-327). -/
def s_ConfigurationSetDnsIpAddr : List Tree := [.field (some "dnsIpAddress") "Data"]

/-- The struct `ConfigurationSetIpAddr` (printed by capnproto/generator.py:323-327). -/
def s_ConfigurationSetIpAddr : List Tree := [.field (some "ipAddress") "Data"]

/-- The struct `ConfigurationSetGatewayIpAddr` (printed by capnproto/generator.py:323-327). -/
def s_ConfigurationSetGatewayIpAddr : List Tree := [.field (some "gatewayIpAddress") "Data"]

/-- The struct `ConfigurationSetNetmask` (printed by capnproto/generator.py:323-327). -/
def s_ConfigurationSetNetmask : List Tree := [.field (some "netmask") "UInt8"]

/-- The struct `ConfigurationStatus` (printed by capnproto/generator.py:323-327). -/
def s_ConfigurationStatus : List Tree := [.field (some "chipRevisionId") "UInt8", .field (some "mtuSize") "UInt16", .field (some "macAddress") "Data", .field (some "serverPortNumber") "UInt16", .field (some "reconnectInterval") "UInt16", .field (some "serverAddressLength") "UInt8", .field (some "serverAddress") "Text", .field (some "dnsIpAddress") "Data", .field (some "ipAddress") "Data", .field (some "gatewayIpAddress") "Data", .field (some "netmask") "UInt8", .field (some "flags") "UInt8", .field (some "statusCode") "UInt8"]

/-- The struct `PacketsStatus` (printed by capnproto/generator.py:323-327). -/
def s_PacketsStatus : List Tree := [.field (some "totalEthRxErrors") "UInt16", .field (some "totalEthTxErrors") "UInt16", .field (some "bandwidth") "UInt16", .field (some "connectionState") "ConnectionState"]

/-- The struct `ConnectionState` (printed by capnproto/generator.py:323-327). -/
def s_ConnectionState : List Tree := [.field (some "connState") "UInt8", .field (some "linkStatus") "UInt8", .field (some "lastError") "UInt8"]

/-- The struct `GenericOnOffGet` (printed by capnproto/generator.py:323-327). -/
def s_GenericOnOffGet : List Tree := []

/-- The struct `GenericOnOffSetOptional` (printed by capnproto/generator.py:323-327). -/
def s_GenericOnOffSetOptional : List Tree := [.field (some "onoff") "UInt8", .field (some "tid") "UInt8", .field (some "transitionTime") "Float32", .field (some "delay") "Float32"]

/-- The struct `GenericOnOffSetMinimal` (printed by capnproto/generator.py:323-327). -/
def s_GenericOnOffSetMinimal : List Tree := [.field (some "onoff") "UInt8", .field (some "tid") "UInt8"]

/-- The struct `GenericOnOffStatusOptional` (printed by capnproto/generator.py:323-327). -/
def s_GenericOnOffStatusOptional : List Tree := [.field (some "presentOnoff") "UInt8", .field (some "targetOnoff") "UInt8", .field (some "remainingTime") "Float32"]

/-- The struct `GenericOnOffStatusMinimal` (printed by capnproto/generator.py:323-327). -/
def s_GenericOnOffStatusMinimal : List Tree := [.field (some "presentOnoff") "UInt8"]

/-- The struct `GenericBatteryGet` (printed by capnproto/generator.py:323-327). -/
def s_GenericBatteryGet : List Tree := []

/-- The struct `GenericBatteryStatus` (printed by capnproto/generator.py:323-327). -/
def s_GenericBatteryStatus : List Tree := [.field (some "batteryLevel") "Float64", .field (some "timeToDischarge") "Float64", .field (some "timeToCharge") "Float64", .field (some "flags") "BatteryFlags"]

/-- The struct `BatteryFlags` (printed by capnproto/generator.py:323-327). -/
def s_BatteryFlags : List Tree := [.field (some "batteryServiceabilityFlags") "UInt8", .field (some "batteryChargingFlags") "UInt8", .field (some "batteryIndicatorFlags") "UInt8", .field (some "batteryPresenceFlags") "UInt8"]

/-- The struct `GenericLevelGet` (printed by capnproto/generator.py:323-327). -/
def s_GenericLevelGet : List Tree := []

/-- The struct `GenericLevelSetOptional` (printed by capnproto/generator.py:323-327). -/
def s_GenericLevelSetOptional : List Tree := [.field (some "level") "Int16", .field (some "tid") "UInt8", .field (some "transitionTime") "Float32", .field (some "delay") "Float32"]

/-- The struct `GenericLevelSetMinimal` (printed by capnproto/generator.py:323-327). -/
def s_GenericLevelSetMinimal : List Tree := [.field (some "level") "Int16", .field (some "tid") "UInt8"]

/-- The struct `GenericLevelStatusOptional` (printed by capnproto/generator.py:323-327). -/
def s_GenericLevelStatusOptional : List Tree := [.field (some "presentLevel") "Int16", .field (some "targetLevel") "Int16", .field (some "remainingTime") "Float32"]

/-- The struct `GenericLevelStatusMinimal` (printed by capnproto/generator.py:323-327). -/
def s_GenericLevelStatusMinimal : List Tree := [.field (some "presentLevel") "Int16"]

/-- The struct `GenericDeltaSetOptional` (printed by capnproto/generator.py:323-327). -/
def s_GenericDeltaSetOptional : List Tree := [.field (some "deltaLevel") "Int32", .field (some "tid") "UInt8", .field (some "transitionTime") "Float32", .field (some "delay") "Float32"]

/-- The struct `GenericDeltaSetMinimal` (printed by capnproto/generator.py:323-327). -/
def s_GenericDeltaSetMinimal : List Tree := [.field (some "deltaLevel") "Int32", .field (some "tid") "UInt8"]

/-- The struct `GenericMoveSetOptional` (printed by capnproto/generator.py:323-327). -/
def s_GenericMoveSetOptional : List Tree := [.field (some "deltaLevel") "Int16", .field (some "tid") "UInt8", .field (some "transitionTime") "Float32", .field (some "delay") "Float32"]

/-- The struct `GenericMoveSetMinimal` (printed by capnproto/generator.py:323-327). -/
def s_GenericMoveSetMinimal : List Tree := [.field (some "deltaLevel") "Int16", .field (some "tid") "UInt8"]

/-- The struct `LightLightnessGet` (printed by capnproto/generator.py:323-327). -/
def s_LightLightnessGet : List Tree := []

/-- The struct `LightLightnessSetOptional` (printed by capnproto/generator.py:323-327). -/
def s_LightLightnessSetOptional : List Tree := [.field (some "lightness") "UInt16", .field (some "tid") "UInt8", .field (some "transitionTime") "Float32", .field (some "delay") "Float32"]

/-- The struct `LightLightnessSetMinimal` (printed by capnproto/generator.py:323-327). -/
def s_LightLightnessSetMinimal : List Tree := [.field (some "lightness") "UInt16", .field (some "tid") "UInt8"]

/-- The struct `LightLightnessStatusOptional` (printed by capnproto/generator.py:323-327). -/
def s_LightLightnessStatusOptional : List Tree := [.field (some "presentLightness") "UInt16", .field (some "targetLightness") "UInt16", .field (some "remainingTime") "Float32"]

/-- The struct `LightLightnessStatusMinimal` (printed by capnproto/generator.py:323-327). -/
def s_LightLightnessStatusMinimal : List Tree := [.field (some "presentLightness") "UInt16"]

/-- The struct `LightLightnessDefault` (printed by capnproto/generator.py:323-327). -/
def s_LightLightnessDefault : List Tree := [.field (some "lightness") "UInt16"]

/-- The struct `LightLightnessRangeStatus` (printed by capnproto/generator.py:323-327). -/
def s_LightLightnessRangeStatus : List Tree := [.field (some "status") "UInt8", .field (some "rangeMin") "UInt16", .field (some "rangeMax") "UInt16"]

/-- The struct `LightLightnessRange` (printed by capnproto/generator.py:323-327). -/
def s_LightLightnessRange : List Tree := [.field (some "rangeMin") "UInt16", .field (some "rangeMax") "UInt16"]

/-- The struct `LightCTLGet` (printed by capnproto/generator.py:323-327). -/
def s_LightCTLGet : List Tree := []

/-- The struct `LightCTLSetOptional` (printed by capnproto/generator.py:323-327). -/
def s_LightCTLSetOptional : List Tree := [.field (some "ctlLightness") "UInt16", .field (some "ctlTemperature") "UInt16", .field (some "ctlDeltaUv") "UInt16", .field (some "tid") "UInt8", .field (some "transitionTime") "Float32", .field (some "delay") "Float32"]

/-- The struct `LightCTLSetMinimal` (printed by capnproto/generator.py:323-327). -/
def s_LightCTLSetMinimal : List Tree := [.field (some "ctlLightness") "UInt16", .field (some "ctlTemperature") "UInt16", .field (some "ctlDeltaUv") "UInt16", .field (some "tid") "UInt8"]

/-- The struct `LightCTLStatusOptional` (printed by capnproto/generator.py:323-327). -/
def s_LightCTLStatusOptional : List Tree := [.field (some "presentCtlLightness") "UInt16", .field (some "presentCtlTemperature") "UInt16", .field (some "targetCtlLightness") "UInt16", .field (some "targetCtlTemperature") "UInt16", .field (some "remainingTime") "Float32"]

/-- The struct `LightCTLStatusMinimal` (printed by capnproto/generator.py:323-327). -/
def s_LightCTLStatusMinimal : List Tree := [.field (some "presentCtlLightness") "UInt16", .field (some "presentCtlTemperature") "UInt16"]

/-- The struct `LightCTLRangeStatus` (printed by capnproto/generator.py:323-327). -/
def s_LightCTLRangeStatus : List Tree := [.field (some "status") "UInt8", .field (some "rangeMin") "UInt16", .field (some "rangeMax") "UInt16"]

/-- The struct `LightCTLTemperatureSetOptional` (printed by capnproto/generator.py:323-327). -/
def s_LightCTLTemperatureSetOptional : List Tree := [.field (some "ctlTemperature") "UInt16", .field (some "ctlDeltaUv") "UInt16", .field (some "tid") "UInt8", .field (some "transitionTime") "Float32", .field (some "delay") "Float32"]

/-- The struct `LightCTLTemperatureSetMinimal` (printed by capnproto/generator.py:323-327). -/
def s_LightCTLTemperatureSetMinimal : List Tree := [.field (some "ctlTemperature") "UInt16", .field (some "ctlDeltaUv") "UInt16", .field (some "tid") "UInt8"]

/-- The struct `LightCTLTemperatureStatusOptional` (printed by capnproto/generator.py:323-327). -/
def s_LightCTLTemperatureStatusOptional : List Tree := [.field (some "presentCtlTemperature") "UInt16", .field (some "presentCtlDeltaUv") "UInt16", .field (some "targetCtlTemperature") "UInt16", .field (some "targetCtlDeltaUv") "UInt16", .field (some "remainingTime") "Float32"]

/-- The struct `LightCTLTemperatureStatusMinimal` (printed by capnproto/generator.py:323-327). -/
def s_LightCTLTemperatureStatusMinimal : List Tree := [.field (some "presentCtlTemperature") "UInt16", .field (some "presentCtlDeltaUv") "UInt16"]

/-- The struct `LightCTLDefault` (printed by capnproto/generator.py:323-327). -/
def s_LightCTLDefault : List Tree := [.field (some "ctlLightness") "UInt16", .field (some "ctlTemperature") "UInt16", .field (some "ctlDeltaUv") "UInt16"]

/-- The struct `LightCTLRange` (printed by capnproto/generator.py:323-327). -/
def s_LightCTLRange : List Tree := [.field (some "rangeMin") "UInt16", .field (some "rangeMax") "UInt16"]

/-- The struct `HealthAttentionGet` (printed by capnproto/generator.py:323-327). -/
def s_HealthAttentionGet : List Tree := []

/-- The struct `HealthAttentionStatus` (printed by capnproto/generator.py:323-327). -/
def s_HealthAttentionStatus : List Tree := [.field (some "attention") "UInt8"]

/-- The struct `HealthFaultStatus` (printed by capnproto/generator.py:323-327). -/
def s_HealthFaultStatus : List Tree := [.field (some "testId") "UInt8", .field (some "companyId") "UInt16", .field (some "faultArray") "List(UInt8)"]

/-- The struct `HealthFaultClear` (printed by capnproto/generator.py:323-327). -/
def s_HealthFaultClear : List Tree := [.field (some "companyId") "UInt16"]

/-- The struct `HealthFaultTest` (printed by capnproto/generator.py:323-327). -/
def s_HealthFaultTest : List Tree := [.field (some "testId") "UInt8", .field (some "companyId") "UInt16"]

/-- The struct `HealthPeriodGet` (printed by capnproto/generator.py:323-327). -/
def s_HealthPeriodGet : List Tree := []

/-- The struct `HealthPeriodStatus` (printed by capnproto/generator.py:323-327). -/
def s_HealthPeriodStatus : List Tree := [.field (some "fastPeriodDivisor") "UInt8"]

/-- A union of the struct `NetworkDiagnosticServerParams` (printed by capnproto/generator.py:315-321). -/
def u_NetworkDiagnosticServerParams : List Tree := [.field (some "subscriptionGet") "NetworkDiagnosticServerSubscriptionGet", .field (some "subscriptionSet") "NetworkDiagnosticServerSubscriptionSet", .field (some "subscriptionSetUnacknowledged") "NetworkDiagnosticServerSubscriptionSet", .field (some "subscriptionStatus") "NetworkDiagnosticServerSubscriptionStatus", .field (some "radioStatGet") "NetworkDiagnosticServerRadioStatGet"]

/-- The struct `NetworkDiagnosticServerParams` (printed by capnproto/generator.py:323-327). -/
def s_NetworkDiagnosticServerParams : List Tree := [.field (some "subopcode") "UInt8", .union none u_NetworkDiagnosticServerParams]

/-- The struct `NetworkDiagnosticServerSubscriptionGet` (printed by capnproto/generator.py:323-327). -/
def s_NetworkDiagnosticServerSubscriptionGet : List Tree := []

/-- The struct `NetworkDiagnosticServerSubscriptionSet` (printed by capnproto/generator.py:323-327). -/
def s_NetworkDiagnosticServerSubscriptionSet : List Tree := [.field (some "destination") "UInt16", .field (some "period") "UInt16"]

/-- The struct `NetworkDiagnosticServerSubscriptionStatus` (printed by capnproto/generator.py:323-327). -/
def s_NetworkDiagnosticServerSubscriptionStatus : List Tree := [.field (some "destination") "UInt16", .field (some "period") "UInt16", .field (some "maxRecordCount") "UInt8", .field (some "record") "List(RegistryRecord)"]

/-- The struct `RegistryRecord` (printed by capnproto/generator.py:323-327). -/
def s_RegistryRecord : List Tree := [.field (some "source") "UInt16", .field (some "count") "UInt16", .field (some "minHops") "UInt8", .field (some "maxHops") "UInt8"]

/-- The struct `NetworkDiagnosticServerRadioStatGet` (printed by capnproto/generator.py:323-327). -/
def s_NetworkDiagnosticServerRadioStatGet : List Tree := []

/-- A union of the struct `NetworkDiagnosticSetupServerParams` (printed by capnproto/generator.py:315-321). -/
def g_NetworkDiagnosticSetupServerParams_publicationSet : List Tree := [.field (some "optional") "NetworkDiagnosticSetupServerPublicationSetOptional", .field (some "minimal") "NetworkDiagnosticSetupServerPublicationSetMinimal"]

/-- A union of the struct `NetworkDiagnosticSetupServerParams` (printed by capnproto/generator.py:315-321). -/
def g_NetworkDiagnosticSetupServerParams_publicationStatus : List Tree := [.field (some "optional") "NetworkDiagnosticSetupServerPublicationSetOptional", .field (some "minimal") "NetworkDiagnosticSetupServerPublicationSetMinimal"]

/-- A union of the struct `NetworkDiagnosticSetupServerParams` (printed by capnproto/generator.py:315-321). -/
def u_NetworkDiagnosticSetupServerParams : List Tree := [.field (some "publicationGet") "NetworkDiagnosticSetupServerPublicationGet", .union (some "publicationSet") g_NetworkDiagnosticSetupServerParams_publicationSet, .union (some "publicationStatus") g_NetworkDiagnosticSetupServerParams_publicationStatus]

/-- The struct `NetworkDiagnosticSetupServerParams` (printed by capnproto/generator.py:323-327). -/
def s_NetworkDiagnosticSetupServerParams : List Tree := [.field (some "subopcode") "UInt8", .union none u_NetworkDiagnosticSetupServerParams]

/-- The struct `NetworkDiagnosticSetupServerPublicationGet` (printed by capnproto/generator.py:323-327). -/
def s_NetworkDiagnosticSetupServerPublicationGet : List Tree := []

/-- The struct `NetworkDiagnosticSetupServerPublicationSetOptional` (printed by capnproto/generator.py:323-327). -/
def s_NetworkDiagnosticSetupServerPublicationSetOptional : List Tree := [.field (some "destination") "UInt16", .field (some "count") "UInt16", .field (some "period") "TransitionTime", .field (some "ttl") "UInt8", .field (some "netKeyIndex") "UInt16", .field (some "features") "UInt16"]

/-- The struct `TransitionTime` (printed by capnproto/generator.py:323-327). -/
def s_TransitionTime : List Tree := [.field (some "resolution") "UInt8", .field (some "steps") "UInt8"]

/-- The struct `NetworkDiagnosticSetupServerPublicationSetMinimal` (printed by capnproto/generator.py:323-327). -/
def s_NetworkDiagnosticSetupServerPublicationSetMinimal : List Tree := [.field (some "destination") "UInt16", .field (some "count") "UInt16", .field (some "period") "TransitionTime", .field (some "ttl") "UInt8", .field (some "netKeyIndex") "UInt16"]

/-- The struct `SceneGet` (printed by capnproto/generator.py:323-327). -/
def s_SceneGet : List Tree := []

/-- The struct `SceneRecallWithTransition` (printed by capnproto/generator.py:323-327). -/
def s_SceneRecallWithTransition : List Tree := [.field (some "sceneNumber") "UInt16", .field (some "tid") "UInt8", .field (some "transitionTime") "Float32", .field (some "delay") "Float32"]

/-- The struct `SceneRecallMinimal` (printed by capnproto/generator.py:323-327). -/
def s_SceneRecallMinimal : List Tree := [.field (some "sceneNumber") "UInt16", .field (some "tid") "UInt8"]

/-- The struct `SceneStatusWithTargetScene` (printed by capnproto/generator.py:323-327). -/
def s_SceneStatusWithTargetScene : List Tree := [.field (some "statusCode") "UInt8", .field (some "currentScene") "UInt16", .field (some "targetScene") "UInt16", .field (some "remainingTime") "Float32"]

/-- The struct `SceneStatusMinimal` (printed by capnproto/generator.py:323-327). -/
def s_SceneStatusMinimal : List Tree := [.field (some "statusCode") "UInt8", .field (some "currentScene") "UInt16"]

/-- The struct `SceneRegisterGet` (printed by capnproto/generator.py:323-327). -/
def s_SceneRegisterGet : List Tree := []

/-- The struct `SceneRegisterStatus` (printed by capnproto/generator.py:323-327). -/
def s_SceneRegisterStatus : List Tree := [.field (some "statusCode") "UInt8", .field (some "currentScene") "UInt16", .field (some "scenes") "List(UInt16)"]

/-- The struct `SceneSetupWithValidation` (printed by capnproto/generator.py:323-327). -/
def s_SceneSetupWithValidation : List Tree := [.field (some "sceneNumber") "UInt16"]

/-- The struct `SceneSetup` (printed by capnproto/generator.py:323-327). -/
def s_SceneSetup : List Tree := [.field (some "sceneNumber") "UInt16"]

/-- The struct `SensorGetOptional` (printed by capnproto/generator.py:323-327). -/
def s_SensorGetOptional : List Tree := [.field (some "propertyId") "UInt16"]

/-- The struct `SensorGetMinimal` (printed by capnproto/generator.py:323-327). -/
def s_SensorGetMinimal : List Tree := []

/-- A union of the struct `SensorDescriptorStatusItem` (printed by capnproto/generator.py:315-321). -/
def u_SensorDescriptorStatusItem : List Tree := [.field (some "optional") "SensorDescriptorOptional", .field (some "minimal") "SensorDescriptorMinimal"]

/-- The struct `SensorDescriptorStatusItem` (printed by capnproto/generator.py:323-327). -/
def s_SensorDescriptorStatusItem : List Tree := [.union none u_SensorDescriptorStatusItem]

/-- The struct `SensorDescriptorOptional` (printed by capnproto/generator.py:323-327). -/
def s_SensorDescriptorOptional : List Tree := [.field (some "sensorPropertyId") "UInt16", .field (some "sensorPositiveTolerance") "UInt16", .field (some "sensorNegativeTolerance") "UInt16", .field (some "sensorSamplingFuncion") "UInt8", .field (some "sensorMeasurementPeriod") "UInt8", .field (some "sensorUpdateInterval") "UInt8"]

/-- The struct `SensorDescriptorMinimal` (printed by capnproto/generator.py:323-327). -/
def s_SensorDescriptorMinimal : List Tree := [.field (some "sensorPropertyId") "UInt16"]

/-- A union of the struct `SensorData` (printed by capnproto/generator.py:315-321). -/
def u_SensorData : List Tree := [.field (some "averageAmbientTemperatureInAPeriodOfDay") "Temperature8InAPeriodOfDay", .field (some "averageInputCurrent") "AverageCurrent", .field (some "averageInputVoltage") "AverageVoltage", .field (some "averageOutputCurrent") "AverageCurrent", .field (some "averageOutputVoltage") "AverageVoltage", .field (some "centerBeamIntensityAtFullPower") "LuminousIntensity", .field (some "chromaticityTolerance") "ChromaticityTolerance", .field (some "colorRenderingIndexR9") "ColorRenderingIndex", .field (some "colorRenderingIndexRa") "ColorRenderingIndex", .field (some "deviceAppearance") "Appearance", .field (some "deviceCountryOfOrigin") "CountryCode", .field (some "deviceDateOfManufacture") "DateUTC", .field (some "deviceEnergyUseSinceTurnOn") "Energy", .field (some "deviceFirmwareRevision") "Text", .field (some "deviceGlobalTradeItemNumber") "GlobalTradeItemNumber", .field (some "deviceHardwareRevision") "Text", .field (some "deviceManufacturerName") "Text", .field (some "deviceModelNumber") "Text", .field (some "deviceOperatingTemperatureRangeSpecification") "TemperatureRange", .field (some "deviceOperatingTemperatureStatisticalValues") "TemperatureStatistics", .field (some "deviceOverTemperatureEventStatistics") "EventStatistics", .field (some "devicePowerRangeSpecification") "PowerSpecification", .field (some "deviceRuntimeSinceTurnOn") "TimeHour24", .field (some "deviceRuntimeWarranty") "TimeHour24", .field (some "deviceSerialNumber") "Text", .field (some "deviceSoftwareRevision") "Text", .field (some "deviceUnderTemperatureEventStatistics") "EventStatistics", .field (some "indoorAmbientTemperatureStatisticalValues") "Temperature8Statistics", .field (some "initialCie1931ChromaticityCoordinates") "ChromaticityCoordinates", .field (some "initialCorrelatedColorTemperature") "CorrelatedColorTemperature", .field (some "initialLuminousFlux") "LuminousFlux", .field (some "initialPlanckianDistance") "ChromaticDistanceFromPlanckian", .field (some "inputCurrentRangeSpecification") "ElectricCurrentSpecification", .field (some "inputCurrentStatistics") "ElectricCurrentStatistics", .field (some "inputOverCurrentEventStatistics") "EventStatistics", .field (some "inputOverRippleVoltageEventStatistics") "EventStatistics", .field (some "inputOverVoltageEventStatistics") "EventStatistics", .field (some "inputUnderCurrentEventStatistics") "EventStatistics", .field (some "inputUnderVoltageEventStatistics") "EventStatistics", .field (some "inputVoltageRangeSpecification") "VoltageRange", .field (some "inputVoltageRippleSpecification") "Percentage8", .field (some "inputVoltageStatistics") "VoltageStatistics", .field (some "lightControlAmbientLuxlevelOn") "Illuminance", .field (some "lightControlAmbientLuxlevelProlong") "Illuminance", .field (some "lightControlAmbientLuxlevelStandby") "Illuminance", .field (some "lightControlLightnessOn") "PerceivedLightness", .field (some "lightControlLightnessProlong") "PerceivedLightness", .field (some "lightControlLightnessStandby") "PerceivedLightness", .field (some "lightControlRegulatorAccuracy") "Percentage8", .field (some "lightControlRegulatorKid") "Coefficient", .field (some "lightControlRegulatorKiu") "Coefficient", .field (some "lightControlRegulatorKpd") "Coefficient", .field (some "lightControlRegulatorKpu") "Coefficient", .field (some "lightControlTimeFade") "TimeMiliseconds24", .field (some "lightControlTimeFadeOn") "TimeMiliseconds24", .field (some "lightControlTimeFadeStandbyAuto") "TimeMiliseconds24", .field (some "lightControlTimeFadeStandbyManual") "TimeMiliseconds24", .field (some "lightControlTimeOccupancyDelay") "TimeMiliseconds24", .field (some "lightControlTimeProlong") "TimeMiliseconds24", .field (some "lightControlTimeRunOn") "TimeMiliseconds24", .field (some "lumenMaintenanceFactor") "Percentage8", .field (some "luminousEfficacy") "LuminousEfficacy", .field (some "luminousEnergySinceTurnOn") "LuminousEnergy", .field (some "luminousExposure") "LuminousExposure", .field (some "luminousFluxRange") "LuminousFluxRange", .field (some "motionSensed") "Percentage8", .field (some "motionThreshold") "Percentage8", .field (some "openCircuitEventStatistics") "EventStatistics", .field (some "outdoorStatisticalValues") "Temperature8Statistics", .field (some "outputCurrentRange") "ElectricCurrentRange", .field (some "outputCurrentStatistics") "ElectricCurrentStatistics", .field (some "outputRippleVoltageSpecification") "Percentage8", .field (some "outputVoltageRange") "VoltageRange", .field (some "outputVoltageStatistics") "VoltageStatistics", .field (some "overOutputRippleVoltageEventStatistics") "EventStatistics", .field (some "peopleCount") "Count16", .field (some "presenceDetected") "Presence", .field (some "presentAmbientLightLevel") "Illuminance", .field (some "presentAmbientTemperature") "Temperature8", .field (some "presentCie1931ChromaticityCoordinates") "ChromaticityCoordinates", .field (some "presentCorrelatedColorTemperature") "CorrelatedColorTemperature", .field (some "presentDeviceInputPower") "Power", .field (some "presentDeviceOperatingEfficiency") "Percentage8", .field (some "presentDeviceOperatingTemperature") "Temperature", .field (some "presentIlluminance") "Illuminance", .field (some "presentIndoorAmbientTemperature") "Temperature8", .field (some "presentInputCurrent") "ElectricCurrent", .field (some "presentInputRippleVoltage") "Percentage8", .field (some "presentInputVoltage") "Voltage", .field (some "presentLuminousFlux") "LuminousFlux", .field (some "presentOutdoorAmbientTemperature") "Temperature8", .field (some "presentOutputCurrent") "ElectricCurrent", .field (some "presentOutputVoltage") "Voltage", .field (some "presentPlanckianDistance") "ChromaticDistanceFromPlanckian", .field (some "presentRelativeOutputRippleVoltage") "Percentage8", .field (some "relativeDeviceEnergyUseInAPeriodOfDay") "EnergyInAPeriodOfDay", .field (some "relativeDeviceRuntimeInAGenericLevelRange") "RelativeRuntimeInAGenericLevelRange", .field (some "relativeExposureTimeInAnIlluminanceRange") "RelativeValueInAnIlluminanceRange", .field (some "relativeRuntimeInACorrelatedColorTemperatureRange") "LuminousEnergy", .field (some "relativeRuntimeInADeviceOperatingTemperatureRange") "RelativeValueInATemperatureRange", .field (some "relativeRuntimeInAnInputCurrentRange") "RelativeValueInACurrentRange", .field (some "relativeRuntimeInAnInputVoltageRange") "RelativeValueInAVoltageRange", .field (some "shortCircuitEventStatistics") "EventStatistics", .field (some "timeSinceMotionSensed") "TimeSecond16", .field (some "timeSincePresenceDetected") "TimeSecond16", .field (some "totalDeviceEnergyUse") "Energy", .field (some "totalDeviceOffOnCycles") "Count24", .field (some "totalDevicePowerOnCycles") "Count24", .field (some "totalDevicePowerOnTime") "TimeHour24", .field (some "totalDeviceRuntime") "TimeHour24", .field (some "totalLightExposureTime") "TimeHour24", .field (some "totalLuminousEnergy") "LuminousEnergy", .field (some "preciseTotalDeviceEnergyUse") "PreciseEnergy", .field (some "powerFactor") "CosineOfTheAngle", .field (some "externalSupplyVoltage") "HighVoltage", .field (some "externalSupplyVoltageFrequency") "VoltageFrequency", .field (some "lightDistribution") "LightDistribution", .field (some "lightSourceCurrent") "AverageCurrent", .field (some "lightSourceOnTimeNotResettable") "TimeSecond32", .field (some "lightSourceOnTimeResettable") "TimeSecond32", .field (some "lightSourceOpenCircuitStatistics") "EventStatistics", .field (some "lightSourceOverallFailuresStatistics") "EventStatistics", .field (some "lightSourceShortCircuitStatistics") "EventStatistics", .field (some "lightSourceStartCounterResettable") "Count24", .field (some "lightSourceTemperature") "HighTemperature", .field (some "lightSourceThermalDeratingStatistics") "EventStatistics", .field (some "lightSourceThermalShutdownStatistics") "EventStatistics", .field (some "lightSourceTotalPowerOnCycles") "Count24", .field (some "lightSourceVoltage") "AverageVoltage", .field (some "luminaireColor") "Text", .field (some "luminaireIdentificationNumber") "Text", .field (some "luminaireNominalInputPower") "Power", .field (some "luminaireNominalMaximumAcMainsVoltage") "Voltage", .field (some "luminaireNominalMinimumAcMainsVoltage") "Voltage", .field (some "luminairePowerAtMinimumDimLevel") "Power", .field (some "luminaireTimeOfManufacture") "DateUTC", .field (some "nominalLightOutput") "LightOutput", .field (some "overallFailureCondition") "EventStatistics", .field (some "ratedMedianUsefulLifeOfLuminaire") "TimeHour24", .field (some "ratedMedianUsefulLightSourceStarts") "Count24", .field (some "referenceTemperature") "HighTemperature", .field (some "totalDeviceStarts") "Count24", .field (some "luminaireIdentificationString") "Text", .field (some "outputPowerLimitation") "EventStatistics", .field (some "thermalDerating") "EventStatistics", .field (some "outputCurrentPercent") "Percentage8", .field (some "luminaireManufacturerGtin") "GlobalTradeItemNumber", .field (some "apparentEnergy") "ApparentEnergy32", .field (some "apparentPower") "ApparentPower", .field (some "activeEnergyLoadSide") "Energy32", .field (some "activePowerLoadSide") "Power", .field (some "lightSourceType") "LightSourceType", .field (some "desiredAmbientTemperature") "Temperature8", .field (some "sensorGain") "Coefficient", .field (some "precisePresentAmbientTemperature") "Temperature", .field (some "sensorSettingRaw") "List(UInt8)"]

/-- The struct `SensorData` (printed by capnproto/generator.py:323-327). -/
def s_SensorData : List Tree := [.field (some "format") "UInt8", .field (some "length") "UInt16", .field (some "sensorSettingPropertyId") "UInt16", .union none u_SensorData]

/-- The struct `Temperature8InAPeriodOfDay` (printed by capnproto/generator.py:323-327). -/
def s_Temperature8InAPeriodOfDay : List Tree := [.field (some "temperature") "Float64", .field (some "startTime") "TimeDecihour8", .field (some "endTime") "TimeDecihour8"]

/-- The struct `TimeDecihour8` (printed by capnproto/generator.py:323-327). -/
def s_TimeDecihour8 : List Tree := [.field (some "hour") "Float64"]

/-- The struct `AverageCurrent` (printed by capnproto/generator.py:323-327). -/
def s_AverageCurrent : List Tree := [.field (some "electricCurrentValue") "Float64", .field (some "sensingDuration") "TimeExponential8"]

/-- The struct `TimeExponential8` (printed by capnproto/generator.py:323-327). -/
def s_TimeExponential8 : List Tree := [.field (some "seconds") "Float32"]

/-- The struct `AverageVoltage` (printed by capnproto/generator.py:323-327). -/
def s_AverageVoltage : List Tree := [.field (some "voltageValue") "Float64", .field (some "sensingDuration") "TimeExponential8"]

/-- The struct `LuminousIntensity` (printed by capnproto/generator.py:323-327). -/
def s_LuminousIntensity : List Tree := [.field (some "luminousIntensity") "Float64"]

/-- The struct `ChromaticityTolerance` (printed by capnproto/generator.py:323-327). -/
def s_ChromaticityTolerance : List Tree := [.field (some "chromaticityTolerance") "Float64"]

/-- The struct `ColorRenderingIndex` (printed by capnproto/generator.py:323-327). -/
def s_ColorRenderingIndex : List Tree := [.field (some "colorRenderingIndex") "Float64"]

/-- The struct `Appearance` (printed by capnproto/generator.py:323-327). -/
def s_Appearance : List Tree := [.field (some "category") "UInt16", .field (some "subCategory") "UInt8"]

/-- The struct `CountryCode` (printed by capnproto/generator.py:323-327). -/
def s_CountryCode : List Tree := [.field (some "countryCode") "Float64"]

/-- The struct `DateUTC` (printed by capnproto/generator.py:323-327). -/
def s_DateUTC : List Tree := [.field (some "date") "GenericPropertyMessageParams"]

/-- The struct `SensorMessageParams` (printed by capnproto/generator.py:323-327). -/
def s_SensorMessageParams : List Tree := [.field (some "year") "UInt16", .field (some "month") "UInt8", .field (some "day") "UInt8"]

/-- The struct `Energy` (printed by capnproto/generator.py:323-327). -/
def s_Energy : List Tree := [.field (some "energy") "Float64"]

/-- The struct `GlobalTradeItemNumber` (printed by capnproto/generator.py:323-327). -/
def s_GlobalTradeItemNumber : List Tree := [.field (some "globalTradeItemNumber") "UInt64"]

/-- The struct `TemperatureRange` (printed by capnproto/generator.py:323-327). -/
def s_TemperatureRange : List Tree := [.field (some "minimumTemperature") "Float64", .field (some "maximumTemperature") "Float64"]

/-- The struct `TemperatureStatistics` (printed by capnproto/generator.py:323-327). -/
def s_TemperatureStatistics : List Tree := [.field (some "averageTemperature") "Float64", .field (some "standardDeviationTemperature") "Float64", .field (some "minimumTemperature") "Float64", .field (some "maximumTemperature") "Float64", .field (some "sensingDuration") "TimeExponential8"]

/-- The struct `EventStatistics` (printed by capnproto/generator.py:323-327). -/
def s_EventStatistics : List Tree := [.field (some "numberOfEvents") "Count16", .field (some "averageEventDuration") "TimeSecond16", .field (some "timeElapsedSinceLastEvent") "TimeExponential8", .field (some "sensingDuration") "TimeExponential8"]

/-- The struct `Count16` (printed by capnproto/generator.py:323-327). -/
def s_Count16 : List Tree := [.field (some "count") "Float64"]

/-- The struct `TimeSecond16` (printed by capnproto/generator.py:323-327). -/
def s_TimeSecond16 : List Tree := [.field (some "seconds") "Float64"]

/-- The struct `PowerSpecification` (printed by capnproto/generator.py:323-327). -/
def s_PowerSpecification : List Tree := [.field (some "minimumPowerValue") "Float64", .field (some "typicalPowerValue") "Float64", .field (some "maximumPowerValue") "Float64"]

/-- The struct `TimeHour24` (printed by capnproto/generator.py:323-327). -/
def s_TimeHour24 : List Tree := [.field (some "hours") "Float64"]

/-- The struct `Temperature8Statistics` (printed by capnproto/generator.py:323-327). -/
def s_Temperature8Statistics : List Tree := [.field (some "averageTemperature") "Float64", .field (some "standardDeviationTemperature") "Float64", .field (some "minimumTemperature") "Float64", .field (some "maximumTemperature") "Float64", .field (some "sensingDuration") "TimeExponential8"]

/-- The struct `ChromaticityCoordinates` (printed by capnproto/generator.py:323-327). -/
def s_ChromaticityCoordinates : List Tree := [.field (some "chromaticityXCoordinate") "Float64", .field (some "chromaticityYCoordinate") "Float64"]

/-- The struct `CorrelatedColorTemperature` (printed by capnproto/generator.py:323-327). -/
def s_CorrelatedColorTemperature : List Tree := [.field (some "correlatedColorTemperature") "Float64"]

/-- The struct `LuminousFlux` (printed by capnproto/generator.py:323-327). -/
def s_LuminousFlux : List Tree := [.field (some "luminousFlux") "Float64"]

/-- The struct `ChromaticDistanceFromPlanckian` (printed by capnproto/generator.py:323-327). -/
def s_ChromaticDistanceFromPlanckian : List Tree := [.field (some "distanceFromPlanckian") "Float64"]

/-- The struct `ElectricCurrentSpecification` (printed by capnproto/generator.py:323-327). -/
def s_ElectricCurrentSpecification : List Tree := [.field (some "minimumElectricCurrentValue") "Float64", .field (some "typicalElectricCurrentValue") "Float64", .field (some "maximumElectricCurrentValue") "Float64"]

/-- The struct `ElectricCurrentStatistics` (printed by capnproto/generator.py:323-327). -/
def s_ElectricCurrentStatistics : List Tree := [.field (some "averageElectricCurrentValue") "Float64", .field (some "standardDeviationElectricCurrentValue") "Float64", .field (some "minimumElectricCurrentValue") "Float64", .field (some "maximumElectricCurrentValue") "Float64", .field (some "sensingDuration") "TimeExponential8"]

/-- The struct `VoltageRange` (printed by capnproto/generator.py:323-327). -/
def s_VoltageRange : List Tree := [.field (some "minimumVoltageValue") "Float64", .field (some "typicalVoltageValue") "Float64", .field (some "maximumVoltageValue") "Float64"]

/-- The struct `Percentage8` (printed by capnproto/generator.py:323-327). -/
def s_Percentage8 : List Tree := [.field (some "percentage") "Float64"]

/-- The struct `VoltageStatistics` (printed by capnproto/generator.py:323-327). -/
def s_VoltageStatistics : List Tree := [.field (some "averageVoltageValue") "Float64", .field (some "standardDeviationVoltageValue") "Float64", .field (some "minimumVoltageValue") "Float64", .field (some "maximumVoltageValue") "Float64", .field (some "sensingDuration") "TimeExponential8"]

/-- The struct `Illuminance` (printed by capnproto/generator.py:323-327). -/
def s_Illuminance : List Tree := [.field (some "illuminance") "Float64"]

/-- The struct `PerceivedLightness` (printed by capnproto/generator.py:323-327). -/
def s_PerceivedLightness : List Tree := [.field (some "perceivedLightness") "UInt16"]

/-- The struct `Coefficient` (printed by capnproto/generator.py:323-327). -/
def s_Coefficient : List Tree := [.field (some "coefficient") "Float64"]

/-- The struct `TimeMiliseconds24` (printed by capnproto/generator.py:323-327). -/
def s_TimeMiliseconds24 : List Tree := [.field (some "seconds") "Float64"]

/-- The struct `LuminousEfficacy` (printed by capnproto/generator.py:323-327). -/
def s_LuminousEfficacy : List Tree := [.field (some "luminousEfficacy") "Float64"]

/-- The struct `LuminousEnergy` (printed by capnproto/generator.py:323-327). -/
def s_LuminousEnergy : List Tree := [.field (some "luminousEnergy") "Float64"]

/-- The struct `LuminousExposure` (printed by capnproto/generator.py:323-327). -/
def s_LuminousExposure : List Tree := [.field (some "luminousExposure") "Float64"]

/-- The struct `LuminousFluxRange` (printed by capnproto/generator.py:323-327). -/
def s_LuminousFluxRange : List Tree := [.field (some "minimumLuminousFlux") "Float64", .field (some "maximumLuminousFlux") "Float64"]

/-- The struct `ElectricCurrentRange` (printed by capnproto/generator.py:323-327). -/
def s_ElectricCurrentRange : List Tree := [.field (some "minimumElectricCurrentValue") "Float64", .field (some "maximumElectricCurrentValue") "Float64"]

/-- The struct `Presence` (printed by capnproto/generator.py:323-327). -/
def s_Presence : List Tree := [.field (some "presenceDetected") "Bool"]

/-- The struct `Temperature8` (printed by capnproto/generator.py:323-327). -/
def s_Temperature8 : List Tree := [.field (some "temperature") "Float64"]

/-- The struct `Power` (printed by capnproto/generator.py:323-327). -/
def s_Power : List Tree := [.field (some "power") "Float64"]

/-- The struct `Temperature` (printed by capnproto/generator.py:323-327). -/
def s_Temperature : List Tree := [.field (some "temperature") "Float64"]

/-- The struct `ElectricCurrent` (printed by capnproto/generator.py:323-327). -/
def s_ElectricCurrent : List Tree := [.field (some "current") "Float64"]

/-- The struct `Voltage` (printed by capnproto/generator.py:323-327). -/
def s_Voltage : List Tree := [.field (some "voltage") "Float64"]

/-- The struct `EnergyInAPeriodOfDay` (printed by capnproto/generator.py:323-327). -/
def s_EnergyInAPeriodOfDay : List Tree := [.field (some "energyValue") "Float64", .field (some "startTime") "TimeDecihour8", .field (some "endTime") "TimeDecihour8"]

/-- The struct `RelativeRuntimeInAGenericLevelRange` (printed by capnproto/generator.py:323-327). -/
def s_RelativeRuntimeInAGenericLevelRange : List Tree := [.field (some "relativeValue") "Float64", .field (some "minimumGenericLevel") "Float64", .field (some "maximumGenericLevel") "Float64"]

/-- The struct `RelativeValueInAnIlluminanceRange` (printed by capnproto/generator.py:323-327). -/
def s_RelativeValueInAnIlluminanceRange : List Tree := [.field (some "relativeValue") "Float64", .field (some "minimumIlluminance") "Float64", .field (some "maximumIlluminance") "Float64"]

/-- The struct `RelativeValueInATemperatureRange` (printed by capnproto/generator.py:323-327). -/
def s_RelativeValueInATemperatureRange : List Tree := [.field (some "relativeValue") "Float64", .field (some "minimumTemperature") "Float64", .field (some "maximumTemperature") "Float64"]

/-- The struct `RelativeValueInACurrentRange` (printed by capnproto/generator.py:323-327). -/
def s_RelativeValueInACurrentRange : List Tree := [.field (some "relativeValue") "Float64", .field (some "minimumCurrent") "Float64", .field (some "maximumCurrent") "Float64"]

/-- The struct `RelativeValueInAVoltageRange` (printed by capnproto/generator.py:323-327). -/
def s_RelativeValueInAVoltageRange : List Tree := [.field (some "relativeValue") "Float64", .field (some "minimumVoltage") "Float64", .field (some "maximumVoltage") "Float64"]

/-- The struct `Count24` (printed by capnproto/generator.py:323-327). -/
def s_Count24 : List Tree := [.field (some "count") "Float64"]

/-- The struct `PreciseEnergy` (printed by capnproto/generator.py:323-327). -/
def s_PreciseEnergy : List Tree := [.field (some "energy") "Float64"]

/-- The struct `CosineOfTheAngle` (printed by capnproto/generator.py:323-327). -/
def s_CosineOfTheAngle : List Tree := [.field (some "cosineOfTheAngle") "Int8"]

/-- The struct `HighVoltage` (printed by capnproto/generator.py:323-327). -/
def s_HighVoltage : List Tree := [.field (some "highVoltage") "Float64"]

/-- The struct `VoltageFrequency` (printed by capnproto/generator.py:323-327). -/
def s_VoltageFrequency : List Tree := [.field (some "voltageFrequency") "UInt16"]

/-- The struct `LightDistribution` (printed by capnproto/generator.py:323-327). -/
def s_LightDistribution : List Tree := [.field (some "lightDistribution") "UInt8"]

/-- The struct `TimeSecond32` (printed by capnproto/generator.py:323-327). -/
def s_TimeSecond32 : List Tree := [.field (some "seconds") "Float64"]

/-- The struct `HighTemperature` (printed by capnproto/generator.py:323-327). -/
def s_HighTemperature : List Tree := [.field (some "temperature") "Float64"]

/-- The struct `LightOutput` (printed by capnproto/generator.py:323-327). -/
def s_LightOutput : List Tree := [.field (some "lightOutput") "Float64"]

/-- The struct `ApparentEnergy32` (printed by capnproto/generator.py:323-327). -/
def s_ApparentEnergy32 : List Tree := [.field (some "energy") "Float64"]

/-- The struct `ApparentPower` (printed by capnproto/generator.py:323-327). -/
def s_ApparentPower : List Tree := [.field (some "power") "Float64"]

/-- The struct `Energy32` (printed by capnproto/generator.py:323-327). -/
def s_Energy32 : List Tree := [.field (some "energy") "Float64"]

/-- The struct `LightSourceType` (printed by capnproto/generator.py:323-327). -/
def s_LightSourceType : List Tree := [.field (some "lightSourceType") "UInt8"]

/-- The struct `SensorSettingsGet` (printed by capnproto/generator.py:323-327). -/
def s_SensorSettingsGet : List Tree := [.field (some "sensorPropertyId") "UInt16"]

/-- The struct `SensorSettingsStatus` (printed by capnproto/generator.py:323-327). -/
def s_SensorSettingsStatus : List Tree := [.field (some "sensorPropertyId") "UInt16", .field (some "sensorSettingPropertyIds") "List(UInt16)"]

/-- The struct `SensorSettingGet` (printed by capnproto/generator.py:323-327). -/
def s_SensorSettingGet : List Tree := [.field (some "sensorPropertyId") "UInt16", .field (some "sensorSettingPropertyId") "UInt16"]

/-- A union of the struct `SensorSettingSet` (printed by capnproto/generator.py:315-321). -/
def u_SensorSettingSet : List Tree := [.field (some "averageAmbientTemperatureInAPeriodOfDay") "Temperature8InAPeriodOfDay", .field (some "averageInputCurrent") "AverageCurrent", .field (some "averageInputVoltage") "AverageVoltage", .field (some "averageOutputCurrent") "AverageCurrent", .field (some "averageOutputVoltage") "AverageVoltage", .field (some "centerBeamIntensityAtFullPower") "LuminousIntensity", .field (some "chromaticityTolerance") "ChromaticityTolerance", .field (some "colorRenderingIndexR9") "ColorRenderingIndex", .field (some "colorRenderingIndexRa") "ColorRenderingIndex", .field (some "deviceAppearance") "Appearance", .field (some "deviceCountryOfOrigin") "CountryCode", .field (some "deviceDateOfManufacture") "DateUTC", .field (some "deviceEnergyUseSinceTurnOn") "Energy", .field (some "deviceFirmwareRevision") "Text", .field (some "deviceGlobalTradeItemNumber") "GlobalTradeItemNumber", .field (some "deviceHardwareRevision") "Text", .field (some "deviceManufacturerName") "Text", .field (some "deviceModelNumber") "Text", .field (some "deviceOperatingTemperatureRangeSpecification") "TemperatureRange", .field (some "deviceOperatingTemperatureStatisticalValues") "TemperatureStatistics", .field (some "deviceOverTemperatureEventStatistics") "EventStatistics", .field (some "devicePowerRangeSpecification") "PowerSpecification", .field (some "deviceRuntimeSinceTurnOn") "TimeHour24", .field (some "deviceRuntimeWarranty") "TimeHour24", .field (some "deviceSerialNumber") "Text", .field (some "deviceSoftwareRevision") "Text", .field (some "deviceUnderTemperatureEventStatistics") "EventStatistics", .field (some "indoorAmbientTemperatureStatisticalValues") "Temperature8Statistics", .field (some "initialCie1931ChromaticityCoordinates") "ChromaticityCoordinates", .field (some "initialCorrelatedColorTemperature") "CorrelatedColorTemperature", .field (some "initialLuminousFlux") "LuminousFlux", .field (some "initialPlanckianDistance") "ChromaticDistanceFromPlanckian", .field (some "inputCurrentRangeSpecification") "ElectricCurrentSpecification", .field (some "inputCurrentStatistics") "ElectricCurrentStatistics", .field (some "inputOverCurrentEventStatistics") "EventStatistics", .field (some "inputOverRippleVoltageEventStatistics") "EventStatistics", .field (some "inputOverVoltageEventStatistics") "EventStatistics", .field (some "inputUnderCurrentEventStatistics") "EventStatistics", .field (some "inputUnderVoltageEventStatistics") "EventStatistics", .field (some "inputVoltageRangeSpecification") "VoltageRange", .field (some "inputVoltageRippleSpecification") "Percentage8", .field (some "inputVoltageStatistics") "VoltageStatistics", .field (some "lightControlAmbientLuxlevelOn") "Illuminance", .field (some "lightControlAmbientLuxlevelProlong") "Illuminance", .field (some "lightControlAmbientLuxlevelStandby") "Illuminance", .field (some "lightControlLightnessOn") "PerceivedLightness", .field (some "lightControlLightnessProlong") "PerceivedLightness", .field (some "lightControlLightnessStandby") "PerceivedLightness", .field (some "lightControlRegulatorAccuracy") "Percentage8", .field (some "lightControlRegulatorKid") "Coefficient", .field (some "lightControlRegulatorKiu") "Coefficient", .field (some "lightControlRegulatorKpd") "Coefficient", .field (some "lightControlRegulatorKpu") "Coefficient", .field (some "lightControlTimeFade") "TimeMiliseconds24", .field (some "lightControlTimeFadeOn") "TimeMiliseconds24", .field (some "lightControlTimeFadeStandbyAuto") "TimeMiliseconds24", .field (some "lightControlTimeFadeStandbyManual") "TimeMiliseconds24", .field (some "lightControlTimeOccupancyDelay") "TimeMiliseconds24", .field (some "lightControlTimeProlong") "TimeMiliseconds24", .field (some "lightControlTimeRunOn") "TimeMiliseconds24", .field (some "lumenMaintenanceFactor") "Percentage8", .field (some "luminousEfficacy") "LuminousEfficacy", .field (some "luminousEnergySinceTurnOn") "LuminousEnergy", .field (some "luminousExposure") "LuminousExposure", .field (some "luminousFluxRange") "LuminousFluxRange", .field (some "motionSensed") "Percentage8", .field (some "motionThreshold") "Percentage8", .field (some "openCircuitEventStatistics") "EventStatistics", .field (some "outdoorStatisticalValues") "Temperature8Statistics", .field (some "outputCurrentRange") "ElectricCurrentRange", .field (some "outputCurrentStatistics") "ElectricCurrentStatistics", .field (some "outputRippleVoltageSpecification") "Percentage8", .field (some "outputVoltageRange") "VoltageRange", .field (some "outputVoltageStatistics") "VoltageStatistics", .field (some "overOutputRippleVoltageEventStatistics") "EventStatistics", .field (some "peopleCount") "Count16", .field (some "presenceDetected") "Presence", .field (some "presentAmbientLightLevel") "Illuminance", .field (some "presentAmbientTemperature") "Temperature8", .field (some "presentCie1931ChromaticityCoordinates") "ChromaticityCoordinates", .field (some "presentCorrelatedColorTemperature") "CorrelatedColorTemperature", .field (some "presentDeviceInputPower") "Power", .field (some "presentDeviceOperatingEfficiency") "Percentage8", .field (some "presentDeviceOperatingTemperature") "Temperature", .field (some "presentIlluminance") "Illuminance", .field (some "presentIndoorAmbientTemperature") "Temperature8", .field (some "presentInputCurrent") "ElectricCurrent", .field (some "presentInputRippleVoltage") "Percentage8", .field (some "presentInputVoltage") "Voltage", .field (some "presentLuminousFlux") "LuminousFlux", .field (some "presentOutdoorAmbientTemperature") "Temperature8", .field (some "presentOutputCurrent") "ElectricCurrent", .field (some "presentOutputVoltage") "Voltage", .field (some "presentPlanckianDistance") "ChromaticDistanceFromPlanckian", .field (some "presentRelativeOutputRippleVoltage") "Percentage8", .field (some "relativeDeviceEnergyUseInAPeriodOfDay") "EnergyInAPeriodOfDay", .field (some "relativeDeviceRuntimeInAGenericLevelRange") "RelativeRuntimeInAGenericLevelRange", .field (some "relativeExposureTimeInAnIlluminanceRange") "RelativeValueInAnIlluminanceRange", .field (some "relativeRuntimeInACorrelatedColorTemperatureRange") "LuminousEnergy", .field (some "relativeRuntimeInADeviceOperatingTemperatureRange") "RelativeValueInATemperatureRange", .field (some "relativeRuntimeInAnInputCurrentRange") "RelativeValueInACurrentRange", .field (some "relativeRuntimeInAnInputVoltageRange") "RelativeValueInAVoltageRange", .field (some "shortCircuitEventStatistics") "EventStatistics", .field (some "timeSinceMotionSensed") "TimeSecond16", .field (some "timeSincePresenceDetected") "TimeSecond16", .field (some "totalDeviceEnergyUse") "Energy", .field (some "totalDeviceOffOnCycles") "Count24", .field (some "totalDevicePowerOnCycles") "Count24", .field (some "totalDevicePowerOnTime") "TimeHour24", .field (some "totalDeviceRuntime") "TimeHour24", .field (some "totalLightExposureTime") "TimeHour24", .field (some "totalLuminousEnergy") "LuminousEnergy", .field (some "preciseTotalDeviceEnergyUse") "PreciseEnergy", .field (some "powerFactor") "CosineOfTheAngle", .field (some "externalSupplyVoltage") "HighVoltage", .field (some "externalSupplyVoltageFrequency") "VoltageFrequency", .field (some "lightDistribution") "LightDistribution", .field (some "lightSourceCurrent") "AverageCurrent", .field (some "lightSourceOnTimeNotResettable") "TimeSecond32", .field (some "lightSourceOnTimeResettable") "TimeSecond32", .field (some "lightSourceOpenCircuitStatistics") "EventStatistics", .field (some "lightSourceOverallFailuresStatistics") "EventStatistics", .field (some "lightSourceShortCircuitStatistics") "EventStatistics", .field (some "lightSourceStartCounterResettable") "Count24", .field (some "lightSourceTemperature") "HighTemperature", .field (some "lightSourceThermalDeratingStatistics") "EventStatistics", .field (some "lightSourceThermalShutdownStatistics") "EventStatistics", .field (some "lightSourceTotalPowerOnCycles") "Count24", .field (some "lightSourceVoltage") "AverageVoltage", .field (some "luminaireColor") "Text", .field (some "luminaireIdentificationNumber") "Text", .field (some "luminaireNominalInputPower") "Power", .field (some "luminaireNominalMaximumAcMainsVoltage") "Voltage", .field (some "luminaireNominalMinimumAcMainsVoltage") "Voltage", .field (some "luminairePowerAtMinimumDimLevel") "Power", .field (some "luminaireTimeOfManufacture") "DateUTC", .field (some "nominalLightOutput") "LightOutput", .field (some "overallFailureCondition") "EventStatistics", .field (some "ratedMedianUsefulLifeOfLuminaire") "TimeHour24", .field (some "ratedMedianUsefulLightSourceStarts") "Count24", .field (some "referenceTemperature") "HighTemperature", .field (some "totalDeviceStarts") "Count24", .field (some "luminaireIdentificationString") "Text", .field (some "outputPowerLimitation") "EventStatistics", .field (some "thermalDerating") "EventStatistics", .field (some "outputCurrentPercent") "Percentage8", .field (some "luminaireManufacturerGtin") "GlobalTradeItemNumber", .field (some "apparentEnergy") "ApparentEnergy32", .field (some "apparentPower") "ApparentPower", .field (some "activeEnergyLoadSide") "Energy32", .field (some "activePowerLoadSide") "Power", .field (some "lightSourceType") "LightSourceType", .field (some "desiredAmbientTemperature") "Temperature8", .field (some "sensorGain") "Coefficient", .field (some "precisePresentAmbientTemperature") "Temperature", .field (some "sensorSettingRaw") "List(UInt8)"]

/-- The struct `SensorSettingSet` (printed by capnproto/generator.py:323-327). -/
def s_SensorSettingSet : List Tree := [.field (some "sensorPropertyId") "UInt16", .field (some "sensorSettingPropertyId") "UInt16", .union none u_SensorSettingSet]

/-- The struct `SensorSetupMessageParams` (printed by capnproto/generator.py:323-327). -/
def s_SensorSetupMessageParams : List Tree := [.field (some "year") "UInt16", .field (some "month") "UInt8", .field (some "day") "UInt8"]

/-- A union of the struct `SensorSettingStatus` (printed by capnproto/generator.py:315-321). -/
def u_SensorSettingStatus : List Tree := [.field (some "averageAmbientTemperatureInAPeriodOfDay") "Temperature8InAPeriodOfDay", .field (some "averageInputCurrent") "AverageCurrent", .field (some "averageInputVoltage") "AverageVoltage", .field (some "averageOutputCurrent") "AverageCurrent", .field (some "averageOutputVoltage") "AverageVoltage", .field (some "centerBeamIntensityAtFullPower") "LuminousIntensity", .field (some "chromaticityTolerance") "ChromaticityTolerance", .field (some "colorRenderingIndexR9") "ColorRenderingIndex", .field (some "colorRenderingIndexRa") "ColorRenderingIndex", .field (some "deviceAppearance") "Appearance", .field (some "deviceCountryOfOrigin") "CountryCode", .field (some "deviceDateOfManufacture") "DateUTC", .field (some "deviceEnergyUseSinceTurnOn") "Energy", .field (some "deviceFirmwareRevision") "Text", .field (some "deviceGlobalTradeItemNumber") "GlobalTradeItemNumber", .field (some "deviceHardwareRevision") "Text", .field (some "deviceManufacturerName") "Text", .field (some "deviceModelNumber") "Text", .field (some "deviceOperatingTemperatureRangeSpecification") "TemperatureRange", .field (some "deviceOperatingTemperatureStatisticalValues") "TemperatureStatistics", .field (some "deviceOverTemperatureEventStatistics") "EventStatistics", .field (some "devicePowerRangeSpecification") "PowerSpecification", .field (some "deviceRuntimeSinceTurnOn") "TimeHour24", .field (some "deviceRuntimeWarranty") "TimeHour24", .field (some "deviceSerialNumber") "Text", .field (some "deviceSoftwareRevision") "Text", .field (some "deviceUnderTemperatureEventStatistics") "EventStatistics", .field (some "indoorAmbientTemperatureStatisticalValues") "Temperature8Statistics", .field (some "initialCie1931ChromaticityCoordinates") "ChromaticityCoordinates", .field (some "initialCorrelatedColorTemperature") "CorrelatedColorTemperature", .field (some "initialLuminousFlux") "LuminousFlux", .field (some "initialPlanckianDistance") "ChromaticDistanceFromPlanckian", .field (some "inputCurrentRangeSpecification") "ElectricCurrentSpecification", .field (some "inputCurrentStatistics") "ElectricCurrentStatistics", .field (some "inputOverCurrentEventStatistics") "EventStatistics", .field (some "inputOverRippleVoltageEventStatistics") "EventStatistics", .field (some "inputOverVoltageEventStatistics") "EventStatistics", .field (some "inputUnderCurrentEventStatistics") "EventStatistics", .field (some "inputUnderVoltageEventStatistics") "EventStatistics", .field (some "inputVoltageRangeSpecification") "VoltageRange", .field (some "inputVoltageRippleSpecification") "Percentage8", .field (some "inputVoltageStatistics") "VoltageStatistics", .field (some "lightControlAmbientLuxlevelOn") "Illuminance", .field (some "lightControlAmbientLuxlevelProlong") "Illuminance", .field (some "lightControlAmbientLuxlevelStandby") "Illuminance", .field (some "lightControlLightnessOn") "PerceivedLightness", .field (some "lightControlLightnessProlong") "PerceivedLightness", .field (some "lightControlLightnessStandby") "PerceivedLightness", .field (some "lightControlRegulatorAccuracy") "Percentage8", .field (some "lightControlRegulatorKid") "Coefficient", .field (some "lightControlRegulatorKiu") "Coefficient", .field (some "lightControlRegulatorKpd") "Coefficient", .field (some "lightControlRegulatorKpu") "Coefficient", .field (some "lightControlTimeFade") "TimeMiliseconds24", .field (some "lightControlTimeFadeOn") "TimeMiliseconds24", .field (some "lightControlTimeFadeStandbyAuto") "TimeMiliseconds24", .field (some "lightControlTimeFadeStandbyManual") "TimeMiliseconds24", .field (some "lightControlTimeOccupancyDelay") "TimeMiliseconds24", .field (some "lightControlTimeProlong") "TimeMiliseconds24", .field (some "lightControlTimeRunOn") "TimeMiliseconds24", .field (some "lumenMaintenanceFactor") "Percentage8", .field (some "luminousEfficacy") "LuminousEfficacy", .field (some "luminousEnergySinceTurnOn") "LuminousEnergy", .field (some "luminousExposure") "LuminousExposure", .field (some "luminousFluxRange") "LuminousFluxRange", .field (some "motionSensed") "Percentage8", .field (some "motionThreshold") "Percentage8", .field (some "openCircuitEventStatistics") "EventStatistics", .field (some "outdoorStatisticalValues") "Temperature8Statistics", .field (some "outputCurrentRange") "ElectricCurrentRange", .field (some "outputCurrentStatistics") "ElectricCurrentStatistics", .field (some "outputRippleVoltageSpecification") "Percentage8", .field (some "outputVoltageRange") "VoltageRange", .field (some "outputVoltageStatistics") "VoltageStatistics", .field (some "overOutputRippleVoltageEventStatistics") "EventStatistics", .field (some "peopleCount") "Count16", .field (some "presenceDetected") "Presence", .field (some "presentAmbientLightLevel") "Illuminance", .field (some "presentAmbientTemperature") "Temperature8", .field (some "presentCie1931ChromaticityCoordinates") "ChromaticityCoordinates", .field (some "presentCorrelatedColorTemperature") "CorrelatedColorTemperature", .field (some "presentDeviceInputPower") "Power", .field (some "presentDeviceOperatingEfficiency") "Percentage8", .field (some "presentDeviceOperatingTemperature") "Temperature", .field (some "presentIlluminance") "Illuminance", .field (some "presentIndoorAmbientTemperature") "Temperature8", .field (some "presentInputCurrent") "ElectricCurrent", .field (some "presentInputRippleVoltage") "Percentage8", .field (some "presentInputVoltage") "Voltage", .field (some "presentLuminousFlux") "LuminousFlux", .field (some "presentOutdoorAmbientTemperature") "Temperature8", .field (some "presentOutputCurrent") "ElectricCurrent", .field (some "presentOutputVoltage") "Voltage", .field (some "presentPlanckianDistance") "ChromaticDistanceFromPlanckian", .field (some "presentRelativeOutputRippleVoltage") "Percentage8", .field (some "relativeDeviceEnergyUseInAPeriodOfDay") "EnergyInAPeriodOfDay", .field (some "relativeDeviceRuntimeInAGenericLevelRange") "RelativeRuntimeInAGenericLevelRange", .field (some "relativeExposureTimeInAnIlluminanceRange") "RelativeValueInAnIlluminanceRange", .field (some "relativeRuntimeInACorrelatedColorTemperatureRange") "LuminousEnergy", .field (some "relativeRuntimeInADeviceOperatingTemperatureRange") "RelativeValueInATemperatureRange", .field (some "relativeRuntimeInAnInputCurrentRange") "RelativeValueInACurrentRange", .field (some "relativeRuntimeInAnInputVoltageRange") "RelativeValueInAVoltageRange", .field (some "shortCircuitEventStatistics") "EventStatistics", .field (some "timeSinceMotionSensed") "TimeSecond16", .field (some "timeSincePresenceDetected") "TimeSecond16", .field (some "totalDeviceEnergyUse") "Energy", .field (some "totalDeviceOffOnCycles") "Count24", .field (some "totalDevicePowerOnCycles") "Count24", .field (some "totalDevicePowerOnTime") "TimeHour24", .field (some "totalDeviceRuntime") "TimeHour24", .field (some "totalLightExposureTime") "TimeHour24", .field (some "totalLuminousEnergy") "LuminousEnergy", .field (some "preciseTotalDeviceEnergyUse") "PreciseEnergy", .field (some "powerFactor") "CosineOfTheAngle", .field (some "externalSupplyVoltage") "HighVoltage", .field (some "externalSupplyVoltageFrequency") "VoltageFrequency", .field (some "lightDistribution") "LightDistribution", .field (some "lightSourceCurrent") "AverageCurrent", .field (some "lightSourceOnTimeNotResettable") "TimeSecond32", .field (some "lightSourceOnTimeResettable") "TimeSecond32", .field (some "lightSourceOpenCircuitStatistics") "EventStatistics", .field (some "lightSourceOverallFailuresStatistics") "EventStatistics", .field (some "lightSourceShortCircuitStatistics") "EventStatistics", .field (some "lightSourceStartCounterResettable") "Count24", .field (some "lightSourceTemperature") "HighTemperature", .field (some "lightSourceThermalDeratingStatistics") "EventStatistics", .field (some "lightSourceThermalShutdownStatistics") "EventStatistics", .field (some "lightSourceTotalPowerOnCycles") "Count24", .field (some "lightSourceVoltage") "AverageVoltage", .field (some "luminaireColor") "Text", .field (some "luminaireIdentificationNumber") "Text", .field (some "luminaireNominalInputPower") "Power", .field (some "luminaireNominalMaximumAcMainsVoltage") "Voltage", .field (some "luminaireNominalMinimumAcMainsVoltage") "Voltage", .field (some "luminairePowerAtMinimumDimLevel") "Power", .field (some "luminaireTimeOfManufacture") "DateUTC", .field (some "nominalLightOutput") "LightOutput", .field (some "overallFailureCondition") "EventStatistics", .field (some "ratedMedianUsefulLifeOfLuminaire") "TimeHour24", .field (some "ratedMedianUsefulLightSourceStarts") "Count24", .field (some "referenceTemperature") "HighTemperature", .field (some "totalDeviceStarts") "Count24", .field (some "luminaireIdentificationString") "Text", .field (some "outputPowerLimitation") "EventStatistics", .field (some "thermalDerating") "EventStatistics", .field (some "outputCurrentPercent") "Percentage8", .field (some "luminaireManufacturerGtin") "GlobalTradeItemNumber", .field (some "apparentEnergy") "ApparentEnergy32", .field (some "apparentPower") "ApparentPower", .field (some "activeEnergyLoadSide") "Energy32", .field (some "activePowerLoadSide") "Power", .field (some "lightSourceType") "LightSourceType", .field (some "desiredAmbientTemperature") "Temperature8", .field (some "sensorGain") "Coefficient", .field (some "precisePresentAmbientTemperature") "Temperature", .field (some "sensorSettingRaw") "List(UInt8)"]

/-- The struct `SensorSettingStatus` (printed by capnproto/generator.py:323-327). -/
def s_SensorSettingStatus : List Tree := [.field (some "sensorPropertyId") "UInt16", .field (some "sensorSettingPropertyId") "UInt16", .field (some "sensorSettingAccess") "UInt8", .union none u_SensorSettingStatus]

/-- A union of the struct `LightExtendedControllerParams` (printed by capnproto/generator.py:315-321). -/
def u_LightExtendedControllerParams : List Tree := [.field (some "propertyGet") "LightExtendedControllerPropertyGet", .field (some "propertySet") "LightExtendedControllerPropertySet", .field (some "propertySetUnacknowledged") "LightExtendedControllerPropertySet", .field (some "propertyStatus") "LightExtendedControllerPropertyStatus", .field (some "syncIntegralStatus") "LightExtendedControllerSyncIntegralStatus"]

/-- The struct `LightExtendedControllerParams` (printed by capnproto/generator.py:323-327). -/
def s_LightExtendedControllerParams : List Tree := [.field (some "subopcode") "UInt8", .union none u_LightExtendedControllerParams]

/-- The struct `LightExtendedControllerPropertyGet` (printed by capnproto/generator.py:323-327). -/
def s_LightExtendedControllerPropertyGet : List Tree := [.field (some "propertyId") "UInt16"]

/-- A union of the struct `LightExtendedControllerPropertySet` (printed by capnproto/generator.py:315-321). -/
def u_LightExtendedControllerPropertySet : List Tree := [.field (some "autoResumeMode") "Bool", .field (some "autoResumeTimer") "TimeMiliseconds24"]

/-- The struct `LightExtendedControllerPropertySet` (printed by capnproto/generator.py:323-327). -/
def s_LightExtendedControllerPropertySet : List Tree := [.field (some "propertyId") "UInt16", .union none u_LightExtendedControllerPropertySet]

/-- A union of the struct `LightExtendedControllerPropertyStatus` (printed by capnproto/generator.py:315-321). -/
def u_LightExtendedControllerPropertyStatus : List Tree := [.field (some "autoResumeMode") "Bool", .field (some "autoResumeTimer") "TimeMiliseconds24"]

/-- The struct `LightExtendedControllerPropertyStatus` (printed by capnproto/generator.py:323-327). -/
def s_LightExtendedControllerPropertyStatus : List Tree := [.field (some "propertyId") "UInt16", .union none u_LightExtendedControllerPropertyStatus]

/-- The struct `LightExtendedControllerSyncIntegralStatus` (printed by capnproto/generator.py:323-327). -/
def s_LightExtendedControllerSyncIntegralStatus : List Tree := [.field (some "syncIntegral") "UInt16"]

/-- The struct `TimeGet` (printed by capnproto/generator.py:323-327). -/
def s_TimeGet : List Tree := []

/-- The struct `TimeSet` (printed by capnproto/generator.py:323-327). -/
def s_TimeSet : List Tree := [.field (some "date") "DateTime", .field (some "taiUtcDelta") "Int16", .field (some "timeAuthority") "Bool", .field (some "uncertainty") "Float32"]

/-- The struct `DateTime` (printed by capnproto/generator.py:323-327). -/
def s_DateTime : List Tree := [.field (some "year") "UInt16", .field (some "month") "UInt8", .field (some "day") "UInt8", .field (some "hour") "UInt8", .field (some "minute") "UInt8", .field (some "second") "UInt8", .field (some "microsecond") "UInt32", .field (some "timeZoneOffset") "Int16"]

/-- The struct `TimeStatus` (printed by capnproto/generator.py:323-327). -/
def s_TimeStatus : List Tree := [.field (some "date") "DateTime", .field (some "taiUtcDelta") "Int16", .field (some "timeAuthority") "Bool", .field (some "uncertainty") "Float32"]

/-- The struct `TimeZoneGet` (printed by capnproto/generator.py:323-327). -/
def s_TimeZoneGet : List Tree := []

/-- The struct `TimeZoneSet` (printed by capnproto/generator.py:323-327). -/
def s_TimeZoneSet : List Tree := [.field (some "timeZoneOffsetNew") "UInt8", .field (some "taiOfZoneChange") "UInt64"]

/-- The struct `TimeZoneStatus` (printed by capnproto/generator.py:323-327). -/
def s_TimeZoneStatus : List Tree := [.field (some "timeZoneOffsetCurrent") "UInt8", .field (some "timeZoneOffsetNew") "UInt8", .field (some "taiOfZoneChange") "UInt64"]

/-- The struct `TAIUTCDeltaGet` (printed by capnproto/generator.py:323-327). -/
def s_TAIUTCDeltaGet : List Tree := []

/-- The struct `TAIUTCDeltaSet` (printed by capnproto/generator.py:323-327). -/
def s_TAIUTCDeltaSet : List Tree := [.field (some "taiUtcDeltaNew") "UInt16", .field (some "taiOfDeltaChange") "UInt64"]

/-- The struct `TAIUTCDeltaStatus` (printed by capnproto/generator.py:323-327). -/
def s_TAIUTCDeltaStatus : List Tree := [.field (some "taiUtcDeltaCurrent") "UInt16", .field (some "taiUtcDeltaNew") "UInt16", .field (some "taiOfDeltaChange") "UInt64"]

/-- The struct `TimeRoleGet` (printed by capnproto/generator.py:323-327). -/
def s_TimeRoleGet : List Tree := []

/-- The struct `TimeRoleStatus` (printed by capnproto/generator.py:323-327). -/
def s_TimeRoleStatus : List Tree := [.field (some "timeRole") "UInt8"]

/-- The struct `DebugV2SubMessage` (printed by capnproto/generator.py:323-327). -/
def s_DebugV2SubMessage : List Tree := [.field (some "subopcode") "UInt8", .field (some "parameterType") "UInt8", .field (some "pageNumber") "UInt8", .field (some "payload") "List(DebugV2Parameter)"]

/-- A union of the struct `DebugV2Parameter` (printed by capnproto/generator.py:315-321). -/
def u_DebugV2Parameter : List Tree := [.field (some "uint8") "UInt8", .field (some "uint16") "UInt16", .field (some "uint32") "UInt32", .field (some "uint64") "UInt64", .field (some "int8") "Int8", .field (some "int16") "Int16", .field (some "int32") "Int32", .field (some "int64") "Int64", .field (some "float") "Float32", .field (some "double") "Float64", .field (some "enum") "UInt8", .field (some "string") "Text", .field (some "array") "List(UInt8)", .field (some "invalid") "DebugV2MessageParams"]

/-- The struct `DebugV2Parameter` (printed by capnproto/generator.py:323-327). -/
def s_DebugV2Parameter : List Tree := [.field (some "dataType") "UInt8", .union none u_DebugV2Parameter]

/-- The struct `DebugV2MessageParams` (printed by capnproto/generator.py:323-327). -/
def s_DebugV2MessageParams : List Tree := []

/-- A union of the struct `RRuleSchedulerSubMessage` (printed by capnproto/generator.py:315-321). -/
def g_RRuleSchedulerSubMessage_scheduleRegisterEntryStatus : List Tree := [.field (some "optional") "ScheduleRegisterEntryStatusOptional", .field (some "minimal") "ScheduleRegisterEntryStatusMinimal"]

/-- A union of the struct `RRuleSchedulerSubMessage` (printed by capnproto/generator.py:315-321). -/
def g_RRuleSchedulerSubMessage_payload : List Tree := [.field (some "rulesListGet") "RulesListGet", .field (some "rulesListStatus") "RulesListStatus", .field (some "registerMaxSizeGet") "RegisterMaxSizeGet", .field (some "registerMaxSizeStatus") "RegisterMaxSizeStatus", .field (some "schedulerModeGet") "SchedulerModeGet", .field (some "schedulerModeSet") "SchedulerModeStatus", .field (some "schedulerModeStatus") "SchedulerModeStatus", .field (some "scheduleRegisterEntryGet") "ScheduleRegisterEntryDelete", .field (some "scheduleRegisterEntrySet") "ScheduleRegisterEntrySet", .field (some "scheduleRegisterEntryDelete") "ScheduleRegisterEntryDelete", .field (some "scheduleRegisterEntryDeleteAll") "ScheduleRegisterEntryDeleteAll", .union (some "scheduleRegisterEntryStatus") g_RRuleSchedulerSubMessage_scheduleRegisterEntryStatus, .field (some "scheduleRegisterListGet") "ScheduleRegisterListGet", .field (some "scheduleRegisterListStatus") "ScheduleRegisterListStatus"]

/-- The struct `RRuleSchedulerSubMessage` (printed by capnproto/generator.py:323-327). -/
def s_RRuleSchedulerSubMessage : List Tree := [.field (some "subopcode") "UInt8", .union (some "payload") g_RRuleSchedulerSubMessage_payload]

/-- The struct `RulesListGet` (printed by capnproto/generator.py:323-327). -/
def s_RulesListGet : List Tree := []

/-- The struct `RulesListStatus` (printed by capnproto/generator.py:323-327). -/
def s_RulesListStatus : List Tree := [.field (some "ruleIds") "List(UInt8)"]

/-- The struct `RegisterMaxSizeGet` (printed by capnproto/generator.py:323-327). -/
def s_RegisterMaxSizeGet : List Tree := []

/-- The struct `RegisterMaxSizeStatus` (printed by capnproto/generator.py:323-327). -/
def s_RegisterMaxSizeStatus : List Tree := [.field (some "registerMaxSize") "UInt32"]

/-- The struct `SchedulerModeGet` (printed by capnproto/generator.py:323-327). -/
def s_SchedulerModeGet : List Tree := []

/-- The struct `SchedulerModeStatus` (printed by capnproto/generator.py:323-327). -/
def s_SchedulerModeStatus : List Tree := [.field (some "schedulerMode") "UInt8"]

/-- The struct `ScheduleRegisterEntryDelete` (printed by capnproto/generator.py:323-327). -/
def s_ScheduleRegisterEntryDelete : List Tree := [.field (some "entryId") "UInt8"]

/-- The struct `ScheduleRegisterEntrySet` (printed by capnproto/generator.py:323-327). -/
def s_ScheduleRegisterEntrySet : List Tree := [.field (some "entryId") "UInt8", .field (some "schedulerRegisterEntry") "SchedulerRegisterEntry"]

/-- The struct `SchedulerRegisterEntry` (printed by capnproto/generator.py:323-327). -/
def s_SchedulerRegisterEntry : List Tree := [.field (some "arrayOfSlots") "List(Slots)", .field (some "rules") "List(Rules)"]

/-- The struct `Slots` (printed by capnproto/generator.py:323-327). -/
def s_Slots : List Tree := [.field (some "slotId") "UInt16", .field (some "element") "UInt8", .field (some "slotParameter") "Data"]

/-- A union of the struct `Rules` (printed by capnproto/generator.py:315-321). -/
def g_Rules_rule : List Tree := [.field (some "freq") "UInt8", .field (some "until") "DateTime", .field (some "count") "UInt16", .field (some "interval") "UInt16", .field (some "bysecond") "List(UInt8)", .field (some "byminute") "List(UInt8)", .field (some "byhour") "List(UInt8)", .field (some "byday") "List(Int8)", .field (some "bymonthday") "List(Int8)", .field (some "byyearday") "List(Int16)", .field (some "byweekno") "List(Int8)", .field (some "bymonth") "UInt16", .field (some "bysetpos") "List(Int16)", .field (some "dtstart") "DateTime", .field (some "explicitRdate") "List(DateTime)", .field (some "exclusionsRdate") "List(DateTime)"]

/-- The struct `Rules` (printed by capnproto/generator.py:323-327). -/
def s_Rules : List Tree := [.field (some "ruleId") "UInt8", .union (some "rule") g_Rules_rule]

/-- The struct `ScheduleRegisterEntryDeleteAll` (printed by capnproto/generator.py:323-327). -/
def s_ScheduleRegisterEntryDeleteAll : List Tree := []

/-- The struct `ScheduleRegisterEntryStatusOptional` (printed by capnproto/generator.py:323-327). -/
def s_ScheduleRegisterEntryStatusOptional : List Tree := [.field (some "entryId") "UInt8", .field (some "status") "UInt8", .field (some "schedulerRegisterEntry") "SchedulerRegisterEntry"]

/-- The struct `ScheduleRegisterEntryStatusMinimal` (printed by capnproto/generator.py:323-327). -/
def s_ScheduleRegisterEntryStatusMinimal : List Tree := [.field (some "entryId") "UInt8", .field (some "status") "UInt8"]

/-- The struct `ScheduleRegisterListGet` (printed by capnproto/generator.py:323-327). -/
def s_ScheduleRegisterListGet : List Tree := []

/-- The struct `ScheduleRegisterListStatus` (printed by capnproto/generator.py:323-327). -/
def s_ScheduleRegisterListStatus : List Tree := [.field (some "entryIds") "List(UInt8)"]

/-- The struct `GenericPropertiesGet` (printed by capnproto/generator.py:323-327). -/
def s_GenericPropertiesGet : List Tree := []

/-- The struct `GenericPropertiesStatus` (printed by capnproto/generator.py:323-327). -/
def s_GenericPropertiesStatus : List Tree := [.field (some "propertyIds") "List(UInt16)"]

/-- The struct `GenericPropertyGet` (printed by capnproto/generator.py:323-327). -/
def s_GenericPropertyGet : List Tree := [.field (some "propertyId") "UInt16"]

/-- A union of the struct `GenericUserPropertySet` (printed by capnproto/generator.py:315-321). -/
def u_GenericUserPropertySet : List Tree := [.field (some "averageAmbientTemperatureInAPeriodOfDay") "Temperature8InAPeriodOfDay", .field (some "averageInputCurrent") "AverageCurrent", .field (some "averageInputVoltage") "AverageVoltage", .field (some "averageOutputCurrent") "AverageCurrent", .field (some "averageOutputVoltage") "AverageVoltage", .field (some "centerBeamIntensityAtFullPower") "LuminousIntensity", .field (some "chromaticityTolerance") "ChromaticityTolerance", .field (some "colorRenderingIndexR9") "ColorRenderingIndex", .field (some "colorRenderingIndexRa") "ColorRenderingIndex", .field (some "deviceAppearance") "Appearance", .field (some "deviceCountryOfOrigin") "CountryCode", .field (some "deviceDateOfManufacture") "DateUTC", .field (some "deviceEnergyUseSinceTurnOn") "Energy", .field (some "deviceFirmwareRevision") "Text", .field (some "deviceGlobalTradeItemNumber") "GlobalTradeItemNumber", .field (some "deviceHardwareRevision") "Text", .field (some "deviceManufacturerName") "Text", .field (some "deviceModelNumber") "Text", .field (some "deviceOperatingTemperatureRangeSpecification") "TemperatureRange", .field (some "deviceOperatingTemperatureStatisticalValues") "TemperatureStatistics", .field (some "deviceOverTemperatureEventStatistics") "EventStatistics", .field (some "devicePowerRangeSpecification") "PowerSpecification", .field (some "deviceRuntimeSinceTurnOn") "TimeHour24", .field (some "deviceRuntimeWarranty") "TimeHour24", .field (some "deviceSerialNumber") "Text", .field (some "deviceSoftwareRevision") "Text", .field (some "deviceUnderTemperatureEventStatistics") "EventStatistics", .field (some "indoorAmbientTemperatureStatisticalValues") "Temperature8Statistics", .field (some "initialCie1931ChromaticityCoordinates") "ChromaticityCoordinates", .field (some "initialCorrelatedColorTemperature") "CorrelatedColorTemperature", .field (some "initialLuminousFlux") "LuminousFlux", .field (some "initialPlanckianDistance") "ChromaticDistanceFromPlanckian", .field (some "inputCurrentRangeSpecification") "ElectricCurrentSpecification", .field (some "inputCurrentStatistics") "ElectricCurrentStatistics", .field (some "inputOverCurrentEventStatistics") "EventStatistics", .field (some "inputOverRippleVoltageEventStatistics") "EventStatistics", .field (some "inputOverVoltageEventStatistics") "EventStatistics", .field (some "inputUnderCurrentEventStatistics") "EventStatistics", .field (some "inputUnderVoltageEventStatistics") "EventStatistics", .field (some "inputVoltageRangeSpecification") "VoltageRange", .field (some "inputVoltageRippleSpecification") "Percentage8", .field (some "inputVoltageStatistics") "VoltageStatistics", .field (some "lightControlAmbientLuxlevelOn") "Illuminance", .field (some "lightControlAmbientLuxlevelProlong") "Illuminance", .field (some "lightControlAmbientLuxlevelStandby") "Illuminance", .field (some "lightControlLightnessOn") "PerceivedLightness", .field (some "lightControlLightnessProlong") "PerceivedLightness", .field (some "lightControlLightnessStandby") "PerceivedLightness", .field (some "lightControlRegulatorAccuracy") "Percentage8", .field (some "lightControlRegulatorKid") "Coefficient", .field (some "lightControlRegulatorKiu") "Coefficient", .field (some "lightControlRegulatorKpd") "Coefficient", .field (some "lightControlRegulatorKpu") "Coefficient", .field (some "lightControlTimeFade") "TimeMiliseconds24", .field (some "lightControlTimeFadeOn") "TimeMiliseconds24", .field (some "lightControlTimeFadeStandbyAuto") "TimeMiliseconds24", .field (some "lightControlTimeFadeStandbyManual") "TimeMiliseconds24", .field (some "lightControlTimeOccupancyDelay") "TimeMiliseconds24", .field (some "lightControlTimeProlong") "TimeMiliseconds24", .field (some "lightControlTimeRunOn") "TimeMiliseconds24", .field (some "lumenMaintenanceFactor") "Percentage8", .field (some "luminousEfficacy") "LuminousEfficacy", .field (some "luminousEnergySinceTurnOn") "LuminousEnergy", .field (some "luminousExposure") "LuminousExposure", .field (some "luminousFluxRange") "LuminousFluxRange", .field (some "motionSensed") "Percentage8", .field (some "motionThreshold") "Percentage8", .field (some "openCircuitEventStatistics") "EventStatistics", .field (some "outdoorStatisticalValues") "Temperature8Statistics", .field (some "outputCurrentRange") "ElectricCurrentRange", .field (some "outputCurrentStatistics") "ElectricCurrentStatistics", .field (some "outputRippleVoltageSpecification") "Percentage8", .field (some "outputVoltageRange") "VoltageRange", .field (some "outputVoltageStatistics") "VoltageStatistics", .field (some "overOutputRippleVoltageEventStatistics") "EventStatistics", .field (some "peopleCount") "Count16", .field (some "presenceDetected") "Presence", .field (some "presentAmbientLightLevel") "Illuminance", .field (some "presentAmbientTemperature") "Temperature8", .field (some "presentCie1931ChromaticityCoordinates") "ChromaticityCoordinates", .field (some "presentCorrelatedColorTemperature") "CorrelatedColorTemperature", .field (some "presentDeviceInputPower") "Power", .field (some "presentDeviceOperatingEfficiency") "Percentage8", .field (some "presentDeviceOperatingTemperature") "Temperature", .field (some "presentIlluminance") "Illuminance", .field (some "presentIndoorAmbientTemperature") "Temperature8", .field (some "presentInputCurrent") "ElectricCurrent", .field (some "presentInputRippleVoltage") "Percentage8", .field (some "presentInputVoltage") "Voltage", .field (some "presentLuminousFlux") "LuminousFlux", .field (some "presentOutdoorAmbientTemperature") "Temperature8", .field (some "presentOutputCurrent") "ElectricCurrent", .field (some "presentOutputVoltage") "Voltage", .field (some "presentPlanckianDistance") "ChromaticDistanceFromPlanckian", .field (some "presentRelativeOutputRippleVoltage") "Percentage8", .field (some "relativeDeviceEnergyUseInAPeriodOfDay") "EnergyInAPeriodOfDay", .field (some "relativeDeviceRuntimeInAGenericLevelRange") "RelativeRuntimeInAGenericLevelRange", .field (some "relativeExposureTimeInAnIlluminanceRange") "RelativeValueInAnIlluminanceRange", .field (some "relativeRuntimeInACorrelatedColorTemperatureRange") "LuminousEnergy", .field (some "relativeRuntimeInADeviceOperatingTemperatureRange") "RelativeValueInATemperatureRange", .field (some "relativeRuntimeInAnInputCurrentRange") "RelativeValueInACurrentRange", .field (some "relativeRuntimeInAnInputVoltageRange") "RelativeValueInAVoltageRange", .field (some "shortCircuitEventStatistics") "EventStatistics", .field (some "timeSinceMotionSensed") "TimeSecond16", .field (some "timeSincePresenceDetected") "TimeSecond16", .field (some "totalDeviceEnergyUse") "Energy", .field (some "totalDeviceOffOnCycles") "Count24", .field (some "totalDevicePowerOnCycles") "Count24", .field (some "totalDevicePowerOnTime") "TimeHour24", .field (some "totalDeviceRuntime") "TimeHour24", .field (some "totalLightExposureTime") "TimeHour24", .field (some "totalLuminousEnergy") "LuminousEnergy", .field (some "preciseTotalDeviceEnergyUse") "PreciseEnergy", .field (some "powerFactor") "CosineOfTheAngle", .field (some "externalSupplyVoltage") "HighVoltage", .field (some "externalSupplyVoltageFrequency") "VoltageFrequency", .field (some "lightDistribution") "LightDistribution", .field (some "lightSourceCurrent") "AverageCurrent", .field (some "lightSourceOnTimeNotResettable") "TimeSecond32", .field (some "lightSourceOnTimeResettable") "TimeSecond32", .field (some "lightSourceOpenCircuitStatistics") "EventStatistics", .field (some "lightSourceOverallFailuresStatistics") "EventStatistics", .field (some "lightSourceShortCircuitStatistics") "EventStatistics", .field (some "lightSourceStartCounterResettable") "Count24", .field (some "lightSourceTemperature") "HighTemperature", .field (some "lightSourceThermalDeratingStatistics") "EventStatistics", .field (some "lightSourceThermalShutdownStatistics") "EventStatistics", .field (some "lightSourceTotalPowerOnCycles") "Count24", .field (some "lightSourceVoltage") "AverageVoltage", .field (some "luminaireColor") "Text", .field (some "luminaireIdentificationNumber") "Text", .field (some "luminaireNominalInputPower") "Power", .field (some "luminaireNominalMaximumAcMainsVoltage") "Voltage", .field (some "luminaireNominalMinimumAcMainsVoltage") "Voltage", .field (some "luminairePowerAtMinimumDimLevel") "Power", .field (some "luminaireTimeOfManufacture") "DateUTC", .field (some "nominalLightOutput") "LightOutput", .field (some "overallFailureCondition") "EventStatistics", .field (some "ratedMedianUsefulLifeOfLuminaire") "TimeHour24", .field (some "ratedMedianUsefulLightSourceStarts") "Count24", .field (some "referenceTemperature") "HighTemperature", .field (some "totalDeviceStarts") "Count24", .field (some "luminaireIdentificationString") "Text", .field (some "outputPowerLimitation") "EventStatistics", .field (some "thermalDerating") "EventStatistics", .field (some "outputCurrentPercent") "Percentage8", .field (some "luminaireManufacturerGtin") "GlobalTradeItemNumber", .field (some "apparentEnergy") "ApparentEnergy32", .field (some "apparentPower") "ApparentPower", .field (some "activeEnergyLoadSide") "Energy32", .field (some "activePowerLoadSide") "Power", .field (some "lightSourceType") "LightSourceType", .field (some "desiredAmbientTemperature") "Temperature8", .field (some "sensorGain") "Coefficient", .field (some "precisePresentAmbientTemperature") "Temperature"]

/-- The struct `GenericUserPropertySet` (printed by capnproto/generator.py:323-327). -/
def s_GenericUserPropertySet : List Tree := [.field (some "propertyId") "UInt16", .union none u_GenericUserPropertySet]

/-- The struct `GenericPropertyMessageParams` (printed by capnproto/generator.py:323-327). -/
def s_GenericPropertyMessageParams : List Tree := [.field (some "year") "UInt16", .field (some "month") "UInt8", .field (some "day") "UInt8"]

/-- A union of the struct `GenericPropertyStatus` (printed by capnproto/generator.py:315-321). -/
def u_GenericPropertyStatus : List Tree := [.field (some "averageAmbientTemperatureInAPeriodOfDay") "Temperature8InAPeriodOfDay", .field (some "averageInputCurrent") "AverageCurrent", .field (some "averageInputVoltage") "AverageVoltage", .field (some "averageOutputCurrent") "AverageCurrent", .field (some "averageOutputVoltage") "AverageVoltage", .field (some "centerBeamIntensityAtFullPower") "LuminousIntensity", .field (some "chromaticityTolerance") "ChromaticityTolerance", .field (some "colorRenderingIndexR9") "ColorRenderingIndex", .field (some "colorRenderingIndexRa") "ColorRenderingIndex", .field (some "deviceAppearance") "Appearance", .field (some "deviceCountryOfOrigin") "CountryCode", .field (some "deviceDateOfManufacture") "DateUTC", .field (some "deviceEnergyUseSinceTurnOn") "Energy", .field (some "deviceFirmwareRevision") "Text", .field (some "deviceGlobalTradeItemNumber") "GlobalTradeItemNumber", .field (some "deviceHardwareRevision") "Text", .field (some "deviceManufacturerName") "Text", .field (some "deviceModelNumber") "Text", .field (some "deviceOperatingTemperatureRangeSpecification") "TemperatureRange", .field (some "deviceOperatingTemperatureStatisticalValues") "TemperatureStatistics", .field (some "deviceOverTemperatureEventStatistics") "EventStatistics", .field (some "devicePowerRangeSpecification") "PowerSpecification", .field (some "deviceRuntimeSinceTurnOn") "TimeHour24", .field (some "deviceRuntimeWarranty") "TimeHour24", .field (some "deviceSerialNumber") "Text", .field (some "deviceSoftwareRevision") "Text", .field (some "deviceUnderTemperatureEventStatistics") "EventStatistics", .field (some "indoorAmbientTemperatureStatisticalValues") "Temperature8Statistics", .field (some "initialCie1931ChromaticityCoordinates") "ChromaticityCoordinates", .field (some "initialCorrelatedColorTemperature") "CorrelatedColorTemperature", .field (some "initialLuminousFlux") "LuminousFlux", .field (some "initialPlanckianDistance") "ChromaticDistanceFromPlanckian", .field (some "inputCurrentRangeSpecification") "ElectricCurrentSpecification", .field (some "inputCurrentStatistics") "ElectricCurrentStatistics", .field (some "inputOverCurrentEventStatistics") "EventStatistics", .field (some "inputOverRippleVoltageEventStatistics") "EventStatistics", .field (some "inputOverVoltageEventStatistics") "EventStatistics", .field (some "inputUnderCurrentEventStatistics") "EventStatistics", .field (some "inputUnderVoltageEventStatistics") "EventStatistics", .field (some "inputVoltageRangeSpecification") "VoltageRange", .field (some "inputVoltageRippleSpecification") "Percentage8", .field (some "inputVoltageStatistics") "VoltageStatistics", .field (some "lightControlAmbientLuxlevelOn") "Illuminance", .field (some "lightControlAmbientLuxlevelProlong") "Illuminance", .field (some "lightControlAmbientLuxlevelStandby") "Illuminance", .field (some "lightControlLightnessOn") "PerceivedLightness", .field (some "lightControlLightnessProlong") "PerceivedLightness", .field (some "lightControlLightnessStandby") "PerceivedLightness", .field (some "lightControlRegulatorAccuracy") "Percentage8", .field (some "lightControlRegulatorKid") "Coefficient", .field (some "lightControlRegulatorKiu") "Coefficient", .field (some "lightControlRegulatorKpd") "Coefficient", .field (some "lightControlRegulatorKpu") "Coefficient", .field (some "lightControlTimeFade") "TimeMiliseconds24", .field (some "lightControlTimeFadeOn") "TimeMiliseconds24", .field (some "lightControlTimeFadeStandbyAuto") "TimeMiliseconds24", .field (some "lightControlTimeFadeStandbyManual") "TimeMiliseconds24", .field (some "lightControlTimeOccupancyDelay") "TimeMiliseconds24", .field (some "lightControlTimeProlong") "TimeMiliseconds24", .field (some "lightControlTimeRunOn") "TimeMiliseconds24", .field (some "lumenMaintenanceFactor") "Percentage8", .field (some "luminousEfficacy") "LuminousEfficacy", .field (some "luminousEnergySinceTurnOn") "LuminousEnergy", .field (some "luminousExposure") "LuminousExposure", .field (some "luminousFluxRange") "LuminousFluxRange", .field (some "motionSensed") "Percentage8", .field (some "motionThreshold") "Percentage8", .field (some "openCircuitEventStatistics") "EventStatistics", .field (some "outdoorStatisticalValues") "Temperature8Statistics", .field (some "outputCurrentRange") "ElectricCurrentRange", .field (some "outputCurrentStatistics") "ElectricCurrentStatistics", .field (some "outputRippleVoltageSpecification") "Percentage8", .field (some "outputVoltageRange") "VoltageRange", .field (some "outputVoltageStatistics") "VoltageStatistics", .field (some "overOutputRippleVoltageEventStatistics") "EventStatistics", .field (some "peopleCount") "Count16", .field (some "presenceDetected") "Presence", .field (some "presentAmbientLightLevel") "Illuminance", .field (some "presentAmbientTemperature") "Temperature8", .field (some "presentCie1931ChromaticityCoordinates") "ChromaticityCoordinates", .field (some "presentCorrelatedColorTemperature") "CorrelatedColorTemperature", .field (some "presentDeviceInputPower") "Power", .field (some "presentDeviceOperatingEfficiency") "Percentage8", .field (some "presentDeviceOperatingTemperature") "Temperature", .field (some "presentIlluminance") "Illuminance", .field (some "presentIndoorAmbientTemperature") "Temperature8", .field (some "presentInputCurrent") "ElectricCurrent", .field (some "presentInputRippleVoltage") "Percentage8", .field (some "presentInputVoltage") "Voltage", .field (some "presentLuminousFlux") "LuminousFlux", .field (some "presentOutdoorAmbientTemperature") "Temperature8", .field (some "presentOutputCurrent") "ElectricCurrent", .field (some "presentOutputVoltage") "Voltage", .field (some "presentPlanckianDistance") "ChromaticDistanceFromPlanckian", .field (some "presentRelativeOutputRippleVoltage") "Percentage8", .field (some "relativeDeviceEnergyUseInAPeriodOfDay") "EnergyInAPeriodOfDay", .field (some "relativeDeviceRuntimeInAGenericLevelRange") "RelativeRuntimeInAGenericLevelRange", .field (some "relativeExposureTimeInAnIlluminanceRange") "RelativeValueInAnIlluminanceRange", .field (some "relativeRuntimeInACorrelatedColorTemperatureRange") "LuminousEnergy", .field (some "relativeRuntimeInADeviceOperatingTemperatureRange") "RelativeValueInATemperatureRange", .field (some "relativeRuntimeInAnInputCurrentRange") "RelativeValueInACurrentRange", .field (some "relativeRuntimeInAnInputVoltageRange") "RelativeValueInAVoltageRange", .field (some "shortCircuitEventStatistics") "EventStatistics", .field (some "timeSinceMotionSensed") "TimeSecond16", .field (some "timeSincePresenceDetected") "TimeSecond16", .field (some "totalDeviceEnergyUse") "Energy", .field (some "totalDeviceOffOnCycles") "Count24", .field (some "totalDevicePowerOnCycles") "Count24", .field (some "totalDevicePowerOnTime") "TimeHour24", .field (some "totalDeviceRuntime") "TimeHour24", .field (some "totalLightExposureTime") "TimeHour24", .field (some "totalLuminousEnergy") "LuminousEnergy", .field (some "preciseTotalDeviceEnergyUse") "PreciseEnergy", .field (some "powerFactor") "CosineOfTheAngle", .field (some "externalSupplyVoltage") "HighVoltage", .field (some "externalSupplyVoltageFrequency") "VoltageFrequency", .field (some "lightDistribution") "LightDistribution", .field (some "lightSourceCurrent") "AverageCurrent", .field (some "lightSourceOnTimeNotResettable") "TimeSecond32", .field (some "lightSourceOnTimeResettable") "TimeSecond32", .field (some "lightSourceOpenCircuitStatistics") "EventStatistics", .field (some "lightSourceOverallFailuresStatistics") "EventStatistics", .field (some "lightSourceShortCircuitStatistics") "EventStatistics", .field (some "lightSourceStartCounterResettable") "Count24", .field (some "lightSourceTemperature") "HighTemperature", .field (some "lightSourceThermalDeratingStatistics") "EventStatistics", .field (some "lightSourceThermalShutdownStatistics") "EventStatistics", .field (some "lightSourceTotalPowerOnCycles") "Count24", .field (some "lightSourceVoltage") "AverageVoltage", .field (some "luminaireColor") "Text", .field (some "luminaireIdentificationNumber") "Text", .field (some "luminaireNominalInputPower") "Power", .field (some "luminaireNominalMaximumAcMainsVoltage") "Voltage", .field (some "luminaireNominalMinimumAcMainsVoltage") "Voltage", .field (some "luminairePowerAtMinimumDimLevel") "Power", .field (some "luminaireTimeOfManufacture") "DateUTC", .field (some "nominalLightOutput") "LightOutput", .field (some "overallFailureCondition") "EventStatistics", .field (some "ratedMedianUsefulLifeOfLuminaire") "TimeHour24", .field (some "ratedMedianUsefulLightSourceStarts") "Count24", .field (some "referenceTemperature") "HighTemperature", .field (some "totalDeviceStarts") "Count24", .field (some "luminaireIdentificationString") "Text", .field (some "outputPowerLimitation") "EventStatistics", .field (some "thermalDerating") "EventStatistics", .field (some "outputCurrentPercent") "Percentage8", .field (some "luminaireManufacturerGtin") "GlobalTradeItemNumber", .field (some "apparentEnergy") "ApparentEnergy32", .field (some "apparentPower") "ApparentPower", .field (some "activeEnergyLoadSide") "Energy32", .field (some "activePowerLoadSide") "Power", .field (some "lightSourceType") "LightSourceType", .field (some "desiredAmbientTemperature") "Temperature8", .field (some "sensorGain") "Coefficient", .field (some "precisePresentAmbientTemperature") "Temperature"]

/-- The struct `GenericPropertyStatus` (printed by capnproto/generator.py:323-327). -/
def s_GenericPropertyStatus : List Tree := [.field (some "propertyId") "UInt16", .field (some "access") "UInt8", .union none u_GenericPropertyStatus]

/-- A union of the struct `GenericAdminPropertySet` (printed by capnproto/generator.py:315-321). -/
def u_GenericAdminPropertySet : List Tree := [.field (some "averageAmbientTemperatureInAPeriodOfDay") "Temperature8InAPeriodOfDay", .field (some "averageInputCurrent") "AverageCurrent", .field (some "averageInputVoltage") "AverageVoltage", .field (some "averageOutputCurrent") "AverageCurrent", .field (some "averageOutputVoltage") "AverageVoltage", .field (some "centerBeamIntensityAtFullPower") "LuminousIntensity", .field (some "chromaticityTolerance") "ChromaticityTolerance", .field (some "colorRenderingIndexR9") "ColorRenderingIndex", .field (some "colorRenderingIndexRa") "ColorRenderingIndex", .field (some "deviceAppearance") "Appearance", .field (some "deviceCountryOfOrigin") "CountryCode", .field (some "deviceDateOfManufacture") "DateUTC", .field (some "deviceEnergyUseSinceTurnOn") "Energy", .field (some "deviceFirmwareRevision") "Text", .field (some "deviceGlobalTradeItemNumber") "GlobalTradeItemNumber", .field (some "deviceHardwareRevision") "Text", .field (some "deviceManufacturerName") "Text", .field (some "deviceModelNumber") "Text", .field (some "deviceOperatingTemperatureRangeSpecification") "TemperatureRange", .field (some "deviceOperatingTemperatureStatisticalValues") "TemperatureStatistics", .field (some "deviceOverTemperatureEventStatistics") "EventStatistics", .field (some "devicePowerRangeSpecification") "PowerSpecification", .field (some "deviceRuntimeSinceTurnOn") "TimeHour24", .field (some "deviceRuntimeWarranty") "TimeHour24", .field (some "deviceSerialNumber") "Text", .field (some "deviceSoftwareRevision") "Text", .field (some "deviceUnderTemperatureEventStatistics") "EventStatistics", .field (some "indoorAmbientTemperatureStatisticalValues") "Temperature8Statistics", .field (some "initialCie1931ChromaticityCoordinates") "ChromaticityCoordinates", .field (some "initialCorrelatedColorTemperature") "CorrelatedColorTemperature", .field (some "initialLuminousFlux") "LuminousFlux", .field (some "initialPlanckianDistance") "ChromaticDistanceFromPlanckian", .field (some "inputCurrentRangeSpecification") "ElectricCurrentSpecification", .field (some "inputCurrentStatistics") "ElectricCurrentStatistics", .field (some "inputOverCurrentEventStatistics") "EventStatistics", .field (some "inputOverRippleVoltageEventStatistics") "EventStatistics", .field (some "inputOverVoltageEventStatistics") "EventStatistics", .field (some "inputUnderCurrentEventStatistics") "EventStatistics", .field (some "inputUnderVoltageEventStatistics") "EventStatistics", .field (some "inputVoltageRangeSpecification") "VoltageRange", .field (some "inputVoltageRippleSpecification") "Percentage8", .field (some "inputVoltageStatistics") "VoltageStatistics", .field (some "lightControlAmbientLuxlevelOn") "Illuminance", .field (some "lightControlAmbientLuxlevelProlong") "Illuminance", .field (some "lightControlAmbientLuxlevelStandby") "Illuminance", .field (some "lightControlLightnessOn") "PerceivedLightness", .field (some "lightControlLightnessProlong") "PerceivedLightness", .field (some "lightControlLightnessStandby") "PerceivedLightness", .field (some "lightControlRegulatorAccuracy") "Percentage8", .field (some "lightControlRegulatorKid") "Coefficient", .field (some "lightControlRegulatorKiu") "Coefficient", .field (some "lightControlRegulatorKpd") "Coefficient", .field (some "lightControlRegulatorKpu") "Coefficient", .field (some "lightControlTimeFade") "TimeMiliseconds24", .field (some "lightControlTimeFadeOn") "TimeMiliseconds24", .field (some "lightControlTimeFadeStandbyAuto") "TimeMiliseconds24", .field (some "lightControlTimeFadeStandbyManual") "TimeMiliseconds24", .field (some "lightControlTimeOccupancyDelay") "TimeMiliseconds24", .field (some "lightControlTimeProlong") "TimeMiliseconds24", .field (some "lightControlTimeRunOn") "TimeMiliseconds24", .field (some "lumenMaintenanceFactor") "Percentage8", .field (some "luminousEfficacy") "LuminousEfficacy", .field (some "luminousEnergySinceTurnOn") "LuminousEnergy", .field (some "luminousExposure") "LuminousExposure", .field (some "luminousFluxRange") "LuminousFluxRange", .field (some "motionSensed") "Percentage8", .field (some "motionThreshold") "Percentage8", .field (some "openCircuitEventStatistics") "EventStatistics", .field (some "outdoorStatisticalValues") "Temperature8Statistics", .field (some "outputCurrentRange") "ElectricCurrentRange", .field (some "outputCurrentStatistics") "ElectricCurrentStatistics", .field (some "outputRippleVoltageSpecification") "Percentage8", .field (some "outputVoltageRange") "VoltageRange", .field (some "outputVoltageStatistics") "VoltageStatistics", .field (some "overOutputRippleVoltageEventStatistics") "EventStatistics", .field (some "peopleCount") "Count16", .field (some "presenceDetected") "Presence", .field (some "presentAmbientLightLevel") "Illuminance", .field (some "presentAmbientTemperature") "Temperature8", .field (some "presentCie1931ChromaticityCoordinates") "ChromaticityCoordinates", .field (some "presentCorrelatedColorTemperature") "CorrelatedColorTemperature", .field (some "presentDeviceInputPower") "Power", .field (some "presentDeviceOperatingEfficiency") "Percentage8", .field (some "presentDeviceOperatingTemperature") "Temperature", .field (some "presentIlluminance") "Illuminance", .field (some "presentIndoorAmbientTemperature") "Temperature8", .field (some "presentInputCurrent") "ElectricCurrent", .field (some "presentInputRippleVoltage") "Percentage8", .field (some "presentInputVoltage") "Voltage", .field (some "presentLuminousFlux") "LuminousFlux", .field (some "presentOutdoorAmbientTemperature") "Temperature8", .field (some "presentOutputCurrent") "ElectricCurrent", .field (some "presentOutputVoltage") "Voltage", .field (some "presentPlanckianDistance") "ChromaticDistanceFromPlanckian", .field (some "presentRelativeOutputRippleVoltage") "Percentage8", .field (some "relativeDeviceEnergyUseInAPeriodOfDay") "EnergyInAPeriodOfDay", .field (some "relativeDeviceRuntimeInAGenericLevelRange") "RelativeRuntimeInAGenericLevelRange", .field (some "relativeExposureTimeInAnIlluminanceRange") "RelativeValueInAnIlluminanceRange", .field (some "relativeRuntimeInACorrelatedColorTemperatureRange") "LuminousEnergy", .field (some "relativeRuntimeInADeviceOperatingTemperatureRange") "RelativeValueInATemperatureRange", .field (some "relativeRuntimeInAnInputCurrentRange") "RelativeValueInACurrentRange", .field (some "relativeRuntimeInAnInputVoltageRange") "RelativeValueInAVoltageRange", .field (some "shortCircuitEventStatistics") "EventStatistics", .field (some "timeSinceMotionSensed") "TimeSecond16", .field (some "timeSincePresenceDetected") "TimeSecond16", .field (some "totalDeviceEnergyUse") "Energy", .field (some "totalDeviceOffOnCycles") "Count24", .field (some "totalDevicePowerOnCycles") "Count24", .field (some "totalDevicePowerOnTime") "TimeHour24", .field (some "totalDeviceRuntime") "TimeHour24", .field (some "totalLightExposureTime") "TimeHour24", .field (some "totalLuminousEnergy") "LuminousEnergy", .field (some "preciseTotalDeviceEnergyUse") "PreciseEnergy", .field (some "powerFactor") "CosineOfTheAngle", .field (some "externalSupplyVoltage") "HighVoltage", .field (some "externalSupplyVoltageFrequency") "VoltageFrequency", .field (some "lightDistribution") "LightDistribution", .field (some "lightSourceCurrent") "AverageCurrent", .field (some "lightSourceOnTimeNotResettable") "TimeSecond32", .field (some "lightSourceOnTimeResettable") "TimeSecond32", .field (some "lightSourceOpenCircuitStatistics") "EventStatistics", .field (some "lightSourceOverallFailuresStatistics") "EventStatistics", .field (some "lightSourceShortCircuitStatistics") "EventStatistics", .field (some "lightSourceStartCounterResettable") "Count24", .field (some "lightSourceTemperature") "HighTemperature", .field (some "lightSourceThermalDeratingStatistics") "EventStatistics", .field (some "lightSourceThermalShutdownStatistics") "EventStatistics", .field (some "lightSourceTotalPowerOnCycles") "Count24", .field (some "lightSourceVoltage") "AverageVoltage", .field (some "luminaireColor") "Text", .field (some "luminaireIdentificationNumber") "Text", .field (some "luminaireNominalInputPower") "Power", .field (some "luminaireNominalMaximumAcMainsVoltage") "Voltage", .field (some "luminaireNominalMinimumAcMainsVoltage") "Voltage", .field (some "luminairePowerAtMinimumDimLevel") "Power", .field (some "luminaireTimeOfManufacture") "DateUTC", .field (some "nominalLightOutput") "LightOutput", .field (some "overallFailureCondition") "EventStatistics", .field (some "ratedMedianUsefulLifeOfLuminaire") "TimeHour24", .field (some "ratedMedianUsefulLightSourceStarts") "Count24", .field (some "referenceTemperature") "HighTemperature", .field (some "totalDeviceStarts") "Count24", .field (some "luminaireIdentificationString") "Text", .field (some "outputPowerLimitation") "EventStatistics", .field (some "thermalDerating") "EventStatistics", .field (some "outputCurrentPercent") "Percentage8", .field (some "luminaireManufacturerGtin") "GlobalTradeItemNumber", .field (some "apparentEnergy") "ApparentEnergy32", .field (some "apparentPower") "ApparentPower", .field (some "activeEnergyLoadSide") "Energy32", .field (some "activePowerLoadSide") "Power", .field (some "lightSourceType") "LightSourceType", .field (some "desiredAmbientTemperature") "Temperature8", .field (some "sensorGain") "Coefficient", .field (some "precisePresentAmbientTemperature") "Temperature"]

/-- The struct `GenericAdminPropertySet` (printed by capnproto/generator.py:323-327). -/
def s_GenericAdminPropertySet : List Tree := [.field (some "propertyId") "UInt16", .field (some "access") "UInt8", .union none u_GenericAdminPropertySet]

/-- The struct `GenericManufacturerPropertySet` (printed by capnproto/generator.py:323-327). -/
def s_GenericManufacturerPropertySet : List Tree := [.field (some "propertyId") "UInt16", .field (some "access") "UInt8"]

/-- A union of the struct `EmergencyLightingParams` (printed by capnproto/generator.py:315-321). -/
def u_EmergencyLightingParams : List Tree := [.field (some "elInhibitEnter") "EmergencyLightingInhibitEnter", .field (some "elInhibitEnterUnacknowledged") "EmergencyLightingInhibitEnter", .field (some "elInhibitExit") "EmergencyLightingInhibitExit", .field (some "elInhibitExitUnacknowledged") "EmergencyLightingInhibitExit", .field (some "elStateGet") "EmergencyLightingStateGet", .field (some "elStateStatus") "EmergencyLightingStateStatus", .field (some "elPropertyGet") "EmergencyLightingPropertyGet", .field (some "elPropertySet") "EmergencyLightingPropertySet", .field (some "elPropertySetUnacknowledged") "EmergencyLightingPropertySet", .field (some "elPropertyStatus") "EmergencyLightingPropertyStatus", .field (some "elLampOperationTimeGet") "EmergencyLightingLampOperationTimeGet", .field (some "elLampOperationTimeClear") "EmergencyLightingLampOperationTimeClear", .field (some "elLampOperationTimeClearUnacknowledged") "EmergencyLightingLampOperationTimeClear", .field (some "elLampOperationTimeStatus") "EmergencyLightingLampOperationTimeStatus", .field (some "elRestEnter") "EmergencyLightingRestEnter", .field (some "elRestEnterUnacknowledged") "EmergencyLightingRestEnter", .field (some "elRestExit") "EmergencyLightingRestExit", .field (some "elRestExitUnacknowledged") "EmergencyLightingRestExit"]

/-- The struct `EmergencyLightingParams` (printed by capnproto/generator.py:323-327). -/
def s_EmergencyLightingParams : List Tree := [.field (some "subopcode") "UInt8", .union none u_EmergencyLightingParams]

/-- The struct `EmergencyLightingInhibitEnter` (printed by capnproto/generator.py:323-327). -/
def s_EmergencyLightingInhibitEnter : List Tree := []

/-- The struct `EmergencyLightingInhibitExit` (printed by capnproto/generator.py:323-327). -/
def s_EmergencyLightingInhibitExit : List Tree := []

/-- The struct `EmergencyLightingStateGet` (printed by capnproto/generator.py:323-327). -/
def s_EmergencyLightingStateGet : List Tree := []

/-- The struct `EmergencyLightingStateStatus` (printed by capnproto/generator.py:323-327). -/
def s_EmergencyLightingStateStatus : List Tree := [.field (some "elState") "UInt8"]

/-- The struct `EmergencyLightingPropertyGet` (printed by capnproto/generator.py:323-327). -/
def s_EmergencyLightingPropertyGet : List Tree := [.field (some "propertyId") "UInt16"]

/-- A union of the struct `EmergencyLightingPropertySet` (printed by capnproto/generator.py:315-321). -/
def u_EmergencyLightingPropertySet : List Tree := [.field (some "elLightness") "PerceivedLightness", .field (some "elLightnessRangeMin") "PerceivedLightness", .field (some "elLightnessRangeMax") "PerceivedLightness", .field (some "elProlongTime") "TimeSecond16"]

/-- The struct `EmergencyLightingPropertySet` (printed by capnproto/generator.py:323-327). -/
def s_EmergencyLightingPropertySet : List Tree := [.field (some "propertyId") "UInt16", .union none u_EmergencyLightingPropertySet]

/-- A union of the struct `EmergencyLightingPropertyStatus` (printed by capnproto/generator.py:315-321). -/
def u_EmergencyLightingPropertyStatus : List Tree := [.field (some "elLightness") "PerceivedLightness", .field (some "elLightnessRangeMin") "PerceivedLightness", .field (some "elLightnessRangeMax") "PerceivedLightness", .field (some "elProlongTime") "TimeSecond16"]

/-- The struct `EmergencyLightingPropertyStatus` (printed by capnproto/generator.py:323-327). -/
def s_EmergencyLightingPropertyStatus : List Tree := [.field (some "propertyId") "UInt16", .union none u_EmergencyLightingPropertyStatus]

/-- The struct `EmergencyLightingLampOperationTimeGet` (printed by capnproto/generator.py:323-327). -/
def s_EmergencyLightingLampOperationTimeGet : List Tree := []

/-- The struct `EmergencyLightingLampOperationTimeClear` (printed by capnproto/generator.py:323-327). -/
def s_EmergencyLightingLampOperationTimeClear : List Tree := []

/-- The struct `EmergencyLightingLampOperationTimeStatus` (printed by capnproto/generator.py:323-327). -/
def s_EmergencyLightingLampOperationTimeStatus : List Tree := [.field (some "elLampTotalOperationTime") "UInt32", .field (some "elLampEmergencyTime") "UInt32"]

/-- The struct `EmergencyLightingRestEnter` (printed by capnproto/generator.py:323-327). -/
def s_EmergencyLightingRestEnter : List Tree := []

/-- The struct `EmergencyLightingRestExit` (printed by capnproto/generator.py:323-327). -/
def s_EmergencyLightingRestExit : List Tree := []

/-- A union of the struct `EmergencyLightingTestParams` (printed by capnproto/generator.py:315-321). -/
def g_EmergencyLightingTestParams_eltFunctionalTestStatus : List Tree := [.field (some "optional") "EmergencyLightingTestFunctionalTestStatusOptional", .field (some "minimal") "EmergencyLightingTestFunctionalTestStatusMinimal"]

/-- A union of the struct `EmergencyLightingTestParams` (printed by capnproto/generator.py:315-321). -/
def g_EmergencyLightingTestParams_eltDurationTestStatus : List Tree := [.field (some "optional") "EmergencyLightingTestDurationTestStatusOptional", .field (some "minimal") "EmergencyLightingTestDurationTestStatusMinimal"]

/-- A union of the struct `EmergencyLightingTestParams` (printed by capnproto/generator.py:315-321). -/
def u_EmergencyLightingTestParams : List Tree := [.field (some "eltFunctionalTestGet") "EmergencyLightingTestFunctionalTestGet", .field (some "eltFunctionalTestStart") "EmergencyLightingTestFunctionalTestStart", .field (some "eltFunctionalTestStop") "EmergencyLightingTestFunctionalTestStop", .union (some "eltFunctionalTestStatus") g_EmergencyLightingTestParams_eltFunctionalTestStatus, .field (some "eltDurationTestGet") "EmergencyLightingTestDurationTestGet", .field (some "eltDurationTestStart") "EmergencyLightingTestDurationTestStart", .field (some "eltDurationTestStop") "EmergencyLightingTestDurationTestStop", .union (some "eltDurationTestStatus") g_EmergencyLightingTestParams_eltDurationTestStatus, .field (some "eltPropertyGet") "EmergencyLightingTestPropertyGet", .field (some "eltPropertySet") "EmergencyLightingTestPropertySet", .field (some "eltPropertySetUnacknowledged") "EmergencyLightingTestPropertySet", .field (some "eltPropertyStatus") "EmergencyLightingTestPropertyStatus"]

/-- The struct `EmergencyLightingTestParams` (printed by capnproto/generator.py:323-327). -/
def s_EmergencyLightingTestParams : List Tree := [.field (some "subopcode") "UInt8", .union none u_EmergencyLightingTestParams]

/-- The struct `EmergencyLightingTestFunctionalTestGet` (printed by capnproto/generator.py:323-327). -/
def s_EmergencyLightingTestFunctionalTestGet : List Tree := []

/-- The struct `EmergencyLightingTestFunctionalTestStart` (printed by capnproto/generator.py:323-327). -/
def s_EmergencyLightingTestFunctionalTestStart : List Tree := []

/-- The struct `EmergencyLightingTestFunctionalTestStop` (printed by capnproto/generator.py:323-327). -/
def s_EmergencyLightingTestFunctionalTestStop : List Tree := []

/-- The struct `EmergencyLightingTestFunctionalTestStatusOptional` (printed by capnproto/generator.py:323-327). -/
def s_EmergencyLightingTestFunctionalTestStatusOptional : List Tree := [.field (some "taiTimestamp") "EmergencyLightingTestMessageParams", .field (some "executionStatus") "UInt8", .field (some "executionResult") "FunctionalExecutionResult", .field (some "relativeTimestamp") "UInt32"]

/-- The struct `EmergencyLightingTestMessageParams` (printed by capnproto/generator.py:323-327). -/
def s_EmergencyLightingTestMessageParams : List Tree := [.field (some "date") "DateTime", .field (some "taiUtcDelta") "Int16"]

/-- The struct `FunctionalExecutionResult` (printed by capnproto/generator.py:323-327). -/
def s_FunctionalExecutionResult : List Tree := [.field (some "circuitFault") "Bool", .field (some "batteryFault") "Bool", .field (some "lampFault") "Bool"]

/-- The struct `EmergencyLightingTestFunctionalTestStatusMinimal` (printed by capnproto/generator.py:323-327). -/
def s_EmergencyLightingTestFunctionalTestStatusMinimal : List Tree := [.field (some "taiTimestamp") "EmergencyLightingTestMessageParams", .field (some "executionStatus") "UInt8", .field (some "executionResult") "FunctionalExecutionResult"]

/-- The struct `EmergencyLightingTestDurationTestGet` (printed by capnproto/generator.py:323-327). -/
def s_EmergencyLightingTestDurationTestGet : List Tree := []

/-- The struct `EmergencyLightingTestDurationTestStart` (printed by capnproto/generator.py:323-327). -/
def s_EmergencyLightingTestDurationTestStart : List Tree := []

/-- The struct `EmergencyLightingTestDurationTestStop` (printed by capnproto/generator.py:323-327). -/
def s_EmergencyLightingTestDurationTestStop : List Tree := []

/-- The struct `EmergencyLightingTestDurationTestStatusOptional` (printed by capnproto/generator.py:323-327). -/
def s_EmergencyLightingTestDurationTestStatusOptional : List Tree := [.field (some "taiTimestamp") "EmergencyLightingTestMessageParams", .field (some "executionStatus") "UInt8", .field (some "executionResult") "DurationExecutionResult", .field (some "durationResult") "UInt16", .field (some "relativeTimestamp") "UInt32"]

/-- The struct `DurationExecutionResult` (printed by capnproto/generator.py:323-327). -/
def s_DurationExecutionResult : List Tree := [.field (some "batteryDurationFault") "Bool", .field (some "circuitFault") "Bool", .field (some "batteryFault") "Bool", .field (some "lampFault") "Bool"]

/-- The struct `EmergencyLightingTestDurationTestStatusMinimal` (printed by capnproto/generator.py:323-327). -/
def s_EmergencyLightingTestDurationTestStatusMinimal : List Tree := [.field (some "taiTimestamp") "EmergencyLightingTestMessageParams", .field (some "executionStatus") "UInt8", .field (some "executionResult") "DurationExecutionResult", .field (some "durationResult") "UInt16"]

/-- The struct `EmergencyLightingTestPropertyGet` (printed by capnproto/generator.py:323-327). -/
def s_EmergencyLightingTestPropertyGet : List Tree := [.field (some "propertyId") "UInt16"]

/-- A union of the struct `EmergencyLightingTestPropertySet` (printed by capnproto/generator.py:315-321). -/
def u_EmergencyLightingTestPropertySet : List Tree := [.field (some "eltDurationTestExecutionTimeout") "TimeSecond32", .field (some "eltFunctionalTestExecutionTimeout") "TimeSecond32", .field (some "eltDurationTestRetryPeriod") "TimeSecond32", .field (some "eltFunctionalTestRetryPeriod") "TimeSecond32", .field (some "eltDurationTestBackupAutomaticDelay") "TimeSecond32", .field (some "eltFunctionalTestBackupAutomaticDelay") "TimeSecond32", .field (some "eltDurationTestBackupAutomaticInterval") "TimeSecond32", .field (some "eltFunctionalTestBackupAutomaticInterval") "TimeSecond32"]

/-- The struct `EmergencyLightingTestPropertySet` (printed by capnproto/generator.py:323-327). -/
def s_EmergencyLightingTestPropertySet : List Tree := [.field (some "propertyId") "UInt16", .union none u_EmergencyLightingTestPropertySet]

/-- A union of the struct `EmergencyLightingTestPropertyStatus` (printed by capnproto/generator.py:315-321). -/
def u_EmergencyLightingTestPropertyStatus : List Tree := [.field (some "eltDurationTestExecutionTimeout") "TimeSecond32", .field (some "eltFunctionalTestExecutionTimeout") "TimeSecond32", .field (some "eltDurationTestRetryPeriod") "TimeSecond32", .field (some "eltFunctionalTestRetryPeriod") "TimeSecond32", .field (some "eltDurationTestBackupAutomaticDelay") "TimeSecond32", .field (some "eltFunctionalTestBackupAutomaticDelay") "TimeSecond32", .field (some "eltDurationTestBackupAutomaticInterval") "TimeSecond32", .field (some "eltFunctionalTestBackupAutomaticInterval") "TimeSecond32"]

/-- The struct `EmergencyLightingTestPropertyStatus` (printed by capnproto/generator.py:323-327). -/
def s_EmergencyLightingTestPropertyStatus : List Tree := [.field (some "propertyId") "UInt16", .union none u_EmergencyLightingTestPropertyStatus]

/-- All structs, in the order in which they are printed (capnproto/generator.py:323-327). -/
def schema : List (String × List Tree) := [
  ("AccessMessage", s_AccessMessage),
  ("ConfigAppKeyUpdate", s_ConfigAppKeyUpdate),
  ("ConfigAppKeyDelete", s_ConfigAppKeyDelete),
  ("ConfigAppKeyGet", s_ConfigAppKeyGet),
  ("ConfigAppKeyList", s_ConfigAppKeyList),
  ("ConfigAppKeyStatus", s_ConfigAppKeyStatus),
  ("ConfigBeaconGet", s_ConfigBeaconGet),
  ("ConfigBeaconStatus", s_ConfigBeaconStatus),
  ("ConfigCompositionDataGet", s_ConfigCompositionDataGet),
  ("ConfigCompositionDataStatus", s_ConfigCompositionDataStatus),
  ("CompositionDataPage0", s_CompositionDataPage0),
  ("CompositionDataPage0Element", s_CompositionDataPage0Element),
  ("SIGModelId", s_SIGModelId),
  ("VendorModelId", s_VendorModelId),
  ("CompositionDataPage1", s_CompositionDataPage1),
  ("CompositionDataPage1Element", s_CompositionDataPage1Element),
  ("ModelRelationItem", s_ModelRelationItem),
  ("ExtendedModelShortFormat", s_ExtendedModelShortFormat),
  ("ExtendedModelLongFormat", s_ExtendedModelLongFormat),
  ("CompositionDataPage2", s_CompositionDataPage2),
  ("MeshProfileEntry", s_MeshProfileEntry),
  ("Version", s_Version),
  ("ConfigDefaultTTLGet", s_ConfigDefaultTTLGet),
  ("ConfigDefaultTTLStatus", s_ConfigDefaultTTLStatus),
  ("ConfigFriendGet", s_ConfigFriendGet),
  ("ConfigFriendStatus", s_ConfigFriendStatus),
  ("ConfigGATTProxyGet", s_ConfigGATTProxyGet),
  ("ConfigGATTProxyStatus", s_ConfigGATTProxyStatus),
  ("ConfigHeartbeatPublicationGet", s_ConfigHeartbeatPublicationGet),
  ("ConfigHeartbeatPublicationSet", s_ConfigHeartbeatPublicationSet),
  ("ConfigHeartbeatPublicationStatus", s_ConfigHeartbeatPublicationStatus),
  ("ConfigHeartbeatSubscriptionGet", s_ConfigHeartbeatSubscriptionGet),
  ("ConfigHeartbeatSubscriptionSet", s_ConfigHeartbeatSubscriptionSet),
  ("ConfigHeartbeatSubscriptionStatus", s_ConfigHeartbeatSubscriptionStatus),
  ("ConfigKeyRefreshPhaseGet", s_ConfigKeyRefreshPhaseGet),
  ("ConfigKeyRefreshPhaseSet", s_ConfigKeyRefreshPhaseSet),
  ("ConfigKeyRefreshPhaseStatus", s_ConfigKeyRefreshPhaseStatus),
  ("ConfigLowPowerNodePollTimeoutGet", s_ConfigLowPowerNodePollTimeoutGet),
  ("ConfigLowPowerNodePollTimeoutStatus", s_ConfigLowPowerNodePollTimeoutStatus),
  ("ConfigModelAppUnbind", s_ConfigModelAppUnbind),
  ("ConfigModelAppStatus", s_ConfigModelAppStatus),
  ("ConfigModelPublicationGet", s_ConfigModelPublicationGet),
  ("ConfigModelPublicationSet", s_ConfigModelPublicationSet),
  ("PublishPeriod", s_PublishPeriod),
  ("PublishRetransmit", s_PublishRetransmit),
  ("ConfigModelPublicationStatus", s_ConfigModelPublicationStatus),
  ("ConfigModelPublicationVASet", s_ConfigModelPublicationVASet),
  ("ConfigModelSubscriptionOverwrite", s_ConfigModelSubscriptionOverwrite),
  ("ConfigModelSubscriptionDeleteAll", s_ConfigModelSubscriptionDeleteAll),
  ("ConfigModelSubscriptionStatus", s_ConfigModelSubscriptionStatus),
  ("ConfigModelSubscriptionVAOverwrite", s_ConfigModelSubscriptionVAOverwrite),
  ("ConfigNetKeyUpdate", s_ConfigNetKeyUpdate),
  ("ConfigNetKeyDelete", s_ConfigNetKeyDelete),
  ("ConfigNetKeyGet", s_ConfigNetKeyGet),
  ("ConfigNetKeyList", s_ConfigNetKeyList),
  ("ConfigNetKeyStatus", s_ConfigNetKeyStatus),
  ("ConfigNetworkTransmitGet", s_ConfigNetworkTransmitGet),
  ("ConfigNetworkTransmitStatus", s_ConfigNetworkTransmitStatus),
  ("ConfigNodeIdentityGet", s_ConfigNodeIdentityGet),
  ("ConfigNodeIdentitySet", s_ConfigNodeIdentitySet),
  ("ConfigNodeIdentityStatus", s_ConfigNodeIdentityStatus),
  ("ConfigNodeReset", s_ConfigNodeReset),
  ("ConfigNodeResetStatus", s_ConfigNodeResetStatus),
  ("ConfigRelayGet", s_ConfigRelayGet),
  ("ConfigRelayStatus", s_ConfigRelayStatus),
  ("ConfigSIGModelAppGet", s_ConfigSIGModelAppGet),
  ("ConfigSIGModelAppList", s_ConfigSIGModelAppList),
  ("ConfigSIGModelSubscriptionGet", s_ConfigSIGModelSubscriptionGet),
  ("ConfigSIGModelSubscriptionList", s_ConfigSIGModelSubscriptionList),
  ("ConfigVendorModelAppGet", s_ConfigVendorModelAppGet),
  ("ConfigVendorModelAppList", s_ConfigVendorModelAppList),
  ("ConfigVendorModelSubscriptionGet", s_ConfigVendorModelSubscriptionGet),
  ("ConfigVendorModelSubscriptionList", s_ConfigVendorModelSubscriptionList),
  ("DebugParams", s_DebugParams),
  ("RssiThresholdGet", s_RssiThresholdGet),
  ("RssiThreshold", s_RssiThreshold),
  ("RadioTest", s_RadioTest),
  ("UptimeGet", s_UptimeGet),
  ("UptimeStatus", s_UptimeStatus),
  ("LastSwFaultGet", s_LastSwFaultGet),
  ("LastSwFaultClear", s_LastSwFaultClear),
  ("LastFdsFaultStatus", s_LastFdsFaultStatus),
  ("SystemStatsGet", s_SystemStatsGet),
  ("SystemStatsStatus", s_SystemStatsStatus),
  ("SystemStat", s_SystemStat),
  ("LastMallocFaultGet", s_LastMallocFaultGet),
  ("LastMallocFaultClear", s_LastMallocFaultClear),
  ("LastFdsFaultGet", s_LastFdsFaultGet),
  ("LastFdsFaultClear", s_LastFdsFaultClear),
  ("BytesBeforeGarbageCollectorGet", s_BytesBeforeGarbageCollectorGet),
  ("BytesBeforeGarbageCollectorStatus", s_BytesBeforeGarbageCollectorStatus),
  ("ProvisionedAppVersionGet", s_ProvisionedAppVersionGet),
  ("ProvisionedAppVersionStatus", s_ProvisionedAppVersionStatus),
  ("FullFirmwareVersionGet", s_FullFirmwareVersionGet),
  ("FullFirmwareVersionStatus", s_FullFirmwareVersionStatus),
  ("IvIndexGet", s_IvIndexGet),
  ("IvIndexStatus", s_IvIndexStatus),
  ("GarbageCollectorCounterGet", s_GarbageCollectorCounterGet),
  ("GarbageCollectorCounterStatus", s_GarbageCollectorCounterStatus),
  ("ArapListSizeGet", s_ArapListSizeGet),
  ("ArapSize16", s_ArapSize16),
  ("ArapSize8", s_ArapSize8),
  ("ArapListContentGet", s_ArapListContentGet),
  ("ArapListContentStatus", s_ArapListContentStatus),
  ("ArapNode", s_ArapNode),
  ("GatewayConfigParams", s_GatewayConfigParams),
  ("ConfigurationSetWithOptionalDhcpDisabled", s_ConfigurationSetWithOptionalDhcpDisabled),
  ("ConfigurationSetWithOptionalDhcpEnabledWithStaticDns", s_ConfigurationSetWithOptionalDhcpEnabledWithStaticDns),
  ("ConfigurationSetWithoutOptionalAutoDhcpEnabled", s_ConfigurationSetWithoutOptionalAutoDhcpEnabled),
  ("ConfigurationSetMtu", s_ConfigurationSetMtu),
  ("ConfigurationSetMacAddr", s_ConfigurationSetMacAddr),
  ("ConfigurationSetServerAddrAndPortNr", s_ConfigurationSetServerAddrAndPortNr),
  ("ConfigurationSetReconnectInterval", s_ConfigurationSetReconnectInterval),
  ("ConfigurationSetDnsIpAddr", s_ConfigurationSetDnsIpAddr),
  ("ConfigurationSetIpAddr", s_ConfigurationSetIpAddr),
  ("ConfigurationSetGatewayIpAddr", s_ConfigurationSetGatewayIpAddr),
  ("ConfigurationSetNetmask", s_ConfigurationSetNetmask),
  ("ConfigurationStatus", s_ConfigurationStatus),
  ("PacketsStatus", s_PacketsStatus),
  ("ConnectionState", s_ConnectionState),
  ("GenericOnOffGet", s_GenericOnOffGet),
  ("GenericOnOffSetOptional", s_GenericOnOffSetOptional),
  ("GenericOnOffSetMinimal", s_GenericOnOffSetMinimal),
  ("GenericOnOffStatusOptional", s_GenericOnOffStatusOptional),
  ("GenericOnOffStatusMinimal", s_GenericOnOffStatusMinimal),
  ("GenericBatteryGet", s_GenericBatteryGet),
  ("GenericBatteryStatus", s_GenericBatteryStatus),
  ("BatteryFlags", s_BatteryFlags),
  ("GenericLevelGet", s_GenericLevelGet),
  ("GenericLevelSetOptional", s_GenericLevelSetOptional),
  ("GenericLevelSetMinimal", s_GenericLevelSetMinimal),
  ("GenericLevelStatusOptional", s_GenericLevelStatusOptional),
  ("GenericLevelStatusMinimal", s_GenericLevelStatusMinimal),
  ("GenericDeltaSetOptional", s_GenericDeltaSetOptional),
  ("GenericDeltaSetMinimal", s_GenericDeltaSetMinimal),
  ("GenericMoveSetOptional", s_GenericMoveSetOptional),
  ("GenericMoveSetMinimal", s_GenericMoveSetMinimal),
  ("LightLightnessGet", s_LightLightnessGet),
  ("LightLightnessSetOptional", s_LightLightnessSetOptional),
  ("LightLightnessSetMinimal", s_LightLightnessSetMinimal),
  ("LightLightnessStatusOptional", s_LightLightnessStatusOptional),
  ("LightLightnessStatusMinimal", s_LightLightnessStatusMinimal),
  ("LightLightnessDefault", s_LightLightnessDefault),
  ("LightLightnessRangeStatus", s_LightLightnessRangeStatus),
  ("LightLightnessRange", s_LightLightnessRange),
  ("LightCTLGet", s_LightCTLGet),
  ("LightCTLSetOptional", s_LightCTLSetOptional),
  ("LightCTLSetMinimal", s_LightCTLSetMinimal),
  ("LightCTLStatusOptional", s_LightCTLStatusOptional),
  ("LightCTLStatusMinimal", s_LightCTLStatusMinimal),
  ("LightCTLRangeStatus", s_LightCTLRangeStatus),
  ("LightCTLTemperatureSetOptional", s_LightCTLTemperatureSetOptional),
  ("LightCTLTemperatureSetMinimal", s_LightCTLTemperatureSetMinimal),
  ("LightCTLTemperatureStatusOptional", s_LightCTLTemperatureStatusOptional),
  ("LightCTLTemperatureStatusMinimal", s_LightCTLTemperatureStatusMinimal),
  ("LightCTLDefault", s_LightCTLDefault),
  ("LightCTLRange", s_LightCTLRange),
  ("HealthAttentionGet", s_HealthAttentionGet),
  ("HealthAttentionStatus", s_HealthAttentionStatus),
  ("HealthFaultStatus", s_HealthFaultStatus),
  ("HealthFaultClear", s_HealthFaultClear),
  ("HealthFaultTest", s_HealthFaultTest),
  ("HealthPeriodGet", s_HealthPeriodGet),
  ("HealthPeriodStatus", s_HealthPeriodStatus),
  ("NetworkDiagnosticServerParams", s_NetworkDiagnosticServerParams),
  ("NetworkDiagnosticServerSubscriptionGet", s_NetworkDiagnosticServerSubscriptionGet),
  ("NetworkDiagnosticServerSubscriptionSet", s_NetworkDiagnosticServerSubscriptionSet),
  ("NetworkDiagnosticServerSubscriptionStatus", s_NetworkDiagnosticServerSubscriptionStatus),
  ("RegistryRecord", s_RegistryRecord),
  ("NetworkDiagnosticServerRadioStatGet", s_NetworkDiagnosticServerRadioStatGet),
  ("NetworkDiagnosticSetupServerParams", s_NetworkDiagnosticSetupServerParams),
  ("NetworkDiagnosticSetupServerPublicationGet", s_NetworkDiagnosticSetupServerPublicationGet),
  ("NetworkDiagnosticSetupServerPublicationSetOptional", s_NetworkDiagnosticSetupServerPublicationSetOptional),
  ("TransitionTime", s_TransitionTime),
  ("NetworkDiagnosticSetupServerPublicationSetMinimal", s_NetworkDiagnosticSetupServerPublicationSetMinimal),
  ("SceneGet", s_SceneGet),
  ("SceneRecallWithTransition", s_SceneRecallWithTransition),
  ("SceneRecallMinimal", s_SceneRecallMinimal),
  ("SceneStatusWithTargetScene", s_SceneStatusWithTargetScene),
  ("SceneStatusMinimal", s_SceneStatusMinimal),
  ("SceneRegisterGet", s_SceneRegisterGet),
  ("SceneRegisterStatus", s_SceneRegisterStatus),
  ("SceneSetupWithValidation", s_SceneSetupWithValidation),
  ("SceneSetup", s_SceneSetup),
  ("SensorGetOptional", s_SensorGetOptional),
  ("SensorGetMinimal", s_SensorGetMinimal),
  ("SensorDescriptorStatusItem", s_SensorDescriptorStatusItem),
  ("SensorDescriptorOptional", s_SensorDescriptorOptional),
  ("SensorDescriptorMinimal", s_SensorDescriptorMinimal),
  ("SensorData", s_SensorData),
  ("Temperature8InAPeriodOfDay", s_Temperature8InAPeriodOfDay),
  ("TimeDecihour8", s_TimeDecihour8),
  ("AverageCurrent", s_AverageCurrent),
  ("TimeExponential8", s_TimeExponential8),
  ("AverageVoltage", s_AverageVoltage),
  ("LuminousIntensity", s_LuminousIntensity),
  ("ChromaticityTolerance", s_ChromaticityTolerance),
  ("ColorRenderingIndex", s_ColorRenderingIndex),
  ("Appearance", s_Appearance),
  ("CountryCode", s_CountryCode),
  ("DateUTC", s_DateUTC),
  ("SensorMessageParams", s_SensorMessageParams),
  ("Energy", s_Energy),
  ("GlobalTradeItemNumber", s_GlobalTradeItemNumber),
  ("TemperatureRange", s_TemperatureRange),
  ("TemperatureStatistics", s_TemperatureStatistics),
  ("EventStatistics", s_EventStatistics),
  ("Count16", s_Count16),
  ("TimeSecond16", s_TimeSecond16),
  ("PowerSpecification", s_PowerSpecification),
  ("TimeHour24", s_TimeHour24),
  ("Temperature8Statistics", s_Temperature8Statistics),
  ("ChromaticityCoordinates", s_ChromaticityCoordinates),
  ("CorrelatedColorTemperature", s_CorrelatedColorTemperature),
  ("LuminousFlux", s_LuminousFlux),
  ("ChromaticDistanceFromPlanckian", s_ChromaticDistanceFromPlanckian),
  ("ElectricCurrentSpecification", s_ElectricCurrentSpecification),
  ("ElectricCurrentStatistics", s_ElectricCurrentStatistics),
  ("VoltageRange", s_VoltageRange),
  ("Percentage8", s_Percentage8),
  ("VoltageStatistics", s_VoltageStatistics),
  ("Illuminance", s_Illuminance),
  ("PerceivedLightness", s_PerceivedLightness),
  ("Coefficient", s_Coefficient),
  ("TimeMiliseconds24", s_TimeMiliseconds24),
  ("LuminousEfficacy", s_LuminousEfficacy),
  ("LuminousEnergy", s_LuminousEnergy),
  ("LuminousExposure", s_LuminousExposure),
  ("LuminousFluxRange", s_LuminousFluxRange),
  ("ElectricCurrentRange", s_ElectricCurrentRange),
  ("Presence", s_Presence),
  ("Temperature8", s_Temperature8),
  ("Power", s_Power),
  ("Temperature", s_Temperature),
  ("ElectricCurrent", s_ElectricCurrent),
  ("Voltage", s_Voltage),
  ("EnergyInAPeriodOfDay", s_EnergyInAPeriodOfDay),
  ("RelativeRuntimeInAGenericLevelRange", s_RelativeRuntimeInAGenericLevelRange),
  ("RelativeValueInAnIlluminanceRange", s_RelativeValueInAnIlluminanceRange),
  ("RelativeValueInATemperatureRange", s_RelativeValueInATemperatureRange),
  ("RelativeValueInACurrentRange", s_RelativeValueInACurrentRange),
  ("RelativeValueInAVoltageRange", s_RelativeValueInAVoltageRange),
  ("Count24", s_Count24),
  ("PreciseEnergy", s_PreciseEnergy),
  ("CosineOfTheAngle", s_CosineOfTheAngle),
  ("HighVoltage", s_HighVoltage),
  ("VoltageFrequency", s_VoltageFrequency),
  ("LightDistribution", s_LightDistribution),
  ("TimeSecond32", s_TimeSecond32),
  ("HighTemperature", s_HighTemperature),
  ("LightOutput", s_LightOutput),
  ("ApparentEnergy32", s_ApparentEnergy32),
  ("ApparentPower", s_ApparentPower),
  ("Energy32", s_Energy32),
  ("LightSourceType", s_LightSourceType),
  ("SensorSettingsGet", s_SensorSettingsGet),
  ("SensorSettingsStatus", s_SensorSettingsStatus),
  ("SensorSettingGet", s_SensorSettingGet),
  ("SensorSettingSet", s_SensorSettingSet),
  ("SensorSetupMessageParams", s_SensorSetupMessageParams),
  ("SensorSettingStatus", s_SensorSettingStatus),
  ("LightExtendedControllerParams", s_LightExtendedControllerParams),
  ("LightExtendedControllerPropertyGet", s_LightExtendedControllerPropertyGet),
  ("LightExtendedControllerPropertySet", s_LightExtendedControllerPropertySet),
  ("LightExtendedControllerPropertyStatus", s_LightExtendedControllerPropertyStatus),
  ("LightExtendedControllerSyncIntegralStatus", s_LightExtendedControllerSyncIntegralStatus),
  ("TimeGet", s_TimeGet),
  ("TimeSet", s_TimeSet),
  ("DateTime", s_DateTime),
  ("TimeStatus", s_TimeStatus),
  ("TimeZoneGet", s_TimeZoneGet),
  ("TimeZoneSet", s_TimeZoneSet),
  ("TimeZoneStatus", s_TimeZoneStatus),
  ("TAIUTCDeltaGet", s_TAIUTCDeltaGet),
  ("TAIUTCDeltaSet", s_TAIUTCDeltaSet),
  ("TAIUTCDeltaStatus", s_TAIUTCDeltaStatus),
  ("TimeRoleGet", s_TimeRoleGet),
  ("TimeRoleStatus", s_TimeRoleStatus),
  ("DebugV2SubMessage", s_DebugV2SubMessage),
  ("DebugV2Parameter", s_DebugV2Parameter),
  ("DebugV2MessageParams", s_DebugV2MessageParams),
  ("RRuleSchedulerSubMessage", s_RRuleSchedulerSubMessage),
  ("RulesListGet", s_RulesListGet),
  ("RulesListStatus", s_RulesListStatus),
  ("RegisterMaxSizeGet", s_RegisterMaxSizeGet),
  ("RegisterMaxSizeStatus", s_RegisterMaxSizeStatus),
  ("SchedulerModeGet", s_SchedulerModeGet),
  ("SchedulerModeStatus", s_SchedulerModeStatus),
  ("ScheduleRegisterEntryDelete", s_ScheduleRegisterEntryDelete),
  ("ScheduleRegisterEntrySet", s_ScheduleRegisterEntrySet),
  ("SchedulerRegisterEntry", s_SchedulerRegisterEntry),
  ("Slots", s_Slots),
  ("Rules", s_Rules),
  ("ScheduleRegisterEntryDeleteAll", s_ScheduleRegisterEntryDeleteAll),
  ("ScheduleRegisterEntryStatusOptional", s_ScheduleRegisterEntryStatusOptional),
  ("ScheduleRegisterEntryStatusMinimal", s_ScheduleRegisterEntryStatusMinimal),
  ("ScheduleRegisterListGet", s_ScheduleRegisterListGet),
  ("ScheduleRegisterListStatus", s_ScheduleRegisterListStatus),
  ("GenericPropertiesGet", s_GenericPropertiesGet),
  ("GenericPropertiesStatus", s_GenericPropertiesStatus),
  ("GenericPropertyGet", s_GenericPropertyGet),
  ("GenericUserPropertySet", s_GenericUserPropertySet),
  ("GenericPropertyMessageParams", s_GenericPropertyMessageParams),
  ("GenericPropertyStatus", s_GenericPropertyStatus),
  ("GenericAdminPropertySet", s_GenericAdminPropertySet),
  ("GenericManufacturerPropertySet", s_GenericManufacturerPropertySet),
  ("EmergencyLightingParams", s_EmergencyLightingParams),
  ("EmergencyLightingInhibitEnter", s_EmergencyLightingInhibitEnter),
  ("EmergencyLightingInhibitExit", s_EmergencyLightingInhibitExit),
  ("EmergencyLightingStateGet", s_EmergencyLightingStateGet),
  ("EmergencyLightingStateStatus", s_EmergencyLightingStateStatus),
  ("EmergencyLightingPropertyGet", s_EmergencyLightingPropertyGet),
  ("EmergencyLightingPropertySet", s_EmergencyLightingPropertySet),
  ("EmergencyLightingPropertyStatus", s_EmergencyLightingPropertyStatus),
  ("EmergencyLightingLampOperationTimeGet", s_EmergencyLightingLampOperationTimeGet),
  ("EmergencyLightingLampOperationTimeClear", s_EmergencyLightingLampOperationTimeClear),
  ("EmergencyLightingLampOperationTimeStatus", s_EmergencyLightingLampOperationTimeStatus),
  ("EmergencyLightingRestEnter", s_EmergencyLightingRestEnter),
  ("EmergencyLightingRestExit", s_EmergencyLightingRestExit),
  ("EmergencyLightingTestParams", s_EmergencyLightingTestParams),
  ("EmergencyLightingTestFunctionalTestGet", s_EmergencyLightingTestFunctionalTestGet),
  ("EmergencyLightingTestFunctionalTestStart", s_EmergencyLightingTestFunctionalTestStart),
  ("EmergencyLightingTestFunctionalTestStop", s_EmergencyLightingTestFunctionalTestStop),
  ("EmergencyLightingTestFunctionalTestStatusOptional", s_EmergencyLightingTestFunctionalTestStatusOptional),
  ("EmergencyLightingTestMessageParams", s_EmergencyLightingTestMessageParams),
  ("FunctionalExecutionResult", s_FunctionalExecutionResult),
  ("EmergencyLightingTestFunctionalTestStatusMinimal", s_EmergencyLightingTestFunctionalTestStatusMinimal),
  ("EmergencyLightingTestDurationTestGet", s_EmergencyLightingTestDurationTestGet),
  ("EmergencyLightingTestDurationTestStart", s_EmergencyLightingTestDurationTestStart),
  ("EmergencyLightingTestDurationTestStop", s_EmergencyLightingTestDurationTestStop),
  ("EmergencyLightingTestDurationTestStatusOptional", s_EmergencyLightingTestDurationTestStatusOptional),
  ("DurationExecutionResult", s_DurationExecutionResult),
  ("EmergencyLightingTestDurationTestStatusMinimal", s_EmergencyLightingTestDurationTestStatusMinimal),
  ("EmergencyLightingTestPropertyGet", s_EmergencyLightingTestPropertyGet),
  ("EmergencyLightingTestPropertySet", s_EmergencyLightingTestPropertySet),
  ("EmergencyLightingTestPropertyStatus", s_EmergencyLightingTestPropertyStatus)]

end BM.Capnp
