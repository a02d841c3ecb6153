import Verif.Fit
/-!
# The members of the schema, for instance search

Generated by tools/gen_capnp_schema.py.
-/
namespace BM.Capnp
open BM.Schema

instance : IsUnion "AccessMessage" s_AccessMessage u_AccessMessage := isUnion 0 rfl rfl
instance : HasMember s_AccessMessage "opcode" (.type "UInt32") := member_field 0 rfl
instance : HasMember u_AccessMessage "configAppkeyAdd" (.type "ConfigAppKeyUpdate") := member_field 0 rfl
instance : HasMember u_AccessMessage "configAppkeyDelete" (.type "ConfigAppKeyDelete") := member_field 1 rfl
instance : HasMember u_AccessMessage "configAppkeyGet" (.type "ConfigAppKeyGet") := member_field 2 rfl
instance : HasMember u_AccessMessage "configAppkeyList" (.type "ConfigAppKeyList") := member_field 3 rfl
instance : HasMember u_AccessMessage "configAppkeyStatus" (.type "ConfigAppKeyStatus") := member_field 4 rfl
instance : HasMember u_AccessMessage "configAppkeyUpdate" (.type "ConfigAppKeyUpdate") := member_field 5 rfl
instance : HasMember u_AccessMessage "configBeaconGet" (.type "ConfigBeaconGet") := member_field 6 rfl
instance : HasMember u_AccessMessage "configBeaconSet" (.type "ConfigBeaconStatus") := member_field 7 rfl
instance : HasMember u_AccessMessage "configBeaconStatus" (.type "ConfigBeaconStatus") := member_field 8 rfl
instance : HasMember u_AccessMessage "configCompositionDataGet" (.type "ConfigCompositionDataGet") := member_field 9 rfl
instance : HasMember u_AccessMessage "configCompositionDataStatus" (.type "ConfigCompositionDataStatus") := member_field 10 rfl
instance : HasMember u_AccessMessage "configDefaultTtlGet" (.type "ConfigDefaultTTLGet") := member_field 11 rfl
instance : HasMember u_AccessMessage "configDefaultTtlSet" (.type "ConfigDefaultTTLStatus") := member_field 12 rfl
instance : HasMember u_AccessMessage "configDefaultTtlStatus" (.type "ConfigDefaultTTLStatus") := member_field 13 rfl
instance : HasMember u_AccessMessage "configFriendGet" (.type "ConfigFriendGet") := member_field 14 rfl
instance : HasMember u_AccessMessage "configFriendSet" (.type "ConfigFriendStatus") := member_field 15 rfl
instance : HasMember u_AccessMessage "configFriendStatus" (.type "ConfigFriendStatus") := member_field 16 rfl
instance : HasMember u_AccessMessage "configGattProxyGet" (.type "ConfigGATTProxyGet") := member_field 17 rfl
instance : HasMember u_AccessMessage "configGattProxySet" (.type "ConfigGATTProxyStatus") := member_field 18 rfl
instance : HasMember u_AccessMessage "configGattProxyStatus" (.type "ConfigGATTProxyStatus") := member_field 19 rfl
instance : HasMember u_AccessMessage "configHearbeatPublicationGet" (.type "ConfigHeartbeatPublicationGet") := member_field 20 rfl
instance : HasMember u_AccessMessage "configHearbeatPublicationSet" (.type "ConfigHeartbeatPublicationSet") := member_field 21 rfl
instance : HasMember u_AccessMessage "configHearbeatPublicationStatus" (.type "ConfigHeartbeatPublicationStatus") := member_field 22 rfl
instance : HasMember u_AccessMessage "configHearbeatSubscriptionGet" (.type "ConfigHeartbeatSubscriptionGet") := member_field 23 rfl
instance : HasMember u_AccessMessage "configHearbeatSubscriptionSet" (.type "ConfigHeartbeatSubscriptionSet") := member_field 24 rfl
instance : HasMember u_AccessMessage "configHearbeatSubscriptionStatus" (.type "ConfigHeartbeatSubscriptionStatus") := member_field 25 rfl
instance : HasMember u_AccessMessage "configKeyRefreshPhaseGet" (.type "ConfigKeyRefreshPhaseGet") := member_field 26 rfl
instance : HasMember u_AccessMessage "configKeyRefreshPhaseSet" (.type "ConfigKeyRefreshPhaseSet") := member_field 27 rfl
instance : HasMember u_AccessMessage "configKeyRefreshPhaseStatus" (.type "ConfigKeyRefreshPhaseStatus") := member_field 28 rfl
instance : HasMember u_AccessMessage "configLowPowerNodePollTimeoutGet" (.type "ConfigLowPowerNodePollTimeoutGet") := member_field 29 rfl
instance : HasMember u_AccessMessage "configLowPowerNodePollTimeoutStatus" (.type "ConfigLowPowerNodePollTimeoutStatus") := member_field 30 rfl
instance : HasMember u_AccessMessage "configModelAppBind" (.type "ConfigModelAppUnbind") := member_field 31 rfl
instance : HasMember u_AccessMessage "configModelAppStatus" (.type "ConfigModelAppStatus") := member_field 32 rfl
instance : HasMember u_AccessMessage "configModelAppUnbind" (.type "ConfigModelAppUnbind") := member_field 33 rfl
instance : HasMember u_AccessMessage "configModelPublicationGet" (.type "ConfigModelPublicationGet") := member_field 34 rfl
instance : HasMember u_AccessMessage "configModelPublicationSet" (.type "ConfigModelPublicationSet") := member_field 35 rfl
instance : HasMember u_AccessMessage "configModelPublicationStatus" (.type "ConfigModelPublicationStatus") := member_field 36 rfl
instance : HasMember u_AccessMessage "configModelPublicationVirtualAddressSet" (.type "ConfigModelPublicationVASet") := member_field 37 rfl
instance : HasMember u_AccessMessage "configModelSubscriptionAdd" (.type "ConfigModelSubscriptionOverwrite") := member_field 38 rfl
instance : HasMember u_AccessMessage "configModelSubscriptionDelete" (.type "ConfigModelSubscriptionOverwrite") := member_field 39 rfl
instance : HasMember u_AccessMessage "configModelSubscriptionDeleteAll" (.type "ConfigModelSubscriptionDeleteAll") := member_field 40 rfl
instance : HasMember u_AccessMessage "configModelSubscriptionOverwrite" (.type "ConfigModelSubscriptionOverwrite") := member_field 41 rfl
instance : HasMember u_AccessMessage "configModelSubscriptionStatus" (.type "ConfigModelSubscriptionStatus") := member_field 42 rfl
instance : HasMember u_AccessMessage "configModelSubscriptionVirtualAddressAdd" (.type "ConfigModelSubscriptionVAOverwrite") := member_field 43 rfl
instance : HasMember u_AccessMessage "configModelSubscriptionVirtualAddressDelete" (.type "ConfigModelSubscriptionVAOverwrite") := member_field 44 rfl
instance : HasMember u_AccessMessage "configModelSubscriptionVirtualAddressOverwrite" (.type "ConfigModelSubscriptionVAOverwrite") := member_field 45 rfl
instance : HasMember u_AccessMessage "configNetkeyAdd" (.type "ConfigNetKeyUpdate") := member_field 46 rfl
instance : HasMember u_AccessMessage "configNetkeyDelete" (.type "ConfigNetKeyDelete") := member_field 47 rfl
instance : HasMember u_AccessMessage "configNetkeyGet" (.type "ConfigNetKeyGet") := member_field 48 rfl
instance : HasMember u_AccessMessage "configNetkeyList" (.type "ConfigNetKeyList") := member_field 49 rfl
instance : HasMember u_AccessMessage "configNetkeyStatus" (.type "ConfigNetKeyStatus") := member_field 50 rfl
instance : HasMember u_AccessMessage "configNetkeyUpdate" (.type "ConfigNetKeyUpdate") := member_field 51 rfl
instance : HasMember u_AccessMessage "configNetworkTransmitGet" (.type "ConfigNetworkTransmitGet") := member_field 52 rfl
instance : HasMember u_AccessMessage "configNetworkTransmitSet" (.type "ConfigNetworkTransmitStatus") := member_field 53 rfl
instance : HasMember u_AccessMessage "configNetworkTransmitStatus" (.type "ConfigNetworkTransmitStatus") := member_field 54 rfl
instance : HasMember u_AccessMessage "configNodeIdentityGet" (.type "ConfigNodeIdentityGet") := member_field 55 rfl
instance : HasMember u_AccessMessage "configNodeIdentitySet" (.type "ConfigNodeIdentitySet") := member_field 56 rfl
instance : HasMember u_AccessMessage "configNodeIdentityStatus" (.type "ConfigNodeIdentityStatus") := member_field 57 rfl
instance : HasMember u_AccessMessage "configNodeReset" (.type "ConfigNodeReset") := member_field 58 rfl
instance : HasMember u_AccessMessage "configNodeResetStatus" (.type "ConfigNodeResetStatus") := member_field 59 rfl
instance : HasMember u_AccessMessage "configRelayGet" (.type "ConfigRelayGet") := member_field 60 rfl
instance : HasMember u_AccessMessage "configRelaySet" (.type "ConfigRelayStatus") := member_field 61 rfl
instance : HasMember u_AccessMessage "configRelayStatus" (.type "ConfigRelayStatus") := member_field 62 rfl
instance : HasMember u_AccessMessage "configSigModelAppGet" (.type "ConfigSIGModelAppGet") := member_field 63 rfl
instance : HasMember u_AccessMessage "configSigModelAppList" (.type "ConfigSIGModelAppList") := member_field 64 rfl
instance : HasMember u_AccessMessage "configSigModelSubscriptionGet" (.type "ConfigSIGModelSubscriptionGet") := member_field 65 rfl
instance : HasMember u_AccessMessage "configSigModelSubscriptionList" (.type "ConfigSIGModelSubscriptionList") := member_field 66 rfl
instance : HasMember u_AccessMessage "configVendorModelAppGet" (.type "ConfigVendorModelAppGet") := member_field 67 rfl
instance : HasMember u_AccessMessage "configVendorModelAppList" (.type "ConfigVendorModelAppList") := member_field 68 rfl
instance : HasMember u_AccessMessage "configVendorModelSubscriptionGet" (.type "ConfigVendorModelSubscriptionGet") := member_field 69 rfl
instance : HasMember u_AccessMessage "configVendorModelSubscriptionList" (.type "ConfigVendorModelSubscriptionList") := member_field 70 rfl
instance : HasMember u_AccessMessage "silvairDebug" (.type "DebugParams") := member_field 71 rfl
instance : HasMember u_AccessMessage "silvairGateway" (.type "GatewayConfigParams") := member_field 72 rfl
instance : HasMember u_AccessMessage "genericOnoffGet" (.type "GenericOnOffGet") := member_field 73 rfl
instance : HasMember u_AccessMessage "genericOnoffSet" (.group g_AccessMessage_genericOnoffSet) := member_group 74 rfl
instance : HasMember u_AccessMessage "genericOnoffSetUnacknowledged" (.group g_AccessMessage_genericOnoffSetUnacknowledged) := member_group 75 rfl
instance : HasMember u_AccessMessage "genericOnoffStatus" (.group g_AccessMessage_genericOnoffStatus) := member_group 76 rfl
instance : HasMember u_AccessMessage "genericBatteryGet" (.type "GenericBatteryGet") := member_field 77 rfl
instance : HasMember u_AccessMessage "genericBatteryStatus" (.type "GenericBatteryStatus") := member_field 78 rfl
instance : HasMember u_AccessMessage "genericLevelGet" (.type "GenericLevelGet") := member_field 79 rfl
instance : HasMember u_AccessMessage "genericLevelSet" (.group g_AccessMessage_genericLevelSet) := member_group 80 rfl
instance : HasMember u_AccessMessage "genericLevelSetUnacknowledged" (.group g_AccessMessage_genericLevelSetUnacknowledged) := member_group 81 rfl
instance : HasMember u_AccessMessage "genericLevelStatus" (.group g_AccessMessage_genericLevelStatus) := member_group 82 rfl
instance : HasMember u_AccessMessage "genericDeltaSet" (.group g_AccessMessage_genericDeltaSet) := member_group 83 rfl
instance : HasMember u_AccessMessage "genericDeltaSetUnacknowledged" (.group g_AccessMessage_genericDeltaSetUnacknowledged) := member_group 84 rfl
instance : HasMember u_AccessMessage "genericMoveSet" (.group g_AccessMessage_genericMoveSet) := member_group 85 rfl
instance : HasMember u_AccessMessage "genericMoveSetUnacknowledged" (.group g_AccessMessage_genericMoveSetUnacknowledged) := member_group 86 rfl
instance : HasMember u_AccessMessage "lightLightnessGet" (.type "LightLightnessGet") := member_field 87 rfl
instance : HasMember u_AccessMessage "lightLightnessSet" (.group g_AccessMessage_lightLightnessSet) := member_group 88 rfl
instance : HasMember u_AccessMessage "lightLightnessSetUnacknowledged" (.group g_AccessMessage_lightLightnessSetUnacknowledged) := member_group 89 rfl
instance : HasMember u_AccessMessage "lightLightnessStatus" (.group g_AccessMessage_lightLightnessStatus) := member_group 90 rfl
instance : HasMember u_AccessMessage "lightLightnessLinearGet" (.type "LightLightnessGet") := member_field 91 rfl
instance : HasMember u_AccessMessage "lightLightnessLinearSet" (.group g_AccessMessage_lightLightnessLinearSet) := member_group 92 rfl
instance : HasMember u_AccessMessage "lightLightnessLinearSetUnacknowledged" (.group g_AccessMessage_lightLightnessLinearSetUnacknowledged) := member_group 93 rfl
instance : HasMember u_AccessMessage "lightLightnessLinearStatus" (.group g_AccessMessage_lightLightnessLinearStatus) := member_group 94 rfl
instance : HasMember u_AccessMessage "lightLightnessLastGet" (.type "LightLightnessGet") := member_field 95 rfl
instance : HasMember u_AccessMessage "lightLightnessLastStatus" (.type "LightLightnessDefault") := member_field 96 rfl
instance : HasMember u_AccessMessage "lightLightnessDefaultGet" (.type "LightLightnessGet") := member_field 97 rfl
instance : HasMember u_AccessMessage "lightLightnessDefaultStatus" (.type "LightLightnessDefault") := member_field 98 rfl
instance : HasMember u_AccessMessage "lightLightnessRangeGet" (.type "LightLightnessGet") := member_field 99 rfl
instance : HasMember u_AccessMessage "lightLightnessRangeStatus" (.type "LightLightnessRangeStatus") := member_field 100 rfl
instance : HasMember u_AccessMessage "lightLightnessSetupDefaultSet" (.type "LightLightnessDefault") := member_field 101 rfl
instance : HasMember u_AccessMessage "lightLightnessSetupDefaultSetUnacknowledged" (.type "LightLightnessDefault") := member_field 102 rfl
instance : HasMember u_AccessMessage "lightLightnessSetupRangeSet" (.type "LightLightnessRange") := member_field 103 rfl
instance : HasMember u_AccessMessage "lightLightnessSetupRangeSetUnacknowledged" (.type "LightLightnessRange") := member_field 104 rfl
instance : HasMember u_AccessMessage "lightCtlGet" (.type "LightCTLGet") := member_field 105 rfl
instance : HasMember u_AccessMessage "lightCtlSet" (.group g_AccessMessage_lightCtlSet) := member_group 106 rfl
instance : HasMember u_AccessMessage "lightCtlSetUnacknowledged" (.group g_AccessMessage_lightCtlSetUnacknowledged) := member_group 107 rfl
instance : HasMember u_AccessMessage "lightCtlStatus" (.group g_AccessMessage_lightCtlStatus) := member_group 108 rfl
instance : HasMember u_AccessMessage "lightCtlTemperatureGet" (.type "LightCTLGet") := member_field 109 rfl
instance : HasMember u_AccessMessage "lightCtlTemperatureRangeGet" (.type "LightCTLGet") := member_field 110 rfl
instance : HasMember u_AccessMessage "lightCtlTemperatureRangeStatus" (.type "LightCTLRangeStatus") := member_field 111 rfl
instance : HasMember u_AccessMessage "lightCtlTemperatureSet" (.group g_AccessMessage_lightCtlTemperatureSet) := member_group 112 rfl
instance : HasMember u_AccessMessage "lightCtlTemperatureSetUnacknowledged" (.group g_AccessMessage_lightCtlTemperatureSetUnacknowledged) := member_group 113 rfl
instance : HasMember u_AccessMessage "lightCtlTemperatureStatus" (.group g_AccessMessage_lightCtlTemperatureStatus) := member_group 114 rfl
instance : HasMember u_AccessMessage "lightCtlTemperatureDefaultGet" (.type "LightCTLGet") := member_field 115 rfl
instance : HasMember u_AccessMessage "lightCtlTemperatureDefaultStatus" (.type "LightCTLDefault") := member_field 116 rfl
instance : HasMember u_AccessMessage "lightCtlSetupTemperatureDefaultSet" (.type "LightCTLDefault") := member_field 117 rfl
instance : HasMember u_AccessMessage "lightCtlSetupTemperatureDefaultSetUnacknowledged" (.type "LightCTLDefault") := member_field 118 rfl
instance : HasMember u_AccessMessage "lightCtlSetupTemperatureRangeSet" (.type "LightCTLRange") := member_field 119 rfl
instance : HasMember u_AccessMessage "lightCtlSetupTemperatureRangeSetUnacknowledged" (.type "LightCTLRange") := member_field 120 rfl
instance : HasMember u_AccessMessage "healthAttentionGet" (.type "HealthAttentionGet") := member_field 121 rfl
instance : HasMember u_AccessMessage "healthAttentionSet" (.type "HealthAttentionStatus") := member_field 122 rfl
instance : HasMember u_AccessMessage "healthAttentionSetUnacknowledged" (.type "HealthAttentionStatus") := member_field 123 rfl
instance : HasMember u_AccessMessage "healthAttentionStatus" (.type "HealthAttentionStatus") := member_field 124 rfl
instance : HasMember u_AccessMessage "healthCurrentStatus" (.type "HealthFaultStatus") := member_field 125 rfl
instance : HasMember u_AccessMessage "healthFaultClear" (.type "HealthFaultClear") := member_field 126 rfl
instance : HasMember u_AccessMessage "healthFaultClearUnacknowledged" (.type "HealthFaultClear") := member_field 127 rfl
instance : HasMember u_AccessMessage "healthFaultGet" (.type "HealthFaultClear") := member_field 128 rfl
instance : HasMember u_AccessMessage "healthFaultStatus" (.type "HealthFaultStatus") := member_field 129 rfl
instance : HasMember u_AccessMessage "healthFaultTest" (.type "HealthFaultTest") := member_field 130 rfl
instance : HasMember u_AccessMessage "healthFaultTestUnacknowledged" (.type "HealthFaultTest") := member_field 131 rfl
instance : HasMember u_AccessMessage "healthPeriodGet" (.type "HealthPeriodGet") := member_field 132 rfl
instance : HasMember u_AccessMessage "healthPeriodSet" (.type "HealthPeriodStatus") := member_field 133 rfl
instance : HasMember u_AccessMessage "healthPeriodSetUnacknowledged" (.type "HealthPeriodStatus") := member_field 134 rfl
instance : HasMember u_AccessMessage "healthPeriodStatus" (.type "HealthPeriodStatus") := member_field 135 rfl
instance : HasMember u_AccessMessage "silvairNds" (.type "NetworkDiagnosticServerParams") := member_field 136 rfl
instance : HasMember u_AccessMessage "silvairNdsSetup" (.type "NetworkDiagnosticSetupServerParams") := member_field 137 rfl
instance : HasMember u_AccessMessage "sceneGet" (.type "SceneGet") := member_field 138 rfl
instance : HasMember u_AccessMessage "sceneRecall" (.group g_AccessMessage_sceneRecall) := member_group 139 rfl
instance : HasMember u_AccessMessage "sceneRecallUnacknowledged" (.group g_AccessMessage_sceneRecallUnacknowledged) := member_group 140 rfl
instance : HasMember u_AccessMessage "sceneStatus" (.group g_AccessMessage_sceneStatus) := member_group 141 rfl
instance : HasMember u_AccessMessage "sceneRegisterGet" (.type "SceneRegisterGet") := member_field 142 rfl
instance : HasMember u_AccessMessage "sceneRegisterStatus" (.type "SceneRegisterStatus") := member_field 143 rfl
instance : HasMember u_AccessMessage "sceneStore" (.type "SceneSetupWithValidation") := member_field 144 rfl
instance : HasMember u_AccessMessage "sceneStoreUnacknowledged" (.type "SceneSetupWithValidation") := member_field 145 rfl
instance : HasMember u_AccessMessage "sceneDelete" (.type "SceneSetup") := member_field 146 rfl
instance : HasMember u_AccessMessage "sceneDeleteUnacknowledged" (.type "SceneSetup") := member_field 147 rfl
instance : HasMember u_AccessMessage "sensorDescriptorGet" (.group g_AccessMessage_sensorDescriptorGet) := member_group 148 rfl
instance : HasMember u_AccessMessage "sensorDescriptorStatus" (.type "List(SensorDescriptorStatusItem)") := member_field 149 rfl
instance : HasMember u_AccessMessage "sensorGet" (.group g_AccessMessage_sensorGet) := member_group 150 rfl
instance : HasMember u_AccessMessage "sensorStatus" (.type "List(SensorData)") := member_field 151 rfl
instance : HasMember u_AccessMessage "sensorCadenceGet" (.type "SensorGetOptional") := member_field 152 rfl
instance : HasMember u_AccessMessage "sensorSettingsGet" (.type "SensorSettingsGet") := member_field 153 rfl
instance : HasMember u_AccessMessage "sensorSettingsStatus" (.type "SensorSettingsStatus") := member_field 154 rfl
instance : HasMember u_AccessMessage "sensorSettingGet" (.type "SensorSettingGet") := member_field 155 rfl
instance : HasMember u_AccessMessage "sensorSettingSet" (.type "SensorSettingSet") := member_field 156 rfl
instance : HasMember u_AccessMessage "sensorSettingSetUnacknowledged" (.type "SensorSettingSet") := member_field 157 rfl
instance : HasMember u_AccessMessage "sensorSettingStatus" (.type "SensorSettingStatus") := member_field 158 rfl
instance : HasMember u_AccessMessage "silvairLec" (.type "LightExtendedControllerParams") := member_field 159 rfl
instance : HasMember u_AccessMessage "timeGet" (.type "TimeGet") := member_field 160 rfl
instance : HasMember u_AccessMessage "timeSet" (.type "TimeSet") := member_field 161 rfl
instance : HasMember u_AccessMessage "timeStatus" (.type "TimeStatus") := member_field 162 rfl
instance : HasMember u_AccessMessage "timeZoneGet" (.type "TimeZoneGet") := member_field 163 rfl
instance : HasMember u_AccessMessage "timeZoneSet" (.type "TimeZoneSet") := member_field 164 rfl
instance : HasMember u_AccessMessage "timeZoneStatus" (.type "TimeZoneStatus") := member_field 165 rfl
instance : HasMember u_AccessMessage "taiUtcDeltaGet" (.type "TAIUTCDeltaGet") := member_field 166 rfl
instance : HasMember u_AccessMessage "taiUtcDeltaSet" (.type "TAIUTCDeltaSet") := member_field 167 rfl
instance : HasMember u_AccessMessage "taiUtcDeltaStatus" (.type "TAIUTCDeltaStatus") := member_field 168 rfl
instance : HasMember u_AccessMessage "timeRoleGet" (.type "TimeRoleGet") := member_field 169 rfl
instance : HasMember u_AccessMessage "timeRoleSet" (.type "TimeRoleStatus") := member_field 170 rfl
instance : HasMember u_AccessMessage "timeRoleStatus" (.type "TimeRoleStatus") := member_field 171 rfl
instance : HasMember u_AccessMessage "silvairDebugV2" (.type "DebugV2SubMessage") := member_field 172 rfl
instance : HasMember u_AccessMessage "silvairRruleScheduler" (.type "RRuleSchedulerSubMessage") := member_field 173 rfl
instance : HasMember u_AccessMessage "genericUserPropertiesGet" (.type "GenericPropertiesGet") := member_field 174 rfl
instance : HasMember u_AccessMessage "genericUserPropertiesStatus" (.type "GenericPropertiesStatus") := member_field 175 rfl
instance : HasMember u_AccessMessage "genericUserPropertyGet" (.type "GenericPropertyGet") := member_field 176 rfl
instance : HasMember u_AccessMessage "genericUserPropertySet" (.type "GenericUserPropertySet") := member_field 177 rfl
instance : HasMember u_AccessMessage "genericUserPropertySetUnacknowledged" (.type "GenericUserPropertySet") := member_field 178 rfl
instance : HasMember u_AccessMessage "genericUserPropertyStatus" (.type "GenericPropertyStatus") := member_field 179 rfl
instance : HasMember u_AccessMessage "genericAdminPropertiesGet" (.type "GenericPropertiesGet") := member_field 180 rfl
instance : HasMember u_AccessMessage "genericAdminPropertiesStatus" (.type "GenericPropertiesStatus") := member_field 181 rfl
instance : HasMember u_AccessMessage "genericAdminPropertyGet" (.type "GenericPropertyGet") := member_field 182 rfl
instance : HasMember u_AccessMessage "genericAdminPropertySet" (.type "GenericAdminPropertySet") := member_field 183 rfl
instance : HasMember u_AccessMessage "genericAdminPropertySetUnacknowledged" (.type "GenericAdminPropertySet") := member_field 184 rfl
instance : HasMember u_AccessMessage "genericAdminPropertyStatus" (.type "GenericPropertyStatus") := member_field 185 rfl
instance : HasMember u_AccessMessage "genericManufacturerPropertiesGet" (.type "GenericPropertiesGet") := member_field 186 rfl
instance : HasMember u_AccessMessage "genericManufacturerPropertiesStatus" (.type "GenericPropertiesStatus") := member_field 187 rfl
instance : HasMember u_AccessMessage "genericManufacturerPropertyGet" (.type "GenericPropertyGet") := member_field 188 rfl
instance : HasMember u_AccessMessage "genericManufacturerPropertySet" (.type "GenericManufacturerPropertySet") := member_field 189 rfl
instance : HasMember u_AccessMessage "genericManufacturerPropertySetUnacknowledged" (.type "GenericManufacturerPropertySet") := member_field 190 rfl
instance : HasMember u_AccessMessage "genericManufacturerPropertyStatus" (.type "GenericPropertyStatus") := member_field 191 rfl
instance : HasMember u_AccessMessage "genericClientPropertiesGet" (.type "GenericPropertiesGet") := member_field 192 rfl
instance : HasMember u_AccessMessage "genericClientPropertiesStatus" (.type "GenericPropertiesStatus") := member_field 193 rfl
instance : HasMember u_AccessMessage "silvairEl" (.type "EmergencyLightingParams") := member_field 194 rfl
instance : HasMember u_AccessMessage "silvairElt" (.type "EmergencyLightingTestParams") := member_field 195 rfl
instance : HasMember s_AccessMessage "configAppkeyAdd" (.type "ConfigAppKeyUpdate") := member_inner (us := u_AccessMessage) 1 rfl
instance : HasMember s_AccessMessage "configAppkeyDelete" (.type "ConfigAppKeyDelete") := member_inner (us := u_AccessMessage) 1 rfl
instance : HasMember s_AccessMessage "configAppkeyGet" (.type "ConfigAppKeyGet") := member_inner (us := u_AccessMessage) 1 rfl
instance : HasMember s_AccessMessage "configAppkeyList" (.type "ConfigAppKeyList") := member_inner (us := u_AccessMessage) 1 rfl
instance : HasMember s_AccessMessage "configAppkeyStatus" (.type "ConfigAppKeyStatus") := member_inner (us := u_AccessMessage) 1 rfl
instance : HasMember s_AccessMessage "configAppkeyUpdate" (.type "ConfigAppKeyUpdate") := member_inner (us := u_AccessMessage) 1 rfl
instance : HasMember s_AccessMessage "configBeaconGet" (.type "ConfigBeaconGet") := member_inner (us := u_AccessMessage) 1 rfl
instance : HasMember s_AccessMessage "configBeaconSet" (.type "ConfigBeaconStatus") := member_inner (us := u_AccessMessage) 1 rfl
instance : HasMember s_AccessMessage "configBeaconStatus" (.type "ConfigBeaconStatus") := member_inner (us := u_AccessMessage) 1 rfl
instance : HasMember s_AccessMessage "configCompositionDataGet" (.type "ConfigCompositionDataGet") := member_inner (us := u_AccessMessage) 1 rfl
instance : HasMember s_AccessMessage "configCompositionDataStatus" (.type "ConfigCompositionDataStatus") := member_inner (us := u_AccessMessage) 1 rfl
instance : HasMember s_AccessMessage "configDefaultTtlGet" (.type "ConfigDefaultTTLGet") := member_inner (us := u_AccessMessage) 1 rfl
instance : HasMember s_AccessMessage "configDefaultTtlSet" (.type "ConfigDefaultTTLStatus") := member_inner (us := u_AccessMessage) 1 rfl
instance : HasMember s_AccessMessage "configDefaultTtlStatus" (.type "ConfigDefaultTTLStatus") := member_inner (us := u_AccessMessage) 1 rfl
instance : HasMember s_AccessMessage "configFriendGet" (.type "ConfigFriendGet") := member_inner (us := u_AccessMessage) 1 rfl
instance : HasMember s_AccessMessage "configFriendSet" (.type "ConfigFriendStatus") := member_inner (us := u_AccessMessage) 1 rfl
instance : HasMember s_AccessMessage "configFriendStatus" (.type "ConfigFriendStatus") := member_inner (us := u_AccessMessage) 1 rfl
instance : HasMember s_AccessMessage "configGattProxyGet" (.type "ConfigGATTProxyGet") := member_inner (us := u_AccessMessage) 1 rfl
instance : HasMember s_AccessMessage "configGattProxySet" (.type "ConfigGATTProxyStatus") := member_inner (us := u_AccessMessage) 1 rfl
instance : HasMember s_AccessMessage "configGattProxyStatus" (.type "ConfigGATTProxyStatus") := member_inner (us := u_AccessMessage) 1 rfl
instance : HasMember s_AccessMessage "configHearbeatPublicationGet" (.type "ConfigHeartbeatPublicationGet") := member_inner (us := u_AccessMessage) 1 rfl
instance : HasMember s_AccessMessage "configHearbeatPublicationSet" (.type "ConfigHeartbeatPublicationSet") := member_inner (us := u_AccessMessage) 1 rfl
instance : HasMember s_AccessMessage "configHearbeatPublicationStatus" (.type "ConfigHeartbeatPublicationStatus") := member_inner (us := u_AccessMessage) 1 rfl
instance : HasMember s_AccessMessage "configHearbeatSubscriptionGet" (.type "ConfigHeartbeatSubscriptionGet") := member_inner (us := u_AccessMessage) 1 rfl
instance : HasMember s_AccessMessage "configHearbeatSubscriptionSet" (.type "ConfigHeartbeatSubscriptionSet") := member_inner (us := u_AccessMessage) 1 rfl
instance : HasMember s_AccessMessage "configHearbeatSubscriptionStatus" (.type "ConfigHeartbeatSubscriptionStatus") := member_inner (us := u_AccessMessage) 1 rfl
instance : HasMember s_AccessMessage "configKeyRefreshPhaseGet" (.type "ConfigKeyRefreshPhaseGet") := member_inner (us := u_AccessMessage) 1 rfl
instance : HasMember s_AccessMessage "configKeyRefreshPhaseSet" (.type "ConfigKeyRefreshPhaseSet") := member_inner (us := u_AccessMessage) 1 rfl
instance : HasMember s_AccessMessage "configKeyRefreshPhaseStatus" (.type "ConfigKeyRefreshPhaseStatus") := member_inner (us := u_AccessMessage) 1 rfl
instance : HasMember s_AccessMessage "configLowPowerNodePollTimeoutGet" (.type "ConfigLowPowerNodePollTimeoutGet") := member_inner (us := u_AccessMessage) 1 rfl
instance : HasMember s_AccessMessage "configLowPowerNodePollTimeoutStatus" (.type "ConfigLowPowerNodePollTimeoutStatus") := member_inner (us := u_AccessMessage) 1 rfl
instance : HasMember s_AccessMessage "configModelAppBind" (.type "ConfigModelAppUnbind") := member_inner (us := u_AccessMessage) 1 rfl
instance : HasMember s_AccessMessage "configModelAppStatus" (.type "ConfigModelAppStatus") := member_inner (us := u_AccessMessage) 1 rfl
instance : HasMember s_AccessMessage "configModelAppUnbind" (.type "ConfigModelAppUnbind") := member_inner (us := u_AccessMessage) 1 rfl
instance : HasMember s_AccessMessage "configModelPublicationGet" (.type "ConfigModelPublicationGet") := member_inner (us := u_AccessMessage) 1 rfl
instance : HasMember s_AccessMessage "configModelPublicationSet" (.type "ConfigModelPublicationSet") := member_inner (us := u_AccessMessage) 1 rfl
instance : HasMember s_AccessMessage "configModelPublicationStatus" (.type "ConfigModelPublicationStatus") := member_inner (us := u_AccessMessage) 1 rfl
instance : HasMember s_AccessMessage "configModelPublicationVirtualAddressSet" (.type "ConfigModelPublicationVASet") := member_inner (us := u_AccessMessage) 1 rfl
instance : HasMember s_AccessMessage "configModelSubscriptionAdd" (.type "ConfigModelSubscriptionOverwrite") := member_inner (us := u_AccessMessage) 1 rfl
instance : HasMember s_AccessMessage "configModelSubscriptionDelete" (.type "ConfigModelSubscriptionOverwrite") := member_inner (us := u_AccessMessage) 1 rfl
instance : HasMember s_AccessMessage "configModelSubscriptionDeleteAll" (.type "ConfigModelSubscriptionDeleteAll") := member_inner (us := u_AccessMessage) 1 rfl
instance : HasMember s_AccessMessage "configModelSubscriptionOverwrite" (.type "ConfigModelSubscriptionOverwrite") := member_inner (us := u_AccessMessage) 1 rfl
instance : HasMember s_AccessMessage "configModelSubscriptionStatus" (.type "ConfigModelSubscriptionStatus") := member_inner (us := u_AccessMessage) 1 rfl
instance : HasMember s_AccessMessage "configModelSubscriptionVirtualAddressAdd" (.type "ConfigModelSubscriptionVAOverwrite") := member_inner (us := u_AccessMessage) 1 rfl
instance : HasMember s_AccessMessage "configModelSubscriptionVirtualAddressDelete" (.type "ConfigModelSubscriptionVAOverwrite") := member_inner (us := u_AccessMessage) 1 rfl
instance : HasMember s_AccessMessage "configModelSubscriptionVirtualAddressOverwrite" (.type "ConfigModelSubscriptionVAOverwrite") := member_inner (us := u_AccessMessage) 1 rfl
instance : HasMember s_AccessMessage "configNetkeyAdd" (.type "ConfigNetKeyUpdate") := member_inner (us := u_AccessMessage) 1 rfl
instance : HasMember s_AccessMessage "configNetkeyDelete" (.type "ConfigNetKeyDelete") := member_inner (us := u_AccessMessage) 1 rfl
instance : HasMember s_AccessMessage "configNetkeyGet" (.type "ConfigNetKeyGet") := member_inner (us := u_AccessMessage) 1 rfl
instance : HasMember s_AccessMessage "configNetkeyList" (.type "ConfigNetKeyList") := member_inner (us := u_AccessMessage) 1 rfl
instance : HasMember s_AccessMessage "configNetkeyStatus" (.type "ConfigNetKeyStatus") := member_inner (us := u_AccessMessage) 1 rfl
instance : HasMember s_AccessMessage "configNetkeyUpdate" (.type "ConfigNetKeyUpdate") := member_inner (us := u_AccessMessage) 1 rfl
instance : HasMember s_AccessMessage "configNetworkTransmitGet" (.type "ConfigNetworkTransmitGet") := member_inner (us := u_AccessMessage) 1 rfl
instance : HasMember s_AccessMessage "configNetworkTransmitSet" (.type "ConfigNetworkTransmitStatus") := member_inner (us := u_AccessMessage) 1 rfl
instance : HasMember s_AccessMessage "configNetworkTransmitStatus" (.type "ConfigNetworkTransmitStatus") := member_inner (us := u_AccessMessage) 1 rfl
instance : HasMember s_AccessMessage "configNodeIdentityGet" (.type "ConfigNodeIdentityGet") := member_inner (us := u_AccessMessage) 1 rfl
instance : HasMember s_AccessMessage "configNodeIdentitySet" (.type "ConfigNodeIdentitySet") := member_inner (us := u_AccessMessage) 1 rfl
instance : HasMember s_AccessMessage "configNodeIdentityStatus" (.type "ConfigNodeIdentityStatus") := member_inner (us := u_AccessMessage) 1 rfl
instance : HasMember s_AccessMessage "configNodeReset" (.type "ConfigNodeReset") := member_inner (us := u_AccessMessage) 1 rfl
instance : HasMember s_AccessMessage "configNodeResetStatus" (.type "ConfigNodeResetStatus") := member_inner (us := u_AccessMessage) 1 rfl
instance : HasMember s_AccessMessage "configRelayGet" (.type "ConfigRelayGet") := member_inner (us := u_AccessMessage) 1 rfl
instance : HasMember s_AccessMessage "configRelaySet" (.type "ConfigRelayStatus") := member_inner (us := u_AccessMessage) 1 rfl
instance : HasMember s_AccessMessage "configRelayStatus" (.type "ConfigRelayStatus") := member_inner (us := u_AccessMessage) 1 rfl
instance : HasMember s_AccessMessage "configSigModelAppGet" (.type "ConfigSIGModelAppGet") := member_inner (us := u_AccessMessage) 1 rfl
instance : HasMember s_AccessMessage "configSigModelAppList" (.type "ConfigSIGModelAppList") := member_inner (us := u_AccessMessage) 1 rfl
instance : HasMember s_AccessMessage "configSigModelSubscriptionGet" (.type "ConfigSIGModelSubscriptionGet") := member_inner (us := u_AccessMessage) 1 rfl
instance : HasMember s_AccessMessage "configSigModelSubscriptionList" (.type "ConfigSIGModelSubscriptionList") := member_inner (us := u_AccessMessage) 1 rfl
instance : HasMember s_AccessMessage "configVendorModelAppGet" (.type "ConfigVendorModelAppGet") := member_inner (us := u_AccessMessage) 1 rfl
instance : HasMember s_AccessMessage "configVendorModelAppList" (.type "ConfigVendorModelAppList") := member_inner (us := u_AccessMessage) 1 rfl
instance : HasMember s_AccessMessage "configVendorModelSubscriptionGet" (.type "ConfigVendorModelSubscriptionGet") := member_inner (us := u_AccessMessage) 1 rfl
instance : HasMember s_AccessMessage "configVendorModelSubscriptionList" (.type "ConfigVendorModelSubscriptionList") := member_inner (us := u_AccessMessage) 1 rfl
instance : HasMember s_AccessMessage "silvairDebug" (.type "DebugParams") := member_inner (us := u_AccessMessage) 1 rfl
instance : HasMember s_AccessMessage "silvairGateway" (.type "GatewayConfigParams") := member_inner (us := u_AccessMessage) 1 rfl
instance : HasMember s_AccessMessage "genericOnoffGet" (.type "GenericOnOffGet") := member_inner (us := u_AccessMessage) 1 rfl
instance : HasMember s_AccessMessage "genericOnoffSet" (.group g_AccessMessage_genericOnoffSet) := member_inner (us := u_AccessMessage) 1 rfl
instance : HasMember s_AccessMessage "genericOnoffSetUnacknowledged" (.group g_AccessMessage_genericOnoffSetUnacknowledged) := member_inner (us := u_AccessMessage) 1 rfl
instance : HasMember s_AccessMessage "genericOnoffStatus" (.group g_AccessMessage_genericOnoffStatus) := member_inner (us := u_AccessMessage) 1 rfl
instance : HasMember s_AccessMessage "genericBatteryGet" (.type "GenericBatteryGet") := member_inner (us := u_AccessMessage) 1 rfl
instance : HasMember s_AccessMessage "genericBatteryStatus" (.type "GenericBatteryStatus") := member_inner (us := u_AccessMessage) 1 rfl
instance : HasMember s_AccessMessage "genericLevelGet" (.type "GenericLevelGet") := member_inner (us := u_AccessMessage) 1 rfl
instance : HasMember s_AccessMessage "genericLevelSet" (.group g_AccessMessage_genericLevelSet) := member_inner (us := u_AccessMessage) 1 rfl
instance : HasMember s_AccessMessage "genericLevelSetUnacknowledged" (.group g_AccessMessage_genericLevelSetUnacknowledged) := member_inner (us := u_AccessMessage) 1 rfl
instance : HasMember s_AccessMessage "genericLevelStatus" (.group g_AccessMessage_genericLevelStatus) := member_inner (us := u_AccessMessage) 1 rfl
instance : HasMember s_AccessMessage "genericDeltaSet" (.group g_AccessMessage_genericDeltaSet) := member_inner (us := u_AccessMessage) 1 rfl
instance : HasMember s_AccessMessage "genericDeltaSetUnacknowledged" (.group g_AccessMessage_genericDeltaSetUnacknowledged) := member_inner (us := u_AccessMessage) 1 rfl
instance : HasMember s_AccessMessage "genericMoveSet" (.group g_AccessMessage_genericMoveSet) := member_inner (us := u_AccessMessage) 1 rfl
instance : HasMember s_AccessMessage "genericMoveSetUnacknowledged" (.group g_AccessMessage_genericMoveSetUnacknowledged) := member_inner (us := u_AccessMessage) 1 rfl
instance : HasMember s_AccessMessage "lightLightnessGet" (.type "LightLightnessGet") := member_inner (us := u_AccessMessage) 1 rfl
instance : HasMember s_AccessMessage "lightLightnessSet" (.group g_AccessMessage_lightLightnessSet) := member_inner (us := u_AccessMessage) 1 rfl
instance : HasMember s_AccessMessage "lightLightnessSetUnacknowledged" (.group g_AccessMessage_lightLightnessSetUnacknowledged) := member_inner (us := u_AccessMessage) 1 rfl
instance : HasMember s_AccessMessage "lightLightnessStatus" (.group g_AccessMessage_lightLightnessStatus) := member_inner (us := u_AccessMessage) 1 rfl
instance : HasMember s_AccessMessage "lightLightnessLinearGet" (.type "LightLightnessGet") := member_inner (us := u_AccessMessage) 1 rfl
instance : HasMember s_AccessMessage "lightLightnessLinearSet" (.group g_AccessMessage_lightLightnessLinearSet) := member_inner (us := u_AccessMessage) 1 rfl
instance : HasMember s_AccessMessage "lightLightnessLinearSetUnacknowledged" (.group g_AccessMessage_lightLightnessLinearSetUnacknowledged) := member_inner (us := u_AccessMessage) 1 rfl
instance : HasMember s_AccessMessage "lightLightnessLinearStatus" (.group g_AccessMessage_lightLightnessLinearStatus) := member_inner (us := u_AccessMessage) 1 rfl
instance : HasMember s_AccessMessage "lightLightnessLastGet" (.type "LightLightnessGet") := member_inner (us := u_AccessMessage) 1 rfl
instance : HasMember s_AccessMessage "lightLightnessLastStatus" (.type "LightLightnessDefault") := member_inner (us := u_AccessMessage) 1 rfl
instance : HasMember s_AccessMessage "lightLightnessDefaultGet" (.type "LightLightnessGet") := member_inner (us := u_AccessMessage) 1 rfl
instance : HasMember s_AccessMessage "lightLightnessDefaultStatus" (.type "LightLightnessDefault") := member_inner (us := u_AccessMessage) 1 rfl
instance : HasMember s_AccessMessage "lightLightnessRangeGet" (.type "LightLightnessGet") := member_inner (us := u_AccessMessage) 1 rfl
instance : HasMember s_AccessMessage "lightLightnessRangeStatus" (.type "LightLightnessRangeStatus") := member_inner (us := u_AccessMessage) 1 rfl
instance : HasMember s_AccessMessage "lightLightnessSetupDefaultSet" (.type "LightLightnessDefault") := member_inner (us := u_AccessMessage) 1 rfl
instance : HasMember s_AccessMessage "lightLightnessSetupDefaultSetUnacknowledged" (.type "LightLightnessDefault") := member_inner (us := u_AccessMessage) 1 rfl
instance : HasMember s_AccessMessage "lightLightnessSetupRangeSet" (.type "LightLightnessRange") := member_inner (us := u_AccessMessage) 1 rfl
instance : HasMember s_AccessMessage "lightLightnessSetupRangeSetUnacknowledged" (.type "LightLightnessRange") := member_inner (us := u_AccessMessage) 1 rfl
instance : HasMember s_AccessMessage "lightCtlGet" (.type "LightCTLGet") := member_inner (us := u_AccessMessage) 1 rfl
instance : HasMember s_AccessMessage "lightCtlSet" (.group g_AccessMessage_lightCtlSet) := member_inner (us := u_AccessMessage) 1 rfl
instance : HasMember s_AccessMessage "lightCtlSetUnacknowledged" (.group g_AccessMessage_lightCtlSetUnacknowledged) := member_inner (us := u_AccessMessage) 1 rfl
instance : HasMember s_AccessMessage "lightCtlStatus" (.group g_AccessMessage_lightCtlStatus) := member_inner (us := u_AccessMessage) 1 rfl
instance : HasMember s_AccessMessage "lightCtlTemperatureGet" (.type "LightCTLGet") := member_inner (us := u_AccessMessage) 1 rfl
instance : HasMember s_AccessMessage "lightCtlTemperatureRangeGet" (.type "LightCTLGet") := member_inner (us := u_AccessMessage) 1 rfl
instance : HasMember s_AccessMessage "lightCtlTemperatureRangeStatus" (.type "LightCTLRangeStatus") := member_inner (us := u_AccessMessage) 1 rfl
instance : HasMember s_AccessMessage "lightCtlTemperatureSet" (.group g_AccessMessage_lightCtlTemperatureSet) := member_inner (us := u_AccessMessage) 1 rfl
instance : HasMember s_AccessMessage "lightCtlTemperatureSetUnacknowledged" (.group g_AccessMessage_lightCtlTemperatureSetUnacknowledged) := member_inner (us := u_AccessMessage) 1 rfl
instance : HasMember s_AccessMessage "lightCtlTemperatureStatus" (.group g_AccessMessage_lightCtlTemperatureStatus) := member_inner (us := u_AccessMessage) 1 rfl
instance : HasMember s_AccessMessage "lightCtlTemperatureDefaultGet" (.type "LightCTLGet") := member_inner (us := u_AccessMessage) 1 rfl
instance : HasMember s_AccessMessage "lightCtlTemperatureDefaultStatus" (.type "LightCTLDefault") := member_inner (us := u_AccessMessage) 1 rfl
instance : HasMember s_AccessMessage "lightCtlSetupTemperatureDefaultSet" (.type "LightCTLDefault") := member_inner (us := u_AccessMessage) 1 rfl
instance : HasMember s_AccessMessage "lightCtlSetupTemperatureDefaultSetUnacknowledged" (.type "LightCTLDefault") := member_inner (us := u_AccessMessage) 1 rfl
instance : HasMember s_AccessMessage "lightCtlSetupTemperatureRangeSet" (.type "LightCTLRange") := member_inner (us := u_AccessMessage) 1 rfl
instance : HasMember s_AccessMessage "lightCtlSetupTemperatureRangeSetUnacknowledged" (.type "LightCTLRange") := member_inner (us := u_AccessMessage) 1 rfl
instance : HasMember s_AccessMessage "healthAttentionGet" (.type "HealthAttentionGet") := member_inner (us := u_AccessMessage) 1 rfl
instance : HasMember s_AccessMessage "healthAttentionSet" (.type "HealthAttentionStatus") := member_inner (us := u_AccessMessage) 1 rfl
instance : HasMember s_AccessMessage "healthAttentionSetUnacknowledged" (.type "HealthAttentionStatus") := member_inner (us := u_AccessMessage) 1 rfl
instance : HasMember s_AccessMessage "healthAttentionStatus" (.type "HealthAttentionStatus") := member_inner (us := u_AccessMessage) 1 rfl
instance : HasMember s_AccessMessage "healthCurrentStatus" (.type "HealthFaultStatus") := member_inner (us := u_AccessMessage) 1 rfl
instance : HasMember s_AccessMessage "healthFaultClear" (.type "HealthFaultClear") := member_inner (us := u_AccessMessage) 1 rfl
instance : HasMember s_AccessMessage "healthFaultClearUnacknowledged" (.type "HealthFaultClear") := member_inner (us := u_AccessMessage) 1 rfl
instance : HasMember s_AccessMessage "healthFaultGet" (.type "HealthFaultClear") := member_inner (us := u_AccessMessage) 1 rfl
instance : HasMember s_AccessMessage "healthFaultStatus" (.type "HealthFaultStatus") := member_inner (us := u_AccessMessage) 1 rfl
instance : HasMember s_AccessMessage "healthFaultTest" (.type "HealthFaultTest") := member_inner (us := u_AccessMessage) 1 rfl
instance : HasMember s_AccessMessage "healthFaultTestUnacknowledged" (.type "HealthFaultTest") := member_inner (us := u_AccessMessage) 1 rfl
instance : HasMember s_AccessMessage "healthPeriodGet" (.type "HealthPeriodGet") := member_inner (us := u_AccessMessage) 1 rfl
instance : HasMember s_AccessMessage "healthPeriodSet" (.type "HealthPeriodStatus") := member_inner (us := u_AccessMessage) 1 rfl
instance : HasMember s_AccessMessage "healthPeriodSetUnacknowledged" (.type "HealthPeriodStatus") := member_inner (us := u_AccessMessage) 1 rfl
instance : HasMember s_AccessMessage "healthPeriodStatus" (.type "HealthPeriodStatus") := member_inner (us := u_AccessMessage) 1 rfl
instance : HasMember s_AccessMessage "silvairNds" (.type "NetworkDiagnosticServerParams") := member_inner (us := u_AccessMessage) 1 rfl
instance : HasMember s_AccessMessage "silvairNdsSetup" (.type "NetworkDiagnosticSetupServerParams") := member_inner (us := u_AccessMessage) 1 rfl
instance : HasMember s_AccessMessage "sceneGet" (.type "SceneGet") := member_inner (us := u_AccessMessage) 1 rfl
instance : HasMember s_AccessMessage "sceneRecall" (.group g_AccessMessage_sceneRecall) := member_inner (us := u_AccessMessage) 1 rfl
instance : HasMember s_AccessMessage "sceneRecallUnacknowledged" (.group g_AccessMessage_sceneRecallUnacknowledged) := member_inner (us := u_AccessMessage) 1 rfl
instance : HasMember s_AccessMessage "sceneStatus" (.group g_AccessMessage_sceneStatus) := member_inner (us := u_AccessMessage) 1 rfl
instance : HasMember s_AccessMessage "sceneRegisterGet" (.type "SceneRegisterGet") := member_inner (us := u_AccessMessage) 1 rfl
instance : HasMember s_AccessMessage "sceneRegisterStatus" (.type "SceneRegisterStatus") := member_inner (us := u_AccessMessage) 1 rfl
instance : HasMember s_AccessMessage "sceneStore" (.type "SceneSetupWithValidation") := member_inner (us := u_AccessMessage) 1 rfl
instance : HasMember s_AccessMessage "sceneStoreUnacknowledged" (.type "SceneSetupWithValidation") := member_inner (us := u_AccessMessage) 1 rfl
instance : HasMember s_AccessMessage "sceneDelete" (.type "SceneSetup") := member_inner (us := u_AccessMessage) 1 rfl
instance : HasMember s_AccessMessage "sceneDeleteUnacknowledged" (.type "SceneSetup") := member_inner (us := u_AccessMessage) 1 rfl
instance : HasMember s_AccessMessage "sensorDescriptorGet" (.group g_AccessMessage_sensorDescriptorGet) := member_inner (us := u_AccessMessage) 1 rfl
instance : HasMember s_AccessMessage "sensorDescriptorStatus" (.type "List(SensorDescriptorStatusItem)") := member_inner (us := u_AccessMessage) 1 rfl
instance : HasMember s_AccessMessage "sensorGet" (.group g_AccessMessage_sensorGet) := member_inner (us := u_AccessMessage) 1 rfl
instance : HasMember s_AccessMessage "sensorStatus" (.type "List(SensorData)") := member_inner (us := u_AccessMessage) 1 rfl
instance : HasMember s_AccessMessage "sensorCadenceGet" (.type "SensorGetOptional") := member_inner (us := u_AccessMessage) 1 rfl
instance : HasMember s_AccessMessage "sensorSettingsGet" (.type "SensorSettingsGet") := member_inner (us := u_AccessMessage) 1 rfl
instance : HasMember s_AccessMessage "sensorSettingsStatus" (.type "SensorSettingsStatus") := member_inner (us := u_AccessMessage) 1 rfl
instance : HasMember s_AccessMessage "sensorSettingGet" (.type "SensorSettingGet") := member_inner (us := u_AccessMessage) 1 rfl
instance : HasMember s_AccessMessage "sensorSettingSet" (.type "SensorSettingSet") := member_inner (us := u_AccessMessage) 1 rfl
instance : HasMember s_AccessMessage "sensorSettingSetUnacknowledged" (.type "SensorSettingSet") := member_inner (us := u_AccessMessage) 1 rfl
instance : HasMember s_AccessMessage "sensorSettingStatus" (.type "SensorSettingStatus") := member_inner (us := u_AccessMessage) 1 rfl
instance : HasMember s_AccessMessage "silvairLec" (.type "LightExtendedControllerParams") := member_inner (us := u_AccessMessage) 1 rfl
instance : HasMember s_AccessMessage "timeGet" (.type "TimeGet") := member_inner (us := u_AccessMessage) 1 rfl
instance : HasMember s_AccessMessage "timeSet" (.type "TimeSet") := member_inner (us := u_AccessMessage) 1 rfl
instance : HasMember s_AccessMessage "timeStatus" (.type "TimeStatus") := member_inner (us := u_AccessMessage) 1 rfl
instance : HasMember s_AccessMessage "timeZoneGet" (.type "TimeZoneGet") := member_inner (us := u_AccessMessage) 1 rfl
instance : HasMember s_AccessMessage "timeZoneSet" (.type "TimeZoneSet") := member_inner (us := u_AccessMessage) 1 rfl
instance : HasMember s_AccessMessage "timeZoneStatus" (.type "TimeZoneStatus") := member_inner (us := u_AccessMessage) 1 rfl
instance : HasMember s_AccessMessage "taiUtcDeltaGet" (.type "TAIUTCDeltaGet") := member_inner (us := u_AccessMessage) 1 rfl
instance : HasMember s_AccessMessage "taiUtcDeltaSet" (.type "TAIUTCDeltaSet") := member_inner (us := u_AccessMessage) 1 rfl
instance : HasMember s_AccessMessage "taiUtcDeltaStatus" (.type "TAIUTCDeltaStatus") := member_inner (us := u_AccessMessage) 1 rfl
instance : HasMember s_AccessMessage "timeRoleGet" (.type "TimeRoleGet") := member_inner (us := u_AccessMessage) 1 rfl
instance : HasMember s_AccessMessage "timeRoleSet" (.type "TimeRoleStatus") := member_inner (us := u_AccessMessage) 1 rfl
instance : HasMember s_AccessMessage "timeRoleStatus" (.type "TimeRoleStatus") := member_inner (us := u_AccessMessage) 1 rfl
instance : HasMember s_AccessMessage "silvairDebugV2" (.type "DebugV2SubMessage") := member_inner (us := u_AccessMessage) 1 rfl
instance : HasMember s_AccessMessage "silvairRruleScheduler" (.type "RRuleSchedulerSubMessage") := member_inner (us := u_AccessMessage) 1 rfl
instance : HasMember s_AccessMessage "genericUserPropertiesGet" (.type "GenericPropertiesGet") := member_inner (us := u_AccessMessage) 1 rfl
instance : HasMember s_AccessMessage "genericUserPropertiesStatus" (.type "GenericPropertiesStatus") := member_inner (us := u_AccessMessage) 1 rfl
instance : HasMember s_AccessMessage "genericUserPropertyGet" (.type "GenericPropertyGet") := member_inner (us := u_AccessMessage) 1 rfl
instance : HasMember s_AccessMessage "genericUserPropertySet" (.type "GenericUserPropertySet") := member_inner (us := u_AccessMessage) 1 rfl
instance : HasMember s_AccessMessage "genericUserPropertySetUnacknowledged" (.type "GenericUserPropertySet") := member_inner (us := u_AccessMessage) 1 rfl
instance : HasMember s_AccessMessage "genericUserPropertyStatus" (.type "GenericPropertyStatus") := member_inner (us := u_AccessMessage) 1 rfl
instance : HasMember s_AccessMessage "genericAdminPropertiesGet" (.type "GenericPropertiesGet") := member_inner (us := u_AccessMessage) 1 rfl
instance : HasMember s_AccessMessage "genericAdminPropertiesStatus" (.type "GenericPropertiesStatus") := member_inner (us := u_AccessMessage) 1 rfl
instance : HasMember s_AccessMessage "genericAdminPropertyGet" (.type "GenericPropertyGet") := member_inner (us := u_AccessMessage) 1 rfl
instance : HasMember s_AccessMessage "genericAdminPropertySet" (.type "GenericAdminPropertySet") := member_inner (us := u_AccessMessage) 1 rfl
instance : HasMember s_AccessMessage "genericAdminPropertySetUnacknowledged" (.type "GenericAdminPropertySet") := member_inner (us := u_AccessMessage) 1 rfl
instance : HasMember s_AccessMessage "genericAdminPropertyStatus" (.type "GenericPropertyStatus") := member_inner (us := u_AccessMessage) 1 rfl
instance : HasMember s_AccessMessage "genericManufacturerPropertiesGet" (.type "GenericPropertiesGet") := member_inner (us := u_AccessMessage) 1 rfl
instance : HasMember s_AccessMessage "genericManufacturerPropertiesStatus" (.type "GenericPropertiesStatus") := member_inner (us := u_AccessMessage) 1 rfl
instance : HasMember s_AccessMessage "genericManufacturerPropertyGet" (.type "GenericPropertyGet") := member_inner (us := u_AccessMessage) 1 rfl
instance : HasMember s_AccessMessage "genericManufacturerPropertySet" (.type "GenericManufacturerPropertySet") := member_inner (us := u_AccessMessage) 1 rfl
instance : HasMember s_AccessMessage "genericManufacturerPropertySetUnacknowledged" (.type "GenericManufacturerPropertySet") := member_inner (us := u_AccessMessage) 1 rfl
instance : HasMember s_AccessMessage "genericManufacturerPropertyStatus" (.type "GenericPropertyStatus") := member_inner (us := u_AccessMessage) 1 rfl
instance : HasMember s_AccessMessage "genericClientPropertiesGet" (.type "GenericPropertiesGet") := member_inner (us := u_AccessMessage) 1 rfl
instance : HasMember s_AccessMessage "genericClientPropertiesStatus" (.type "GenericPropertiesStatus") := member_inner (us := u_AccessMessage) 1 rfl
instance : HasMember s_AccessMessage "silvairEl" (.type "EmergencyLightingParams") := member_inner (us := u_AccessMessage) 1 rfl
instance : HasMember s_AccessMessage "silvairElt" (.type "EmergencyLightingTestParams") := member_inner (us := u_AccessMessage) 1 rfl
instance : IsPlain "ConfigAppKeyUpdate" s_ConfigAppKeyUpdate := isPlain 1 rfl rfl
instance : HasMember s_ConfigAppKeyUpdate "appKeyIndex" (.type "UInt16") := member_field 0 rfl
instance : HasMember s_ConfigAppKeyUpdate "netKeyIndex" (.type "UInt16") := member_field 1 rfl
instance : HasMember s_ConfigAppKeyUpdate "appKey" (.type "Data") := member_field 2 rfl
instance : IsPlain "ConfigAppKeyDelete" s_ConfigAppKeyDelete := isPlain 2 rfl rfl
instance : HasMember s_ConfigAppKeyDelete "appKeyIndex" (.type "UInt16") := member_field 0 rfl
instance : HasMember s_ConfigAppKeyDelete "netKeyIndex" (.type "UInt16") := member_field 1 rfl
instance : IsPlain "ConfigAppKeyGet" s_ConfigAppKeyGet := isPlain 3 rfl rfl
instance : HasMember s_ConfigAppKeyGet "netKeyIndex" (.type "UInt16") := member_field 0 rfl
instance : IsPlain "ConfigAppKeyList" s_ConfigAppKeyList := isPlain 4 rfl rfl
instance : HasMember s_ConfigAppKeyList "status" (.type "UInt8") := member_field 0 rfl
instance : HasMember s_ConfigAppKeyList "netKeyIndex" (.type "UInt16") := member_field 1 rfl
instance : HasMember s_ConfigAppKeyList "appKeyIndices" (.type "List(UInt16)") := member_field 2 rfl
instance : IsPlain "ConfigAppKeyStatus" s_ConfigAppKeyStatus := isPlain 5 rfl rfl
instance : HasMember s_ConfigAppKeyStatus "status" (.type "UInt8") := member_field 0 rfl
instance : HasMember s_ConfigAppKeyStatus "appKeyIndex" (.type "UInt16") := member_field 1 rfl
instance : HasMember s_ConfigAppKeyStatus "netKeyIndex" (.type "UInt16") := member_field 2 rfl
instance : IsPlain "ConfigBeaconGet" s_ConfigBeaconGet := isPlain 6 rfl rfl
instance : IsPlain "ConfigBeaconStatus" s_ConfigBeaconStatus := isPlain 7 rfl rfl
instance : HasMember s_ConfigBeaconStatus "beacon" (.type "UInt8") := member_field 0 rfl
instance : IsPlain "ConfigCompositionDataGet" s_ConfigCompositionDataGet := isPlain 8 rfl rfl
instance : HasMember s_ConfigCompositionDataGet "page" (.type "UInt8") := member_field 0 rfl
instance : IsUnion "ConfigCompositionDataStatus" s_ConfigCompositionDataStatus u_ConfigCompositionDataStatus := isUnion 9 rfl rfl
instance : HasMember s_ConfigCompositionDataStatus "page" (.type "UInt8") := member_field 0 rfl
instance : HasMember u_ConfigCompositionDataStatus "zero" (.type "CompositionDataPage0") := member_field 0 rfl
instance : HasMember u_ConfigCompositionDataStatus "first" (.type "CompositionDataPage1") := member_field 1 rfl
instance : HasMember u_ConfigCompositionDataStatus "second" (.type "CompositionDataPage2") := member_field 2 rfl
instance : HasMember u_ConfigCompositionDataStatus "twoHundredAndFiftyFifth" (.type "Data") := member_field 3 rfl
instance : HasMember s_ConfigCompositionDataStatus "zero" (.type "CompositionDataPage0") := member_inner (us := u_ConfigCompositionDataStatus) 1 rfl
instance : HasMember s_ConfigCompositionDataStatus "first" (.type "CompositionDataPage1") := member_inner (us := u_ConfigCompositionDataStatus) 1 rfl
instance : HasMember s_ConfigCompositionDataStatus "second" (.type "CompositionDataPage2") := member_inner (us := u_ConfigCompositionDataStatus) 1 rfl
instance : HasMember s_ConfigCompositionDataStatus "twoHundredAndFiftyFifth" (.type "Data") := member_inner (us := u_ConfigCompositionDataStatus) 1 rfl
instance : IsPlain "CompositionDataPage0" s_CompositionDataPage0 := isPlain 10 rfl rfl
instance : HasMember s_CompositionDataPage0 "cid" (.type "UInt16") := member_field 0 rfl
instance : HasMember s_CompositionDataPage0 "pid" (.type "UInt16") := member_field 1 rfl
instance : HasMember s_CompositionDataPage0 "vid" (.type "UInt16") := member_field 2 rfl
instance : HasMember s_CompositionDataPage0 "crpl" (.type "UInt16") := member_field 3 rfl
instance : HasMember s_CompositionDataPage0 "features" (.type "UInt16") := member_field 4 rfl
instance : HasMember s_CompositionDataPage0 "elements" (.type "List(CompositionDataPage0Element)") := member_field 5 rfl
instance : IsPlain "CompositionDataPage0Element" s_CompositionDataPage0Element := isPlain 11 rfl rfl
instance : HasMember s_CompositionDataPage0Element "location" (.type "UInt16") := member_field 0 rfl
instance : HasMember s_CompositionDataPage0Element "sigNumber" (.type "UInt8") := member_field 1 rfl
instance : HasMember s_CompositionDataPage0Element "vendorNumber" (.type "UInt8") := member_field 2 rfl
instance : HasMember s_CompositionDataPage0Element "sigModels" (.type "List(SIGModelId)") := member_field 3 rfl
instance : HasMember s_CompositionDataPage0Element "vendorModels" (.type "List(VendorModelId)") := member_field 4 rfl
instance : IsPlain "SIGModelId" s_SIGModelId := isPlain 12 rfl rfl
instance : HasMember s_SIGModelId "modelId" (.type "UInt16") := member_field 0 rfl
instance : IsPlain "VendorModelId" s_VendorModelId := isPlain 13 rfl rfl
instance : HasMember s_VendorModelId "vendorId" (.type "UInt16") := member_field 0 rfl
instance : HasMember s_VendorModelId "modelId" (.type "UInt16") := member_field 1 rfl
instance : IsPlain "CompositionDataPage1" s_CompositionDataPage1 := isPlain 14 rfl rfl
instance : HasMember s_CompositionDataPage1 "element" (.type "List(CompositionDataPage1Element)") := member_field 0 rfl
instance : IsPlain "CompositionDataPage1Element" s_CompositionDataPage1Element := isPlain 15 rfl rfl
instance : HasMember s_CompositionDataPage1Element "numberS" (.type "UInt8") := member_field 0 rfl
instance : HasMember s_CompositionDataPage1Element "numberV" (.type "UInt8") := member_field 1 rfl
instance : HasMember s_CompositionDataPage1Element "sigModels" (.type "List(ModelRelationItem)") := member_field 2 rfl
instance : HasMember s_CompositionDataPage1Element "vendorModels" (.type "List(ModelRelationItem)") := member_field 3 rfl
instance : IsPlain "ModelRelationItem" s_ModelRelationItem := isPlain 16 rfl rfl
instance : HasMember s_ModelRelationItem "extendedItemsCount" (.type "UInt8") := member_field 0 rfl
instance : HasMember s_ModelRelationItem "format" (.type "UInt8") := member_field 1 rfl
instance : HasMember s_ModelRelationItem "correspondingPresent" (.type "UInt8") := member_field 2 rfl
instance : HasMember s_ModelRelationItem "correspondingId" (.type "UInt8") := member_field 3 rfl
instance : HasMember s_ModelRelationItem "extendedModelsItems" (.group g_ModelRelationItem_extendedModelsItems) := member_group 4 rfl
instance : IsPlain "ExtendedModelShortFormat" s_ExtendedModelShortFormat := isPlain 17 rfl rfl
instance : HasMember s_ExtendedModelShortFormat "modelItemIndex" (.type "UInt8") := member_field 0 rfl
instance : HasMember s_ExtendedModelShortFormat "elementOffset" (.type "Int8") := member_field 1 rfl
instance : IsPlain "ExtendedModelLongFormat" s_ExtendedModelLongFormat := isPlain 18 rfl rfl
instance : HasMember s_ExtendedModelLongFormat "modelItemIndex" (.type "UInt8") := member_field 0 rfl
instance : HasMember s_ExtendedModelLongFormat "elementOffset" (.type "Int8") := member_field 1 rfl
instance : IsPlain "CompositionDataPage2" s_CompositionDataPage2 := isPlain 19 rfl rfl
instance : HasMember s_CompositionDataPage2 "recordList" (.type "List(MeshProfileEntry)") := member_field 0 rfl
instance : IsPlain "MeshProfileEntry" s_MeshProfileEntry := isPlain 20 rfl rfl
instance : HasMember s_MeshProfileEntry "meshProfileIdentifier" (.type "UInt16") := member_field 0 rfl
instance : HasMember s_MeshProfileEntry "version" (.type "Version") := member_field 1 rfl
instance : HasMember s_MeshProfileEntry "numElementOffsets" (.type "UInt8") := member_field 2 rfl
instance : HasMember s_MeshProfileEntry "elementOffsetList" (.type "List(UInt8)") := member_field 3 rfl
instance : HasMember s_MeshProfileEntry "additionalDataLen" (.type "UInt16") := member_field 4 rfl
instance : HasMember s_MeshProfileEntry "additionalData" (.type "List(UInt8)") := member_field 5 rfl
instance : IsPlain "Version" s_Version := isPlain 21 rfl rfl
instance : HasMember s_Version "versionX" (.type "UInt8") := member_field 0 rfl
instance : HasMember s_Version "versionY" (.type "UInt8") := member_field 1 rfl
instance : HasMember s_Version "versionZ" (.type "UInt8") := member_field 2 rfl
instance : IsPlain "ConfigDefaultTTLGet" s_ConfigDefaultTTLGet := isPlain 22 rfl rfl
instance : IsPlain "ConfigDefaultTTLStatus" s_ConfigDefaultTTLStatus := isPlain 23 rfl rfl
instance : HasMember s_ConfigDefaultTTLStatus "ttl" (.type "UInt8") := member_field 0 rfl
instance : IsPlain "ConfigFriendGet" s_ConfigFriendGet := isPlain 24 rfl rfl
instance : IsPlain "ConfigFriendStatus" s_ConfigFriendStatus := isPlain 25 rfl rfl
instance : HasMember s_ConfigFriendStatus "friend" (.type "UInt8") := member_field 0 rfl
instance : IsPlain "ConfigGATTProxyGet" s_ConfigGATTProxyGet := isPlain 26 rfl rfl
instance : IsPlain "ConfigGATTProxyStatus" s_ConfigGATTProxyStatus := isPlain 27 rfl rfl
instance : HasMember s_ConfigGATTProxyStatus "gattProxy" (.type "UInt8") := member_field 0 rfl
instance : IsPlain "ConfigHeartbeatPublicationGet" s_ConfigHeartbeatPublicationGet := isPlain 28 rfl rfl
instance : IsPlain "ConfigHeartbeatPublicationSet" s_ConfigHeartbeatPublicationSet := isPlain 29 rfl rfl
instance : HasMember s_ConfigHeartbeatPublicationSet "destination" (.type "UInt16") := member_field 0 rfl
instance : HasMember s_ConfigHeartbeatPublicationSet "count" (.type "UInt8") := member_field 1 rfl
instance : HasMember s_ConfigHeartbeatPublicationSet "period" (.type "UInt8") := member_field 2 rfl
instance : HasMember s_ConfigHeartbeatPublicationSet "ttl" (.type "UInt8") := member_field 3 rfl
instance : HasMember s_ConfigHeartbeatPublicationSet "features" (.type "List(UInt8)") := member_field 4 rfl
instance : HasMember s_ConfigHeartbeatPublicationSet "netKeyIndex" (.type "UInt16") := member_field 5 rfl
instance : IsPlain "ConfigHeartbeatPublicationStatus" s_ConfigHeartbeatPublicationStatus := isPlain 30 rfl rfl
instance : HasMember s_ConfigHeartbeatPublicationStatus "status" (.type "UInt8") := member_field 0 rfl
instance : HasMember s_ConfigHeartbeatPublicationStatus "destination" (.type "UInt16") := member_field 1 rfl
instance : HasMember s_ConfigHeartbeatPublicationStatus "count" (.type "UInt8") := member_field 2 rfl
instance : HasMember s_ConfigHeartbeatPublicationStatus "period" (.type "UInt8") := member_field 3 rfl
instance : HasMember s_ConfigHeartbeatPublicationStatus "ttl" (.type "UInt8") := member_field 4 rfl
instance : HasMember s_ConfigHeartbeatPublicationStatus "features" (.type "List(UInt8)") := member_field 5 rfl
instance : HasMember s_ConfigHeartbeatPublicationStatus "netKeyIndex" (.type "UInt16") := member_field 6 rfl
instance : IsPlain "ConfigHeartbeatSubscriptionGet" s_ConfigHeartbeatSubscriptionGet := isPlain 31 rfl rfl
instance : IsPlain "ConfigHeartbeatSubscriptionSet" s_ConfigHeartbeatSubscriptionSet := isPlain 32 rfl rfl
instance : HasMember s_ConfigHeartbeatSubscriptionSet "source" (.type "UInt16") := member_field 0 rfl
instance : HasMember s_ConfigHeartbeatSubscriptionSet "destination" (.type "UInt16") := member_field 1 rfl
instance : HasMember s_ConfigHeartbeatSubscriptionSet "periodLog" (.type "UInt8") := member_field 2 rfl
instance : IsPlain "ConfigHeartbeatSubscriptionStatus" s_ConfigHeartbeatSubscriptionStatus := isPlain 33 rfl rfl
instance : HasMember s_ConfigHeartbeatSubscriptionStatus "status" (.type "UInt8") := member_field 0 rfl
instance : HasMember s_ConfigHeartbeatSubscriptionStatus "source" (.type "UInt16") := member_field 1 rfl
instance : HasMember s_ConfigHeartbeatSubscriptionStatus "destination" (.type "UInt16") := member_field 2 rfl
instance : HasMember s_ConfigHeartbeatSubscriptionStatus "periodLog" (.type "UInt8") := member_field 3 rfl
instance : HasMember s_ConfigHeartbeatSubscriptionStatus "count" (.type "UInt8") := member_field 4 rfl
instance : HasMember s_ConfigHeartbeatSubscriptionStatus "minHops" (.type "UInt8") := member_field 5 rfl
instance : HasMember s_ConfigHeartbeatSubscriptionStatus "maxHops" (.type "UInt8") := member_field 6 rfl
instance : IsPlain "ConfigKeyRefreshPhaseGet" s_ConfigKeyRefreshPhaseGet := isPlain 34 rfl rfl
instance : HasMember s_ConfigKeyRefreshPhaseGet "netKeyIndex" (.type "UInt16") := member_field 0 rfl
instance : IsPlain "ConfigKeyRefreshPhaseSet" s_ConfigKeyRefreshPhaseSet := isPlain 35 rfl rfl
instance : HasMember s_ConfigKeyRefreshPhaseSet "netKeyIndex" (.type "UInt16") := member_field 0 rfl
instance : HasMember s_ConfigKeyRefreshPhaseSet "transition" (.type "UInt8") := member_field 1 rfl
instance : IsPlain "ConfigKeyRefreshPhaseStatus" s_ConfigKeyRefreshPhaseStatus := isPlain 36 rfl rfl
instance : HasMember s_ConfigKeyRefreshPhaseStatus "status" (.type "UInt8") := member_field 0 rfl
instance : HasMember s_ConfigKeyRefreshPhaseStatus "netKeyIndex" (.type "UInt16") := member_field 1 rfl
instance : HasMember s_ConfigKeyRefreshPhaseStatus "phase" (.type "UInt8") := member_field 2 rfl
instance : IsPlain "ConfigLowPowerNodePollTimeoutGet" s_ConfigLowPowerNodePollTimeoutGet := isPlain 37 rfl rfl
instance : HasMember s_ConfigLowPowerNodePollTimeoutGet "lpnAddress" (.type "UInt16") := member_field 0 rfl
instance : IsPlain "ConfigLowPowerNodePollTimeoutStatus" s_ConfigLowPowerNodePollTimeoutStatus := isPlain 38 rfl rfl
instance : HasMember s_ConfigLowPowerNodePollTimeoutStatus "lpnAddress" (.type "UInt16") := member_field 0 rfl
instance : HasMember s_ConfigLowPowerNodePollTimeoutStatus "pollTimeout" (.type "UInt32") := member_field 1 rfl
instance : IsPlain "ConfigModelAppUnbind" s_ConfigModelAppUnbind := isPlain 39 rfl rfl
instance : HasMember s_ConfigModelAppUnbind "elementAddress" (.type "UInt16") := member_field 0 rfl
instance : HasMember s_ConfigModelAppUnbind "appKeyIndex" (.type "UInt16") := member_field 1 rfl
instance : HasMember s_ConfigModelAppUnbind "model" (.group g_ConfigModelAppUnbind_model) := member_group 2 rfl
instance : IsPlain "ConfigModelAppStatus" s_ConfigModelAppStatus := isPlain 40 rfl rfl
instance : HasMember s_ConfigModelAppStatus "status" (.type "UInt8") := member_field 0 rfl
instance : HasMember s_ConfigModelAppStatus "elementAddress" (.type "UInt16") := member_field 1 rfl
instance : HasMember s_ConfigModelAppStatus "appKeyIndex" (.type "UInt16") := member_field 2 rfl
instance : HasMember s_ConfigModelAppStatus "model" (.group g_ConfigModelAppStatus_model) := member_group 3 rfl
instance : IsPlain "ConfigModelPublicationGet" s_ConfigModelPublicationGet := isPlain 41 rfl rfl
instance : HasMember s_ConfigModelPublicationGet "elementAddress" (.type "UInt16") := member_field 0 rfl
instance : HasMember s_ConfigModelPublicationGet "model" (.group g_ConfigModelPublicationGet_model) := member_group 1 rfl
instance : IsPlain "ConfigModelPublicationSet" s_ConfigModelPublicationSet := isPlain 42 rfl rfl
instance : HasMember s_ConfigModelPublicationSet "elementAddress" (.type "UInt16") := member_field 0 rfl
instance : HasMember s_ConfigModelPublicationSet "publishAddress" (.type "UInt16") := member_field 1 rfl
instance : HasMember s_ConfigModelPublicationSet "rfu" (.type "UInt8") := member_field 2 rfl
instance : HasMember s_ConfigModelPublicationSet "credentialFlag" (.type "Bool") := member_field 3 rfl
instance : HasMember s_ConfigModelPublicationSet "appKeyIndex" (.type "UInt16") := member_field 4 rfl
instance : HasMember s_ConfigModelPublicationSet "ttl" (.type "UInt8") := member_field 5 rfl
instance : HasMember s_ConfigModelPublicationSet "publishPeriod" (.type "PublishPeriod") := member_field 6 rfl
instance : HasMember s_ConfigModelPublicationSet "retransmit" (.type "PublishRetransmit") := member_field 7 rfl
instance : HasMember s_ConfigModelPublicationSet "model" (.group g_ConfigModelPublicationSet_model) := member_group 8 rfl
instance : IsPlain "PublishPeriod" s_PublishPeriod := isPlain 43 rfl rfl
instance : HasMember s_PublishPeriod "stepResolution" (.type "UInt8") := member_field 0 rfl
instance : HasMember s_PublishPeriod "numberOfSteps" (.type "UInt8") := member_field 1 rfl
instance : IsPlain "PublishRetransmit" s_PublishRetransmit := isPlain 44 rfl rfl
instance : HasMember s_PublishRetransmit "count" (.type "UInt8") := member_field 0 rfl
instance : HasMember s_PublishRetransmit "interval" (.type "UInt16") := member_field 1 rfl
instance : IsPlain "ConfigModelPublicationStatus" s_ConfigModelPublicationStatus := isPlain 45 rfl rfl
instance : HasMember s_ConfigModelPublicationStatus "status" (.type "UInt8") := member_field 0 rfl
instance : HasMember s_ConfigModelPublicationStatus "elementAddress" (.type "UInt16") := member_field 1 rfl
instance : HasMember s_ConfigModelPublicationStatus "publishAddress" (.type "UInt16") := member_field 2 rfl
instance : HasMember s_ConfigModelPublicationStatus "rfu" (.type "UInt8") := member_field 3 rfl
instance : HasMember s_ConfigModelPublicationStatus "credentialFlag" (.type "Bool") := member_field 4 rfl
instance : HasMember s_ConfigModelPublicationStatus "appKeyIndex" (.type "UInt16") := member_field 5 rfl
instance : HasMember s_ConfigModelPublicationStatus "ttl" (.type "UInt8") := member_field 6 rfl
instance : HasMember s_ConfigModelPublicationStatus "publishPeriod" (.type "PublishPeriod") := member_field 7 rfl
instance : HasMember s_ConfigModelPublicationStatus "retransmit" (.type "PublishRetransmit") := member_field 8 rfl
instance : HasMember s_ConfigModelPublicationStatus "model" (.group g_ConfigModelPublicationStatus_model) := member_group 9 rfl
instance : IsPlain "ConfigModelPublicationVASet" s_ConfigModelPublicationVASet := isPlain 46 rfl rfl
instance : HasMember s_ConfigModelPublicationVASet "elementAddress" (.type "UInt16") := member_field 0 rfl
instance : HasMember s_ConfigModelPublicationVASet "publishAddress" (.type "Data") := member_field 1 rfl
instance : HasMember s_ConfigModelPublicationVASet "rfu" (.type "UInt8") := member_field 2 rfl
instance : HasMember s_ConfigModelPublicationVASet "credentialFlag" (.type "Bool") := member_field 3 rfl
instance : HasMember s_ConfigModelPublicationVASet "appKeyIndex" (.type "UInt16") := member_field 4 rfl
instance : HasMember s_ConfigModelPublicationVASet "ttl" (.type "UInt8") := member_field 5 rfl
instance : HasMember s_ConfigModelPublicationVASet "publishPeriod" (.type "PublishPeriod") := member_field 6 rfl
instance : HasMember s_ConfigModelPublicationVASet "retransmit" (.type "PublishRetransmit") := member_field 7 rfl
instance : HasMember s_ConfigModelPublicationVASet "model" (.group g_ConfigModelPublicationVASet_model) := member_group 8 rfl
instance : IsPlain "ConfigModelSubscriptionOverwrite" s_ConfigModelSubscriptionOverwrite := isPlain 47 rfl rfl
instance : HasMember s_ConfigModelSubscriptionOverwrite "elementAddress" (.type "UInt16") := member_field 0 rfl
instance : HasMember s_ConfigModelSubscriptionOverwrite "address" (.type "UInt16") := member_field 1 rfl
instance : HasMember s_ConfigModelSubscriptionOverwrite "model" (.group g_ConfigModelSubscriptionOverwrite_model) := member_group 2 rfl
instance : IsPlain "ConfigModelSubscriptionDeleteAll" s_ConfigModelSubscriptionDeleteAll := isPlain 48 rfl rfl
instance : HasMember s_ConfigModelSubscriptionDeleteAll "elementAddress" (.type "UInt16") := member_field 0 rfl
instance : HasMember s_ConfigModelSubscriptionDeleteAll "model" (.group g_ConfigModelSubscriptionDeleteAll_model) := member_group 1 rfl
instance : IsPlain "ConfigModelSubscriptionStatus" s_ConfigModelSubscriptionStatus := isPlain 49 rfl rfl
instance : HasMember s_ConfigModelSubscriptionStatus "status" (.type "UInt8") := member_field 0 rfl
instance : HasMember s_ConfigModelSubscriptionStatus "elementAddress" (.type "UInt16") := member_field 1 rfl
instance : HasMember s_ConfigModelSubscriptionStatus "address" (.type "UInt16") := member_field 2 rfl
instance : HasMember s_ConfigModelSubscriptionStatus "model" (.group g_ConfigModelSubscriptionStatus_model) := member_group 3 rfl
instance : IsPlain "ConfigModelSubscriptionVAOverwrite" s_ConfigModelSubscriptionVAOverwrite := isPlain 50 rfl rfl
instance : HasMember s_ConfigModelSubscriptionVAOverwrite "elementAddress" (.type "UInt16") := member_field 0 rfl
instance : HasMember s_ConfigModelSubscriptionVAOverwrite "label" (.type "Data") := member_field 1 rfl
instance : HasMember s_ConfigModelSubscriptionVAOverwrite "model" (.group g_ConfigModelSubscriptionVAOverwrite_model) := member_group 2 rfl
instance : IsPlain "ConfigNetKeyUpdate" s_ConfigNetKeyUpdate := isPlain 51 rfl rfl
instance : HasMember s_ConfigNetKeyUpdate "netKeyIndex" (.type "UInt16") := member_field 0 rfl
instance : HasMember s_ConfigNetKeyUpdate "netKey" (.type "Data") := member_field 1 rfl
instance : IsPlain "ConfigNetKeyDelete" s_ConfigNetKeyDelete := isPlain 52 rfl rfl
instance : HasMember s_ConfigNetKeyDelete "netKeyIndex" (.type "UInt16") := member_field 0 rfl
instance : IsPlain "ConfigNetKeyGet" s_ConfigNetKeyGet := isPlain 53 rfl rfl
instance : IsPlain "ConfigNetKeyList" s_ConfigNetKeyList := isPlain 54 rfl rfl
instance : HasMember s_ConfigNetKeyList "netKeyIndices" (.type "List(UInt16)") := member_field 0 rfl
instance : IsPlain "ConfigNetKeyStatus" s_ConfigNetKeyStatus := isPlain 55 rfl rfl
instance : HasMember s_ConfigNetKeyStatus "status" (.type "UInt8") := member_field 0 rfl
instance : HasMember s_ConfigNetKeyStatus "netKeyIndex" (.type "UInt16") := member_field 1 rfl
instance : IsPlain "ConfigNetworkTransmitGet" s_ConfigNetworkTransmitGet := isPlain 56 rfl rfl
instance : IsPlain "ConfigNetworkTransmitStatus" s_ConfigNetworkTransmitStatus := isPlain 57 rfl rfl
instance : HasMember s_ConfigNetworkTransmitStatus "count" (.type "UInt8") := member_field 0 rfl
instance : HasMember s_ConfigNetworkTransmitStatus "interval" (.type "UInt16") := member_field 1 rfl
instance : IsPlain "ConfigNodeIdentityGet" s_ConfigNodeIdentityGet := isPlain 58 rfl rfl
instance : HasMember s_ConfigNodeIdentityGet "netKeyIndex" (.type "UInt16") := member_field 0 rfl
instance : IsPlain "ConfigNodeIdentitySet" s_ConfigNodeIdentitySet := isPlain 59 rfl rfl
instance : HasMember s_ConfigNodeIdentitySet "netKeyIndex" (.type "UInt16") := member_field 0 rfl
instance : HasMember s_ConfigNodeIdentitySet "identity" (.type "UInt8") := member_field 1 rfl
instance : IsPlain "ConfigNodeIdentityStatus" s_ConfigNodeIdentityStatus := isPlain 60 rfl rfl
instance : HasMember s_ConfigNodeIdentityStatus "status" (.type "UInt8") := member_field 0 rfl
instance : HasMember s_ConfigNodeIdentityStatus "netKeyIndex" (.type "UInt16") := member_field 1 rfl
instance : HasMember s_ConfigNodeIdentityStatus "identity" (.type "UInt8") := member_field 2 rfl
instance : IsPlain "ConfigNodeReset" s_ConfigNodeReset := isPlain 61 rfl rfl
instance : IsPlain "ConfigNodeResetStatus" s_ConfigNodeResetStatus := isPlain 62 rfl rfl
instance : IsPlain "ConfigRelayGet" s_ConfigRelayGet := isPlain 63 rfl rfl
instance : IsPlain "ConfigRelayStatus" s_ConfigRelayStatus := isPlain 64 rfl rfl
instance : HasMember s_ConfigRelayStatus "relay" (.type "UInt8") := member_field 0 rfl
instance : HasMember s_ConfigRelayStatus "retransmit" (.type "ConfigNetworkTransmitStatus") := member_field 1 rfl
instance : IsPlain "ConfigSIGModelAppGet" s_ConfigSIGModelAppGet := isPlain 65 rfl rfl
instance : HasMember s_ConfigSIGModelAppGet "elementAddress" (.type "UInt16") := member_field 0 rfl
instance : HasMember s_ConfigSIGModelAppGet "model" (.type "SIGModelId") := member_field 1 rfl
instance : IsPlain "ConfigSIGModelAppList" s_ConfigSIGModelAppList := isPlain 66 rfl rfl
instance : HasMember s_ConfigSIGModelAppList "status" (.type "UInt8") := member_field 0 rfl
instance : HasMember s_ConfigSIGModelAppList "elementAddress" (.type "UInt16") := member_field 1 rfl
instance : HasMember s_ConfigSIGModelAppList "model" (.type "SIGModelId") := member_field 2 rfl
instance : HasMember s_ConfigSIGModelAppList "appKeyIndices" (.type "List(UInt16)") := member_field 3 rfl
instance : IsPlain "ConfigSIGModelSubscriptionGet" s_ConfigSIGModelSubscriptionGet := isPlain 67 rfl rfl
instance : HasMember s_ConfigSIGModelSubscriptionGet "elementAddress" (.type "UInt16") := member_field 0 rfl
instance : HasMember s_ConfigSIGModelSubscriptionGet "model" (.type "SIGModelId") := member_field 1 rfl
instance : IsPlain "ConfigSIGModelSubscriptionList" s_ConfigSIGModelSubscriptionList := isPlain 68 rfl rfl
instance : HasMember s_ConfigSIGModelSubscriptionList "status" (.type "UInt8") := member_field 0 rfl
instance : HasMember s_ConfigSIGModelSubscriptionList "elementAddress" (.type "UInt16") := member_field 1 rfl
instance : HasMember s_ConfigSIGModelSubscriptionList "model" (.type "SIGModelId") := member_field 2 rfl
instance : HasMember s_ConfigSIGModelSubscriptionList "addresses" (.type "List(UInt16)") := member_field 3 rfl
instance : IsPlain "ConfigVendorModelAppGet" s_ConfigVendorModelAppGet := isPlain 69 rfl rfl
instance : HasMember s_ConfigVendorModelAppGet "elementAddress" (.type "UInt16") := member_field 0 rfl
instance : HasMember s_ConfigVendorModelAppGet "model" (.type "VendorModelId") := member_field 1 rfl
instance : IsPlain "ConfigVendorModelAppList" s_ConfigVendorModelAppList := isPlain 70 rfl rfl
instance : HasMember s_ConfigVendorModelAppList "status" (.type "UInt8") := member_field 0 rfl
instance : HasMember s_ConfigVendorModelAppList "elementAddress" (.type "UInt16") := member_field 1 rfl
instance : HasMember s_ConfigVendorModelAppList "model" (.type "VendorModelId") := member_field 2 rfl
instance : HasMember s_ConfigVendorModelAppList "appKeyIndices" (.type "List(UInt16)") := member_field 3 rfl
instance : IsPlain "ConfigVendorModelSubscriptionGet" s_ConfigVendorModelSubscriptionGet := isPlain 71 rfl rfl
instance : HasMember s_ConfigVendorModelSubscriptionGet "elementAddress" (.type "UInt16") := member_field 0 rfl
instance : HasMember s_ConfigVendorModelSubscriptionGet "model" (.type "VendorModelId") := member_field 1 rfl
instance : IsPlain "ConfigVendorModelSubscriptionList" s_ConfigVendorModelSubscriptionList := isPlain 72 rfl rfl
instance : HasMember s_ConfigVendorModelSubscriptionList "status" (.type "UInt8") := member_field 0 rfl
instance : HasMember s_ConfigVendorModelSubscriptionList "elementAddress" (.type "UInt16") := member_field 1 rfl
instance : HasMember s_ConfigVendorModelSubscriptionList "model" (.type "VendorModelId") := member_field 2 rfl
instance : HasMember s_ConfigVendorModelSubscriptionList "addresses" (.type "List(UInt16)") := member_field 3 rfl
instance : IsUnion "DebugParams" s_DebugParams u_DebugParams := isUnion 73 rfl rfl
instance : HasMember s_DebugParams "subopcode" (.type "UInt8") := member_field 0 rfl
instance : HasMember u_DebugParams "rssiThresholdGet" (.type "RssiThresholdGet") := member_field 0 rfl
instance : HasMember u_DebugParams "rssiThresholdSet" (.type "RssiThreshold") := member_field 1 rfl
instance : HasMember u_DebugParams "rssiThresholdStatus" (.type "RssiThreshold") := member_field 2 rfl
instance : HasMember u_DebugParams "radioTest" (.type "RadioTest") := member_field 3 rfl
instance : HasMember u_DebugParams "uptimeGet" (.type "UptimeGet") := member_field 4 rfl
instance : HasMember u_DebugParams "uptimeStatus" (.type "UptimeStatus") := member_field 5 rfl
instance : HasMember u_DebugParams "lastSwFaultGet" (.type "LastSwFaultGet") := member_field 6 rfl
instance : HasMember u_DebugParams "lastSwFaultClear" (.type "LastSwFaultClear") := member_field 7 rfl
instance : HasMember u_DebugParams "lastSwFaultStatus" (.type "LastFdsFaultStatus") := member_field 8 rfl
instance : HasMember u_DebugParams "systemStatsGet" (.type "SystemStatsGet") := member_field 9 rfl
instance : HasMember u_DebugParams "systemStatsStatus" (.type "SystemStatsStatus") := member_field 10 rfl
instance : HasMember u_DebugParams "lastMallocFaultGet" (.type "LastMallocFaultGet") := member_field 11 rfl
instance : HasMember u_DebugParams "lastMallocFaultClear" (.type "LastMallocFaultClear") := member_field 12 rfl
instance : HasMember u_DebugParams "lastMallocFaultStatus" (.type "LastFdsFaultStatus") := member_field 13 rfl
instance : HasMember u_DebugParams "lastFdsFaultGet" (.type "LastFdsFaultGet") := member_field 14 rfl
instance : HasMember u_DebugParams "lastFdsFaultClear" (.type "LastFdsFaultClear") := member_field 15 rfl
instance : HasMember u_DebugParams "lastFdsFaultStatus" (.type "LastFdsFaultStatus") := member_field 16 rfl
instance : HasMember u_DebugParams "bytesBeforeGarbageCollectorGet" (.type "BytesBeforeGarbageCollectorGet") := member_field 17 rfl
instance : HasMember u_DebugParams "bytesBeforeGarbageCollectorStatus" (.type "BytesBeforeGarbageCollectorStatus") := member_field 18 rfl
instance : HasMember u_DebugParams "provisionedAppVersionGet" (.type "ProvisionedAppVersionGet") := member_field 19 rfl
instance : HasMember u_DebugParams "provisionedAppVersionStatus" (.type "ProvisionedAppVersionStatus") := member_field 20 rfl
instance : HasMember u_DebugParams "fullFirmwareVersionGet" (.type "FullFirmwareVersionGet") := member_field 21 rfl
instance : HasMember u_DebugParams "fullFirmwareVersionStatus" (.type "FullFirmwareVersionStatus") := member_field 22 rfl
instance : HasMember u_DebugParams "ivIndexGet" (.type "IvIndexGet") := member_field 23 rfl
instance : HasMember u_DebugParams "ivIndexStatus" (.type "IvIndexStatus") := member_field 24 rfl
instance : HasMember u_DebugParams "garbageCollectorCounterGet" (.type "GarbageCollectorCounterGet") := member_field 25 rfl
instance : HasMember u_DebugParams "garbageCollectorCounterStatus" (.type "GarbageCollectorCounterStatus") := member_field 26 rfl
instance : HasMember u_DebugParams "arapListSizeGet" (.type "ArapListSizeGet") := member_field 27 rfl
instance : HasMember u_DebugParams "arapListSizeStatus" (.group g_DebugParams_arapListSizeStatus) := member_group 28 rfl
instance : HasMember u_DebugParams "arapListContentGet" (.type "ArapListContentGet") := member_field 29 rfl
instance : HasMember u_DebugParams "arapListContentStatus" (.type "ArapListContentStatus") := member_field 30 rfl
instance : HasMember s_DebugParams "rssiThresholdGet" (.type "RssiThresholdGet") := member_inner (us := u_DebugParams) 1 rfl
instance : HasMember s_DebugParams "rssiThresholdSet" (.type "RssiThreshold") := member_inner (us := u_DebugParams) 1 rfl
instance : HasMember s_DebugParams "rssiThresholdStatus" (.type "RssiThreshold") := member_inner (us := u_DebugParams) 1 rfl
instance : HasMember s_DebugParams "radioTest" (.type "RadioTest") := member_inner (us := u_DebugParams) 1 rfl
instance : HasMember s_DebugParams "uptimeGet" (.type "UptimeGet") := member_inner (us := u_DebugParams) 1 rfl
instance : HasMember s_DebugParams "uptimeStatus" (.type "UptimeStatus") := member_inner (us := u_DebugParams) 1 rfl
instance : HasMember s_DebugParams "lastSwFaultGet" (.type "LastSwFaultGet") := member_inner (us := u_DebugParams) 1 rfl
instance : HasMember s_DebugParams "lastSwFaultClear" (.type "LastSwFaultClear") := member_inner (us := u_DebugParams) 1 rfl
instance : HasMember s_DebugParams "lastSwFaultStatus" (.type "LastFdsFaultStatus") := member_inner (us := u_DebugParams) 1 rfl
instance : HasMember s_DebugParams "systemStatsGet" (.type "SystemStatsGet") := member_inner (us := u_DebugParams) 1 rfl
instance : HasMember s_DebugParams "systemStatsStatus" (.type "SystemStatsStatus") := member_inner (us := u_DebugParams) 1 rfl
instance : HasMember s_DebugParams "lastMallocFaultGet" (.type "LastMallocFaultGet") := member_inner (us := u_DebugParams) 1 rfl
instance : HasMember s_DebugParams "lastMallocFaultClear" (.type "LastMallocFaultClear") := member_inner (us := u_DebugParams) 1 rfl
instance : HasMember s_DebugParams "lastMallocFaultStatus" (.type "LastFdsFaultStatus") := member_inner (us := u_DebugParams) 1 rfl
instance : HasMember s_DebugParams "lastFdsFaultGet" (.type "LastFdsFaultGet") := member_inner (us := u_DebugParams) 1 rfl
instance : HasMember s_DebugParams "lastFdsFaultClear" (.type "LastFdsFaultClear") := member_inner (us := u_DebugParams) 1 rfl
instance : HasMember s_DebugParams "lastFdsFaultStatus" (.type "LastFdsFaultStatus") := member_inner (us := u_DebugParams) 1 rfl
instance : HasMember s_DebugParams "bytesBeforeGarbageCollectorGet" (.type "BytesBeforeGarbageCollectorGet") := member_inner (us := u_DebugParams) 1 rfl
instance : HasMember s_DebugParams "bytesBeforeGarbageCollectorStatus" (.type "BytesBeforeGarbageCollectorStatus") := member_inner (us := u_DebugParams) 1 rfl
instance : HasMember s_DebugParams "provisionedAppVersionGet" (.type "ProvisionedAppVersionGet") := member_inner (us := u_DebugParams) 1 rfl
instance : HasMember s_DebugParams "provisionedAppVersionStatus" (.type "ProvisionedAppVersionStatus") := member_inner (us := u_DebugParams) 1 rfl
instance : HasMember s_DebugParams "fullFirmwareVersionGet" (.type "FullFirmwareVersionGet") := member_inner (us := u_DebugParams) 1 rfl
instance : HasMember s_DebugParams "fullFirmwareVersionStatus" (.type "FullFirmwareVersionStatus") := member_inner (us := u_DebugParams) 1 rfl
instance : HasMember s_DebugParams "ivIndexGet" (.type "IvIndexGet") := member_inner (us := u_DebugParams) 1 rfl
instance : HasMember s_DebugParams "ivIndexStatus" (.type "IvIndexStatus") := member_inner (us := u_DebugParams) 1 rfl
instance : HasMember s_DebugParams "garbageCollectorCounterGet" (.type "GarbageCollectorCounterGet") := member_inner (us := u_DebugParams) 1 rfl
instance : HasMember s_DebugParams "garbageCollectorCounterStatus" (.type "GarbageCollectorCounterStatus") := member_inner (us := u_DebugParams) 1 rfl
instance : HasMember s_DebugParams "arapListSizeGet" (.type "ArapListSizeGet") := member_inner (us := u_DebugParams) 1 rfl
instance : HasMember s_DebugParams "arapListSizeStatus" (.group g_DebugParams_arapListSizeStatus) := member_inner (us := u_DebugParams) 1 rfl
instance : HasMember s_DebugParams "arapListContentGet" (.type "ArapListContentGet") := member_inner (us := u_DebugParams) 1 rfl
instance : HasMember s_DebugParams "arapListContentStatus" (.type "ArapListContentStatus") := member_inner (us := u_DebugParams) 1 rfl
instance : IsPlain "RssiThresholdGet" s_RssiThresholdGet := isPlain 74 rfl rfl
instance : IsPlain "RssiThreshold" s_RssiThreshold := isPlain 75 rfl rfl
instance : HasMember s_RssiThreshold "rssiThreshold" (.type "UInt8") := member_field 0 rfl
instance : IsPlain "RadioTest" s_RadioTest := isPlain 76 rfl rfl
instance : HasMember s_RadioTest "packetCounter" (.type "UInt8") := member_field 0 rfl
instance : IsPlain "UptimeGet" s_UptimeGet := isPlain 77 rfl rfl
instance : IsPlain "UptimeStatus" s_UptimeStatus := isPlain 78 rfl rfl
instance : HasMember s_UptimeStatus "uptime" (.type "UInt32") := member_field 0 rfl
instance : IsPlain "LastSwFaultGet" s_LastSwFaultGet := isPlain 79 rfl rfl
instance : IsPlain "LastSwFaultClear" s_LastSwFaultClear := isPlain 80 rfl rfl
instance : IsPlain "LastFdsFaultStatus" s_LastFdsFaultStatus := isPlain 81 rfl rfl
instance : HasMember s_LastFdsFaultStatus "time" (.type "UInt32") := member_field 0 rfl
instance : HasMember s_LastFdsFaultStatus "fault" (.type "Text") := member_field 1 rfl
instance : IsPlain "SystemStatsGet" s_SystemStatsGet := isPlain 82 rfl rfl
instance : IsPlain "SystemStatsStatus" s_SystemStatsStatus := isPlain 83 rfl rfl
instance : HasMember s_SystemStatsStatus "stats" (.type "List(SystemStat)") := member_field 0 rfl
instance : IsPlain "SystemStat" s_SystemStat := isPlain 84 rfl rfl
instance : HasMember s_SystemStat "name" (.type "Text") := member_field 0 rfl
instance : HasMember s_SystemStat "highWaterMark" (.type "UInt32") := member_field 1 rfl
instance : IsPlain "LastMallocFaultGet" s_LastMallocFaultGet := isPlain 85 rfl rfl
instance : IsPlain "LastMallocFaultClear" s_LastMallocFaultClear := isPlain 86 rfl rfl
instance : IsPlain "LastFdsFaultGet" s_LastFdsFaultGet := isPlain 87 rfl rfl
instance : IsPlain "LastFdsFaultClear" s_LastFdsFaultClear := isPlain 88 rfl rfl
instance : IsPlain "BytesBeforeGarbageCollectorGet" s_BytesBeforeGarbageCollectorGet := isPlain 89 rfl rfl
instance : IsPlain "BytesBeforeGarbageCollectorStatus" s_BytesBeforeGarbageCollectorStatus := isPlain 90 rfl rfl
instance : HasMember s_BytesBeforeGarbageCollectorStatus "bytesLeft" (.type "UInt16") := member_field 0 rfl
instance : IsPlain "ProvisionedAppVersionGet" s_ProvisionedAppVersionGet := isPlain 91 rfl rfl
instance : IsPlain "ProvisionedAppVersionStatus" s_ProvisionedAppVersionStatus := isPlain 92 rfl rfl
instance : HasMember s_ProvisionedAppVersionStatus "version" (.type "UInt16") := member_field 0 rfl
instance : IsPlain "FullFirmwareVersionGet" s_FullFirmwareVersionGet := isPlain 93 rfl rfl
instance : IsPlain "FullFirmwareVersionStatus" s_FullFirmwareVersionStatus := isPlain 94 rfl rfl
instance : HasMember s_FullFirmwareVersionStatus "version" (.type "Text") := member_field 0 rfl
instance : IsPlain "IvIndexGet" s_IvIndexGet := isPlain 95 rfl rfl
instance : IsPlain "IvIndexStatus" s_IvIndexStatus := isPlain 96 rfl rfl
instance : HasMember s_IvIndexStatus "ivindex" (.type "UInt32") := member_field 0 rfl
instance : IsPlain "GarbageCollectorCounterGet" s_GarbageCollectorCounterGet := isPlain 97 rfl rfl
instance : IsPlain "GarbageCollectorCounterStatus" s_GarbageCollectorCounterStatus := isPlain 98 rfl rfl
instance : HasMember s_GarbageCollectorCounterStatus "counter" (.type "UInt16") := member_field 0 rfl
instance : IsPlain "ArapListSizeGet" s_ArapListSizeGet := isPlain 99 rfl rfl
instance : IsPlain "ArapSize16" s_ArapSize16 := isPlain 100 rfl rfl
instance : HasMember s_ArapSize16 "capacity" (.type "UInt16") := member_field 0 rfl
instance : HasMember s_ArapSize16 "size" (.type "UInt16") := member_field 1 rfl
instance : IsPlain "ArapSize8" s_ArapSize8 := isPlain 101 rfl rfl
instance : HasMember s_ArapSize8 "capacity" (.type "UInt8") := member_field 0 rfl
instance : HasMember s_ArapSize8 "size" (.type "UInt8") := member_field 1 rfl
instance : IsPlain "ArapListContentGet" s_ArapListContentGet := isPlain 102 rfl rfl
instance : HasMember s_ArapListContentGet "page" (.type "UInt8") := member_field 0 rfl
instance : IsPlain "ArapListContentStatus" s_ArapListContentStatus := isPlain 103 rfl rfl
instance : HasMember s_ArapListContentStatus "currentPage" (.type "UInt8") := member_field 0 rfl
instance : HasMember s_ArapListContentStatus "lastPage" (.type "UInt8") := member_field 1 rfl
instance : HasMember s_ArapListContentStatus "nodes" (.type "List(ArapNode)") := member_field 2 rfl
instance : IsPlain "ArapNode" s_ArapNode := isPlain 104 rfl rfl
instance : HasMember s_ArapNode "sequence" (.type "UInt32") := member_field 0 rfl
instance : HasMember s_ArapNode "ivi" (.type "UInt8") := member_field 1 rfl
instance : HasMember s_ArapNode "address" (.type "UInt16") := member_field 2 rfl
instance : IsUnion "GatewayConfigParams" s_GatewayConfigParams u_GatewayConfigParams := isUnion 105 rfl rfl
instance : HasMember s_GatewayConfigParams "subopcode" (.type "UInt8") := member_field 0 rfl
instance : HasMember u_GatewayConfigParams "gatewayConfigurationSet" (.group g_GatewayConfigParams_gatewayConfigurationSet) := member_group 0 rfl
instance : HasMember u_GatewayConfigParams "mtuSizeSet" (.type "ConfigurationSetMtu") := member_field 1 rfl
instance : HasMember u_GatewayConfigParams "ethernetMacAddressSet" (.type "ConfigurationSetMacAddr") := member_field 2 rfl
instance : HasMember u_GatewayConfigParams "serverAddressAndPortNumberSet" (.type "ConfigurationSetServerAddrAndPortNr") := member_field 3 rfl
instance : HasMember u_GatewayConfigParams "reconnectIntervalSet" (.type "ConfigurationSetReconnectInterval") := member_field 4 rfl
instance : HasMember u_GatewayConfigParams "dnsIpAddressSet" (.type "ConfigurationSetDnsIpAddr") := member_field 5 rfl
instance : HasMember u_GatewayConfigParams "ipAddressSet" (.type "ConfigurationSetIpAddr") := member_field 6 rfl
instance : HasMember u_GatewayConfigParams "gatewayIpAddressSet" (.type "ConfigurationSetGatewayIpAddr") := member_field 7 rfl
instance : HasMember u_GatewayConfigParams "netmaskSet" (.type "ConfigurationSetNetmask") := member_field 8 rfl
instance : HasMember u_GatewayConfigParams "gatewayConfigurationStatus" (.type "ConfigurationStatus") := member_field 9 rfl
instance : HasMember u_GatewayConfigParams "gatewayPacketsStatus" (.type "PacketsStatus") := member_field 10 rfl
instance : HasMember s_GatewayConfigParams "gatewayConfigurationSet" (.group g_GatewayConfigParams_gatewayConfigurationSet) := member_inner (us := u_GatewayConfigParams) 1 rfl
instance : HasMember s_GatewayConfigParams "mtuSizeSet" (.type "ConfigurationSetMtu") := member_inner (us := u_GatewayConfigParams) 1 rfl
instance : HasMember s_GatewayConfigParams "ethernetMacAddressSet" (.type "ConfigurationSetMacAddr") := member_inner (us := u_GatewayConfigParams) 1 rfl
instance : HasMember s_GatewayConfigParams "serverAddressAndPortNumberSet" (.type "ConfigurationSetServerAddrAndPortNr") := member_inner (us := u_GatewayConfigParams) 1 rfl
instance : HasMember s_GatewayConfigParams "reconnectIntervalSet" (.type "ConfigurationSetReconnectInterval") := member_inner (us := u_GatewayConfigParams) 1 rfl
instance : HasMember s_GatewayConfigParams "dnsIpAddressSet" (.type "ConfigurationSetDnsIpAddr") := member_inner (us := u_GatewayConfigParams) 1 rfl
instance : HasMember s_GatewayConfigParams "ipAddressSet" (.type "ConfigurationSetIpAddr") := member_inner (us := u_GatewayConfigParams) 1 rfl
instance : HasMember s_GatewayConfigParams "gatewayIpAddressSet" (.type "ConfigurationSetGatewayIpAddr") := member_inner (us := u_GatewayConfigParams) 1 rfl
instance : HasMember s_GatewayConfigParams "netmaskSet" (.type "ConfigurationSetNetmask") := member_inner (us := u_GatewayConfigParams) 1 rfl
instance : HasMember s_GatewayConfigParams "gatewayConfigurationStatus" (.type "ConfigurationStatus") := member_inner (us := u_GatewayConfigParams) 1 rfl
instance : HasMember s_GatewayConfigParams "gatewayPacketsStatus" (.type "PacketsStatus") := member_inner (us := u_GatewayConfigParams) 1 rfl
instance : IsPlain "ConfigurationSetWithOptionalDhcpDisabled" s_ConfigurationSetWithOptionalDhcpDisabled := isPlain 106 rfl rfl
instance : HasMember s_ConfigurationSetWithOptionalDhcpDisabled "mtuSize" (.type "UInt16") := member_field 0 rfl
instance : HasMember s_ConfigurationSetWithOptionalDhcpDisabled "macAddress" (.type "Data") := member_field 1 rfl
instance : HasMember s_ConfigurationSetWithOptionalDhcpDisabled "serverPortNumber" (.type "UInt16") := member_field 2 rfl
instance : HasMember s_ConfigurationSetWithOptionalDhcpDisabled "reconnectInterval" (.type "UInt16") := member_field 3 rfl
instance : HasMember s_ConfigurationSetWithOptionalDhcpDisabled "serverAddressLength" (.type "UInt8") := member_field 4 rfl
instance : HasMember s_ConfigurationSetWithOptionalDhcpDisabled "serverAddress" (.type "Text") := member_field 5 rfl
instance : HasMember s_ConfigurationSetWithOptionalDhcpDisabled "dnsIpAddress" (.type "Data") := member_field 6 rfl
instance : HasMember s_ConfigurationSetWithOptionalDhcpDisabled "ipAddress" (.type "Data") := member_field 7 rfl
instance : HasMember s_ConfigurationSetWithOptionalDhcpDisabled "gatewayIpAddress" (.type "Data") := member_field 8 rfl
instance : HasMember s_ConfigurationSetWithOptionalDhcpDisabled "netmask" (.type "UInt8") := member_field 9 rfl
instance : IsPlain "ConfigurationSetWithOptionalDhcpEnabledWithStaticDns" s_ConfigurationSetWithOptionalDhcpEnabledWithStaticDns := isPlain 107 rfl rfl
instance : HasMember s_ConfigurationSetWithOptionalDhcpEnabledWithStaticDns "mtuSize" (.type "UInt16") := member_field 0 rfl
instance : HasMember s_ConfigurationSetWithOptionalDhcpEnabledWithStaticDns "macAddress" (.type "Data") := member_field 1 rfl
instance : HasMember s_ConfigurationSetWithOptionalDhcpEnabledWithStaticDns "serverPortNumber" (.type "UInt16") := member_field 2 rfl
instance : HasMember s_ConfigurationSetWithOptionalDhcpEnabledWithStaticDns "reconnectInterval" (.type "UInt16") := member_field 3 rfl
instance : HasMember s_ConfigurationSetWithOptionalDhcpEnabledWithStaticDns "serverAddressLength" (.type "UInt8") := member_field 4 rfl
instance : HasMember s_ConfigurationSetWithOptionalDhcpEnabledWithStaticDns "serverAddress" (.type "Text") := member_field 5 rfl
instance : HasMember s_ConfigurationSetWithOptionalDhcpEnabledWithStaticDns "dnsIpAddress" (.type "Data") := member_field 6 rfl
instance : IsPlain "ConfigurationSetWithoutOptionalAutoDhcpEnabled" s_ConfigurationSetWithoutOptionalAutoDhcpEnabled := isPlain 108 rfl rfl
instance : HasMember s_ConfigurationSetWithoutOptionalAutoDhcpEnabled "mtuSize" (.type "UInt16") := member_field 0 rfl
instance : HasMember s_ConfigurationSetWithoutOptionalAutoDhcpEnabled "macAddress" (.type "Data") := member_field 1 rfl
instance : HasMember s_ConfigurationSetWithoutOptionalAutoDhcpEnabled "serverPortNumber" (.type "UInt16") := member_field 2 rfl
instance : HasMember s_ConfigurationSetWithoutOptionalAutoDhcpEnabled "reconnectInterval" (.type "UInt16") := member_field 3 rfl
instance : HasMember s_ConfigurationSetWithoutOptionalAutoDhcpEnabled "serverAddressLength" (.type "UInt8") := member_field 4 rfl
instance : HasMember s_ConfigurationSetWithoutOptionalAutoDhcpEnabled "serverAddress" (.type "Text") := member_field 5 rfl
instance : IsPlain "ConfigurationSetMtu" s_ConfigurationSetMtu := isPlain 109 rfl rfl
instance : HasMember s_ConfigurationSetMtu "mtuSize" (.type "UInt16") := member_field 0 rfl
instance : IsPlain "ConfigurationSetMacAddr" s_ConfigurationSetMacAddr := isPlain 110 rfl rfl
instance : HasMember s_ConfigurationSetMacAddr "macAddress" (.type "Data") := member_field 0 rfl
instance : IsPlain "ConfigurationSetServerAddrAndPortNr" s_ConfigurationSetServerAddrAndPortNr := isPlain 111 rfl rfl
instance : HasMember s_ConfigurationSetServerAddrAndPortNr "serverPortNumber" (.type "UInt16") := member_field 0 rfl
instance : HasMember s_ConfigurationSetServerAddrAndPortNr "serverAddressLength" (.type "UInt8") := member_field 1 rfl
instance : HasMember s_ConfigurationSetServerAddrAndPortNr "serverAddress" (.type "Text") := member_field 2 rfl
instance : IsPlain "ConfigurationSetReconnectInterval" s_ConfigurationSetReconnectInterval := isPlain 112 rfl rfl
instance : HasMember s_ConfigurationSetReconnectInterval "reconnectInterval" (.type "UInt16") := member_field 0 rfl
instance : IsPlain "ConfigurationSetDnsIpAddr" s_ConfigurationSetDnsIpAddr := isPlain 113 rfl rfl
instance : HasMember s_ConfigurationSetDnsIpAddr "dnsIpAddress" (.type "Data") := member_field 0 rfl
instance : IsPlain "ConfigurationSetIpAddr" s_ConfigurationSetIpAddr := isPlain 114 rfl rfl
instance : HasMember s_ConfigurationSetIpAddr "ipAddress" (.type "Data") := member_field 0 rfl
instance : IsPlain "ConfigurationSetGatewayIpAddr" s_ConfigurationSetGatewayIpAddr := isPlain 115 rfl rfl
instance : HasMember s_ConfigurationSetGatewayIpAddr "gatewayIpAddress" (.type "Data") := member_field 0 rfl
instance : IsPlain "ConfigurationSetNetmask" s_ConfigurationSetNetmask := isPlain 116 rfl rfl
instance : HasMember s_ConfigurationSetNetmask "netmask" (.type "UInt8") := member_field 0 rfl
instance : IsPlain "ConfigurationStatus" s_ConfigurationStatus := isPlain 117 rfl rfl
instance : HasMember s_ConfigurationStatus "chipRevisionId" (.type "UInt8") := member_field 0 rfl
instance : HasMember s_ConfigurationStatus "mtuSize" (.type "UInt16") := member_field 1 rfl
instance : HasMember s_ConfigurationStatus "macAddress" (.type "Data") := member_field 2 rfl
instance : HasMember s_ConfigurationStatus "serverPortNumber" (.type "UInt16") := member_field 3 rfl
instance : HasMember s_ConfigurationStatus "reconnectInterval" (.type "UInt16") := member_field 4 rfl
instance : HasMember s_ConfigurationStatus "serverAddressLength" (.type "UInt8") := member_field 5 rfl
instance : HasMember s_ConfigurationStatus "serverAddress" (.type "Text") := member_field 6 rfl
instance : HasMember s_ConfigurationStatus "dnsIpAddress" (.type "Data") := member_field 7 rfl
instance : HasMember s_ConfigurationStatus "ipAddress" (.type "Data") := member_field 8 rfl
instance : HasMember s_ConfigurationStatus "gatewayIpAddress" (.type "Data") := member_field 9 rfl
instance : HasMember s_ConfigurationStatus "netmask" (.type "UInt8") := member_field 10 rfl
instance : HasMember s_ConfigurationStatus "flags" (.type "UInt8") := member_field 11 rfl
instance : HasMember s_ConfigurationStatus "statusCode" (.type "UInt8") := member_field 12 rfl
instance : IsPlain "PacketsStatus" s_PacketsStatus := isPlain 118 rfl rfl
instance : HasMember s_PacketsStatus "totalEthRxErrors" (.type "UInt16") := member_field 0 rfl
instance : HasMember s_PacketsStatus "totalEthTxErrors" (.type "UInt16") := member_field 1 rfl
instance : HasMember s_PacketsStatus "bandwidth" (.type "UInt16") := member_field 2 rfl
instance : HasMember s_PacketsStatus "connectionState" (.type "ConnectionState") := member_field 3 rfl
instance : IsPlain "ConnectionState" s_ConnectionState := isPlain 119 rfl rfl
instance : HasMember s_ConnectionState "connState" (.type "UInt8") := member_field 0 rfl
instance : HasMember s_ConnectionState "linkStatus" (.type "UInt8") := member_field 1 rfl
instance : HasMember s_ConnectionState "lastError" (.type "UInt8") := member_field 2 rfl
instance : IsPlain "GenericOnOffGet" s_GenericOnOffGet := isPlain 120 rfl rfl
instance : IsPlain "GenericOnOffSetOptional" s_GenericOnOffSetOptional := isPlain 121 rfl rfl
instance : HasMember s_GenericOnOffSetOptional "onoff" (.type "UInt8") := member_field 0 rfl
instance : HasMember s_GenericOnOffSetOptional "tid" (.type "UInt8") := member_field 1 rfl
instance : HasMember s_GenericOnOffSetOptional "transitionTime" (.type "Float32") := member_field 2 rfl
instance : HasMember s_GenericOnOffSetOptional "delay" (.type "Float32") := member_field 3 rfl
instance : IsPlain "GenericOnOffSetMinimal" s_GenericOnOffSetMinimal := isPlain 122 rfl rfl
instance : HasMember s_GenericOnOffSetMinimal "onoff" (.type "UInt8") := member_field 0 rfl
instance : HasMember s_GenericOnOffSetMinimal "tid" (.type "UInt8") := member_field 1 rfl
instance : IsPlain "GenericOnOffStatusOptional" s_GenericOnOffStatusOptional := isPlain 123 rfl rfl
instance : HasMember s_GenericOnOffStatusOptional "presentOnoff" (.type "UInt8") := member_field 0 rfl
instance : HasMember s_GenericOnOffStatusOptional "targetOnoff" (.type "UInt8") := member_field 1 rfl
instance : HasMember s_GenericOnOffStatusOptional "remainingTime" (.type "Float32") := member_field 2 rfl
instance : IsPlain "GenericOnOffStatusMinimal" s_GenericOnOffStatusMinimal := isPlain 124 rfl rfl
instance : HasMember s_GenericOnOffStatusMinimal "presentOnoff" (.type "UInt8") := member_field 0 rfl
instance : IsPlain "GenericBatteryGet" s_GenericBatteryGet := isPlain 125 rfl rfl
instance : IsPlain "GenericBatteryStatus" s_GenericBatteryStatus := isPlain 126 rfl rfl
instance : HasMember s_GenericBatteryStatus "batteryLevel" (.type "Float64") := member_field 0 rfl
instance : HasMember s_GenericBatteryStatus "timeToDischarge" (.type "Float64") := member_field 1 rfl
instance : HasMember s_GenericBatteryStatus "timeToCharge" (.type "Float64") := member_field 2 rfl
instance : HasMember s_GenericBatteryStatus "flags" (.type "BatteryFlags") := member_field 3 rfl
instance : IsPlain "BatteryFlags" s_BatteryFlags := isPlain 127 rfl rfl
instance : HasMember s_BatteryFlags "batteryServiceabilityFlags" (.type "UInt8") := member_field 0 rfl
instance : HasMember s_BatteryFlags "batteryChargingFlags" (.type "UInt8") := member_field 1 rfl
instance : HasMember s_BatteryFlags "batteryIndicatorFlags" (.type "UInt8") := member_field 2 rfl
instance : HasMember s_BatteryFlags "batteryPresenceFlags" (.type "UInt8") := member_field 3 rfl
instance : IsPlain "GenericLevelGet" s_GenericLevelGet := isPlain 128 rfl rfl
instance : IsPlain "GenericLevelSetOptional" s_GenericLevelSetOptional := isPlain 129 rfl rfl
instance : HasMember s_GenericLevelSetOptional "level" (.type "Int16") := member_field 0 rfl
instance : HasMember s_GenericLevelSetOptional "tid" (.type "UInt8") := member_field 1 rfl
instance : HasMember s_GenericLevelSetOptional "transitionTime" (.type "Float32") := member_field 2 rfl
instance : HasMember s_GenericLevelSetOptional "delay" (.type "Float32") := member_field 3 rfl
instance : IsPlain "GenericLevelSetMinimal" s_GenericLevelSetMinimal := isPlain 130 rfl rfl
instance : HasMember s_GenericLevelSetMinimal "level" (.type "Int16") := member_field 0 rfl
instance : HasMember s_GenericLevelSetMinimal "tid" (.type "UInt8") := member_field 1 rfl
instance : IsPlain "GenericLevelStatusOptional" s_GenericLevelStatusOptional := isPlain 131 rfl rfl
instance : HasMember s_GenericLevelStatusOptional "presentLevel" (.type "Int16") := member_field 0 rfl
instance : HasMember s_GenericLevelStatusOptional "targetLevel" (.type "Int16") := member_field 1 rfl
instance : HasMember s_GenericLevelStatusOptional "remainingTime" (.type "Float32") := member_field 2 rfl
instance : IsPlain "GenericLevelStatusMinimal" s_GenericLevelStatusMinimal := isPlain 132 rfl rfl
instance : HasMember s_GenericLevelStatusMinimal "presentLevel" (.type "Int16") := member_field 0 rfl
instance : IsPlain "GenericDeltaSetOptional" s_GenericDeltaSetOptional := isPlain 133 rfl rfl
instance : HasMember s_GenericDeltaSetOptional "deltaLevel" (.type "Int32") := member_field 0 rfl
instance : HasMember s_GenericDeltaSetOptional "tid" (.type "UInt8") := member_field 1 rfl
instance : HasMember s_GenericDeltaSetOptional "transitionTime" (.type "Float32") := member_field 2 rfl
instance : HasMember s_GenericDeltaSetOptional "delay" (.type "Float32") := member_field 3 rfl
instance : IsPlain "GenericDeltaSetMinimal" s_GenericDeltaSetMinimal := isPlain 134 rfl rfl
instance : HasMember s_GenericDeltaSetMinimal "deltaLevel" (.type "Int32") := member_field 0 rfl
instance : HasMember s_GenericDeltaSetMinimal "tid" (.type "UInt8") := member_field 1 rfl
instance : IsPlain "GenericMoveSetOptional" s_GenericMoveSetOptional := isPlain 135 rfl rfl
instance : HasMember s_GenericMoveSetOptional "deltaLevel" (.type "Int16") := member_field 0 rfl
instance : HasMember s_GenericMoveSetOptional "tid" (.type "UInt8") := member_field 1 rfl
instance : HasMember s_GenericMoveSetOptional "transitionTime" (.type "Float32") := member_field 2 rfl
instance : HasMember s_GenericMoveSetOptional "delay" (.type "Float32") := member_field 3 rfl
instance : IsPlain "GenericMoveSetMinimal" s_GenericMoveSetMinimal := isPlain 136 rfl rfl
instance : HasMember s_GenericMoveSetMinimal "deltaLevel" (.type "Int16") := member_field 0 rfl
instance : HasMember s_GenericMoveSetMinimal "tid" (.type "UInt8") := member_field 1 rfl
instance : IsPlain "LightLightnessGet" s_LightLightnessGet := isPlain 137 rfl rfl
instance : IsPlain "LightLightnessSetOptional" s_LightLightnessSetOptional := isPlain 138 rfl rfl
instance : HasMember s_LightLightnessSetOptional "lightness" (.type "UInt16") := member_field 0 rfl
instance : HasMember s_LightLightnessSetOptional "tid" (.type "UInt8") := member_field 1 rfl
instance : HasMember s_LightLightnessSetOptional "transitionTime" (.type "Float32") := member_field 2 rfl
instance : HasMember s_LightLightnessSetOptional "delay" (.type "Float32") := member_field 3 rfl
instance : IsPlain "LightLightnessSetMinimal" s_LightLightnessSetMinimal := isPlain 139 rfl rfl
instance : HasMember s_LightLightnessSetMinimal "lightness" (.type "UInt16") := member_field 0 rfl
instance : HasMember s_LightLightnessSetMinimal "tid" (.type "UInt8") := member_field 1 rfl
instance : IsPlain "LightLightnessStatusOptional" s_LightLightnessStatusOptional := isPlain 140 rfl rfl
instance : HasMember s_LightLightnessStatusOptional "presentLightness" (.type "UInt16") := member_field 0 rfl
instance : HasMember s_LightLightnessStatusOptional "targetLightness" (.type "UInt16") := member_field 1 rfl
instance : HasMember s_LightLightnessStatusOptional "remainingTime" (.type "Float32") := member_field 2 rfl
instance : IsPlain "LightLightnessStatusMinimal" s_LightLightnessStatusMinimal := isPlain 141 rfl rfl
instance : HasMember s_LightLightnessStatusMinimal "presentLightness" (.type "UInt16") := member_field 0 rfl
instance : IsPlain "LightLightnessDefault" s_LightLightnessDefault := isPlain 142 rfl rfl
instance : HasMember s_LightLightnessDefault "lightness" (.type "UInt16") := member_field 0 rfl
instance : IsPlain "LightLightnessRangeStatus" s_LightLightnessRangeStatus := isPlain 143 rfl rfl
instance : HasMember s_LightLightnessRangeStatus "status" (.type "UInt8") := member_field 0 rfl
instance : HasMember s_LightLightnessRangeStatus "rangeMin" (.type "UInt16") := member_field 1 rfl
instance : HasMember s_LightLightnessRangeStatus "rangeMax" (.type "UInt16") := member_field 2 rfl
instance : IsPlain "LightLightnessRange" s_LightLightnessRange := isPlain 144 rfl rfl
instance : HasMember s_LightLightnessRange "rangeMin" (.type "UInt16") := member_field 0 rfl
instance : HasMember s_LightLightnessRange "rangeMax" (.type "UInt16") := member_field 1 rfl
instance : IsPlain "LightCTLGet" s_LightCTLGet := isPlain 145 rfl rfl
instance : IsPlain "LightCTLSetOptional" s_LightCTLSetOptional := isPlain 146 rfl rfl
instance : HasMember s_LightCTLSetOptional "ctlLightness" (.type "UInt16") := member_field 0 rfl
instance : HasMember s_LightCTLSetOptional "ctlTemperature" (.type "UInt16") := member_field 1 rfl
instance : HasMember s_LightCTLSetOptional "ctlDeltaUv" (.type "UInt16") := member_field 2 rfl
instance : HasMember s_LightCTLSetOptional "tid" (.type "UInt8") := member_field 3 rfl
instance : HasMember s_LightCTLSetOptional "transitionTime" (.type "Float32") := member_field 4 rfl
instance : HasMember s_LightCTLSetOptional "delay" (.type "Float32") := member_field 5 rfl
instance : IsPlain "LightCTLSetMinimal" s_LightCTLSetMinimal := isPlain 147 rfl rfl
instance : HasMember s_LightCTLSetMinimal "ctlLightness" (.type "UInt16") := member_field 0 rfl
instance : HasMember s_LightCTLSetMinimal "ctlTemperature" (.type "UInt16") := member_field 1 rfl
instance : HasMember s_LightCTLSetMinimal "ctlDeltaUv" (.type "UInt16") := member_field 2 rfl
instance : HasMember s_LightCTLSetMinimal "tid" (.type "UInt8") := member_field 3 rfl
instance : IsPlain "LightCTLStatusOptional" s_LightCTLStatusOptional := isPlain 148 rfl rfl
instance : HasMember s_LightCTLStatusOptional "presentCtlLightness" (.type "UInt16") := member_field 0 rfl
instance : HasMember s_LightCTLStatusOptional "presentCtlTemperature" (.type "UInt16") := member_field 1 rfl
instance : HasMember s_LightCTLStatusOptional "targetCtlLightness" (.type "UInt16") := member_field 2 rfl
instance : HasMember s_LightCTLStatusOptional "targetCtlTemperature" (.type "UInt16") := member_field 3 rfl
instance : HasMember s_LightCTLStatusOptional "remainingTime" (.type "Float32") := member_field 4 rfl
instance : IsPlain "LightCTLStatusMinimal" s_LightCTLStatusMinimal := isPlain 149 rfl rfl
instance : HasMember s_LightCTLStatusMinimal "presentCtlLightness" (.type "UInt16") := member_field 0 rfl
instance : HasMember s_LightCTLStatusMinimal "presentCtlTemperature" (.type "UInt16") := member_field 1 rfl
instance : IsPlain "LightCTLRangeStatus" s_LightCTLRangeStatus := isPlain 150 rfl rfl
instance : HasMember s_LightCTLRangeStatus "status" (.type "UInt8") := member_field 0 rfl
instance : HasMember s_LightCTLRangeStatus "rangeMin" (.type "UInt16") := member_field 1 rfl
instance : HasMember s_LightCTLRangeStatus "rangeMax" (.type "UInt16") := member_field 2 rfl
instance : IsPlain "LightCTLTemperatureSetOptional" s_LightCTLTemperatureSetOptional := isPlain 151 rfl rfl
instance : HasMember s_LightCTLTemperatureSetOptional "ctlTemperature" (.type "UInt16") := member_field 0 rfl
instance : HasMember s_LightCTLTemperatureSetOptional "ctlDeltaUv" (.type "UInt16") := member_field 1 rfl
instance : HasMember s_LightCTLTemperatureSetOptional "tid" (.type "UInt8") := member_field 2 rfl
instance : HasMember s_LightCTLTemperatureSetOptional "transitionTime" (.type "Float32") := member_field 3 rfl
instance : HasMember s_LightCTLTemperatureSetOptional "delay" (.type "Float32") := member_field 4 rfl
instance : IsPlain "LightCTLTemperatureSetMinimal" s_LightCTLTemperatureSetMinimal := isPlain 152 rfl rfl
instance : HasMember s_LightCTLTemperatureSetMinimal "ctlTemperature" (.type "UInt16") := member_field 0 rfl
instance : HasMember s_LightCTLTemperatureSetMinimal "ctlDeltaUv" (.type "UInt16") := member_field 1 rfl
instance : HasMember s_LightCTLTemperatureSetMinimal "tid" (.type "UInt8") := member_field 2 rfl
instance : IsPlain "LightCTLTemperatureStatusOptional" s_LightCTLTemperatureStatusOptional := isPlain 153 rfl rfl
instance : HasMember s_LightCTLTemperatureStatusOptional "presentCtlTemperature" (.type "UInt16") := member_field 0 rfl
instance : HasMember s_LightCTLTemperatureStatusOptional "presentCtlDeltaUv" (.type "UInt16") := member_field 1 rfl
instance : HasMember s_LightCTLTemperatureStatusOptional "targetCtlTemperature" (.type "UInt16") := member_field 2 rfl
instance : HasMember s_LightCTLTemperatureStatusOptional "targetCtlDeltaUv" (.type "UInt16") := member_field 3 rfl
instance : HasMember s_LightCTLTemperatureStatusOptional "remainingTime" (.type "Float32") := member_field 4 rfl
instance : IsPlain "LightCTLTemperatureStatusMinimal" s_LightCTLTemperatureStatusMinimal := isPlain 154 rfl rfl
instance : HasMember s_LightCTLTemperatureStatusMinimal "presentCtlTemperature" (.type "UInt16") := member_field 0 rfl
instance : HasMember s_LightCTLTemperatureStatusMinimal "presentCtlDeltaUv" (.type "UInt16") := member_field 1 rfl
instance : IsPlain "LightCTLDefault" s_LightCTLDefault := isPlain 155 rfl rfl
instance : HasMember s_LightCTLDefault "ctlLightness" (.type "UInt16") := member_field 0 rfl
instance : HasMember s_LightCTLDefault "ctlTemperature" (.type "UInt16") := member_field 1 rfl
instance : HasMember s_LightCTLDefault "ctlDeltaUv" (.type "UInt16") := member_field 2 rfl
instance : IsPlain "LightCTLRange" s_LightCTLRange := isPlain 156 rfl rfl
instance : HasMember s_LightCTLRange "rangeMin" (.type "UInt16") := member_field 0 rfl
instance : HasMember s_LightCTLRange "rangeMax" (.type "UInt16") := member_field 1 rfl
instance : IsPlain "HealthAttentionGet" s_HealthAttentionGet := isPlain 157 rfl rfl
instance : IsPlain "HealthAttentionStatus" s_HealthAttentionStatus := isPlain 158 rfl rfl
instance : HasMember s_HealthAttentionStatus "attention" (.type "UInt8") := member_field 0 rfl
instance : IsPlain "HealthFaultStatus" s_HealthFaultStatus := isPlain 159 rfl rfl
instance : HasMember s_HealthFaultStatus "testId" (.type "UInt8") := member_field 0 rfl
instance : HasMember s_HealthFaultStatus "companyId" (.type "UInt16") := member_field 1 rfl
instance : HasMember s_HealthFaultStatus "faultArray" (.type "List(UInt8)") := member_field 2 rfl
instance : IsPlain "HealthFaultClear" s_HealthFaultClear := isPlain 160 rfl rfl
instance : HasMember s_HealthFaultClear "companyId" (.type "UInt16") := member_field 0 rfl
instance : IsPlain "HealthFaultTest" s_HealthFaultTest := isPlain 161 rfl rfl
instance : HasMember s_HealthFaultTest "testId" (.type "UInt8") := member_field 0 rfl
instance : HasMember s_HealthFaultTest "companyId" (.type "UInt16") := member_field 1 rfl
instance : IsPlain "HealthPeriodGet" s_HealthPeriodGet := isPlain 162 rfl rfl
instance : IsPlain "HealthPeriodStatus" s_HealthPeriodStatus := isPlain 163 rfl rfl
instance : HasMember s_HealthPeriodStatus "fastPeriodDivisor" (.type "UInt8") := member_field 0 rfl
instance : IsUnion "NetworkDiagnosticServerParams" s_NetworkDiagnosticServerParams u_NetworkDiagnosticServerParams := isUnion 164 rfl rfl
instance : HasMember s_NetworkDiagnosticServerParams "subopcode" (.type "UInt8") := member_field 0 rfl
instance : HasMember u_NetworkDiagnosticServerParams "subscriptionGet" (.type "NetworkDiagnosticServerSubscriptionGet") := member_field 0 rfl
instance : HasMember u_NetworkDiagnosticServerParams "subscriptionSet" (.type "NetworkDiagnosticServerSubscriptionSet") := member_field 1 rfl
instance : HasMember u_NetworkDiagnosticServerParams "subscriptionSetUnacknowledged" (.type "NetworkDiagnosticServerSubscriptionSet") := member_field 2 rfl
instance : HasMember u_NetworkDiagnosticServerParams "subscriptionStatus" (.type "NetworkDiagnosticServerSubscriptionStatus") := member_field 3 rfl
instance : HasMember u_NetworkDiagnosticServerParams "radioStatGet" (.type "NetworkDiagnosticServerRadioStatGet") := member_field 4 rfl
instance : HasMember s_NetworkDiagnosticServerParams "subscriptionGet" (.type "NetworkDiagnosticServerSubscriptionGet") := member_inner (us := u_NetworkDiagnosticServerParams) 1 rfl
instance : HasMember s_NetworkDiagnosticServerParams "subscriptionSet" (.type "NetworkDiagnosticServerSubscriptionSet") := member_inner (us := u_NetworkDiagnosticServerParams) 1 rfl
instance : HasMember s_NetworkDiagnosticServerParams "subscriptionSetUnacknowledged" (.type "NetworkDiagnosticServerSubscriptionSet") := member_inner (us := u_NetworkDiagnosticServerParams) 1 rfl
instance : HasMember s_NetworkDiagnosticServerParams "subscriptionStatus" (.type "NetworkDiagnosticServerSubscriptionStatus") := member_inner (us := u_NetworkDiagnosticServerParams) 1 rfl
instance : HasMember s_NetworkDiagnosticServerParams "radioStatGet" (.type "NetworkDiagnosticServerRadioStatGet") := member_inner (us := u_NetworkDiagnosticServerParams) 1 rfl
instance : IsPlain "NetworkDiagnosticServerSubscriptionGet" s_NetworkDiagnosticServerSubscriptionGet := isPlain 165 rfl rfl
instance : IsPlain "NetworkDiagnosticServerSubscriptionSet" s_NetworkDiagnosticServerSubscriptionSet := isPlain 166 rfl rfl
instance : HasMember s_NetworkDiagnosticServerSubscriptionSet "destination" (.type "UInt16") := member_field 0 rfl
instance : HasMember s_NetworkDiagnosticServerSubscriptionSet "period" (.type "UInt16") := member_field 1 rfl
instance : IsPlain "NetworkDiagnosticServerSubscriptionStatus" s_NetworkDiagnosticServerSubscriptionStatus := isPlain 167 rfl rfl
instance : HasMember s_NetworkDiagnosticServerSubscriptionStatus "destination" (.type "UInt16") := member_field 0 rfl
instance : HasMember s_NetworkDiagnosticServerSubscriptionStatus "period" (.type "UInt16") := member_field 1 rfl
instance : HasMember s_NetworkDiagnosticServerSubscriptionStatus "maxRecordCount" (.type "UInt8") := member_field 2 rfl
instance : HasMember s_NetworkDiagnosticServerSubscriptionStatus "record" (.type "List(RegistryRecord)") := member_field 3 rfl
instance : IsPlain "RegistryRecord" s_RegistryRecord := isPlain 168 rfl rfl
instance : HasMember s_RegistryRecord "source" (.type "UInt16") := member_field 0 rfl
instance : HasMember s_RegistryRecord "count" (.type "UInt16") := member_field 1 rfl
instance : HasMember s_RegistryRecord "minHops" (.type "UInt8") := member_field 2 rfl
instance : HasMember s_RegistryRecord "maxHops" (.type "UInt8") := member_field 3 rfl
instance : IsPlain "NetworkDiagnosticServerRadioStatGet" s_NetworkDiagnosticServerRadioStatGet := isPlain 169 rfl rfl
instance : IsUnion "NetworkDiagnosticSetupServerParams" s_NetworkDiagnosticSetupServerParams u_NetworkDiagnosticSetupServerParams := isUnion 170 rfl rfl
instance : HasMember s_NetworkDiagnosticSetupServerParams "subopcode" (.type "UInt8") := member_field 0 rfl
instance : HasMember u_NetworkDiagnosticSetupServerParams "publicationGet" (.type "NetworkDiagnosticSetupServerPublicationGet") := member_field 0 rfl
instance : HasMember u_NetworkDiagnosticSetupServerParams "publicationSet" (.group g_NetworkDiagnosticSetupServerParams_publicationSet) := member_group 1 rfl
instance : HasMember u_NetworkDiagnosticSetupServerParams "publicationStatus" (.group g_NetworkDiagnosticSetupServerParams_publicationStatus) := member_group 2 rfl
instance : HasMember s_NetworkDiagnosticSetupServerParams "publicationGet" (.type "NetworkDiagnosticSetupServerPublicationGet") := member_inner (us := u_NetworkDiagnosticSetupServerParams) 1 rfl
instance : HasMember s_NetworkDiagnosticSetupServerParams "publicationSet" (.group g_NetworkDiagnosticSetupServerParams_publicationSet) := member_inner (us := u_NetworkDiagnosticSetupServerParams) 1 rfl
instance : HasMember s_NetworkDiagnosticSetupServerParams "publicationStatus" (.group g_NetworkDiagnosticSetupServerParams_publicationStatus) := member_inner (us := u_NetworkDiagnosticSetupServerParams) 1 rfl
instance : IsPlain "NetworkDiagnosticSetupServerPublicationGet" s_NetworkDiagnosticSetupServerPublicationGet := isPlain 171 rfl rfl
instance : IsPlain "NetworkDiagnosticSetupServerPublicationSetOptional" s_NetworkDiagnosticSetupServerPublicationSetOptional := isPlain 172 rfl rfl
instance : HasMember s_NetworkDiagnosticSetupServerPublicationSetOptional "destination" (.type "UInt16") := member_field 0 rfl
instance : HasMember s_NetworkDiagnosticSetupServerPublicationSetOptional "count" (.type "UInt16") := member_field 1 rfl
instance : HasMember s_NetworkDiagnosticSetupServerPublicationSetOptional "period" (.type "TransitionTime") := member_field 2 rfl
instance : HasMember s_NetworkDiagnosticSetupServerPublicationSetOptional "ttl" (.type "UInt8") := member_field 3 rfl
instance : HasMember s_NetworkDiagnosticSetupServerPublicationSetOptional "netKeyIndex" (.type "UInt16") := member_field 4 rfl
instance : HasMember s_NetworkDiagnosticSetupServerPublicationSetOptional "features" (.type "UInt16") := member_field 5 rfl
instance : IsPlain "TransitionTime" s_TransitionTime := isPlain 173 rfl rfl
instance : HasMember s_TransitionTime "resolution" (.type "UInt8") := member_field 0 rfl
instance : HasMember s_TransitionTime "steps" (.type "UInt8") := member_field 1 rfl
instance : IsPlain "NetworkDiagnosticSetupServerPublicationSetMinimal" s_NetworkDiagnosticSetupServerPublicationSetMinimal := isPlain 174 rfl rfl
instance : HasMember s_NetworkDiagnosticSetupServerPublicationSetMinimal "destination" (.type "UInt16") := member_field 0 rfl
instance : HasMember s_NetworkDiagnosticSetupServerPublicationSetMinimal "count" (.type "UInt16") := member_field 1 rfl
instance : HasMember s_NetworkDiagnosticSetupServerPublicationSetMinimal "period" (.type "TransitionTime") := member_field 2 rfl
instance : HasMember s_NetworkDiagnosticSetupServerPublicationSetMinimal "ttl" (.type "UInt8") := member_field 3 rfl
instance : HasMember s_NetworkDiagnosticSetupServerPublicationSetMinimal "netKeyIndex" (.type "UInt16") := member_field 4 rfl
instance : IsPlain "SceneGet" s_SceneGet := isPlain 175 rfl rfl
instance : IsPlain "SceneRecallWithTransition" s_SceneRecallWithTransition := isPlain 176 rfl rfl
instance : HasMember s_SceneRecallWithTransition "sceneNumber" (.type "UInt16") := member_field 0 rfl
instance : HasMember s_SceneRecallWithTransition "tid" (.type "UInt8") := member_field 1 rfl
instance : HasMember s_SceneRecallWithTransition "transitionTime" (.type "Float32") := member_field 2 rfl
instance : HasMember s_SceneRecallWithTransition "delay" (.type "Float32") := member_field 3 rfl
instance : IsPlain "SceneRecallMinimal" s_SceneRecallMinimal := isPlain 177 rfl rfl
instance : HasMember s_SceneRecallMinimal "sceneNumber" (.type "UInt16") := member_field 0 rfl
instance : HasMember s_SceneRecallMinimal "tid" (.type "UInt8") := member_field 1 rfl
instance : IsPlain "SceneStatusWithTargetScene" s_SceneStatusWithTargetScene := isPlain 178 rfl rfl
instance : HasMember s_SceneStatusWithTargetScene "statusCode" (.type "UInt8") := member_field 0 rfl
instance : HasMember s_SceneStatusWithTargetScene "currentScene" (.type "UInt16") := member_field 1 rfl
instance : HasMember s_SceneStatusWithTargetScene "targetScene" (.type "UInt16") := member_field 2 rfl
instance : HasMember s_SceneStatusWithTargetScene "remainingTime" (.type "Float32") := member_field 3 rfl
instance : IsPlain "SceneStatusMinimal" s_SceneStatusMinimal := isPlain 179 rfl rfl
instance : HasMember s_SceneStatusMinimal "statusCode" (.type "UInt8") := member_field 0 rfl
instance : HasMember s_SceneStatusMinimal "currentScene" (.type "UInt16") := member_field 1 rfl
instance : IsPlain "SceneRegisterGet" s_SceneRegisterGet := isPlain 180 rfl rfl
instance : IsPlain "SceneRegisterStatus" s_SceneRegisterStatus := isPlain 181 rfl rfl
instance : HasMember s_SceneRegisterStatus "statusCode" (.type "UInt8") := member_field 0 rfl
instance : HasMember s_SceneRegisterStatus "currentScene" (.type "UInt16") := member_field 1 rfl
instance : HasMember s_SceneRegisterStatus "scenes" (.type "List(UInt16)") := member_field 2 rfl
instance : IsPlain "SceneSetupWithValidation" s_SceneSetupWithValidation := isPlain 182 rfl rfl
instance : HasMember s_SceneSetupWithValidation "sceneNumber" (.type "UInt16") := member_field 0 rfl
instance : IsPlain "SceneSetup" s_SceneSetup := isPlain 183 rfl rfl
instance : HasMember s_SceneSetup "sceneNumber" (.type "UInt16") := member_field 0 rfl
instance : IsPlain "SensorGetOptional" s_SensorGetOptional := isPlain 184 rfl rfl
instance : HasMember s_SensorGetOptional "propertyId" (.type "UInt16") := member_field 0 rfl
instance : IsPlain "SensorGetMinimal" s_SensorGetMinimal := isPlain 185 rfl rfl
instance : IsUnion "SensorDescriptorStatusItem" s_SensorDescriptorStatusItem u_SensorDescriptorStatusItem := isUnion 186 rfl rfl
instance : HasMember u_SensorDescriptorStatusItem "optional" (.type "SensorDescriptorOptional") := member_field 0 rfl
instance : HasMember u_SensorDescriptorStatusItem "minimal" (.type "SensorDescriptorMinimal") := member_field 1 rfl
instance : HasMember s_SensorDescriptorStatusItem "optional" (.type "SensorDescriptorOptional") := member_inner (us := u_SensorDescriptorStatusItem) 0 rfl
instance : HasMember s_SensorDescriptorStatusItem "minimal" (.type "SensorDescriptorMinimal") := member_inner (us := u_SensorDescriptorStatusItem) 0 rfl
instance : IsPlain "SensorDescriptorOptional" s_SensorDescriptorOptional := isPlain 187 rfl rfl
instance : HasMember s_SensorDescriptorOptional "sensorPropertyId" (.type "UInt16") := member_field 0 rfl
instance : HasMember s_SensorDescriptorOptional "sensorPositiveTolerance" (.type "UInt16") := member_field 1 rfl
instance : HasMember s_SensorDescriptorOptional "sensorNegativeTolerance" (.type "UInt16") := member_field 2 rfl
instance : HasMember s_SensorDescriptorOptional "sensorSamplingFuncion" (.type "UInt8") := member_field 3 rfl
instance : HasMember s_SensorDescriptorOptional "sensorMeasurementPeriod" (.type "UInt8") := member_field 4 rfl
instance : HasMember s_SensorDescriptorOptional "sensorUpdateInterval" (.type "UInt8") := member_field 5 rfl
instance : IsPlain "SensorDescriptorMinimal" s_SensorDescriptorMinimal := isPlain 188 rfl rfl
instance : HasMember s_SensorDescriptorMinimal "sensorPropertyId" (.type "UInt16") := member_field 0 rfl
instance : IsUnion "SensorData" s_SensorData u_SensorData := isUnion 189 rfl rfl
instance : HasMember s_SensorData "format" (.type "UInt8") := member_field 0 rfl
instance : HasMember s_SensorData "length" (.type "UInt16") := member_field 1 rfl
instance : HasMember s_SensorData "sensorSettingPropertyId" (.type "UInt16") := member_field 2 rfl
instance : HasMember u_SensorData "averageAmbientTemperatureInAPeriodOfDay" (.type "Temperature8InAPeriodOfDay") := member_field 0 rfl
instance : HasMember u_SensorData "averageInputCurrent" (.type "AverageCurrent") := member_field 1 rfl
instance : HasMember u_SensorData "averageInputVoltage" (.type "AverageVoltage") := member_field 2 rfl
instance : HasMember u_SensorData "averageOutputCurrent" (.type "AverageCurrent") := member_field 3 rfl
instance : HasMember u_SensorData "averageOutputVoltage" (.type "AverageVoltage") := member_field 4 rfl
instance : HasMember u_SensorData "centerBeamIntensityAtFullPower" (.type "LuminousIntensity") := member_field 5 rfl
instance : HasMember u_SensorData "chromaticityTolerance" (.type "ChromaticityTolerance") := member_field 6 rfl
instance : HasMember u_SensorData "colorRenderingIndexR9" (.type "ColorRenderingIndex") := member_field 7 rfl
instance : HasMember u_SensorData "colorRenderingIndexRa" (.type "ColorRenderingIndex") := member_field 8 rfl
instance : HasMember u_SensorData "deviceAppearance" (.type "Appearance") := member_field 9 rfl
instance : HasMember u_SensorData "deviceCountryOfOrigin" (.type "CountryCode") := member_field 10 rfl
instance : HasMember u_SensorData "deviceDateOfManufacture" (.type "DateUTC") := member_field 11 rfl
instance : HasMember u_SensorData "deviceEnergyUseSinceTurnOn" (.type "Energy") := member_field 12 rfl
instance : HasMember u_SensorData "deviceFirmwareRevision" (.type "Text") := member_field 13 rfl
instance : HasMember u_SensorData "deviceGlobalTradeItemNumber" (.type "GlobalTradeItemNumber") := member_field 14 rfl
instance : HasMember u_SensorData "deviceHardwareRevision" (.type "Text") := member_field 15 rfl
instance : HasMember u_SensorData "deviceManufacturerName" (.type "Text") := member_field 16 rfl
instance : HasMember u_SensorData "deviceModelNumber" (.type "Text") := member_field 17 rfl
instance : HasMember u_SensorData "deviceOperatingTemperatureRangeSpecification" (.type "TemperatureRange") := member_field 18 rfl
instance : HasMember u_SensorData "deviceOperatingTemperatureStatisticalValues" (.type "TemperatureStatistics") := member_field 19 rfl
instance : HasMember u_SensorData "deviceOverTemperatureEventStatistics" (.type "EventStatistics") := member_field 20 rfl
instance : HasMember u_SensorData "devicePowerRangeSpecification" (.type "PowerSpecification") := member_field 21 rfl
instance : HasMember u_SensorData "deviceRuntimeSinceTurnOn" (.type "TimeHour24") := member_field 22 rfl
instance : HasMember u_SensorData "deviceRuntimeWarranty" (.type "TimeHour24") := member_field 23 rfl
instance : HasMember u_SensorData "deviceSerialNumber" (.type "Text") := member_field 24 rfl
instance : HasMember u_SensorData "deviceSoftwareRevision" (.type "Text") := member_field 25 rfl
instance : HasMember u_SensorData "deviceUnderTemperatureEventStatistics" (.type "EventStatistics") := member_field 26 rfl
instance : HasMember u_SensorData "indoorAmbientTemperatureStatisticalValues" (.type "Temperature8Statistics") := member_field 27 rfl
instance : HasMember u_SensorData "initialCie1931ChromaticityCoordinates" (.type "ChromaticityCoordinates") := member_field 28 rfl
instance : HasMember u_SensorData "initialCorrelatedColorTemperature" (.type "CorrelatedColorTemperature") := member_field 29 rfl
instance : HasMember u_SensorData "initialLuminousFlux" (.type "LuminousFlux") := member_field 30 rfl
instance : HasMember u_SensorData "initialPlanckianDistance" (.type "ChromaticDistanceFromPlanckian") := member_field 31 rfl
instance : HasMember u_SensorData "inputCurrentRangeSpecification" (.type "ElectricCurrentSpecification") := member_field 32 rfl
instance : HasMember u_SensorData "inputCurrentStatistics" (.type "ElectricCurrentStatistics") := member_field 33 rfl
instance : HasMember u_SensorData "inputOverCurrentEventStatistics" (.type "EventStatistics") := member_field 34 rfl
instance : HasMember u_SensorData "inputOverRippleVoltageEventStatistics" (.type "EventStatistics") := member_field 35 rfl
instance : HasMember u_SensorData "inputOverVoltageEventStatistics" (.type "EventStatistics") := member_field 36 rfl
instance : HasMember u_SensorData "inputUnderCurrentEventStatistics" (.type "EventStatistics") := member_field 37 rfl
instance : HasMember u_SensorData "inputUnderVoltageEventStatistics" (.type "EventStatistics") := member_field 38 rfl
instance : HasMember u_SensorData "inputVoltageRangeSpecification" (.type "VoltageRange") := member_field 39 rfl
instance : HasMember u_SensorData "inputVoltageRippleSpecification" (.type "Percentage8") := member_field 40 rfl
instance : HasMember u_SensorData "inputVoltageStatistics" (.type "VoltageStatistics") := member_field 41 rfl
instance : HasMember u_SensorData "lightControlAmbientLuxlevelOn" (.type "Illuminance") := member_field 42 rfl
instance : HasMember u_SensorData "lightControlAmbientLuxlevelProlong" (.type "Illuminance") := member_field 43 rfl
instance : HasMember u_SensorData "lightControlAmbientLuxlevelStandby" (.type "Illuminance") := member_field 44 rfl
instance : HasMember u_SensorData "lightControlLightnessOn" (.type "PerceivedLightness") := member_field 45 rfl
instance : HasMember u_SensorData "lightControlLightnessProlong" (.type "PerceivedLightness") := member_field 46 rfl
instance : HasMember u_SensorData "lightControlLightnessStandby" (.type "PerceivedLightness") := member_field 47 rfl
instance : HasMember u_SensorData "lightControlRegulatorAccuracy" (.type "Percentage8") := member_field 48 rfl
instance : HasMember u_SensorData "lightControlRegulatorKid" (.type "Coefficient") := member_field 49 rfl
instance : HasMember u_SensorData "lightControlRegulatorKiu" (.type "Coefficient") := member_field 50 rfl
instance : HasMember u_SensorData "lightControlRegulatorKpd" (.type "Coefficient") := member_field 51 rfl
instance : HasMember u_SensorData "lightControlRegulatorKpu" (.type "Coefficient") := member_field 52 rfl
instance : HasMember u_SensorData "lightControlTimeFade" (.type "TimeMiliseconds24") := member_field 53 rfl
instance : HasMember u_SensorData "lightControlTimeFadeOn" (.type "TimeMiliseconds24") := member_field 54 rfl
instance : HasMember u_SensorData "lightControlTimeFadeStandbyAuto" (.type "TimeMiliseconds24") := member_field 55 rfl
instance : HasMember u_SensorData "lightControlTimeFadeStandbyManual" (.type "TimeMiliseconds24") := member_field 56 rfl
instance : HasMember u_SensorData "lightControlTimeOccupancyDelay" (.type "TimeMiliseconds24") := member_field 57 rfl
instance : HasMember u_SensorData "lightControlTimeProlong" (.type "TimeMiliseconds24") := member_field 58 rfl
instance : HasMember u_SensorData "lightControlTimeRunOn" (.type "TimeMiliseconds24") := member_field 59 rfl
instance : HasMember u_SensorData "lumenMaintenanceFactor" (.type "Percentage8") := member_field 60 rfl
instance : HasMember u_SensorData "luminousEfficacy" (.type "LuminousEfficacy") := member_field 61 rfl
instance : HasMember u_SensorData "luminousEnergySinceTurnOn" (.type "LuminousEnergy") := member_field 62 rfl
instance : HasMember u_SensorData "luminousExposure" (.type "LuminousExposure") := member_field 63 rfl
instance : HasMember u_SensorData "luminousFluxRange" (.type "LuminousFluxRange") := member_field 64 rfl
instance : HasMember u_SensorData "motionSensed" (.type "Percentage8") := member_field 65 rfl
instance : HasMember u_SensorData "motionThreshold" (.type "Percentage8") := member_field 66 rfl
instance : HasMember u_SensorData "openCircuitEventStatistics" (.type "EventStatistics") := member_field 67 rfl
instance : HasMember u_SensorData "outdoorStatisticalValues" (.type "Temperature8Statistics") := member_field 68 rfl
instance : HasMember u_SensorData "outputCurrentRange" (.type "ElectricCurrentRange") := member_field 69 rfl
instance : HasMember u_SensorData "outputCurrentStatistics" (.type "ElectricCurrentStatistics") := member_field 70 rfl
instance : HasMember u_SensorData "outputRippleVoltageSpecification" (.type "Percentage8") := member_field 71 rfl
instance : HasMember u_SensorData "outputVoltageRange" (.type "VoltageRange") := member_field 72 rfl
instance : HasMember u_SensorData "outputVoltageStatistics" (.type "VoltageStatistics") := member_field 73 rfl
instance : HasMember u_SensorData "overOutputRippleVoltageEventStatistics" (.type "EventStatistics") := member_field 74 rfl
instance : HasMember u_SensorData "peopleCount" (.type "Count16") := member_field 75 rfl
instance : HasMember u_SensorData "presenceDetected" (.type "Presence") := member_field 76 rfl
instance : HasMember u_SensorData "presentAmbientLightLevel" (.type "Illuminance") := member_field 77 rfl
instance : HasMember u_SensorData "presentAmbientTemperature" (.type "Temperature8") := member_field 78 rfl
instance : HasMember u_SensorData "presentCie1931ChromaticityCoordinates" (.type "ChromaticityCoordinates") := member_field 79 rfl
instance : HasMember u_SensorData "presentCorrelatedColorTemperature" (.type "CorrelatedColorTemperature") := member_field 80 rfl
instance : HasMember u_SensorData "presentDeviceInputPower" (.type "Power") := member_field 81 rfl
instance : HasMember u_SensorData "presentDeviceOperatingEfficiency" (.type "Percentage8") := member_field 82 rfl
instance : HasMember u_SensorData "presentDeviceOperatingTemperature" (.type "Temperature") := member_field 83 rfl
instance : HasMember u_SensorData "presentIlluminance" (.type "Illuminance") := member_field 84 rfl
instance : HasMember u_SensorData "presentIndoorAmbientTemperature" (.type "Temperature8") := member_field 85 rfl
instance : HasMember u_SensorData "presentInputCurrent" (.type "ElectricCurrent") := member_field 86 rfl
instance : HasMember u_SensorData "presentInputRippleVoltage" (.type "Percentage8") := member_field 87 rfl
instance : HasMember u_SensorData "presentInputVoltage" (.type "Voltage") := member_field 88 rfl
instance : HasMember u_SensorData "presentLuminousFlux" (.type "LuminousFlux") := member_field 89 rfl
instance : HasMember u_SensorData "presentOutdoorAmbientTemperature" (.type "Temperature8") := member_field 90 rfl
instance : HasMember u_SensorData "presentOutputCurrent" (.type "ElectricCurrent") := member_field 91 rfl
instance : HasMember u_SensorData "presentOutputVoltage" (.type "Voltage") := member_field 92 rfl
instance : HasMember u_SensorData "presentPlanckianDistance" (.type "ChromaticDistanceFromPlanckian") := member_field 93 rfl
instance : HasMember u_SensorData "presentRelativeOutputRippleVoltage" (.type "Percentage8") := member_field 94 rfl
instance : HasMember u_SensorData "relativeDeviceEnergyUseInAPeriodOfDay" (.type "EnergyInAPeriodOfDay") := member_field 95 rfl
instance : HasMember u_SensorData "relativeDeviceRuntimeInAGenericLevelRange" (.type "RelativeRuntimeInAGenericLevelRange") := member_field 96 rfl
instance : HasMember u_SensorData "relativeExposureTimeInAnIlluminanceRange" (.type "RelativeValueInAnIlluminanceRange") := member_field 97 rfl
instance : HasMember u_SensorData "relativeRuntimeInACorrelatedColorTemperatureRange" (.type "LuminousEnergy") := member_field 98 rfl
instance : HasMember u_SensorData "relativeRuntimeInADeviceOperatingTemperatureRange" (.type "RelativeValueInATemperatureRange") := member_field 99 rfl
instance : HasMember u_SensorData "relativeRuntimeInAnInputCurrentRange" (.type "RelativeValueInACurrentRange") := member_field 100 rfl
instance : HasMember u_SensorData "relativeRuntimeInAnInputVoltageRange" (.type "RelativeValueInAVoltageRange") := member_field 101 rfl
instance : HasMember u_SensorData "shortCircuitEventStatistics" (.type "EventStatistics") := member_field 102 rfl
instance : HasMember u_SensorData "timeSinceMotionSensed" (.type "TimeSecond16") := member_field 103 rfl
instance : HasMember u_SensorData "timeSincePresenceDetected" (.type "TimeSecond16") := member_field 104 rfl
instance : HasMember u_SensorData "totalDeviceEnergyUse" (.type "Energy") := member_field 105 rfl
instance : HasMember u_SensorData "totalDeviceOffOnCycles" (.type "Count24") := member_field 106 rfl
instance : HasMember u_SensorData "totalDevicePowerOnCycles" (.type "Count24") := member_field 107 rfl
instance : HasMember u_SensorData "totalDevicePowerOnTime" (.type "TimeHour24") := member_field 108 rfl
instance : HasMember u_SensorData "totalDeviceRuntime" (.type "TimeHour24") := member_field 109 rfl
instance : HasMember u_SensorData "totalLightExposureTime" (.type "TimeHour24") := member_field 110 rfl
instance : HasMember u_SensorData "totalLuminousEnergy" (.type "LuminousEnergy") := member_field 111 rfl
instance : HasMember u_SensorData "preciseTotalDeviceEnergyUse" (.type "PreciseEnergy") := member_field 112 rfl
instance : HasMember u_SensorData "powerFactor" (.type "CosineOfTheAngle") := member_field 113 rfl
instance : HasMember u_SensorData "externalSupplyVoltage" (.type "HighVoltage") := member_field 114 rfl
instance : HasMember u_SensorData "externalSupplyVoltageFrequency" (.type "VoltageFrequency") := member_field 115 rfl
instance : HasMember u_SensorData "lightDistribution" (.type "LightDistribution") := member_field 116 rfl
instance : HasMember u_SensorData "lightSourceCurrent" (.type "AverageCurrent") := member_field 117 rfl
instance : HasMember u_SensorData "lightSourceOnTimeNotResettable" (.type "TimeSecond32") := member_field 118 rfl
instance : HasMember u_SensorData "lightSourceOnTimeResettable" (.type "TimeSecond32") := member_field 119 rfl
instance : HasMember u_SensorData "lightSourceOpenCircuitStatistics" (.type "EventStatistics") := member_field 120 rfl
instance : HasMember u_SensorData "lightSourceOverallFailuresStatistics" (.type "EventStatistics") := member_field 121 rfl
instance : HasMember u_SensorData "lightSourceShortCircuitStatistics" (.type "EventStatistics") := member_field 122 rfl
instance : HasMember u_SensorData "lightSourceStartCounterResettable" (.type "Count24") := member_field 123 rfl
instance : HasMember u_SensorData "lightSourceTemperature" (.type "HighTemperature") := member_field 124 rfl
instance : HasMember u_SensorData "lightSourceThermalDeratingStatistics" (.type "EventStatistics") := member_field 125 rfl
instance : HasMember u_SensorData "lightSourceThermalShutdownStatistics" (.type "EventStatistics") := member_field 126 rfl
instance : HasMember u_SensorData "lightSourceTotalPowerOnCycles" (.type "Count24") := member_field 127 rfl
instance : HasMember u_SensorData "lightSourceVoltage" (.type "AverageVoltage") := member_field 128 rfl
instance : HasMember u_SensorData "luminaireColor" (.type "Text") := member_field 129 rfl
instance : HasMember u_SensorData "luminaireIdentificationNumber" (.type "Text") := member_field 130 rfl
instance : HasMember u_SensorData "luminaireNominalInputPower" (.type "Power") := member_field 131 rfl
instance : HasMember u_SensorData "luminaireNominalMaximumAcMainsVoltage" (.type "Voltage") := member_field 132 rfl
instance : HasMember u_SensorData "luminaireNominalMinimumAcMainsVoltage" (.type "Voltage") := member_field 133 rfl
instance : HasMember u_SensorData "luminairePowerAtMinimumDimLevel" (.type "Power") := member_field 134 rfl
instance : HasMember u_SensorData "luminaireTimeOfManufacture" (.type "DateUTC") := member_field 135 rfl
instance : HasMember u_SensorData "nominalLightOutput" (.type "LightOutput") := member_field 136 rfl
instance : HasMember u_SensorData "overallFailureCondition" (.type "EventStatistics") := member_field 137 rfl
instance : HasMember u_SensorData "ratedMedianUsefulLifeOfLuminaire" (.type "TimeHour24") := member_field 138 rfl
instance : HasMember u_SensorData "ratedMedianUsefulLightSourceStarts" (.type "Count24") := member_field 139 rfl
instance : HasMember u_SensorData "referenceTemperature" (.type "HighTemperature") := member_field 140 rfl
instance : HasMember u_SensorData "totalDeviceStarts" (.type "Count24") := member_field 141 rfl
instance : HasMember u_SensorData "luminaireIdentificationString" (.type "Text") := member_field 142 rfl
instance : HasMember u_SensorData "outputPowerLimitation" (.type "EventStatistics") := member_field 143 rfl
instance : HasMember u_SensorData "thermalDerating" (.type "EventStatistics") := member_field 144 rfl
instance : HasMember u_SensorData "outputCurrentPercent" (.type "Percentage8") := member_field 145 rfl
instance : HasMember u_SensorData "luminaireManufacturerGtin" (.type "GlobalTradeItemNumber") := member_field 146 rfl
instance : HasMember u_SensorData "apparentEnergy" (.type "ApparentEnergy32") := member_field 147 rfl
instance : HasMember u_SensorData "apparentPower" (.type "ApparentPower") := member_field 148 rfl
instance : HasMember u_SensorData "activeEnergyLoadSide" (.type "Energy32") := member_field 149 rfl
instance : HasMember u_SensorData "activePowerLoadSide" (.type "Power") := member_field 150 rfl
instance : HasMember u_SensorData "lightSourceType" (.type "LightSourceType") := member_field 151 rfl
instance : HasMember u_SensorData "desiredAmbientTemperature" (.type "Temperature8") := member_field 152 rfl
instance : HasMember u_SensorData "sensorGain" (.type "Coefficient") := member_field 153 rfl
instance : HasMember u_SensorData "precisePresentAmbientTemperature" (.type "Temperature") := member_field 154 rfl
instance : HasMember u_SensorData "sensorSettingRaw" (.type "List(UInt8)") := member_field 155 rfl
instance : HasMember s_SensorData "averageAmbientTemperatureInAPeriodOfDay" (.type "Temperature8InAPeriodOfDay") := member_inner (us := u_SensorData) 3 rfl
instance : HasMember s_SensorData "averageInputCurrent" (.type "AverageCurrent") := member_inner (us := u_SensorData) 3 rfl
instance : HasMember s_SensorData "averageInputVoltage" (.type "AverageVoltage") := member_inner (us := u_SensorData) 3 rfl
instance : HasMember s_SensorData "averageOutputCurrent" (.type "AverageCurrent") := member_inner (us := u_SensorData) 3 rfl
instance : HasMember s_SensorData "averageOutputVoltage" (.type "AverageVoltage") := member_inner (us := u_SensorData) 3 rfl
instance : HasMember s_SensorData "centerBeamIntensityAtFullPower" (.type "LuminousIntensity") := member_inner (us := u_SensorData) 3 rfl
instance : HasMember s_SensorData "chromaticityTolerance" (.type "ChromaticityTolerance") := member_inner (us := u_SensorData) 3 rfl
instance : HasMember s_SensorData "colorRenderingIndexR9" (.type "ColorRenderingIndex") := member_inner (us := u_SensorData) 3 rfl
instance : HasMember s_SensorData "colorRenderingIndexRa" (.type "ColorRenderingIndex") := member_inner (us := u_SensorData) 3 rfl
instance : HasMember s_SensorData "deviceAppearance" (.type "Appearance") := member_inner (us := u_SensorData) 3 rfl
instance : HasMember s_SensorData "deviceCountryOfOrigin" (.type "CountryCode") := member_inner (us := u_SensorData) 3 rfl
instance : HasMember s_SensorData "deviceDateOfManufacture" (.type "DateUTC") := member_inner (us := u_SensorData) 3 rfl
instance : HasMember s_SensorData "deviceEnergyUseSinceTurnOn" (.type "Energy") := member_inner (us := u_SensorData) 3 rfl
instance : HasMember s_SensorData "deviceFirmwareRevision" (.type "Text") := member_inner (us := u_SensorData) 3 rfl
instance : HasMember s_SensorData "deviceGlobalTradeItemNumber" (.type "GlobalTradeItemNumber") := member_inner (us := u_SensorData) 3 rfl
instance : HasMember s_SensorData "deviceHardwareRevision" (.type "Text") := member_inner (us := u_SensorData) 3 rfl
instance : HasMember s_SensorData "deviceManufacturerName" (.type "Text") := member_inner (us := u_SensorData) 3 rfl
instance : HasMember s_SensorData "deviceModelNumber" (.type "Text") := member_inner (us := u_SensorData) 3 rfl
instance : HasMember s_SensorData "deviceOperatingTemperatureRangeSpecification" (.type "TemperatureRange") := member_inner (us := u_SensorData) 3 rfl
instance : HasMember s_SensorData "deviceOperatingTemperatureStatisticalValues" (.type "TemperatureStatistics") := member_inner (us := u_SensorData) 3 rfl
instance : HasMember s_SensorData "deviceOverTemperatureEventStatistics" (.type "EventStatistics") := member_inner (us := u_SensorData) 3 rfl
instance : HasMember s_SensorData "devicePowerRangeSpecification" (.type "PowerSpecification") := member_inner (us := u_SensorData) 3 rfl
instance : HasMember s_SensorData "deviceRuntimeSinceTurnOn" (.type "TimeHour24") := member_inner (us := u_SensorData) 3 rfl
instance : HasMember s_SensorData "deviceRuntimeWarranty" (.type "TimeHour24") := member_inner (us := u_SensorData) 3 rfl
instance : HasMember s_SensorData "deviceSerialNumber" (.type "Text") := member_inner (us := u_SensorData) 3 rfl
instance : HasMember s_SensorData "deviceSoftwareRevision" (.type "Text") := member_inner (us := u_SensorData) 3 rfl
instance : HasMember s_SensorData "deviceUnderTemperatureEventStatistics" (.type "EventStatistics") := member_inner (us := u_SensorData) 3 rfl
instance : HasMember s_SensorData "indoorAmbientTemperatureStatisticalValues" (.type "Temperature8Statistics") := member_inner (us := u_SensorData) 3 rfl
instance : HasMember s_SensorData "initialCie1931ChromaticityCoordinates" (.type "ChromaticityCoordinates") := member_inner (us := u_SensorData) 3 rfl
instance : HasMember s_SensorData "initialCorrelatedColorTemperature" (.type "CorrelatedColorTemperature") := member_inner (us := u_SensorData) 3 rfl
instance : HasMember s_SensorData "initialLuminousFlux" (.type "LuminousFlux") := member_inner (us := u_SensorData) 3 rfl
instance : HasMember s_SensorData "initialPlanckianDistance" (.type "ChromaticDistanceFromPlanckian") := member_inner (us := u_SensorData) 3 rfl
instance : HasMember s_SensorData "inputCurrentRangeSpecification" (.type "ElectricCurrentSpecification") := member_inner (us := u_SensorData) 3 rfl
instance : HasMember s_SensorData "inputCurrentStatistics" (.type "ElectricCurrentStatistics") := member_inner (us := u_SensorData) 3 rfl
instance : HasMember s_SensorData "inputOverCurrentEventStatistics" (.type "EventStatistics") := member_inner (us := u_SensorData) 3 rfl
instance : HasMember s_SensorData "inputOverRippleVoltageEventStatistics" (.type "EventStatistics") := member_inner (us := u_SensorData) 3 rfl
instance : HasMember s_SensorData "inputOverVoltageEventStatistics" (.type "EventStatistics") := member_inner (us := u_SensorData) 3 rfl
instance : HasMember s_SensorData "inputUnderCurrentEventStatistics" (.type "EventStatistics") := member_inner (us := u_SensorData) 3 rfl
instance : HasMember s_SensorData "inputUnderVoltageEventStatistics" (.type "EventStatistics") := member_inner (us := u_SensorData) 3 rfl
instance : HasMember s_SensorData "inputVoltageRangeSpecification" (.type "VoltageRange") := member_inner (us := u_SensorData) 3 rfl
instance : HasMember s_SensorData "inputVoltageRippleSpecification" (.type "Percentage8") := member_inner (us := u_SensorData) 3 rfl
instance : HasMember s_SensorData "inputVoltageStatistics" (.type "VoltageStatistics") := member_inner (us := u_SensorData) 3 rfl
instance : HasMember s_SensorData "lightControlAmbientLuxlevelOn" (.type "Illuminance") := member_inner (us := u_SensorData) 3 rfl
instance : HasMember s_SensorData "lightControlAmbientLuxlevelProlong" (.type "Illuminance") := member_inner (us := u_SensorData) 3 rfl
instance : HasMember s_SensorData "lightControlAmbientLuxlevelStandby" (.type "Illuminance") := member_inner (us := u_SensorData) 3 rfl
instance : HasMember s_SensorData "lightControlLightnessOn" (.type "PerceivedLightness") := member_inner (us := u_SensorData) 3 rfl
instance : HasMember s_SensorData "lightControlLightnessProlong" (.type "PerceivedLightness") := member_inner (us := u_SensorData) 3 rfl
instance : HasMember s_SensorData "lightControlLightnessStandby" (.type "PerceivedLightness") := member_inner (us := u_SensorData) 3 rfl
instance : HasMember s_SensorData "lightControlRegulatorAccuracy" (.type "Percentage8") := member_inner (us := u_SensorData) 3 rfl
instance : HasMember s_SensorData "lightControlRegulatorKid" (.type "Coefficient") := member_inner (us := u_SensorData) 3 rfl
instance : HasMember s_SensorData "lightControlRegulatorKiu" (.type "Coefficient") := member_inner (us := u_SensorData) 3 rfl
instance : HasMember s_SensorData "lightControlRegulatorKpd" (.type "Coefficient") := member_inner (us := u_SensorData) 3 rfl
instance : HasMember s_SensorData "lightControlRegulatorKpu" (.type "Coefficient") := member_inner (us := u_SensorData) 3 rfl
instance : HasMember s_SensorData "lightControlTimeFade" (.type "TimeMiliseconds24") := member_inner (us := u_SensorData) 3 rfl
instance : HasMember s_SensorData "lightControlTimeFadeOn" (.type "TimeMiliseconds24") := member_inner (us := u_SensorData) 3 rfl
instance : HasMember s_SensorData "lightControlTimeFadeStandbyAuto" (.type "TimeMiliseconds24") := member_inner (us := u_SensorData) 3 rfl
instance : HasMember s_SensorData "lightControlTimeFadeStandbyManual" (.type "TimeMiliseconds24") := member_inner (us := u_SensorData) 3 rfl
instance : HasMember s_SensorData "lightControlTimeOccupancyDelay" (.type "TimeMiliseconds24") := member_inner (us := u_SensorData) 3 rfl
instance : HasMember s_SensorData "lightControlTimeProlong" (.type "TimeMiliseconds24") := member_inner (us := u_SensorData) 3 rfl
instance : HasMember s_SensorData "lightControlTimeRunOn" (.type "TimeMiliseconds24") := member_inner (us := u_SensorData) 3 rfl
instance : HasMember s_SensorData "lumenMaintenanceFactor" (.type "Percentage8") := member_inner (us := u_SensorData) 3 rfl
instance : HasMember s_SensorData "luminousEfficacy" (.type "LuminousEfficacy") := member_inner (us := u_SensorData) 3 rfl
instance : HasMember s_SensorData "luminousEnergySinceTurnOn" (.type "LuminousEnergy") := member_inner (us := u_SensorData) 3 rfl
instance : HasMember s_SensorData "luminousExposure" (.type "LuminousExposure") := member_inner (us := u_SensorData) 3 rfl
instance : HasMember s_SensorData "luminousFluxRange" (.type "LuminousFluxRange") := member_inner (us := u_SensorData) 3 rfl
instance : HasMember s_SensorData "motionSensed" (.type "Percentage8") := member_inner (us := u_SensorData) 3 rfl
instance : HasMember s_SensorData "motionThreshold" (.type "Percentage8") := member_inner (us := u_SensorData) 3 rfl
instance : HasMember s_SensorData "openCircuitEventStatistics" (.type "EventStatistics") := member_inner (us := u_SensorData) 3 rfl
instance : HasMember s_SensorData "outdoorStatisticalValues" (.type "Temperature8Statistics") := member_inner (us := u_SensorData) 3 rfl
instance : HasMember s_SensorData "outputCurrentRange" (.type "ElectricCurrentRange") := member_inner (us := u_SensorData) 3 rfl
instance : HasMember s_SensorData "outputCurrentStatistics" (.type "ElectricCurrentStatistics") := member_inner (us := u_SensorData) 3 rfl
instance : HasMember s_SensorData "outputRippleVoltageSpecification" (.type "Percentage8") := member_inner (us := u_SensorData) 3 rfl
instance : HasMember s_SensorData "outputVoltageRange" (.type "VoltageRange") := member_inner (us := u_SensorData) 3 rfl
instance : HasMember s_SensorData "outputVoltageStatistics" (.type "VoltageStatistics") := member_inner (us := u_SensorData) 3 rfl
instance : HasMember s_SensorData "overOutputRippleVoltageEventStatistics" (.type "EventStatistics") := member_inner (us := u_SensorData) 3 rfl
instance : HasMember s_SensorData "peopleCount" (.type "Count16") := member_inner (us := u_SensorData) 3 rfl
instance : HasMember s_SensorData "presenceDetected" (.type "Presence") := member_inner (us := u_SensorData) 3 rfl
instance : HasMember s_SensorData "presentAmbientLightLevel" (.type "Illuminance") := member_inner (us := u_SensorData) 3 rfl
instance : HasMember s_SensorData "presentAmbientTemperature" (.type "Temperature8") := member_inner (us := u_SensorData) 3 rfl
instance : HasMember s_SensorData "presentCie1931ChromaticityCoordinates" (.type "ChromaticityCoordinates") := member_inner (us := u_SensorData) 3 rfl
instance : HasMember s_SensorData "presentCorrelatedColorTemperature" (.type "CorrelatedColorTemperature") := member_inner (us := u_SensorData) 3 rfl
instance : HasMember s_SensorData "presentDeviceInputPower" (.type "Power") := member_inner (us := u_SensorData) 3 rfl
instance : HasMember s_SensorData "presentDeviceOperatingEfficiency" (.type "Percentage8") := member_inner (us := u_SensorData) 3 rfl
instance : HasMember s_SensorData "presentDeviceOperatingTemperature" (.type "Temperature") := member_inner (us := u_SensorData) 3 rfl
instance : HasMember s_SensorData "presentIlluminance" (.type "Illuminance") := member_inner (us := u_SensorData) 3 rfl
instance : HasMember s_SensorData "presentIndoorAmbientTemperature" (.type "Temperature8") := member_inner (us := u_SensorData) 3 rfl
instance : HasMember s_SensorData "presentInputCurrent" (.type "ElectricCurrent") := member_inner (us := u_SensorData) 3 rfl
instance : HasMember s_SensorData "presentInputRippleVoltage" (.type "Percentage8") := member_inner (us := u_SensorData) 3 rfl
instance : HasMember s_SensorData "presentInputVoltage" (.type "Voltage") := member_inner (us := u_SensorData) 3 rfl
instance : HasMember s_SensorData "presentLuminousFlux" (.type "LuminousFlux") := member_inner (us := u_SensorData) 3 rfl
instance : HasMember s_SensorData "presentOutdoorAmbientTemperature" (.type "Temperature8") := member_inner (us := u_SensorData) 3 rfl
instance : HasMember s_SensorData "presentOutputCurrent" (.type "ElectricCurrent") := member_inner (us := u_SensorData) 3 rfl
instance : HasMember s_SensorData "presentOutputVoltage" (.type "Voltage") := member_inner (us := u_SensorData) 3 rfl
instance : HasMember s_SensorData "presentPlanckianDistance" (.type "ChromaticDistanceFromPlanckian") := member_inner (us := u_SensorData) 3 rfl
instance : HasMember s_SensorData "presentRelativeOutputRippleVoltage" (.type "Percentage8") := member_inner (us := u_SensorData) 3 rfl
instance : HasMember s_SensorData "relativeDeviceEnergyUseInAPeriodOfDay" (.type "EnergyInAPeriodOfDay") := member_inner (us := u_SensorData) 3 rfl
instance : HasMember s_SensorData "relativeDeviceRuntimeInAGenericLevelRange" (.type "RelativeRuntimeInAGenericLevelRange") := member_inner (us := u_SensorData) 3 rfl
instance : HasMember s_SensorData "relativeExposureTimeInAnIlluminanceRange" (.type "RelativeValueInAnIlluminanceRange") := member_inner (us := u_SensorData) 3 rfl
instance : HasMember s_SensorData "relativeRuntimeInACorrelatedColorTemperatureRange" (.type "LuminousEnergy") := member_inner (us := u_SensorData) 3 rfl
instance : HasMember s_SensorData "relativeRuntimeInADeviceOperatingTemperatureRange" (.type "RelativeValueInATemperatureRange") := member_inner (us := u_SensorData) 3 rfl
instance : HasMember s_SensorData "relativeRuntimeInAnInputCurrentRange" (.type "RelativeValueInACurrentRange") := member_inner (us := u_SensorData) 3 rfl
instance : HasMember s_SensorData "relativeRuntimeInAnInputVoltageRange" (.type "RelativeValueInAVoltageRange") := member_inner (us := u_SensorData) 3 rfl
instance : HasMember s_SensorData "shortCircuitEventStatistics" (.type "EventStatistics") := member_inner (us := u_SensorData) 3 rfl
instance : HasMember s_SensorData "timeSinceMotionSensed" (.type "TimeSecond16") := member_inner (us := u_SensorData) 3 rfl
instance : HasMember s_SensorData "timeSincePresenceDetected" (.type "TimeSecond16") := member_inner (us := u_SensorData) 3 rfl
instance : HasMember s_SensorData "totalDeviceEnergyUse" (.type "Energy") := member_inner (us := u_SensorData) 3 rfl
instance : HasMember s_SensorData "totalDeviceOffOnCycles" (.type "Count24") := member_inner (us := u_SensorData) 3 rfl
instance : HasMember s_SensorData "totalDevicePowerOnCycles" (.type "Count24") := member_inner (us := u_SensorData) 3 rfl
instance : HasMember s_SensorData "totalDevicePowerOnTime" (.type "TimeHour24") := member_inner (us := u_SensorData) 3 rfl
instance : HasMember s_SensorData "totalDeviceRuntime" (.type "TimeHour24") := member_inner (us := u_SensorData) 3 rfl
instance : HasMember s_SensorData "totalLightExposureTime" (.type "TimeHour24") := member_inner (us := u_SensorData) 3 rfl
instance : HasMember s_SensorData "totalLuminousEnergy" (.type "LuminousEnergy") := member_inner (us := u_SensorData) 3 rfl
instance : HasMember s_SensorData "preciseTotalDeviceEnergyUse" (.type "PreciseEnergy") := member_inner (us := u_SensorData) 3 rfl
instance : HasMember s_SensorData "powerFactor" (.type "CosineOfTheAngle") := member_inner (us := u_SensorData) 3 rfl
instance : HasMember s_SensorData "externalSupplyVoltage" (.type "HighVoltage") := member_inner (us := u_SensorData) 3 rfl
instance : HasMember s_SensorData "externalSupplyVoltageFrequency" (.type "VoltageFrequency") := member_inner (us := u_SensorData) 3 rfl
instance : HasMember s_SensorData "lightDistribution" (.type "LightDistribution") := member_inner (us := u_SensorData) 3 rfl
instance : HasMember s_SensorData "lightSourceCurrent" (.type "AverageCurrent") := member_inner (us := u_SensorData) 3 rfl
instance : HasMember s_SensorData "lightSourceOnTimeNotResettable" (.type "TimeSecond32") := member_inner (us := u_SensorData) 3 rfl
instance : HasMember s_SensorData "lightSourceOnTimeResettable" (.type "TimeSecond32") := member_inner (us := u_SensorData) 3 rfl
instance : HasMember s_SensorData "lightSourceOpenCircuitStatistics" (.type "EventStatistics") := member_inner (us := u_SensorData) 3 rfl
instance : HasMember s_SensorData "lightSourceOverallFailuresStatistics" (.type "EventStatistics") := member_inner (us := u_SensorData) 3 rfl
instance : HasMember s_SensorData "lightSourceShortCircuitStatistics" (.type "EventStatistics") := member_inner (us := u_SensorData) 3 rfl
instance : HasMember s_SensorData "lightSourceStartCounterResettable" (.type "Count24") := member_inner (us := u_SensorData) 3 rfl
instance : HasMember s_SensorData "lightSourceTemperature" (.type "HighTemperature") := member_inner (us := u_SensorData) 3 rfl
instance : HasMember s_SensorData "lightSourceThermalDeratingStatistics" (.type "EventStatistics") := member_inner (us := u_SensorData) 3 rfl
instance : HasMember s_SensorData "lightSourceThermalShutdownStatistics" (.type "EventStatistics") := member_inner (us := u_SensorData) 3 rfl
instance : HasMember s_SensorData "lightSourceTotalPowerOnCycles" (.type "Count24") := member_inner (us := u_SensorData) 3 rfl
instance : HasMember s_SensorData "lightSourceVoltage" (.type "AverageVoltage") := member_inner (us := u_SensorData) 3 rfl
instance : HasMember s_SensorData "luminaireColor" (.type "Text") := member_inner (us := u_SensorData) 3 rfl
instance : HasMember s_SensorData "luminaireIdentificationNumber" (.type "Text") := member_inner (us := u_SensorData) 3 rfl
instance : HasMember s_SensorData "luminaireNominalInputPower" (.type "Power") := member_inner (us := u_SensorData) 3 rfl
instance : HasMember s_SensorData "luminaireNominalMaximumAcMainsVoltage" (.type "Voltage") := member_inner (us := u_SensorData) 3 rfl
instance : HasMember s_SensorData "luminaireNominalMinimumAcMainsVoltage" (.type "Voltage") := member_inner (us := u_SensorData) 3 rfl
instance : HasMember s_SensorData "luminairePowerAtMinimumDimLevel" (.type "Power") := member_inner (us := u_SensorData) 3 rfl
instance : HasMember s_SensorData "luminaireTimeOfManufacture" (.type "DateUTC") := member_inner (us := u_SensorData) 3 rfl
instance : HasMember s_SensorData "nominalLightOutput" (.type "LightOutput") := member_inner (us := u_SensorData) 3 rfl
instance : HasMember s_SensorData "overallFailureCondition" (.type "EventStatistics") := member_inner (us := u_SensorData) 3 rfl
instance : HasMember s_SensorData "ratedMedianUsefulLifeOfLuminaire" (.type "TimeHour24") := member_inner (us := u_SensorData) 3 rfl
instance : HasMember s_SensorData "ratedMedianUsefulLightSourceStarts" (.type "Count24") := member_inner (us := u_SensorData) 3 rfl
instance : HasMember s_SensorData "referenceTemperature" (.type "HighTemperature") := member_inner (us := u_SensorData) 3 rfl
instance : HasMember s_SensorData "totalDeviceStarts" (.type "Count24") := member_inner (us := u_SensorData) 3 rfl
instance : HasMember s_SensorData "luminaireIdentificationString" (.type "Text") := member_inner (us := u_SensorData) 3 rfl
instance : HasMember s_SensorData "outputPowerLimitation" (.type "EventStatistics") := member_inner (us := u_SensorData) 3 rfl
instance : HasMember s_SensorData "thermalDerating" (.type "EventStatistics") := member_inner (us := u_SensorData) 3 rfl
instance : HasMember s_SensorData "outputCurrentPercent" (.type "Percentage8") := member_inner (us := u_SensorData) 3 rfl
instance : HasMember s_SensorData "luminaireManufacturerGtin" (.type "GlobalTradeItemNumber") := member_inner (us := u_SensorData) 3 rfl
instance : HasMember s_SensorData "apparentEnergy" (.type "ApparentEnergy32") := member_inner (us := u_SensorData) 3 rfl
instance : HasMember s_SensorData "apparentPower" (.type "ApparentPower") := member_inner (us := u_SensorData) 3 rfl
instance : HasMember s_SensorData "activeEnergyLoadSide" (.type "Energy32") := member_inner (us := u_SensorData) 3 rfl
instance : HasMember s_SensorData "activePowerLoadSide" (.type "Power") := member_inner (us := u_SensorData) 3 rfl
instance : HasMember s_SensorData "lightSourceType" (.type "LightSourceType") := member_inner (us := u_SensorData) 3 rfl
instance : HasMember s_SensorData "desiredAmbientTemperature" (.type "Temperature8") := member_inner (us := u_SensorData) 3 rfl
instance : HasMember s_SensorData "sensorGain" (.type "Coefficient") := member_inner (us := u_SensorData) 3 rfl
instance : HasMember s_SensorData "precisePresentAmbientTemperature" (.type "Temperature") := member_inner (us := u_SensorData) 3 rfl
instance : HasMember s_SensorData "sensorSettingRaw" (.type "List(UInt8)") := member_inner (us := u_SensorData) 3 rfl
instance : IsPlain "Temperature8InAPeriodOfDay" s_Temperature8InAPeriodOfDay := isPlain 190 rfl rfl
instance : HasMember s_Temperature8InAPeriodOfDay "temperature" (.type "Float64") := member_field 0 rfl
instance : HasMember s_Temperature8InAPeriodOfDay "startTime" (.type "TimeDecihour8") := member_field 1 rfl
instance : HasMember s_Temperature8InAPeriodOfDay "endTime" (.type "TimeDecihour8") := member_field 2 rfl
instance : IsPlain "TimeDecihour8" s_TimeDecihour8 := isPlain 191 rfl rfl
instance : HasMember s_TimeDecihour8 "hour" (.type "Float64") := member_field 0 rfl
instance : IsPlain "AverageCurrent" s_AverageCurrent := isPlain 192 rfl rfl
instance : HasMember s_AverageCurrent "electricCurrentValue" (.type "Float64") := member_field 0 rfl
instance : HasMember s_AverageCurrent "sensingDuration" (.type "TimeExponential8") := member_field 1 rfl
instance : IsPlain "TimeExponential8" s_TimeExponential8 := isPlain 193 rfl rfl
instance : HasMember s_TimeExponential8 "seconds" (.type "Float32") := member_field 0 rfl
instance : IsPlain "AverageVoltage" s_AverageVoltage := isPlain 194 rfl rfl
instance : HasMember s_AverageVoltage "voltageValue" (.type "Float64") := member_field 0 rfl
instance : HasMember s_AverageVoltage "sensingDuration" (.type "TimeExponential8") := member_field 1 rfl
instance : IsPlain "LuminousIntensity" s_LuminousIntensity := isPlain 195 rfl rfl
instance : HasMember s_LuminousIntensity "luminousIntensity" (.type "Float64") := member_field 0 rfl
instance : IsPlain "ChromaticityTolerance" s_ChromaticityTolerance := isPlain 196 rfl rfl
instance : HasMember s_ChromaticityTolerance "chromaticityTolerance" (.type "Float64") := member_field 0 rfl
instance : IsPlain "ColorRenderingIndex" s_ColorRenderingIndex := isPlain 197 rfl rfl
instance : HasMember s_ColorRenderingIndex "colorRenderingIndex" (.type "Float64") := member_field 0 rfl
instance : IsPlain "Appearance" s_Appearance := isPlain 198 rfl rfl
instance : HasMember s_Appearance "category" (.type "UInt16") := member_field 0 rfl
instance : HasMember s_Appearance "subCategory" (.type "UInt8") := member_field 1 rfl
instance : IsPlain "CountryCode" s_CountryCode := isPlain 199 rfl rfl
instance : HasMember s_CountryCode "countryCode" (.type "Float64") := member_field 0 rfl
instance : IsPlain "DateUTC" s_DateUTC := isPlain 200 rfl rfl
instance : HasMember s_DateUTC "date" (.type "GenericPropertyMessageParams") := member_field 0 rfl
instance : IsPlain "SensorMessageParams" s_SensorMessageParams := isPlain 201 rfl rfl
instance : HasMember s_SensorMessageParams "year" (.type "UInt16") := member_field 0 rfl
instance : HasMember s_SensorMessageParams "month" (.type "UInt8") := member_field 1 rfl
instance : HasMember s_SensorMessageParams "day" (.type "UInt8") := member_field 2 rfl
instance : IsPlain "Energy" s_Energy := isPlain 202 rfl rfl
instance : HasMember s_Energy "energy" (.type "Float64") := member_field 0 rfl
instance : IsPlain "GlobalTradeItemNumber" s_GlobalTradeItemNumber := isPlain 203 rfl rfl
instance : HasMember s_GlobalTradeItemNumber "globalTradeItemNumber" (.type "UInt64") := member_field 0 rfl
instance : IsPlain "TemperatureRange" s_TemperatureRange := isPlain 204 rfl rfl
instance : HasMember s_TemperatureRange "minimumTemperature" (.type "Float64") := member_field 0 rfl
instance : HasMember s_TemperatureRange "maximumTemperature" (.type "Float64") := member_field 1 rfl
instance : IsPlain "TemperatureStatistics" s_TemperatureStatistics := isPlain 205 rfl rfl
instance : HasMember s_TemperatureStatistics "averageTemperature" (.type "Float64") := member_field 0 rfl
instance : HasMember s_TemperatureStatistics "standardDeviationTemperature" (.type "Float64") := member_field 1 rfl
instance : HasMember s_TemperatureStatistics "minimumTemperature" (.type "Float64") := member_field 2 rfl
instance : HasMember s_TemperatureStatistics "maximumTemperature" (.type "Float64") := member_field 3 rfl
instance : HasMember s_TemperatureStatistics "sensingDuration" (.type "TimeExponential8") := member_field 4 rfl
instance : IsPlain "EventStatistics" s_EventStatistics := isPlain 206 rfl rfl
instance : HasMember s_EventStatistics "numberOfEvents" (.type "Count16") := member_field 0 rfl
instance : HasMember s_EventStatistics "averageEventDuration" (.type "TimeSecond16") := member_field 1 rfl
instance : HasMember s_EventStatistics "timeElapsedSinceLastEvent" (.type "TimeExponential8") := member_field 2 rfl
instance : HasMember s_EventStatistics "sensingDuration" (.type "TimeExponential8") := member_field 3 rfl
instance : IsPlain "Count16" s_Count16 := isPlain 207 rfl rfl
instance : HasMember s_Count16 "count" (.type "Float64") := member_field 0 rfl
instance : IsPlain "TimeSecond16" s_TimeSecond16 := isPlain 208 rfl rfl
instance : HasMember s_TimeSecond16 "seconds" (.type "Float64") := member_field 0 rfl
instance : IsPlain "PowerSpecification" s_PowerSpecification := isPlain 209 rfl rfl
instance : HasMember s_PowerSpecification "minimumPowerValue" (.type "Float64") := member_field 0 rfl
instance : HasMember s_PowerSpecification "typicalPowerValue" (.type "Float64") := member_field 1 rfl
instance : HasMember s_PowerSpecification "maximumPowerValue" (.type "Float64") := member_field 2 rfl
instance : IsPlain "TimeHour24" s_TimeHour24 := isPlain 210 rfl rfl
instance : HasMember s_TimeHour24 "hours" (.type "Float64") := member_field 0 rfl
instance : IsPlain "Temperature8Statistics" s_Temperature8Statistics := isPlain 211 rfl rfl
instance : HasMember s_Temperature8Statistics "averageTemperature" (.type "Float64") := member_field 0 rfl
instance : HasMember s_Temperature8Statistics "standardDeviationTemperature" (.type "Float64") := member_field 1 rfl
instance : HasMember s_Temperature8Statistics "minimumTemperature" (.type "Float64") := member_field 2 rfl
instance : HasMember s_Temperature8Statistics "maximumTemperature" (.type "Float64") := member_field 3 rfl
instance : HasMember s_Temperature8Statistics "sensingDuration" (.type "TimeExponential8") := member_field 4 rfl
instance : IsPlain "ChromaticityCoordinates" s_ChromaticityCoordinates := isPlain 212 rfl rfl
instance : HasMember s_ChromaticityCoordinates "chromaticityXCoordinate" (.type "Float64") := member_field 0 rfl
instance : HasMember s_ChromaticityCoordinates "chromaticityYCoordinate" (.type "Float64") := member_field 1 rfl
instance : IsPlain "CorrelatedColorTemperature" s_CorrelatedColorTemperature := isPlain 213 rfl rfl
instance : HasMember s_CorrelatedColorTemperature "correlatedColorTemperature" (.type "Float64") := member_field 0 rfl
instance : IsPlain "LuminousFlux" s_LuminousFlux := isPlain 214 rfl rfl
instance : HasMember s_LuminousFlux "luminousFlux" (.type "Float64") := member_field 0 rfl
instance : IsPlain "ChromaticDistanceFromPlanckian" s_ChromaticDistanceFromPlanckian := isPlain 215 rfl rfl
instance : HasMember s_ChromaticDistanceFromPlanckian "distanceFromPlanckian" (.type "Float64") := member_field 0 rfl
instance : IsPlain "ElectricCurrentSpecification" s_ElectricCurrentSpecification := isPlain 216 rfl rfl
instance : HasMember s_ElectricCurrentSpecification "minimumElectricCurrentValue" (.type "Float64") := member_field 0 rfl
instance : HasMember s_ElectricCurrentSpecification "typicalElectricCurrentValue" (.type "Float64") := member_field 1 rfl
instance : HasMember s_ElectricCurrentSpecification "maximumElectricCurrentValue" (.type "Float64") := member_field 2 rfl
instance : IsPlain "ElectricCurrentStatistics" s_ElectricCurrentStatistics := isPlain 217 rfl rfl
instance : HasMember s_ElectricCurrentStatistics "averageElectricCurrentValue" (.type "Float64") := member_field 0 rfl
instance : HasMember s_ElectricCurrentStatistics "standardDeviationElectricCurrentValue" (.type "Float64") := member_field 1 rfl
instance : HasMember s_ElectricCurrentStatistics "minimumElectricCurrentValue" (.type "Float64") := member_field 2 rfl
instance : HasMember s_ElectricCurrentStatistics "maximumElectricCurrentValue" (.type "Float64") := member_field 3 rfl
instance : HasMember s_ElectricCurrentStatistics "sensingDuration" (.type "TimeExponential8") := member_field 4 rfl
instance : IsPlain "VoltageRange" s_VoltageRange := isPlain 218 rfl rfl
instance : HasMember s_VoltageRange "minimumVoltageValue" (.type "Float64") := member_field 0 rfl
instance : HasMember s_VoltageRange "typicalVoltageValue" (.type "Float64") := member_field 1 rfl
instance : HasMember s_VoltageRange "maximumVoltageValue" (.type "Float64") := member_field 2 rfl
instance : IsPlain "Percentage8" s_Percentage8 := isPlain 219 rfl rfl
instance : HasMember s_Percentage8 "percentage" (.type "Float64") := member_field 0 rfl
instance : IsPlain "VoltageStatistics" s_VoltageStatistics := isPlain 220 rfl rfl
instance : HasMember s_VoltageStatistics "averageVoltageValue" (.type "Float64") := member_field 0 rfl
instance : HasMember s_VoltageStatistics "standardDeviationVoltageValue" (.type "Float64") := member_field 1 rfl
instance : HasMember s_VoltageStatistics "minimumVoltageValue" (.type "Float64") := member_field 2 rfl
instance : HasMember s_VoltageStatistics "maximumVoltageValue" (.type "Float64") := member_field 3 rfl
instance : HasMember s_VoltageStatistics "sensingDuration" (.type "TimeExponential8") := member_field 4 rfl
instance : IsPlain "Illuminance" s_Illuminance := isPlain 221 rfl rfl
instance : HasMember s_Illuminance "illuminance" (.type "Float64") := member_field 0 rfl
instance : IsPlain "PerceivedLightness" s_PerceivedLightness := isPlain 222 rfl rfl
instance : HasMember s_PerceivedLightness "perceivedLightness" (.type "UInt16") := member_field 0 rfl
instance : IsPlain "Coefficient" s_Coefficient := isPlain 223 rfl rfl
instance : HasMember s_Coefficient "coefficient" (.type "Float64") := member_field 0 rfl
instance : IsPlain "TimeMiliseconds24" s_TimeMiliseconds24 := isPlain 224 rfl rfl
instance : HasMember s_TimeMiliseconds24 "seconds" (.type "Float64") := member_field 0 rfl
instance : IsPlain "LuminousEfficacy" s_LuminousEfficacy := isPlain 225 rfl rfl
instance : HasMember s_LuminousEfficacy "luminousEfficacy" (.type "Float64") := member_field 0 rfl
instance : IsPlain "LuminousEnergy" s_LuminousEnergy := isPlain 226 rfl rfl
instance : HasMember s_LuminousEnergy "luminousEnergy" (.type "Float64") := member_field 0 rfl
instance : IsPlain "LuminousExposure" s_LuminousExposure := isPlain 227 rfl rfl
instance : HasMember s_LuminousExposure "luminousExposure" (.type "Float64") := member_field 0 rfl
instance : IsPlain "LuminousFluxRange" s_LuminousFluxRange := isPlain 228 rfl rfl
instance : HasMember s_LuminousFluxRange "minimumLuminousFlux" (.type "Float64") := member_field 0 rfl
instance : HasMember s_LuminousFluxRange "maximumLuminousFlux" (.type "Float64") := member_field 1 rfl
instance : IsPlain "ElectricCurrentRange" s_ElectricCurrentRange := isPlain 229 rfl rfl
instance : HasMember s_ElectricCurrentRange "minimumElectricCurrentValue" (.type "Float64") := member_field 0 rfl
instance : HasMember s_ElectricCurrentRange "maximumElectricCurrentValue" (.type "Float64") := member_field 1 rfl
instance : IsPlain "Presence" s_Presence := isPlain 230 rfl rfl
instance : HasMember s_Presence "presenceDetected" (.type "Bool") := member_field 0 rfl
instance : IsPlain "Temperature8" s_Temperature8 := isPlain 231 rfl rfl
instance : HasMember s_Temperature8 "temperature" (.type "Float64") := member_field 0 rfl
instance : IsPlain "Power" s_Power := isPlain 232 rfl rfl
instance : HasMember s_Power "power" (.type "Float64") := member_field 0 rfl
instance : IsPlain "Temperature" s_Temperature := isPlain 233 rfl rfl
instance : HasMember s_Temperature "temperature" (.type "Float64") := member_field 0 rfl
instance : IsPlain "ElectricCurrent" s_ElectricCurrent := isPlain 234 rfl rfl
instance : HasMember s_ElectricCurrent "current" (.type "Float64") := member_field 0 rfl
instance : IsPlain "Voltage" s_Voltage := isPlain 235 rfl rfl
instance : HasMember s_Voltage "voltage" (.type "Float64") := member_field 0 rfl
instance : IsPlain "EnergyInAPeriodOfDay" s_EnergyInAPeriodOfDay := isPlain 236 rfl rfl
instance : HasMember s_EnergyInAPeriodOfDay "energyValue" (.type "Float64") := member_field 0 rfl
instance : HasMember s_EnergyInAPeriodOfDay "startTime" (.type "TimeDecihour8") := member_field 1 rfl
instance : HasMember s_EnergyInAPeriodOfDay "endTime" (.type "TimeDecihour8") := member_field 2 rfl
instance : IsPlain "RelativeRuntimeInAGenericLevelRange" s_RelativeRuntimeInAGenericLevelRange := isPlain 237 rfl rfl
instance : HasMember s_RelativeRuntimeInAGenericLevelRange "relativeValue" (.type "Float64") := member_field 0 rfl
instance : HasMember s_RelativeRuntimeInAGenericLevelRange "minimumGenericLevel" (.type "Float64") := member_field 1 rfl
instance : HasMember s_RelativeRuntimeInAGenericLevelRange "maximumGenericLevel" (.type "Float64") := member_field 2 rfl
instance : IsPlain "RelativeValueInAnIlluminanceRange" s_RelativeValueInAnIlluminanceRange := isPlain 238 rfl rfl
instance : HasMember s_RelativeValueInAnIlluminanceRange "relativeValue" (.type "Float64") := member_field 0 rfl
instance : HasMember s_RelativeValueInAnIlluminanceRange "minimumIlluminance" (.type "Float64") := member_field 1 rfl
instance : HasMember s_RelativeValueInAnIlluminanceRange "maximumIlluminance" (.type "Float64") := member_field 2 rfl
instance : IsPlain "RelativeValueInATemperatureRange" s_RelativeValueInATemperatureRange := isPlain 239 rfl rfl
instance : HasMember s_RelativeValueInATemperatureRange "relativeValue" (.type "Float64") := member_field 0 rfl
instance : HasMember s_RelativeValueInATemperatureRange "minimumTemperature" (.type "Float64") := member_field 1 rfl
instance : HasMember s_RelativeValueInATemperatureRange "maximumTemperature" (.type "Float64") := member_field 2 rfl
instance : IsPlain "RelativeValueInACurrentRange" s_RelativeValueInACurrentRange := isPlain 240 rfl rfl
instance : HasMember s_RelativeValueInACurrentRange "relativeValue" (.type "Float64") := member_field 0 rfl
instance : HasMember s_RelativeValueInACurrentRange "minimumCurrent" (.type "Float64") := member_field 1 rfl
instance : HasMember s_RelativeValueInACurrentRange "maximumCurrent" (.type "Float64") := member_field 2 rfl
instance : IsPlain "RelativeValueInAVoltageRange" s_RelativeValueInAVoltageRange := isPlain 241 rfl rfl
instance : HasMember s_RelativeValueInAVoltageRange "relativeValue" (.type "Float64") := member_field 0 rfl
instance : HasMember s_RelativeValueInAVoltageRange "minimumVoltage" (.type "Float64") := member_field 1 rfl
instance : HasMember s_RelativeValueInAVoltageRange "maximumVoltage" (.type "Float64") := member_field 2 rfl
instance : IsPlain "Count24" s_Count24 := isPlain 242 rfl rfl
instance : HasMember s_Count24 "count" (.type "Float64") := member_field 0 rfl
instance : IsPlain "PreciseEnergy" s_PreciseEnergy := isPlain 243 rfl rfl
instance : HasMember s_PreciseEnergy "energy" (.type "Float64") := member_field 0 rfl
instance : IsPlain "CosineOfTheAngle" s_CosineOfTheAngle := isPlain 244 rfl rfl
instance : HasMember s_CosineOfTheAngle "cosineOfTheAngle" (.type "Int8") := member_field 0 rfl
instance : IsPlain "HighVoltage" s_HighVoltage := isPlain 245 rfl rfl
instance : HasMember s_HighVoltage "highVoltage" (.type "Float64") := member_field 0 rfl
instance : IsPlain "VoltageFrequency" s_VoltageFrequency := isPlain 246 rfl rfl
instance : HasMember s_VoltageFrequency "voltageFrequency" (.type "UInt16") := member_field 0 rfl
instance : IsPlain "LightDistribution" s_LightDistribution := isPlain 247 rfl rfl
instance : HasMember s_LightDistribution "lightDistribution" (.type "UInt8") := member_field 0 rfl
instance : IsPlain "TimeSecond32" s_TimeSecond32 := isPlain 248 rfl rfl
instance : HasMember s_TimeSecond32 "seconds" (.type "Float64") := member_field 0 rfl
instance : IsPlain "HighTemperature" s_HighTemperature := isPlain 249 rfl rfl
instance : HasMember s_HighTemperature "temperature" (.type "Float64") := member_field 0 rfl
instance : IsPlain "LightOutput" s_LightOutput := isPlain 250 rfl rfl
instance : HasMember s_LightOutput "lightOutput" (.type "Float64") := member_field 0 rfl
instance : IsPlain "ApparentEnergy32" s_ApparentEnergy32 := isPlain 251 rfl rfl
instance : HasMember s_ApparentEnergy32 "energy" (.type "Float64") := member_field 0 rfl
instance : IsPlain "ApparentPower" s_ApparentPower := isPlain 252 rfl rfl
instance : HasMember s_ApparentPower "power" (.type "Float64") := member_field 0 rfl
instance : IsPlain "Energy32" s_Energy32 := isPlain 253 rfl rfl
instance : HasMember s_Energy32 "energy" (.type "Float64") := member_field 0 rfl
instance : IsPlain "LightSourceType" s_LightSourceType := isPlain 254 rfl rfl
instance : HasMember s_LightSourceType "lightSourceType" (.type "UInt8") := member_field 0 rfl
instance : IsPlain "SensorSettingsGet" s_SensorSettingsGet := isPlain 255 rfl rfl
instance : HasMember s_SensorSettingsGet "sensorPropertyId" (.type "UInt16") := member_field 0 rfl
instance : IsPlain "SensorSettingsStatus" s_SensorSettingsStatus := isPlain 256 rfl rfl
instance : HasMember s_SensorSettingsStatus "sensorPropertyId" (.type "UInt16") := member_field 0 rfl
instance : HasMember s_SensorSettingsStatus "sensorSettingPropertyIds" (.type "List(UInt16)") := member_field 1 rfl
instance : IsPlain "SensorSettingGet" s_SensorSettingGet := isPlain 257 rfl rfl
instance : HasMember s_SensorSettingGet "sensorPropertyId" (.type "UInt16") := member_field 0 rfl
instance : HasMember s_SensorSettingGet "sensorSettingPropertyId" (.type "UInt16") := member_field 1 rfl
instance : IsUnion "SensorSettingSet" s_SensorSettingSet u_SensorSettingSet := isUnion 258 rfl rfl
instance : HasMember s_SensorSettingSet "sensorPropertyId" (.type "UInt16") := member_field 0 rfl
instance : HasMember s_SensorSettingSet "sensorSettingPropertyId" (.type "UInt16") := member_field 1 rfl
instance : HasMember u_SensorSettingSet "averageAmbientTemperatureInAPeriodOfDay" (.type "Temperature8InAPeriodOfDay") := member_field 0 rfl
instance : HasMember u_SensorSettingSet "averageInputCurrent" (.type "AverageCurrent") := member_field 1 rfl
instance : HasMember u_SensorSettingSet "averageInputVoltage" (.type "AverageVoltage") := member_field 2 rfl
instance : HasMember u_SensorSettingSet "averageOutputCurrent" (.type "AverageCurrent") := member_field 3 rfl
instance : HasMember u_SensorSettingSet "averageOutputVoltage" (.type "AverageVoltage") := member_field 4 rfl
instance : HasMember u_SensorSettingSet "centerBeamIntensityAtFullPower" (.type "LuminousIntensity") := member_field 5 rfl
instance : HasMember u_SensorSettingSet "chromaticityTolerance" (.type "ChromaticityTolerance") := member_field 6 rfl
instance : HasMember u_SensorSettingSet "colorRenderingIndexR9" (.type "ColorRenderingIndex") := member_field 7 rfl
instance : HasMember u_SensorSettingSet "colorRenderingIndexRa" (.type "ColorRenderingIndex") := member_field 8 rfl
instance : HasMember u_SensorSettingSet "deviceAppearance" (.type "Appearance") := member_field 9 rfl
instance : HasMember u_SensorSettingSet "deviceCountryOfOrigin" (.type "CountryCode") := member_field 10 rfl
instance : HasMember u_SensorSettingSet "deviceDateOfManufacture" (.type "DateUTC") := member_field 11 rfl
instance : HasMember u_SensorSettingSet "deviceEnergyUseSinceTurnOn" (.type "Energy") := member_field 12 rfl
instance : HasMember u_SensorSettingSet "deviceFirmwareRevision" (.type "Text") := member_field 13 rfl
instance : HasMember u_SensorSettingSet "deviceGlobalTradeItemNumber" (.type "GlobalTradeItemNumber") := member_field 14 rfl
instance : HasMember u_SensorSettingSet "deviceHardwareRevision" (.type "Text") := member_field 15 rfl
instance : HasMember u_SensorSettingSet "deviceManufacturerName" (.type "Text") := member_field 16 rfl
instance : HasMember u_SensorSettingSet "deviceModelNumber" (.type "Text") := member_field 17 rfl
instance : HasMember u_SensorSettingSet "deviceOperatingTemperatureRangeSpecification" (.type "TemperatureRange") := member_field 18 rfl
instance : HasMember u_SensorSettingSet "deviceOperatingTemperatureStatisticalValues" (.type "TemperatureStatistics") := member_field 19 rfl
instance : HasMember u_SensorSettingSet "deviceOverTemperatureEventStatistics" (.type "EventStatistics") := member_field 20 rfl
instance : HasMember u_SensorSettingSet "devicePowerRangeSpecification" (.type "PowerSpecification") := member_field 21 rfl
instance : HasMember u_SensorSettingSet "deviceRuntimeSinceTurnOn" (.type "TimeHour24") := member_field 22 rfl
instance : HasMember u_SensorSettingSet "deviceRuntimeWarranty" (.type "TimeHour24") := member_field 23 rfl
instance : HasMember u_SensorSettingSet "deviceSerialNumber" (.type "Text") := member_field 24 rfl
instance : HasMember u_SensorSettingSet "deviceSoftwareRevision" (.type "Text") := member_field 25 rfl
instance : HasMember u_SensorSettingSet "deviceUnderTemperatureEventStatistics" (.type "EventStatistics") := member_field 26 rfl
instance : HasMember u_SensorSettingSet "indoorAmbientTemperatureStatisticalValues" (.type "Temperature8Statistics") := member_field 27 rfl
instance : HasMember u_SensorSettingSet "initialCie1931ChromaticityCoordinates" (.type "ChromaticityCoordinates") := member_field 28 rfl
instance : HasMember u_SensorSettingSet "initialCorrelatedColorTemperature" (.type "CorrelatedColorTemperature") := member_field 29 rfl
instance : HasMember u_SensorSettingSet "initialLuminousFlux" (.type "LuminousFlux") := member_field 30 rfl
instance : HasMember u_SensorSettingSet "initialPlanckianDistance" (.type "ChromaticDistanceFromPlanckian") := member_field 31 rfl
instance : HasMember u_SensorSettingSet "inputCurrentRangeSpecification" (.type "ElectricCurrentSpecification") := member_field 32 rfl
instance : HasMember u_SensorSettingSet "inputCurrentStatistics" (.type "ElectricCurrentStatistics") := member_field 33 rfl
instance : HasMember u_SensorSettingSet "inputOverCurrentEventStatistics" (.type "EventStatistics") := member_field 34 rfl
instance : HasMember u_SensorSettingSet "inputOverRippleVoltageEventStatistics" (.type "EventStatistics") := member_field 35 rfl
instance : HasMember u_SensorSettingSet "inputOverVoltageEventStatistics" (.type "EventStatistics") := member_field 36 rfl
instance : HasMember u_SensorSettingSet "inputUnderCurrentEventStatistics" (.type "EventStatistics") := member_field 37 rfl
instance : HasMember u_SensorSettingSet "inputUnderVoltageEventStatistics" (.type "EventStatistics") := member_field 38 rfl
instance : HasMember u_SensorSettingSet "inputVoltageRangeSpecification" (.type "VoltageRange") := member_field 39 rfl
instance : HasMember u_SensorSettingSet "inputVoltageRippleSpecification" (.type "Percentage8") := member_field 40 rfl
instance : HasMember u_SensorSettingSet "inputVoltageStatistics" (.type "VoltageStatistics") := member_field 41 rfl
instance : HasMember u_SensorSettingSet "lightControlAmbientLuxlevelOn" (.type "Illuminance") := member_field 42 rfl
instance : HasMember u_SensorSettingSet "lightControlAmbientLuxlevelProlong" (.type "Illuminance") := member_field 43 rfl
instance : HasMember u_SensorSettingSet "lightControlAmbientLuxlevelStandby" (.type "Illuminance") := member_field 44 rfl
instance : HasMember u_SensorSettingSet "lightControlLightnessOn" (.type "PerceivedLightness") := member_field 45 rfl
instance : HasMember u_SensorSettingSet "lightControlLightnessProlong" (.type "PerceivedLightness") := member_field 46 rfl
instance : HasMember u_SensorSettingSet "lightControlLightnessStandby" (.type "PerceivedLightness") := member_field 47 rfl
instance : HasMember u_SensorSettingSet "lightControlRegulatorAccuracy" (.type "Percentage8") := member_field 48 rfl
instance : HasMember u_SensorSettingSet "lightControlRegulatorKid" (.type "Coefficient") := member_field 49 rfl
instance : HasMember u_SensorSettingSet "lightControlRegulatorKiu" (.type "Coefficient") := member_field 50 rfl
instance : HasMember u_SensorSettingSet "lightControlRegulatorKpd" (.type "Coefficient") := member_field 51 rfl
instance : HasMember u_SensorSettingSet "lightControlRegulatorKpu" (.type "Coefficient") := member_field 52 rfl
instance : HasMember u_SensorSettingSet "lightControlTimeFade" (.type "TimeMiliseconds24") := member_field 53 rfl
instance : HasMember u_SensorSettingSet "lightControlTimeFadeOn" (.type "TimeMiliseconds24") := member_field 54 rfl
instance : HasMember u_SensorSettingSet "lightControlTimeFadeStandbyAuto" (.type "TimeMiliseconds24") := member_field 55 rfl
instance : HasMember u_SensorSettingSet "lightControlTimeFadeStandbyManual" (.type "TimeMiliseconds24") := member_field 56 rfl
instance : HasMember u_SensorSettingSet "lightControlTimeOccupancyDelay" (.type "TimeMiliseconds24") := member_field 57 rfl
instance : HasMember u_SensorSettingSet "lightControlTimeProlong" (.type "TimeMiliseconds24") := member_field 58 rfl
instance : HasMember u_SensorSettingSet "lightControlTimeRunOn" (.type "TimeMiliseconds24") := member_field 59 rfl
instance : HasMember u_SensorSettingSet "lumenMaintenanceFactor" (.type "Percentage8") := member_field 60 rfl
instance : HasMember u_SensorSettingSet "luminousEfficacy" (.type "LuminousEfficacy") := member_field 61 rfl
instance : HasMember u_SensorSettingSet "luminousEnergySinceTurnOn" (.type "LuminousEnergy") := member_field 62 rfl
instance : HasMember u_SensorSettingSet "luminousExposure" (.type "LuminousExposure") := member_field 63 rfl
instance : HasMember u_SensorSettingSet "luminousFluxRange" (.type "LuminousFluxRange") := member_field 64 rfl
instance : HasMember u_SensorSettingSet "motionSensed" (.type "Percentage8") := member_field 65 rfl
instance : HasMember u_SensorSettingSet "motionThreshold" (.type "Percentage8") := member_field 66 rfl
instance : HasMember u_SensorSettingSet "openCircuitEventStatistics" (.type "EventStatistics") := member_field 67 rfl
instance : HasMember u_SensorSettingSet "outdoorStatisticalValues" (.type "Temperature8Statistics") := member_field 68 rfl
instance : HasMember u_SensorSettingSet "outputCurrentRange" (.type "ElectricCurrentRange") := member_field 69 rfl
instance : HasMember u_SensorSettingSet "outputCurrentStatistics" (.type "ElectricCurrentStatistics") := member_field 70 rfl
instance : HasMember u_SensorSettingSet "outputRippleVoltageSpecification" (.type "Percentage8") := member_field 71 rfl
instance : HasMember u_SensorSettingSet "outputVoltageRange" (.type "VoltageRange") := member_field 72 rfl
instance : HasMember u_SensorSettingSet "outputVoltageStatistics" (.type "VoltageStatistics") := member_field 73 rfl
instance : HasMember u_SensorSettingSet "overOutputRippleVoltageEventStatistics" (.type "EventStatistics") := member_field 74 rfl
instance : HasMember u_SensorSettingSet "peopleCount" (.type "Count16") := member_field 75 rfl
instance : HasMember u_SensorSettingSet "presenceDetected" (.type "Presence") := member_field 76 rfl
instance : HasMember u_SensorSettingSet "presentAmbientLightLevel" (.type "Illuminance") := member_field 77 rfl
instance : HasMember u_SensorSettingSet "presentAmbientTemperature" (.type "Temperature8") := member_field 78 rfl
instance : HasMember u_SensorSettingSet "presentCie1931ChromaticityCoordinates" (.type "ChromaticityCoordinates") := member_field 79 rfl
instance : HasMember u_SensorSettingSet "presentCorrelatedColorTemperature" (.type "CorrelatedColorTemperature") := member_field 80 rfl
instance : HasMember u_SensorSettingSet "presentDeviceInputPower" (.type "Power") := member_field 81 rfl
instance : HasMember u_SensorSettingSet "presentDeviceOperatingEfficiency" (.type "Percentage8") := member_field 82 rfl
instance : HasMember u_SensorSettingSet "presentDeviceOperatingTemperature" (.type "Temperature") := member_field 83 rfl
instance : HasMember u_SensorSettingSet "presentIlluminance" (.type "Illuminance") := member_field 84 rfl
instance : HasMember u_SensorSettingSet "presentIndoorAmbientTemperature" (.type "Temperature8") := member_field 85 rfl
instance : HasMember u_SensorSettingSet "presentInputCurrent" (.type "ElectricCurrent") := member_field 86 rfl
instance : HasMember u_SensorSettingSet "presentInputRippleVoltage" (.type "Percentage8") := member_field 87 rfl
instance : HasMember u_SensorSettingSet "presentInputVoltage" (.type "Voltage") := member_field 88 rfl
instance : HasMember u_SensorSettingSet "presentLuminousFlux" (.type "LuminousFlux") := member_field 89 rfl
instance : HasMember u_SensorSettingSet "presentOutdoorAmbientTemperature" (.type "Temperature8") := member_field 90 rfl
instance : HasMember u_SensorSettingSet "presentOutputCurrent" (.type "ElectricCurrent") := member_field 91 rfl
instance : HasMember u_SensorSettingSet "presentOutputVoltage" (.type "Voltage") := member_field 92 rfl
instance : HasMember u_SensorSettingSet "presentPlanckianDistance" (.type "ChromaticDistanceFromPlanckian") := member_field 93 rfl
instance : HasMember u_SensorSettingSet "presentRelativeOutputRippleVoltage" (.type "Percentage8") := member_field 94 rfl
instance : HasMember u_SensorSettingSet "relativeDeviceEnergyUseInAPeriodOfDay" (.type "EnergyInAPeriodOfDay") := member_field 95 rfl
instance : HasMember u_SensorSettingSet "relativeDeviceRuntimeInAGenericLevelRange" (.type "RelativeRuntimeInAGenericLevelRange") := member_field 96 rfl
instance : HasMember u_SensorSettingSet "relativeExposureTimeInAnIlluminanceRange" (.type "RelativeValueInAnIlluminanceRange") := member_field 97 rfl
instance : HasMember u_SensorSettingSet "relativeRuntimeInACorrelatedColorTemperatureRange" (.type "LuminousEnergy") := member_field 98 rfl
instance : HasMember u_SensorSettingSet "relativeRuntimeInADeviceOperatingTemperatureRange" (.type "RelativeValueInATemperatureRange") := member_field 99 rfl
instance : HasMember u_SensorSettingSet "relativeRuntimeInAnInputCurrentRange" (.type "RelativeValueInACurrentRange") := member_field 100 rfl
instance : HasMember u_SensorSettingSet "relativeRuntimeInAnInputVoltageRange" (.type "RelativeValueInAVoltageRange") := member_field 101 rfl
instance : HasMember u_SensorSettingSet "shortCircuitEventStatistics" (.type "EventStatistics") := member_field 102 rfl
instance : HasMember u_SensorSettingSet "timeSinceMotionSensed" (.type "TimeSecond16") := member_field 103 rfl
instance : HasMember u_SensorSettingSet "timeSincePresenceDetected" (.type "TimeSecond16") := member_field 104 rfl
instance : HasMember u_SensorSettingSet "totalDeviceEnergyUse" (.type "Energy") := member_field 105 rfl
instance : HasMember u_SensorSettingSet "totalDeviceOffOnCycles" (.type "Count24") := member_field 106 rfl
instance : HasMember u_SensorSettingSet "totalDevicePowerOnCycles" (.type "Count24") := member_field 107 rfl
instance : HasMember u_SensorSettingSet "totalDevicePowerOnTime" (.type "TimeHour24") := member_field 108 rfl
instance : HasMember u_SensorSettingSet "totalDeviceRuntime" (.type "TimeHour24") := member_field 109 rfl
instance : HasMember u_SensorSettingSet "totalLightExposureTime" (.type "TimeHour24") := member_field 110 rfl
instance : HasMember u_SensorSettingSet "totalLuminousEnergy" (.type "LuminousEnergy") := member_field 111 rfl
instance : HasMember u_SensorSettingSet "preciseTotalDeviceEnergyUse" (.type "PreciseEnergy") := member_field 112 rfl
instance : HasMember u_SensorSettingSet "powerFactor" (.type "CosineOfTheAngle") := member_field 113 rfl
instance : HasMember u_SensorSettingSet "externalSupplyVoltage" (.type "HighVoltage") := member_field 114 rfl
instance : HasMember u_SensorSettingSet "externalSupplyVoltageFrequency" (.type "VoltageFrequency") := member_field 115 rfl
instance : HasMember u_SensorSettingSet "lightDistribution" (.type "LightDistribution") := member_field 116 rfl
instance : HasMember u_SensorSettingSet "lightSourceCurrent" (.type "AverageCurrent") := member_field 117 rfl
instance : HasMember u_SensorSettingSet "lightSourceOnTimeNotResettable" (.type "TimeSecond32") := member_field 118 rfl
instance : HasMember u_SensorSettingSet "lightSourceOnTimeResettable" (.type "TimeSecond32") := member_field 119 rfl
instance : HasMember u_SensorSettingSet "lightSourceOpenCircuitStatistics" (.type "EventStatistics") := member_field 120 rfl
instance : HasMember u_SensorSettingSet "lightSourceOverallFailuresStatistics" (.type "EventStatistics") := member_field 121 rfl
instance : HasMember u_SensorSettingSet "lightSourceShortCircuitStatistics" (.type "EventStatistics") := member_field 122 rfl
instance : HasMember u_SensorSettingSet "lightSourceStartCounterResettable" (.type "Count24") := member_field 123 rfl
instance : HasMember u_SensorSettingSet "lightSourceTemperature" (.type "HighTemperature") := member_field 124 rfl
instance : HasMember u_SensorSettingSet "lightSourceThermalDeratingStatistics" (.type "EventStatistics") := member_field 125 rfl
instance : HasMember u_SensorSettingSet "lightSourceThermalShutdownStatistics" (.type "EventStatistics") := member_field 126 rfl
instance : HasMember u_SensorSettingSet "lightSourceTotalPowerOnCycles" (.type "Count24") := member_field 127 rfl
instance : HasMember u_SensorSettingSet "lightSourceVoltage" (.type "AverageVoltage") := member_field 128 rfl
instance : HasMember u_SensorSettingSet "luminaireColor" (.type "Text") := member_field 129 rfl
instance : HasMember u_SensorSettingSet "luminaireIdentificationNumber" (.type "Text") := member_field 130 rfl
instance : HasMember u_SensorSettingSet "luminaireNominalInputPower" (.type "Power") := member_field 131 rfl
instance : HasMember u_SensorSettingSet "luminaireNominalMaximumAcMainsVoltage" (.type "Voltage") := member_field 132 rfl
instance : HasMember u_SensorSettingSet "luminaireNominalMinimumAcMainsVoltage" (.type "Voltage") := member_field 133 rfl
instance : HasMember u_SensorSettingSet "luminairePowerAtMinimumDimLevel" (.type "Power") := member_field 134 rfl
instance : HasMember u_SensorSettingSet "luminaireTimeOfManufacture" (.type "DateUTC") := member_field 135 rfl
instance : HasMember u_SensorSettingSet "nominalLightOutput" (.type "LightOutput") := member_field 136 rfl
instance : HasMember u_SensorSettingSet "overallFailureCondition" (.type "EventStatistics") := member_field 137 rfl
instance : HasMember u_SensorSettingSet "ratedMedianUsefulLifeOfLuminaire" (.type "TimeHour24") := member_field 138 rfl
instance : HasMember u_SensorSettingSet "ratedMedianUsefulLightSourceStarts" (.type "Count24") := member_field 139 rfl
instance : HasMember u_SensorSettingSet "referenceTemperature" (.type "HighTemperature") := member_field 140 rfl
instance : HasMember u_SensorSettingSet "totalDeviceStarts" (.type "Count24") := member_field 141 rfl
instance : HasMember u_SensorSettingSet "luminaireIdentificationString" (.type "Text") := member_field 142 rfl
instance : HasMember u_SensorSettingSet "outputPowerLimitation" (.type "EventStatistics") := member_field 143 rfl
instance : HasMember u_SensorSettingSet "thermalDerating" (.type "EventStatistics") := member_field 144 rfl
instance : HasMember u_SensorSettingSet "outputCurrentPercent" (.type "Percentage8") := member_field 145 rfl
instance : HasMember u_SensorSettingSet "luminaireManufacturerGtin" (.type "GlobalTradeItemNumber") := member_field 146 rfl
instance : HasMember u_SensorSettingSet "apparentEnergy" (.type "ApparentEnergy32") := member_field 147 rfl
instance : HasMember u_SensorSettingSet "apparentPower" (.type "ApparentPower") := member_field 148 rfl
instance : HasMember u_SensorSettingSet "activeEnergyLoadSide" (.type "Energy32") := member_field 149 rfl
instance : HasMember u_SensorSettingSet "activePowerLoadSide" (.type "Power") := member_field 150 rfl
instance : HasMember u_SensorSettingSet "lightSourceType" (.type "LightSourceType") := member_field 151 rfl
instance : HasMember u_SensorSettingSet "desiredAmbientTemperature" (.type "Temperature8") := member_field 152 rfl
instance : HasMember u_SensorSettingSet "sensorGain" (.type "Coefficient") := member_field 153 rfl
instance : HasMember u_SensorSettingSet "precisePresentAmbientTemperature" (.type "Temperature") := member_field 154 rfl
instance : HasMember u_SensorSettingSet "sensorSettingRaw" (.type "List(UInt8)") := member_field 155 rfl
instance : HasMember s_SensorSettingSet "averageAmbientTemperatureInAPeriodOfDay" (.type "Temperature8InAPeriodOfDay") := member_inner (us := u_SensorSettingSet) 2 rfl
instance : HasMember s_SensorSettingSet "averageInputCurrent" (.type "AverageCurrent") := member_inner (us := u_SensorSettingSet) 2 rfl
instance : HasMember s_SensorSettingSet "averageInputVoltage" (.type "AverageVoltage") := member_inner (us := u_SensorSettingSet) 2 rfl
instance : HasMember s_SensorSettingSet "averageOutputCurrent" (.type "AverageCurrent") := member_inner (us := u_SensorSettingSet) 2 rfl
instance : HasMember s_SensorSettingSet "averageOutputVoltage" (.type "AverageVoltage") := member_inner (us := u_SensorSettingSet) 2 rfl
instance : HasMember s_SensorSettingSet "centerBeamIntensityAtFullPower" (.type "LuminousIntensity") := member_inner (us := u_SensorSettingSet) 2 rfl
instance : HasMember s_SensorSettingSet "chromaticityTolerance" (.type "ChromaticityTolerance") := member_inner (us := u_SensorSettingSet) 2 rfl
instance : HasMember s_SensorSettingSet "colorRenderingIndexR9" (.type "ColorRenderingIndex") := member_inner (us := u_SensorSettingSet) 2 rfl
instance : HasMember s_SensorSettingSet "colorRenderingIndexRa" (.type "ColorRenderingIndex") := member_inner (us := u_SensorSettingSet) 2 rfl
instance : HasMember s_SensorSettingSet "deviceAppearance" (.type "Appearance") := member_inner (us := u_SensorSettingSet) 2 rfl
instance : HasMember s_SensorSettingSet "deviceCountryOfOrigin" (.type "CountryCode") := member_inner (us := u_SensorSettingSet) 2 rfl
instance : HasMember s_SensorSettingSet "deviceDateOfManufacture" (.type "DateUTC") := member_inner (us := u_SensorSettingSet) 2 rfl
instance : HasMember s_SensorSettingSet "deviceEnergyUseSinceTurnOn" (.type "Energy") := member_inner (us := u_SensorSettingSet) 2 rfl
instance : HasMember s_SensorSettingSet "deviceFirmwareRevision" (.type "Text") := member_inner (us := u_SensorSettingSet) 2 rfl
instance : HasMember s_SensorSettingSet "deviceGlobalTradeItemNumber" (.type "GlobalTradeItemNumber") := member_inner (us := u_SensorSettingSet) 2 rfl
instance : HasMember s_SensorSettingSet "deviceHardwareRevision" (.type "Text") := member_inner (us := u_SensorSettingSet) 2 rfl
instance : HasMember s_SensorSettingSet "deviceManufacturerName" (.type "Text") := member_inner (us := u_SensorSettingSet) 2 rfl
instance : HasMember s_SensorSettingSet "deviceModelNumber" (.type "Text") := member_inner (us := u_SensorSettingSet) 2 rfl
instance : HasMember s_SensorSettingSet "deviceOperatingTemperatureRangeSpecification" (.type "TemperatureRange") := member_inner (us := u_SensorSettingSet) 2 rfl
instance : HasMember s_SensorSettingSet "deviceOperatingTemperatureStatisticalValues" (.type "TemperatureStatistics") := member_inner (us := u_SensorSettingSet) 2 rfl
instance : HasMember s_SensorSettingSet "deviceOverTemperatureEventStatistics" (.type "EventStatistics") := member_inner (us := u_SensorSettingSet) 2 rfl
instance : HasMember s_SensorSettingSet "devicePowerRangeSpecification" (.type "PowerSpecification") := member_inner (us := u_SensorSettingSet) 2 rfl
instance : HasMember s_SensorSettingSet "deviceRuntimeSinceTurnOn" (.type "TimeHour24") := member_inner (us := u_SensorSettingSet) 2 rfl
instance : HasMember s_SensorSettingSet "deviceRuntimeWarranty" (.type "TimeHour24") := member_inner (us := u_SensorSettingSet) 2 rfl
instance : HasMember s_SensorSettingSet "deviceSerialNumber" (.type "Text") := member_inner (us := u_SensorSettingSet) 2 rfl
instance : HasMember s_SensorSettingSet "deviceSoftwareRevision" (.type "Text") := member_inner (us := u_SensorSettingSet) 2 rfl
instance : HasMember s_SensorSettingSet "deviceUnderTemperatureEventStatistics" (.type "EventStatistics") := member_inner (us := u_SensorSettingSet) 2 rfl
instance : HasMember s_SensorSettingSet "indoorAmbientTemperatureStatisticalValues" (.type "Temperature8Statistics") := member_inner (us := u_SensorSettingSet) 2 rfl
instance : HasMember s_SensorSettingSet "initialCie1931ChromaticityCoordinates" (.type "ChromaticityCoordinates") := member_inner (us := u_SensorSettingSet) 2 rfl
instance : HasMember s_SensorSettingSet "initialCorrelatedColorTemperature" (.type "CorrelatedColorTemperature") := member_inner (us := u_SensorSettingSet) 2 rfl
instance : HasMember s_SensorSettingSet "initialLuminousFlux" (.type "LuminousFlux") := member_inner (us := u_SensorSettingSet) 2 rfl
instance : HasMember s_SensorSettingSet "initialPlanckianDistance" (.type "ChromaticDistanceFromPlanckian") := member_inner (us := u_SensorSettingSet) 2 rfl
instance : HasMember s_SensorSettingSet "inputCurrentRangeSpecification" (.type "ElectricCurrentSpecification") := member_inner (us := u_SensorSettingSet) 2 rfl
instance : HasMember s_SensorSettingSet "inputCurrentStatistics" (.type "ElectricCurrentStatistics") := member_inner (us := u_SensorSettingSet) 2 rfl
instance : HasMember s_SensorSettingSet "inputOverCurrentEventStatistics" (.type "EventStatistics") := member_inner (us := u_SensorSettingSet) 2 rfl
instance : HasMember s_SensorSettingSet "inputOverRippleVoltageEventStatistics" (.type "EventStatistics") := member_inner (us := u_SensorSettingSet) 2 rfl
instance : HasMember s_SensorSettingSet "inputOverVoltageEventStatistics" (.type "EventStatistics") := member_inner (us := u_SensorSettingSet) 2 rfl
instance : HasMember s_SensorSettingSet "inputUnderCurrentEventStatistics" (.type "EventStatistics") := member_inner (us := u_SensorSettingSet) 2 rfl
instance : HasMember s_SensorSettingSet "inputUnderVoltageEventStatistics" (.type "EventStatistics") := member_inner (us := u_SensorSettingSet) 2 rfl
instance : HasMember s_SensorSettingSet "inputVoltageRangeSpecification" (.type "VoltageRange") := member_inner (us := u_SensorSettingSet) 2 rfl
instance : HasMember s_SensorSettingSet "inputVoltageRippleSpecification" (.type "Percentage8") := member_inner (us := u_SensorSettingSet) 2 rfl
instance : HasMember s_SensorSettingSet "inputVoltageStatistics" (.type "VoltageStatistics") := member_inner (us := u_SensorSettingSet) 2 rfl
instance : HasMember s_SensorSettingSet "lightControlAmbientLuxlevelOn" (.type "Illuminance") := member_inner (us := u_SensorSettingSet) 2 rfl
instance : HasMember s_SensorSettingSet "lightControlAmbientLuxlevelProlong" (.type "Illuminance") := member_inner (us := u_SensorSettingSet) 2 rfl
instance : HasMember s_SensorSettingSet "lightControlAmbientLuxlevelStandby" (.type "Illuminance") := member_inner (us := u_SensorSettingSet) 2 rfl
instance : HasMember s_SensorSettingSet "lightControlLightnessOn" (.type "PerceivedLightness") := member_inner (us := u_SensorSettingSet) 2 rfl
instance : HasMember s_SensorSettingSet "lightControlLightnessProlong" (.type "PerceivedLightness") := member_inner (us := u_SensorSettingSet) 2 rfl
instance : HasMember s_SensorSettingSet "lightControlLightnessStandby" (.type "PerceivedLightness") := member_inner (us := u_SensorSettingSet) 2 rfl
instance : HasMember s_SensorSettingSet "lightControlRegulatorAccuracy" (.type "Percentage8") := member_inner (us := u_SensorSettingSet) 2 rfl
instance : HasMember s_SensorSettingSet "lightControlRegulatorKid" (.type "Coefficient") := member_inner (us := u_SensorSettingSet) 2 rfl
instance : HasMember s_SensorSettingSet "lightControlRegulatorKiu" (.type "Coefficient") := member_inner (us := u_SensorSettingSet) 2 rfl
instance : HasMember s_SensorSettingSet "lightControlRegulatorKpd" (.type "Coefficient") := member_inner (us := u_SensorSettingSet) 2 rfl
instance : HasMember s_SensorSettingSet "lightControlRegulatorKpu" (.type "Coefficient") := member_inner (us := u_SensorSettingSet) 2 rfl
instance : HasMember s_SensorSettingSet "lightControlTimeFade" (.type "TimeMiliseconds24") := member_inner (us := u_SensorSettingSet) 2 rfl
instance : HasMember s_SensorSettingSet "lightControlTimeFadeOn" (.type "TimeMiliseconds24") := member_inner (us := u_SensorSettingSet) 2 rfl
instance : HasMember s_SensorSettingSet "lightControlTimeFadeStandbyAuto" (.type "TimeMiliseconds24") := member_inner (us := u_SensorSettingSet) 2 rfl
instance : HasMember s_SensorSettingSet "lightControlTimeFadeStandbyManual" (.type "TimeMiliseconds24") := member_inner (us := u_SensorSettingSet) 2 rfl
instance : HasMember s_SensorSettingSet "lightControlTimeOccupancyDelay" (.type "TimeMiliseconds24") := member_inner (us := u_SensorSettingSet) 2 rfl
instance : HasMember s_SensorSettingSet "lightControlTimeProlong" (.type "TimeMiliseconds24") := member_inner (us := u_SensorSettingSet) 2 rfl
instance : HasMember s_SensorSettingSet "lightControlTimeRunOn" (.type "TimeMiliseconds24") := member_inner (us := u_SensorSettingSet) 2 rfl
instance : HasMember s_SensorSettingSet "lumenMaintenanceFactor" (.type "Percentage8") := member_inner (us := u_SensorSettingSet) 2 rfl
instance : HasMember s_SensorSettingSet "luminousEfficacy" (.type "LuminousEfficacy") := member_inner (us := u_SensorSettingSet) 2 rfl
instance : HasMember s_SensorSettingSet "luminousEnergySinceTurnOn" (.type "LuminousEnergy") := member_inner (us := u_SensorSettingSet) 2 rfl
instance : HasMember s_SensorSettingSet "luminousExposure" (.type "LuminousExposure") := member_inner (us := u_SensorSettingSet) 2 rfl
instance : HasMember s_SensorSettingSet "luminousFluxRange" (.type "LuminousFluxRange") := member_inner (us := u_SensorSettingSet) 2 rfl
instance : HasMember s_SensorSettingSet "motionSensed" (.type "Percentage8") := member_inner (us := u_SensorSettingSet) 2 rfl
instance : HasMember s_SensorSettingSet "motionThreshold" (.type "Percentage8") := member_inner (us := u_SensorSettingSet) 2 rfl
instance : HasMember s_SensorSettingSet "openCircuitEventStatistics" (.type "EventStatistics") := member_inner (us := u_SensorSettingSet) 2 rfl
instance : HasMember s_SensorSettingSet "outdoorStatisticalValues" (.type "Temperature8Statistics") := member_inner (us := u_SensorSettingSet) 2 rfl
instance : HasMember s_SensorSettingSet "outputCurrentRange" (.type "ElectricCurrentRange") := member_inner (us := u_SensorSettingSet) 2 rfl
instance : HasMember s_SensorSettingSet "outputCurrentStatistics" (.type "ElectricCurrentStatistics") := member_inner (us := u_SensorSettingSet) 2 rfl
instance : HasMember s_SensorSettingSet "outputRippleVoltageSpecification" (.type "Percentage8") := member_inner (us := u_SensorSettingSet) 2 rfl
instance : HasMember s_SensorSettingSet "outputVoltageRange" (.type "VoltageRange") := member_inner (us := u_SensorSettingSet) 2 rfl
instance : HasMember s_SensorSettingSet "outputVoltageStatistics" (.type "VoltageStatistics") := member_inner (us := u_SensorSettingSet) 2 rfl
instance : HasMember s_SensorSettingSet "overOutputRippleVoltageEventStatistics" (.type "EventStatistics") := member_inner (us := u_SensorSettingSet) 2 rfl
instance : HasMember s_SensorSettingSet "peopleCount" (.type "Count16") := member_inner (us := u_SensorSettingSet) 2 rfl
instance : HasMember s_SensorSettingSet "presenceDetected" (.type "Presence") := member_inner (us := u_SensorSettingSet) 2 rfl
instance : HasMember s_SensorSettingSet "presentAmbientLightLevel" (.type "Illuminance") := member_inner (us := u_SensorSettingSet) 2 rfl
instance : HasMember s_SensorSettingSet "presentAmbientTemperature" (.type "Temperature8") := member_inner (us := u_SensorSettingSet) 2 rfl
instance : HasMember s_SensorSettingSet "presentCie1931ChromaticityCoordinates" (.type "ChromaticityCoordinates") := member_inner (us := u_SensorSettingSet) 2 rfl
instance : HasMember s_SensorSettingSet "presentCorrelatedColorTemperature" (.type "CorrelatedColorTemperature") := member_inner (us := u_SensorSettingSet) 2 rfl
instance : HasMember s_SensorSettingSet "presentDeviceInputPower" (.type "Power") := member_inner (us := u_SensorSettingSet) 2 rfl
instance : HasMember s_SensorSettingSet "presentDeviceOperatingEfficiency" (.type "Percentage8") := member_inner (us := u_SensorSettingSet) 2 rfl
instance : HasMember s_SensorSettingSet "presentDeviceOperatingTemperature" (.type "Temperature") := member_inner (us := u_SensorSettingSet) 2 rfl
instance : HasMember s_SensorSettingSet "presentIlluminance" (.type "Illuminance") := member_inner (us := u_SensorSettingSet) 2 rfl
instance : HasMember s_SensorSettingSet "presentIndoorAmbientTemperature" (.type "Temperature8") := member_inner (us := u_SensorSettingSet) 2 rfl
instance : HasMember s_SensorSettingSet "presentInputCurrent" (.type "ElectricCurrent") := member_inner (us := u_SensorSettingSet) 2 rfl
instance : HasMember s_SensorSettingSet "presentInputRippleVoltage" (.type "Percentage8") := member_inner (us := u_SensorSettingSet) 2 rfl
instance : HasMember s_SensorSettingSet "presentInputVoltage" (.type "Voltage") := member_inner (us := u_SensorSettingSet) 2 rfl
instance : HasMember s_SensorSettingSet "presentLuminousFlux" (.type "LuminousFlux") := member_inner (us := u_SensorSettingSet) 2 rfl
instance : HasMember s_SensorSettingSet "presentOutdoorAmbientTemperature" (.type "Temperature8") := member_inner (us := u_SensorSettingSet) 2 rfl
instance : HasMember s_SensorSettingSet "presentOutputCurrent" (.type "ElectricCurrent") := member_inner (us := u_SensorSettingSet) 2 rfl
instance : HasMember s_SensorSettingSet "presentOutputVoltage" (.type "Voltage") := member_inner (us := u_SensorSettingSet) 2 rfl
instance : HasMember s_SensorSettingSet "presentPlanckianDistance" (.type "ChromaticDistanceFromPlanckian") := member_inner (us := u_SensorSettingSet) 2 rfl
instance : HasMember s_SensorSettingSet "presentRelativeOutputRippleVoltage" (.type "Percentage8") := member_inner (us := u_SensorSettingSet) 2 rfl
instance : HasMember s_SensorSettingSet "relativeDeviceEnergyUseInAPeriodOfDay" (.type "EnergyInAPeriodOfDay") := member_inner (us := u_SensorSettingSet) 2 rfl
instance : HasMember s_SensorSettingSet "relativeDeviceRuntimeInAGenericLevelRange" (.type "RelativeRuntimeInAGenericLevelRange") := member_inner (us := u_SensorSettingSet) 2 rfl
instance : HasMember s_SensorSettingSet "relativeExposureTimeInAnIlluminanceRange" (.type "RelativeValueInAnIlluminanceRange") := member_inner (us := u_SensorSettingSet) 2 rfl
instance : HasMember s_SensorSettingSet "relativeRuntimeInACorrelatedColorTemperatureRange" (.type "LuminousEnergy") := member_inner (us := u_SensorSettingSet) 2 rfl
instance : HasMember s_SensorSettingSet "relativeRuntimeInADeviceOperatingTemperatureRange" (.type "RelativeValueInATemperatureRange") := member_inner (us := u_SensorSettingSet) 2 rfl
instance : HasMember s_SensorSettingSet "relativeRuntimeInAnInputCurrentRange" (.type "RelativeValueInACurrentRange") := member_inner (us := u_SensorSettingSet) 2 rfl
instance : HasMember s_SensorSettingSet "relativeRuntimeInAnInputVoltageRange" (.type "RelativeValueInAVoltageRange") := member_inner (us := u_SensorSettingSet) 2 rfl
instance : HasMember s_SensorSettingSet "shortCircuitEventStatistics" (.type "EventStatistics") := member_inner (us := u_SensorSettingSet) 2 rfl
instance : HasMember s_SensorSettingSet "timeSinceMotionSensed" (.type "TimeSecond16") := member_inner (us := u_SensorSettingSet) 2 rfl
instance : HasMember s_SensorSettingSet "timeSincePresenceDetected" (.type "TimeSecond16") := member_inner (us := u_SensorSettingSet) 2 rfl
instance : HasMember s_SensorSettingSet "totalDeviceEnergyUse" (.type "Energy") := member_inner (us := u_SensorSettingSet) 2 rfl
instance : HasMember s_SensorSettingSet "totalDeviceOffOnCycles" (.type "Count24") := member_inner (us := u_SensorSettingSet) 2 rfl
instance : HasMember s_SensorSettingSet "totalDevicePowerOnCycles" (.type "Count24") := member_inner (us := u_SensorSettingSet) 2 rfl
instance : HasMember s_SensorSettingSet "totalDevicePowerOnTime" (.type "TimeHour24") := member_inner (us := u_SensorSettingSet) 2 rfl
instance : HasMember s_SensorSettingSet "totalDeviceRuntime" (.type "TimeHour24") := member_inner (us := u_SensorSettingSet) 2 rfl
instance : HasMember s_SensorSettingSet "totalLightExposureTime" (.type "TimeHour24") := member_inner (us := u_SensorSettingSet) 2 rfl
instance : HasMember s_SensorSettingSet "totalLuminousEnergy" (.type "LuminousEnergy") := member_inner (us := u_SensorSettingSet) 2 rfl
instance : HasMember s_SensorSettingSet "preciseTotalDeviceEnergyUse" (.type "PreciseEnergy") := member_inner (us := u_SensorSettingSet) 2 rfl
instance : HasMember s_SensorSettingSet "powerFactor" (.type "CosineOfTheAngle") := member_inner (us := u_SensorSettingSet) 2 rfl
instance : HasMember s_SensorSettingSet "externalSupplyVoltage" (.type "HighVoltage") := member_inner (us := u_SensorSettingSet) 2 rfl
instance : HasMember s_SensorSettingSet "externalSupplyVoltageFrequency" (.type "VoltageFrequency") := member_inner (us := u_SensorSettingSet) 2 rfl
instance : HasMember s_SensorSettingSet "lightDistribution" (.type "LightDistribution") := member_inner (us := u_SensorSettingSet) 2 rfl
instance : HasMember s_SensorSettingSet "lightSourceCurrent" (.type "AverageCurrent") := member_inner (us := u_SensorSettingSet) 2 rfl
instance : HasMember s_SensorSettingSet "lightSourceOnTimeNotResettable" (.type "TimeSecond32") := member_inner (us := u_SensorSettingSet) 2 rfl
instance : HasMember s_SensorSettingSet "lightSourceOnTimeResettable" (.type "TimeSecond32") := member_inner (us := u_SensorSettingSet) 2 rfl
instance : HasMember s_SensorSettingSet "lightSourceOpenCircuitStatistics" (.type "EventStatistics") := member_inner (us := u_SensorSettingSet) 2 rfl
instance : HasMember s_SensorSettingSet "lightSourceOverallFailuresStatistics" (.type "EventStatistics") := member_inner (us := u_SensorSettingSet) 2 rfl
instance : HasMember s_SensorSettingSet "lightSourceShortCircuitStatistics" (.type "EventStatistics") := member_inner (us := u_SensorSettingSet) 2 rfl
instance : HasMember s_SensorSettingSet "lightSourceStartCounterResettable" (.type "Count24") := member_inner (us := u_SensorSettingSet) 2 rfl
instance : HasMember s_SensorSettingSet "lightSourceTemperature" (.type "HighTemperature") := member_inner (us := u_SensorSettingSet) 2 rfl
instance : HasMember s_SensorSettingSet "lightSourceThermalDeratingStatistics" (.type "EventStatistics") := member_inner (us := u_SensorSettingSet) 2 rfl
instance : HasMember s_SensorSettingSet "lightSourceThermalShutdownStatistics" (.type "EventStatistics") := member_inner (us := u_SensorSettingSet) 2 rfl
instance : HasMember s_SensorSettingSet "lightSourceTotalPowerOnCycles" (.type "Count24") := member_inner (us := u_SensorSettingSet) 2 rfl
instance : HasMember s_SensorSettingSet "lightSourceVoltage" (.type "AverageVoltage") := member_inner (us := u_SensorSettingSet) 2 rfl
instance : HasMember s_SensorSettingSet "luminaireColor" (.type "Text") := member_inner (us := u_SensorSettingSet) 2 rfl
instance : HasMember s_SensorSettingSet "luminaireIdentificationNumber" (.type "Text") := member_inner (us := u_SensorSettingSet) 2 rfl
instance : HasMember s_SensorSettingSet "luminaireNominalInputPower" (.type "Power") := member_inner (us := u_SensorSettingSet) 2 rfl
instance : HasMember s_SensorSettingSet "luminaireNominalMaximumAcMainsVoltage" (.type "Voltage") := member_inner (us := u_SensorSettingSet) 2 rfl
instance : HasMember s_SensorSettingSet "luminaireNominalMinimumAcMainsVoltage" (.type "Voltage") := member_inner (us := u_SensorSettingSet) 2 rfl
instance : HasMember s_SensorSettingSet "luminairePowerAtMinimumDimLevel" (.type "Power") := member_inner (us := u_SensorSettingSet) 2 rfl
instance : HasMember s_SensorSettingSet "luminaireTimeOfManufacture" (.type "DateUTC") := member_inner (us := u_SensorSettingSet) 2 rfl
instance : HasMember s_SensorSettingSet "nominalLightOutput" (.type "LightOutput") := member_inner (us := u_SensorSettingSet) 2 rfl
instance : HasMember s_SensorSettingSet "overallFailureCondition" (.type "EventStatistics") := member_inner (us := u_SensorSettingSet) 2 rfl
instance : HasMember s_SensorSettingSet "ratedMedianUsefulLifeOfLuminaire" (.type "TimeHour24") := member_inner (us := u_SensorSettingSet) 2 rfl
instance : HasMember s_SensorSettingSet "ratedMedianUsefulLightSourceStarts" (.type "Count24") := member_inner (us := u_SensorSettingSet) 2 rfl
instance : HasMember s_SensorSettingSet "referenceTemperature" (.type "HighTemperature") := member_inner (us := u_SensorSettingSet) 2 rfl
instance : HasMember s_SensorSettingSet "totalDeviceStarts" (.type "Count24") := member_inner (us := u_SensorSettingSet) 2 rfl
instance : HasMember s_SensorSettingSet "luminaireIdentificationString" (.type "Text") := member_inner (us := u_SensorSettingSet) 2 rfl
instance : HasMember s_SensorSettingSet "outputPowerLimitation" (.type "EventStatistics") := member_inner (us := u_SensorSettingSet) 2 rfl
instance : HasMember s_SensorSettingSet "thermalDerating" (.type "EventStatistics") := member_inner (us := u_SensorSettingSet) 2 rfl
instance : HasMember s_SensorSettingSet "outputCurrentPercent" (.type "Percentage8") := member_inner (us := u_SensorSettingSet) 2 rfl
instance : HasMember s_SensorSettingSet "luminaireManufacturerGtin" (.type "GlobalTradeItemNumber") := member_inner (us := u_SensorSettingSet) 2 rfl
instance : HasMember s_SensorSettingSet "apparentEnergy" (.type "ApparentEnergy32") := member_inner (us := u_SensorSettingSet) 2 rfl
instance : HasMember s_SensorSettingSet "apparentPower" (.type "ApparentPower") := member_inner (us := u_SensorSettingSet) 2 rfl
instance : HasMember s_SensorSettingSet "activeEnergyLoadSide" (.type "Energy32") := member_inner (us := u_SensorSettingSet) 2 rfl
instance : HasMember s_SensorSettingSet "activePowerLoadSide" (.type "Power") := member_inner (us := u_SensorSettingSet) 2 rfl
instance : HasMember s_SensorSettingSet "lightSourceType" (.type "LightSourceType") := member_inner (us := u_SensorSettingSet) 2 rfl
instance : HasMember s_SensorSettingSet "desiredAmbientTemperature" (.type "Temperature8") := member_inner (us := u_SensorSettingSet) 2 rfl
instance : HasMember s_SensorSettingSet "sensorGain" (.type "Coefficient") := member_inner (us := u_SensorSettingSet) 2 rfl
instance : HasMember s_SensorSettingSet "precisePresentAmbientTemperature" (.type "Temperature") := member_inner (us := u_SensorSettingSet) 2 rfl
instance : HasMember s_SensorSettingSet "sensorSettingRaw" (.type "List(UInt8)") := member_inner (us := u_SensorSettingSet) 2 rfl
instance : IsPlain "SensorSetupMessageParams" s_SensorSetupMessageParams := isPlain 259 rfl rfl
instance : HasMember s_SensorSetupMessageParams "year" (.type "UInt16") := member_field 0 rfl
instance : HasMember s_SensorSetupMessageParams "month" (.type "UInt8") := member_field 1 rfl
instance : HasMember s_SensorSetupMessageParams "day" (.type "UInt8") := member_field 2 rfl
instance : IsUnion "SensorSettingStatus" s_SensorSettingStatus u_SensorSettingStatus := isUnion 260 rfl rfl
instance : HasMember s_SensorSettingStatus "sensorPropertyId" (.type "UInt16") := member_field 0 rfl
instance : HasMember s_SensorSettingStatus "sensorSettingPropertyId" (.type "UInt16") := member_field 1 rfl
instance : HasMember s_SensorSettingStatus "sensorSettingAccess" (.type "UInt8") := member_field 2 rfl
instance : HasMember u_SensorSettingStatus "averageAmbientTemperatureInAPeriodOfDay" (.type "Temperature8InAPeriodOfDay") := member_field 0 rfl
instance : HasMember u_SensorSettingStatus "averageInputCurrent" (.type "AverageCurrent") := member_field 1 rfl
instance : HasMember u_SensorSettingStatus "averageInputVoltage" (.type "AverageVoltage") := member_field 2 rfl
instance : HasMember u_SensorSettingStatus "averageOutputCurrent" (.type "AverageCurrent") := member_field 3 rfl
instance : HasMember u_SensorSettingStatus "averageOutputVoltage" (.type "AverageVoltage") := member_field 4 rfl
instance : HasMember u_SensorSettingStatus "centerBeamIntensityAtFullPower" (.type "LuminousIntensity") := member_field 5 rfl
instance : HasMember u_SensorSettingStatus "chromaticityTolerance" (.type "ChromaticityTolerance") := member_field 6 rfl
instance : HasMember u_SensorSettingStatus "colorRenderingIndexR9" (.type "ColorRenderingIndex") := member_field 7 rfl
instance : HasMember u_SensorSettingStatus "colorRenderingIndexRa" (.type "ColorRenderingIndex") := member_field 8 rfl
instance : HasMember u_SensorSettingStatus "deviceAppearance" (.type "Appearance") := member_field 9 rfl
instance : HasMember u_SensorSettingStatus "deviceCountryOfOrigin" (.type "CountryCode") := member_field 10 rfl
instance : HasMember u_SensorSettingStatus "deviceDateOfManufacture" (.type "DateUTC") := member_field 11 rfl
instance : HasMember u_SensorSettingStatus "deviceEnergyUseSinceTurnOn" (.type "Energy") := member_field 12 rfl
instance : HasMember u_SensorSettingStatus "deviceFirmwareRevision" (.type "Text") := member_field 13 rfl
instance : HasMember u_SensorSettingStatus "deviceGlobalTradeItemNumber" (.type "GlobalTradeItemNumber") := member_field 14 rfl
instance : HasMember u_SensorSettingStatus "deviceHardwareRevision" (.type "Text") := member_field 15 rfl
instance : HasMember u_SensorSettingStatus "deviceManufacturerName" (.type "Text") := member_field 16 rfl
instance : HasMember u_SensorSettingStatus "deviceModelNumber" (.type "Text") := member_field 17 rfl
instance : HasMember u_SensorSettingStatus "deviceOperatingTemperatureRangeSpecification" (.type "TemperatureRange") := member_field 18 rfl
instance : HasMember u_SensorSettingStatus "deviceOperatingTemperatureStatisticalValues" (.type "TemperatureStatistics") := member_field 19 rfl
instance : HasMember u_SensorSettingStatus "deviceOverTemperatureEventStatistics" (.type "EventStatistics") := member_field 20 rfl
instance : HasMember u_SensorSettingStatus "devicePowerRangeSpecification" (.type "PowerSpecification") := member_field 21 rfl
instance : HasMember u_SensorSettingStatus "deviceRuntimeSinceTurnOn" (.type "TimeHour24") := member_field 22 rfl
instance : HasMember u_SensorSettingStatus "deviceRuntimeWarranty" (.type "TimeHour24") := member_field 23 rfl
instance : HasMember u_SensorSettingStatus "deviceSerialNumber" (.type "Text") := member_field 24 rfl
instance : HasMember u_SensorSettingStatus "deviceSoftwareRevision" (.type "Text") := member_field 25 rfl
instance : HasMember u_SensorSettingStatus "deviceUnderTemperatureEventStatistics" (.type "EventStatistics") := member_field 26 rfl
instance : HasMember u_SensorSettingStatus "indoorAmbientTemperatureStatisticalValues" (.type "Temperature8Statistics") := member_field 27 rfl
instance : HasMember u_SensorSettingStatus "initialCie1931ChromaticityCoordinates" (.type "ChromaticityCoordinates") := member_field 28 rfl
instance : HasMember u_SensorSettingStatus "initialCorrelatedColorTemperature" (.type "CorrelatedColorTemperature") := member_field 29 rfl
instance : HasMember u_SensorSettingStatus "initialLuminousFlux" (.type "LuminousFlux") := member_field 30 rfl
instance : HasMember u_SensorSettingStatus "initialPlanckianDistance" (.type "ChromaticDistanceFromPlanckian") := member_field 31 rfl
instance : HasMember u_SensorSettingStatus "inputCurrentRangeSpecification" (.type "ElectricCurrentSpecification") := member_field 32 rfl
instance : HasMember u_SensorSettingStatus "inputCurrentStatistics" (.type "ElectricCurrentStatistics") := member_field 33 rfl
instance : HasMember u_SensorSettingStatus "inputOverCurrentEventStatistics" (.type "EventStatistics") := member_field 34 rfl
instance : HasMember u_SensorSettingStatus "inputOverRippleVoltageEventStatistics" (.type "EventStatistics") := member_field 35 rfl
instance : HasMember u_SensorSettingStatus "inputOverVoltageEventStatistics" (.type "EventStatistics") := member_field 36 rfl
instance : HasMember u_SensorSettingStatus "inputUnderCurrentEventStatistics" (.type "EventStatistics") := member_field 37 rfl
instance : HasMember u_SensorSettingStatus "inputUnderVoltageEventStatistics" (.type "EventStatistics") := member_field 38 rfl
instance : HasMember u_SensorSettingStatus "inputVoltageRangeSpecification" (.type "VoltageRange") := member_field 39 rfl
instance : HasMember u_SensorSettingStatus "inputVoltageRippleSpecification" (.type "Percentage8") := member_field 40 rfl
instance : HasMember u_SensorSettingStatus "inputVoltageStatistics" (.type "VoltageStatistics") := member_field 41 rfl
instance : HasMember u_SensorSettingStatus "lightControlAmbientLuxlevelOn" (.type "Illuminance") := member_field 42 rfl
instance : HasMember u_SensorSettingStatus "lightControlAmbientLuxlevelProlong" (.type "Illuminance") := member_field 43 rfl
instance : HasMember u_SensorSettingStatus "lightControlAmbientLuxlevelStandby" (.type "Illuminance") := member_field 44 rfl
instance : HasMember u_SensorSettingStatus "lightControlLightnessOn" (.type "PerceivedLightness") := member_field 45 rfl
instance : HasMember u_SensorSettingStatus "lightControlLightnessProlong" (.type "PerceivedLightness") := member_field 46 rfl
instance : HasMember u_SensorSettingStatus "lightControlLightnessStandby" (.type "PerceivedLightness") := member_field 47 rfl
instance : HasMember u_SensorSettingStatus "lightControlRegulatorAccuracy" (.type "Percentage8") := member_field 48 rfl
instance : HasMember u_SensorSettingStatus "lightControlRegulatorKid" (.type "Coefficient") := member_field 49 rfl
instance : HasMember u_SensorSettingStatus "lightControlRegulatorKiu" (.type "Coefficient") := member_field 50 rfl
instance : HasMember u_SensorSettingStatus "lightControlRegulatorKpd" (.type "Coefficient") := member_field 51 rfl
instance : HasMember u_SensorSettingStatus "lightControlRegulatorKpu" (.type "Coefficient") := member_field 52 rfl
instance : HasMember u_SensorSettingStatus "lightControlTimeFade" (.type "TimeMiliseconds24") := member_field 53 rfl
instance : HasMember u_SensorSettingStatus "lightControlTimeFadeOn" (.type "TimeMiliseconds24") := member_field 54 rfl
instance : HasMember u_SensorSettingStatus "lightControlTimeFadeStandbyAuto" (.type "TimeMiliseconds24") := member_field 55 rfl
instance : HasMember u_SensorSettingStatus "lightControlTimeFadeStandbyManual" (.type "TimeMiliseconds24") := member_field 56 rfl
instance : HasMember u_SensorSettingStatus "lightControlTimeOccupancyDelay" (.type "TimeMiliseconds24") := member_field 57 rfl
instance : HasMember u_SensorSettingStatus "lightControlTimeProlong" (.type "TimeMiliseconds24") := member_field 58 rfl
instance : HasMember u_SensorSettingStatus "lightControlTimeRunOn" (.type "TimeMiliseconds24") := member_field 59 rfl
instance : HasMember u_SensorSettingStatus "lumenMaintenanceFactor" (.type "Percentage8") := member_field 60 rfl
instance : HasMember u_SensorSettingStatus "luminousEfficacy" (.type "LuminousEfficacy") := member_field 61 rfl
instance : HasMember u_SensorSettingStatus "luminousEnergySinceTurnOn" (.type "LuminousEnergy") := member_field 62 rfl
instance : HasMember u_SensorSettingStatus "luminousExposure" (.type "LuminousExposure") := member_field 63 rfl
instance : HasMember u_SensorSettingStatus "luminousFluxRange" (.type "LuminousFluxRange") := member_field 64 rfl
instance : HasMember u_SensorSettingStatus "motionSensed" (.type "Percentage8") := member_field 65 rfl
instance : HasMember u_SensorSettingStatus "motionThreshold" (.type "Percentage8") := member_field 66 rfl
instance : HasMember u_SensorSettingStatus "openCircuitEventStatistics" (.type "EventStatistics") := member_field 67 rfl
instance : HasMember u_SensorSettingStatus "outdoorStatisticalValues" (.type "Temperature8Statistics") := member_field 68 rfl
instance : HasMember u_SensorSettingStatus "outputCurrentRange" (.type "ElectricCurrentRange") := member_field 69 rfl
instance : HasMember u_SensorSettingStatus "outputCurrentStatistics" (.type "ElectricCurrentStatistics") := member_field 70 rfl
instance : HasMember u_SensorSettingStatus "outputRippleVoltageSpecification" (.type "Percentage8") := member_field 71 rfl
instance : HasMember u_SensorSettingStatus "outputVoltageRange" (.type "VoltageRange") := member_field 72 rfl
instance : HasMember u_SensorSettingStatus "outputVoltageStatistics" (.type "VoltageStatistics") := member_field 73 rfl
instance : HasMember u_SensorSettingStatus "overOutputRippleVoltageEventStatistics" (.type "EventStatistics") := member_field 74 rfl
instance : HasMember u_SensorSettingStatus "peopleCount" (.type "Count16") := member_field 75 rfl
instance : HasMember u_SensorSettingStatus "presenceDetected" (.type "Presence") := member_field 76 rfl
instance : HasMember u_SensorSettingStatus "presentAmbientLightLevel" (.type "Illuminance") := member_field 77 rfl
instance : HasMember u_SensorSettingStatus "presentAmbientTemperature" (.type "Temperature8") := member_field 78 rfl
instance : HasMember u_SensorSettingStatus "presentCie1931ChromaticityCoordinates" (.type "ChromaticityCoordinates") := member_field 79 rfl
instance : HasMember u_SensorSettingStatus "presentCorrelatedColorTemperature" (.type "CorrelatedColorTemperature") := member_field 80 rfl
instance : HasMember u_SensorSettingStatus "presentDeviceInputPower" (.type "Power") := member_field 81 rfl
instance : HasMember u_SensorSettingStatus "presentDeviceOperatingEfficiency" (.type "Percentage8") := member_field 82 rfl
instance : HasMember u_SensorSettingStatus "presentDeviceOperatingTemperature" (.type "Temperature") := member_field 83 rfl
instance : HasMember u_SensorSettingStatus "presentIlluminance" (.type "Illuminance") := member_field 84 rfl
instance : HasMember u_SensorSettingStatus "presentIndoorAmbientTemperature" (.type "Temperature8") := member_field 85 rfl
instance : HasMember u_SensorSettingStatus "presentInputCurrent" (.type "ElectricCurrent") := member_field 86 rfl
instance : HasMember u_SensorSettingStatus "presentInputRippleVoltage" (.type "Percentage8") := member_field 87 rfl
instance : HasMember u_SensorSettingStatus "presentInputVoltage" (.type "Voltage") := member_field 88 rfl
instance : HasMember u_SensorSettingStatus "presentLuminousFlux" (.type "LuminousFlux") := member_field 89 rfl
instance : HasMember u_SensorSettingStatus "presentOutdoorAmbientTemperature" (.type "Temperature8") := member_field 90 rfl
instance : HasMember u_SensorSettingStatus "presentOutputCurrent" (.type "ElectricCurrent") := member_field 91 rfl
instance : HasMember u_SensorSettingStatus "presentOutputVoltage" (.type "Voltage") := member_field 92 rfl
instance : HasMember u_SensorSettingStatus "presentPlanckianDistance" (.type "ChromaticDistanceFromPlanckian") := member_field 93 rfl
instance : HasMember u_SensorSettingStatus "presentRelativeOutputRippleVoltage" (.type "Percentage8") := member_field 94 rfl
instance : HasMember u_SensorSettingStatus "relativeDeviceEnergyUseInAPeriodOfDay" (.type "EnergyInAPeriodOfDay") := member_field 95 rfl
instance : HasMember u_SensorSettingStatus "relativeDeviceRuntimeInAGenericLevelRange" (.type "RelativeRuntimeInAGenericLevelRange") := member_field 96 rfl
instance : HasMember u_SensorSettingStatus "relativeExposureTimeInAnIlluminanceRange" (.type "RelativeValueInAnIlluminanceRange") := member_field 97 rfl
instance : HasMember u_SensorSettingStatus "relativeRuntimeInACorrelatedColorTemperatureRange" (.type "LuminousEnergy") := member_field 98 rfl
instance : HasMember u_SensorSettingStatus "relativeRuntimeInADeviceOperatingTemperatureRange" (.type "RelativeValueInATemperatureRange") := member_field 99 rfl
instance : HasMember u_SensorSettingStatus "relativeRuntimeInAnInputCurrentRange" (.type "RelativeValueInACurrentRange") := member_field 100 rfl
instance : HasMember u_SensorSettingStatus "relativeRuntimeInAnInputVoltageRange" (.type "RelativeValueInAVoltageRange") := member_field 101 rfl
instance : HasMember u_SensorSettingStatus "shortCircuitEventStatistics" (.type "EventStatistics") := member_field 102 rfl
instance : HasMember u_SensorSettingStatus "timeSinceMotionSensed" (.type "TimeSecond16") := member_field 103 rfl
instance : HasMember u_SensorSettingStatus "timeSincePresenceDetected" (.type "TimeSecond16") := member_field 104 rfl
instance : HasMember u_SensorSettingStatus "totalDeviceEnergyUse" (.type "Energy") := member_field 105 rfl
instance : HasMember u_SensorSettingStatus "totalDeviceOffOnCycles" (.type "Count24") := member_field 106 rfl
instance : HasMember u_SensorSettingStatus "totalDevicePowerOnCycles" (.type "Count24") := member_field 107 rfl
instance : HasMember u_SensorSettingStatus "totalDevicePowerOnTime" (.type "TimeHour24") := member_field 108 rfl
instance : HasMember u_SensorSettingStatus "totalDeviceRuntime" (.type "TimeHour24") := member_field 109 rfl
instance : HasMember u_SensorSettingStatus "totalLightExposureTime" (.type "TimeHour24") := member_field 110 rfl
instance : HasMember u_SensorSettingStatus "totalLuminousEnergy" (.type "LuminousEnergy") := member_field 111 rfl
instance : HasMember u_SensorSettingStatus "preciseTotalDeviceEnergyUse" (.type "PreciseEnergy") := member_field 112 rfl
instance : HasMember u_SensorSettingStatus "powerFactor" (.type "CosineOfTheAngle") := member_field 113 rfl
instance : HasMember u_SensorSettingStatus "externalSupplyVoltage" (.type "HighVoltage") := member_field 114 rfl
instance : HasMember u_SensorSettingStatus "externalSupplyVoltageFrequency" (.type "VoltageFrequency") := member_field 115 rfl
instance : HasMember u_SensorSettingStatus "lightDistribution" (.type "LightDistribution") := member_field 116 rfl
instance : HasMember u_SensorSettingStatus "lightSourceCurrent" (.type "AverageCurrent") := member_field 117 rfl
instance : HasMember u_SensorSettingStatus "lightSourceOnTimeNotResettable" (.type "TimeSecond32") := member_field 118 rfl
instance : HasMember u_SensorSettingStatus "lightSourceOnTimeResettable" (.type "TimeSecond32") := member_field 119 rfl
instance : HasMember u_SensorSettingStatus "lightSourceOpenCircuitStatistics" (.type "EventStatistics") := member_field 120 rfl
instance : HasMember u_SensorSettingStatus "lightSourceOverallFailuresStatistics" (.type "EventStatistics") := member_field 121 rfl
instance : HasMember u_SensorSettingStatus "lightSourceShortCircuitStatistics" (.type "EventStatistics") := member_field 122 rfl
instance : HasMember u_SensorSettingStatus "lightSourceStartCounterResettable" (.type "Count24") := member_field 123 rfl
instance : HasMember u_SensorSettingStatus "lightSourceTemperature" (.type "HighTemperature") := member_field 124 rfl
instance : HasMember u_SensorSettingStatus "lightSourceThermalDeratingStatistics" (.type "EventStatistics") := member_field 125 rfl
instance : HasMember u_SensorSettingStatus "lightSourceThermalShutdownStatistics" (.type "EventStatistics") := member_field 126 rfl
instance : HasMember u_SensorSettingStatus "lightSourceTotalPowerOnCycles" (.type "Count24") := member_field 127 rfl
instance : HasMember u_SensorSettingStatus "lightSourceVoltage" (.type "AverageVoltage") := member_field 128 rfl
instance : HasMember u_SensorSettingStatus "luminaireColor" (.type "Text") := member_field 129 rfl
instance : HasMember u_SensorSettingStatus "luminaireIdentificationNumber" (.type "Text") := member_field 130 rfl
instance : HasMember u_SensorSettingStatus "luminaireNominalInputPower" (.type "Power") := member_field 131 rfl
instance : HasMember u_SensorSettingStatus "luminaireNominalMaximumAcMainsVoltage" (.type "Voltage") := member_field 132 rfl
instance : HasMember u_SensorSettingStatus "luminaireNominalMinimumAcMainsVoltage" (.type "Voltage") := member_field 133 rfl
instance : HasMember u_SensorSettingStatus "luminairePowerAtMinimumDimLevel" (.type "Power") := member_field 134 rfl
instance : HasMember u_SensorSettingStatus "luminaireTimeOfManufacture" (.type "DateUTC") := member_field 135 rfl
instance : HasMember u_SensorSettingStatus "nominalLightOutput" (.type "LightOutput") := member_field 136 rfl
instance : HasMember u_SensorSettingStatus "overallFailureCondition" (.type "EventStatistics") := member_field 137 rfl
instance : HasMember u_SensorSettingStatus "ratedMedianUsefulLifeOfLuminaire" (.type "TimeHour24") := member_field 138 rfl
instance : HasMember u_SensorSettingStatus "ratedMedianUsefulLightSourceStarts" (.type "Count24") := member_field 139 rfl
instance : HasMember u_SensorSettingStatus "referenceTemperature" (.type "HighTemperature") := member_field 140 rfl
instance : HasMember u_SensorSettingStatus "totalDeviceStarts" (.type "Count24") := member_field 141 rfl
instance : HasMember u_SensorSettingStatus "luminaireIdentificationString" (.type "Text") := member_field 142 rfl
instance : HasMember u_SensorSettingStatus "outputPowerLimitation" (.type "EventStatistics") := member_field 143 rfl
instance : HasMember u_SensorSettingStatus "thermalDerating" (.type "EventStatistics") := member_field 144 rfl
instance : HasMember u_SensorSettingStatus "outputCurrentPercent" (.type "Percentage8") := member_field 145 rfl
instance : HasMember u_SensorSettingStatus "luminaireManufacturerGtin" (.type "GlobalTradeItemNumber") := member_field 146 rfl
instance : HasMember u_SensorSettingStatus "apparentEnergy" (.type "ApparentEnergy32") := member_field 147 rfl
instance : HasMember u_SensorSettingStatus "apparentPower" (.type "ApparentPower") := member_field 148 rfl
instance : HasMember u_SensorSettingStatus "activeEnergyLoadSide" (.type "Energy32") := member_field 149 rfl
instance : HasMember u_SensorSettingStatus "activePowerLoadSide" (.type "Power") := member_field 150 rfl
instance : HasMember u_SensorSettingStatus "lightSourceType" (.type "LightSourceType") := member_field 151 rfl
instance : HasMember u_SensorSettingStatus "desiredAmbientTemperature" (.type "Temperature8") := member_field 152 rfl
instance : HasMember u_SensorSettingStatus "sensorGain" (.type "Coefficient") := member_field 153 rfl
instance : HasMember u_SensorSettingStatus "precisePresentAmbientTemperature" (.type "Temperature") := member_field 154 rfl
instance : HasMember u_SensorSettingStatus "sensorSettingRaw" (.type "List(UInt8)") := member_field 155 rfl
instance : HasMember s_SensorSettingStatus "averageAmbientTemperatureInAPeriodOfDay" (.type "Temperature8InAPeriodOfDay") := member_inner (us := u_SensorSettingStatus) 3 rfl
instance : HasMember s_SensorSettingStatus "averageInputCurrent" (.type "AverageCurrent") := member_inner (us := u_SensorSettingStatus) 3 rfl
instance : HasMember s_SensorSettingStatus "averageInputVoltage" (.type "AverageVoltage") := member_inner (us := u_SensorSettingStatus) 3 rfl
instance : HasMember s_SensorSettingStatus "averageOutputCurrent" (.type "AverageCurrent") := member_inner (us := u_SensorSettingStatus) 3 rfl
instance : HasMember s_SensorSettingStatus "averageOutputVoltage" (.type "AverageVoltage") := member_inner (us := u_SensorSettingStatus) 3 rfl
instance : HasMember s_SensorSettingStatus "centerBeamIntensityAtFullPower" (.type "LuminousIntensity") := member_inner (us := u_SensorSettingStatus) 3 rfl
instance : HasMember s_SensorSettingStatus "chromaticityTolerance" (.type "ChromaticityTolerance") := member_inner (us := u_SensorSettingStatus) 3 rfl
instance : HasMember s_SensorSettingStatus "colorRenderingIndexR9" (.type "ColorRenderingIndex") := member_inner (us := u_SensorSettingStatus) 3 rfl
instance : HasMember s_SensorSettingStatus "colorRenderingIndexRa" (.type "ColorRenderingIndex") := member_inner (us := u_SensorSettingStatus) 3 rfl
instance : HasMember s_SensorSettingStatus "deviceAppearance" (.type "Appearance") := member_inner (us := u_SensorSettingStatus) 3 rfl
instance : HasMember s_SensorSettingStatus "deviceCountryOfOrigin" (.type "CountryCode") := member_inner (us := u_SensorSettingStatus) 3 rfl
instance : HasMember s_SensorSettingStatus "deviceDateOfManufacture" (.type "DateUTC") := member_inner (us := u_SensorSettingStatus) 3 rfl
instance : HasMember s_SensorSettingStatus "deviceEnergyUseSinceTurnOn" (.type "Energy") := member_inner (us := u_SensorSettingStatus) 3 rfl
instance : HasMember s_SensorSettingStatus "deviceFirmwareRevision" (.type "Text") := member_inner (us := u_SensorSettingStatus) 3 rfl
instance : HasMember s_SensorSettingStatus "deviceGlobalTradeItemNumber" (.type "GlobalTradeItemNumber") := member_inner (us := u_SensorSettingStatus) 3 rfl
instance : HasMember s_SensorSettingStatus "deviceHardwareRevision" (.type "Text") := member_inner (us := u_SensorSettingStatus) 3 rfl
instance : HasMember s_SensorSettingStatus "deviceManufacturerName" (.type "Text") := member_inner (us := u_SensorSettingStatus) 3 rfl
instance : HasMember s_SensorSettingStatus "deviceModelNumber" (.type "Text") := member_inner (us := u_SensorSettingStatus) 3 rfl
instance : HasMember s_SensorSettingStatus "deviceOperatingTemperatureRangeSpecification" (.type "TemperatureRange") := member_inner (us := u_SensorSettingStatus) 3 rfl
instance : HasMember s_SensorSettingStatus "deviceOperatingTemperatureStatisticalValues" (.type "TemperatureStatistics") := member_inner (us := u_SensorSettingStatus) 3 rfl
instance : HasMember s_SensorSettingStatus "deviceOverTemperatureEventStatistics" (.type "EventStatistics") := member_inner (us := u_SensorSettingStatus) 3 rfl
instance : HasMember s_SensorSettingStatus "devicePowerRangeSpecification" (.type "PowerSpecification") := member_inner (us := u_SensorSettingStatus) 3 rfl
instance : HasMember s_SensorSettingStatus "deviceRuntimeSinceTurnOn" (.type "TimeHour24") := member_inner (us := u_SensorSettingStatus) 3 rfl
instance : HasMember s_SensorSettingStatus "deviceRuntimeWarranty" (.type "TimeHour24") := member_inner (us := u_SensorSettingStatus) 3 rfl
instance : HasMember s_SensorSettingStatus "deviceSerialNumber" (.type "Text") := member_inner (us := u_SensorSettingStatus) 3 rfl
instance : HasMember s_SensorSettingStatus "deviceSoftwareRevision" (.type "Text") := member_inner (us := u_SensorSettingStatus) 3 rfl
instance : HasMember s_SensorSettingStatus "deviceUnderTemperatureEventStatistics" (.type "EventStatistics") := member_inner (us := u_SensorSettingStatus) 3 rfl
instance : HasMember s_SensorSettingStatus "indoorAmbientTemperatureStatisticalValues" (.type "Temperature8Statistics") := member_inner (us := u_SensorSettingStatus) 3 rfl
instance : HasMember s_SensorSettingStatus "initialCie1931ChromaticityCoordinates" (.type "ChromaticityCoordinates") := member_inner (us := u_SensorSettingStatus) 3 rfl
instance : HasMember s_SensorSettingStatus "initialCorrelatedColorTemperature" (.type "CorrelatedColorTemperature") := member_inner (us := u_SensorSettingStatus) 3 rfl
instance : HasMember s_SensorSettingStatus "initialLuminousFlux" (.type "LuminousFlux") := member_inner (us := u_SensorSettingStatus) 3 rfl
instance : HasMember s_SensorSettingStatus "initialPlanckianDistance" (.type "ChromaticDistanceFromPlanckian") := member_inner (us := u_SensorSettingStatus) 3 rfl
instance : HasMember s_SensorSettingStatus "inputCurrentRangeSpecification" (.type "ElectricCurrentSpecification") := member_inner (us := u_SensorSettingStatus) 3 rfl
instance : HasMember s_SensorSettingStatus "inputCurrentStatistics" (.type "ElectricCurrentStatistics") := member_inner (us := u_SensorSettingStatus) 3 rfl
instance : HasMember s_SensorSettingStatus "inputOverCurrentEventStatistics" (.type "EventStatistics") := member_inner (us := u_SensorSettingStatus) 3 rfl
instance : HasMember s_SensorSettingStatus "inputOverRippleVoltageEventStatistics" (.type "EventStatistics") := member_inner (us := u_SensorSettingStatus) 3 rfl
instance : HasMember s_SensorSettingStatus "inputOverVoltageEventStatistics" (.type "EventStatistics") := member_inner (us := u_SensorSettingStatus) 3 rfl
instance : HasMember s_SensorSettingStatus "inputUnderCurrentEventStatistics" (.type "EventStatistics") := member_inner (us := u_SensorSettingStatus) 3 rfl
instance : HasMember s_SensorSettingStatus "inputUnderVoltageEventStatistics" (.type "EventStatistics") := member_inner (us := u_SensorSettingStatus) 3 rfl
instance : HasMember s_SensorSettingStatus "inputVoltageRangeSpecification" (.type "VoltageRange") := member_inner (us := u_SensorSettingStatus) 3 rfl
instance : HasMember s_SensorSettingStatus "inputVoltageRippleSpecification" (.type "Percentage8") := member_inner (us := u_SensorSettingStatus) 3 rfl
instance : HasMember s_SensorSettingStatus "inputVoltageStatistics" (.type "VoltageStatistics") := member_inner (us := u_SensorSettingStatus) 3 rfl
instance : HasMember s_SensorSettingStatus "lightControlAmbientLuxlevelOn" (.type "Illuminance") := member_inner (us := u_SensorSettingStatus) 3 rfl
instance : HasMember s_SensorSettingStatus "lightControlAmbientLuxlevelProlong" (.type "Illuminance") := member_inner (us := u_SensorSettingStatus) 3 rfl
instance : HasMember s_SensorSettingStatus "lightControlAmbientLuxlevelStandby" (.type "Illuminance") := member_inner (us := u_SensorSettingStatus) 3 rfl
instance : HasMember s_SensorSettingStatus "lightControlLightnessOn" (.type "PerceivedLightness") := member_inner (us := u_SensorSettingStatus) 3 rfl
instance : HasMember s_SensorSettingStatus "lightControlLightnessProlong" (.type "PerceivedLightness") := member_inner (us := u_SensorSettingStatus) 3 rfl
instance : HasMember s_SensorSettingStatus "lightControlLightnessStandby" (.type "PerceivedLightness") := member_inner (us := u_SensorSettingStatus) 3 rfl
instance : HasMember s_SensorSettingStatus "lightControlRegulatorAccuracy" (.type "Percentage8") := member_inner (us := u_SensorSettingStatus) 3 rfl
instance : HasMember s_SensorSettingStatus "lightControlRegulatorKid" (.type "Coefficient") := member_inner (us := u_SensorSettingStatus) 3 rfl
instance : HasMember s_SensorSettingStatus "lightControlRegulatorKiu" (.type "Coefficient") := member_inner (us := u_SensorSettingStatus) 3 rfl
instance : HasMember s_SensorSettingStatus "lightControlRegulatorKpd" (.type "Coefficient") := member_inner (us := u_SensorSettingStatus) 3 rfl
instance : HasMember s_SensorSettingStatus "lightControlRegulatorKpu" (.type "Coefficient") := member_inner (us := u_SensorSettingStatus) 3 rfl
instance : HasMember s_SensorSettingStatus "lightControlTimeFade" (.type "TimeMiliseconds24") := member_inner (us := u_SensorSettingStatus) 3 rfl
instance : HasMember s_SensorSettingStatus "lightControlTimeFadeOn" (.type "TimeMiliseconds24") := member_inner (us := u_SensorSettingStatus) 3 rfl
instance : HasMember s_SensorSettingStatus "lightControlTimeFadeStandbyAuto" (.type "TimeMiliseconds24") := member_inner (us := u_SensorSettingStatus) 3 rfl
instance : HasMember s_SensorSettingStatus "lightControlTimeFadeStandbyManual" (.type "TimeMiliseconds24") := member_inner (us := u_SensorSettingStatus) 3 rfl
instance : HasMember s_SensorSettingStatus "lightControlTimeOccupancyDelay" (.type "TimeMiliseconds24") := member_inner (us := u_SensorSettingStatus) 3 rfl
instance : HasMember s_SensorSettingStatus "lightControlTimeProlong" (.type "TimeMiliseconds24") := member_inner (us := u_SensorSettingStatus) 3 rfl
instance : HasMember s_SensorSettingStatus "lightControlTimeRunOn" (.type "TimeMiliseconds24") := member_inner (us := u_SensorSettingStatus) 3 rfl
instance : HasMember s_SensorSettingStatus "lumenMaintenanceFactor" (.type "Percentage8") := member_inner (us := u_SensorSettingStatus) 3 rfl
instance : HasMember s_SensorSettingStatus "luminousEfficacy" (.type "LuminousEfficacy") := member_inner (us := u_SensorSettingStatus) 3 rfl
instance : HasMember s_SensorSettingStatus "luminousEnergySinceTurnOn" (.type "LuminousEnergy") := member_inner (us := u_SensorSettingStatus) 3 rfl
instance : HasMember s_SensorSettingStatus "luminousExposure" (.type "LuminousExposure") := member_inner (us := u_SensorSettingStatus) 3 rfl
instance : HasMember s_SensorSettingStatus "luminousFluxRange" (.type "LuminousFluxRange") := member_inner (us := u_SensorSettingStatus) 3 rfl
instance : HasMember s_SensorSettingStatus "motionSensed" (.type "Percentage8") := member_inner (us := u_SensorSettingStatus) 3 rfl
instance : HasMember s_SensorSettingStatus "motionThreshold" (.type "Percentage8") := member_inner (us := u_SensorSettingStatus) 3 rfl
instance : HasMember s_SensorSettingStatus "openCircuitEventStatistics" (.type "EventStatistics") := member_inner (us := u_SensorSettingStatus) 3 rfl
instance : HasMember s_SensorSettingStatus "outdoorStatisticalValues" (.type "Temperature8Statistics") := member_inner (us := u_SensorSettingStatus) 3 rfl
instance : HasMember s_SensorSettingStatus "outputCurrentRange" (.type "ElectricCurrentRange") := member_inner (us := u_SensorSettingStatus) 3 rfl
instance : HasMember s_SensorSettingStatus "outputCurrentStatistics" (.type "ElectricCurrentStatistics") := member_inner (us := u_SensorSettingStatus) 3 rfl
instance : HasMember s_SensorSettingStatus "outputRippleVoltageSpecification" (.type "Percentage8") := member_inner (us := u_SensorSettingStatus) 3 rfl
instance : HasMember s_SensorSettingStatus "outputVoltageRange" (.type "VoltageRange") := member_inner (us := u_SensorSettingStatus) 3 rfl
instance : HasMember s_SensorSettingStatus "outputVoltageStatistics" (.type "VoltageStatistics") := member_inner (us := u_SensorSettingStatus) 3 rfl
instance : HasMember s_SensorSettingStatus "overOutputRippleVoltageEventStatistics" (.type "EventStatistics") := member_inner (us := u_SensorSettingStatus) 3 rfl
instance : HasMember s_SensorSettingStatus "peopleCount" (.type "Count16") := member_inner (us := u_SensorSettingStatus) 3 rfl
instance : HasMember s_SensorSettingStatus "presenceDetected" (.type "Presence") := member_inner (us := u_SensorSettingStatus) 3 rfl
instance : HasMember s_SensorSettingStatus "presentAmbientLightLevel" (.type "Illuminance") := member_inner (us := u_SensorSettingStatus) 3 rfl
instance : HasMember s_SensorSettingStatus "presentAmbientTemperature" (.type "Temperature8") := member_inner (us := u_SensorSettingStatus) 3 rfl
instance : HasMember s_SensorSettingStatus "presentCie1931ChromaticityCoordinates" (.type "ChromaticityCoordinates") := member_inner (us := u_SensorSettingStatus) 3 rfl
instance : HasMember s_SensorSettingStatus "presentCorrelatedColorTemperature" (.type "CorrelatedColorTemperature") := member_inner (us := u_SensorSettingStatus) 3 rfl
instance : HasMember s_SensorSettingStatus "presentDeviceInputPower" (.type "Power") := member_inner (us := u_SensorSettingStatus) 3 rfl
instance : HasMember s_SensorSettingStatus "presentDeviceOperatingEfficiency" (.type "Percentage8") := member_inner (us := u_SensorSettingStatus) 3 rfl
instance : HasMember s_SensorSettingStatus "presentDeviceOperatingTemperature" (.type "Temperature") := member_inner (us := u_SensorSettingStatus) 3 rfl
instance : HasMember s_SensorSettingStatus "presentIlluminance" (.type "Illuminance") := member_inner (us := u_SensorSettingStatus) 3 rfl
instance : HasMember s_SensorSettingStatus "presentIndoorAmbientTemperature" (.type "Temperature8") := member_inner (us := u_SensorSettingStatus) 3 rfl
instance : HasMember s_SensorSettingStatus "presentInputCurrent" (.type "ElectricCurrent") := member_inner (us := u_SensorSettingStatus) 3 rfl
instance : HasMember s_SensorSettingStatus "presentInputRippleVoltage" (.type "Percentage8") := member_inner (us := u_SensorSettingStatus) 3 rfl
instance : HasMember s_SensorSettingStatus "presentInputVoltage" (.type "Voltage") := member_inner (us := u_SensorSettingStatus) 3 rfl
instance : HasMember s_SensorSettingStatus "presentLuminousFlux" (.type "LuminousFlux") := member_inner (us := u_SensorSettingStatus) 3 rfl
instance : HasMember s_SensorSettingStatus "presentOutdoorAmbientTemperature" (.type "Temperature8") := member_inner (us := u_SensorSettingStatus) 3 rfl
instance : HasMember s_SensorSettingStatus "presentOutputCurrent" (.type "ElectricCurrent") := member_inner (us := u_SensorSettingStatus) 3 rfl
instance : HasMember s_SensorSettingStatus "presentOutputVoltage" (.type "Voltage") := member_inner (us := u_SensorSettingStatus) 3 rfl
instance : HasMember s_SensorSettingStatus "presentPlanckianDistance" (.type "ChromaticDistanceFromPlanckian") := member_inner (us := u_SensorSettingStatus) 3 rfl
instance : HasMember s_SensorSettingStatus "presentRelativeOutputRippleVoltage" (.type "Percentage8") := member_inner (us := u_SensorSettingStatus) 3 rfl
instance : HasMember s_SensorSettingStatus "relativeDeviceEnergyUseInAPeriodOfDay" (.type "EnergyInAPeriodOfDay") := member_inner (us := u_SensorSettingStatus) 3 rfl
instance : HasMember s_SensorSettingStatus "relativeDeviceRuntimeInAGenericLevelRange" (.type "RelativeRuntimeInAGenericLevelRange") := member_inner (us := u_SensorSettingStatus) 3 rfl
instance : HasMember s_SensorSettingStatus "relativeExposureTimeInAnIlluminanceRange" (.type "RelativeValueInAnIlluminanceRange") := member_inner (us := u_SensorSettingStatus) 3 rfl
instance : HasMember s_SensorSettingStatus "relativeRuntimeInACorrelatedColorTemperatureRange" (.type "LuminousEnergy") := member_inner (us := u_SensorSettingStatus) 3 rfl
instance : HasMember s_SensorSettingStatus "relativeRuntimeInADeviceOperatingTemperatureRange" (.type "RelativeValueInATemperatureRange") := member_inner (us := u_SensorSettingStatus) 3 rfl
instance : HasMember s_SensorSettingStatus "relativeRuntimeInAnInputCurrentRange" (.type "RelativeValueInACurrentRange") := member_inner (us := u_SensorSettingStatus) 3 rfl
instance : HasMember s_SensorSettingStatus "relativeRuntimeInAnInputVoltageRange" (.type "RelativeValueInAVoltageRange") := member_inner (us := u_SensorSettingStatus) 3 rfl
instance : HasMember s_SensorSettingStatus "shortCircuitEventStatistics" (.type "EventStatistics") := member_inner (us := u_SensorSettingStatus) 3 rfl
instance : HasMember s_SensorSettingStatus "timeSinceMotionSensed" (.type "TimeSecond16") := member_inner (us := u_SensorSettingStatus) 3 rfl
instance : HasMember s_SensorSettingStatus "timeSincePresenceDetected" (.type "TimeSecond16") := member_inner (us := u_SensorSettingStatus) 3 rfl
instance : HasMember s_SensorSettingStatus "totalDeviceEnergyUse" (.type "Energy") := member_inner (us := u_SensorSettingStatus) 3 rfl
instance : HasMember s_SensorSettingStatus "totalDeviceOffOnCycles" (.type "Count24") := member_inner (us := u_SensorSettingStatus) 3 rfl
instance : HasMember s_SensorSettingStatus "totalDevicePowerOnCycles" (.type "Count24") := member_inner (us := u_SensorSettingStatus) 3 rfl
instance : HasMember s_SensorSettingStatus "totalDevicePowerOnTime" (.type "TimeHour24") := member_inner (us := u_SensorSettingStatus) 3 rfl
instance : HasMember s_SensorSettingStatus "totalDeviceRuntime" (.type "TimeHour24") := member_inner (us := u_SensorSettingStatus) 3 rfl
instance : HasMember s_SensorSettingStatus "totalLightExposureTime" (.type "TimeHour24") := member_inner (us := u_SensorSettingStatus) 3 rfl
instance : HasMember s_SensorSettingStatus "totalLuminousEnergy" (.type "LuminousEnergy") := member_inner (us := u_SensorSettingStatus) 3 rfl
instance : HasMember s_SensorSettingStatus "preciseTotalDeviceEnergyUse" (.type "PreciseEnergy") := member_inner (us := u_SensorSettingStatus) 3 rfl
instance : HasMember s_SensorSettingStatus "powerFactor" (.type "CosineOfTheAngle") := member_inner (us := u_SensorSettingStatus) 3 rfl
instance : HasMember s_SensorSettingStatus "externalSupplyVoltage" (.type "HighVoltage") := member_inner (us := u_SensorSettingStatus) 3 rfl
instance : HasMember s_SensorSettingStatus "externalSupplyVoltageFrequency" (.type "VoltageFrequency") := member_inner (us := u_SensorSettingStatus) 3 rfl
instance : HasMember s_SensorSettingStatus "lightDistribution" (.type "LightDistribution") := member_inner (us := u_SensorSettingStatus) 3 rfl
instance : HasMember s_SensorSettingStatus "lightSourceCurrent" (.type "AverageCurrent") := member_inner (us := u_SensorSettingStatus) 3 rfl
instance : HasMember s_SensorSettingStatus "lightSourceOnTimeNotResettable" (.type "TimeSecond32") := member_inner (us := u_SensorSettingStatus) 3 rfl
instance : HasMember s_SensorSettingStatus "lightSourceOnTimeResettable" (.type "TimeSecond32") := member_inner (us := u_SensorSettingStatus) 3 rfl
instance : HasMember s_SensorSettingStatus "lightSourceOpenCircuitStatistics" (.type "EventStatistics") := member_inner (us := u_SensorSettingStatus) 3 rfl
instance : HasMember s_SensorSettingStatus "lightSourceOverallFailuresStatistics" (.type "EventStatistics") := member_inner (us := u_SensorSettingStatus) 3 rfl
instance : HasMember s_SensorSettingStatus "lightSourceShortCircuitStatistics" (.type "EventStatistics") := member_inner (us := u_SensorSettingStatus) 3 rfl
instance : HasMember s_SensorSettingStatus "lightSourceStartCounterResettable" (.type "Count24") := member_inner (us := u_SensorSettingStatus) 3 rfl
instance : HasMember s_SensorSettingStatus "lightSourceTemperature" (.type "HighTemperature") := member_inner (us := u_SensorSettingStatus) 3 rfl
instance : HasMember s_SensorSettingStatus "lightSourceThermalDeratingStatistics" (.type "EventStatistics") := member_inner (us := u_SensorSettingStatus) 3 rfl
instance : HasMember s_SensorSettingStatus "lightSourceThermalShutdownStatistics" (.type "EventStatistics") := member_inner (us := u_SensorSettingStatus) 3 rfl
instance : HasMember s_SensorSettingStatus "lightSourceTotalPowerOnCycles" (.type "Count24") := member_inner (us := u_SensorSettingStatus) 3 rfl
instance : HasMember s_SensorSettingStatus "lightSourceVoltage" (.type "AverageVoltage") := member_inner (us := u_SensorSettingStatus) 3 rfl
instance : HasMember s_SensorSettingStatus "luminaireColor" (.type "Text") := member_inner (us := u_SensorSettingStatus) 3 rfl
instance : HasMember s_SensorSettingStatus "luminaireIdentificationNumber" (.type "Text") := member_inner (us := u_SensorSettingStatus) 3 rfl
instance : HasMember s_SensorSettingStatus "luminaireNominalInputPower" (.type "Power") := member_inner (us := u_SensorSettingStatus) 3 rfl
instance : HasMember s_SensorSettingStatus "luminaireNominalMaximumAcMainsVoltage" (.type "Voltage") := member_inner (us := u_SensorSettingStatus) 3 rfl
instance : HasMember s_SensorSettingStatus "luminaireNominalMinimumAcMainsVoltage" (.type "Voltage") := member_inner (us := u_SensorSettingStatus) 3 rfl
instance : HasMember s_SensorSettingStatus "luminairePowerAtMinimumDimLevel" (.type "Power") := member_inner (us := u_SensorSettingStatus) 3 rfl
instance : HasMember s_SensorSettingStatus "luminaireTimeOfManufacture" (.type "DateUTC") := member_inner (us := u_SensorSettingStatus) 3 rfl
instance : HasMember s_SensorSettingStatus "nominalLightOutput" (.type "LightOutput") := member_inner (us := u_SensorSettingStatus) 3 rfl
instance : HasMember s_SensorSettingStatus "overallFailureCondition" (.type "EventStatistics") := member_inner (us := u_SensorSettingStatus) 3 rfl
instance : HasMember s_SensorSettingStatus "ratedMedianUsefulLifeOfLuminaire" (.type "TimeHour24") := member_inner (us := u_SensorSettingStatus) 3 rfl
instance : HasMember s_SensorSettingStatus "ratedMedianUsefulLightSourceStarts" (.type "Count24") := member_inner (us := u_SensorSettingStatus) 3 rfl
instance : HasMember s_SensorSettingStatus "referenceTemperature" (.type "HighTemperature") := member_inner (us := u_SensorSettingStatus) 3 rfl
instance : HasMember s_SensorSettingStatus "totalDeviceStarts" (.type "Count24") := member_inner (us := u_SensorSettingStatus) 3 rfl
instance : HasMember s_SensorSettingStatus "luminaireIdentificationString" (.type "Text") := member_inner (us := u_SensorSettingStatus) 3 rfl
instance : HasMember s_SensorSettingStatus "outputPowerLimitation" (.type "EventStatistics") := member_inner (us := u_SensorSettingStatus) 3 rfl
instance : HasMember s_SensorSettingStatus "thermalDerating" (.type "EventStatistics") := member_inner (us := u_SensorSettingStatus) 3 rfl
instance : HasMember s_SensorSettingStatus "outputCurrentPercent" (.type "Percentage8") := member_inner (us := u_SensorSettingStatus) 3 rfl
instance : HasMember s_SensorSettingStatus "luminaireManufacturerGtin" (.type "GlobalTradeItemNumber") := member_inner (us := u_SensorSettingStatus) 3 rfl
instance : HasMember s_SensorSettingStatus "apparentEnergy" (.type "ApparentEnergy32") := member_inner (us := u_SensorSettingStatus) 3 rfl
instance : HasMember s_SensorSettingStatus "apparentPower" (.type "ApparentPower") := member_inner (us := u_SensorSettingStatus) 3 rfl
instance : HasMember s_SensorSettingStatus "activeEnergyLoadSide" (.type "Energy32") := member_inner (us := u_SensorSettingStatus) 3 rfl
instance : HasMember s_SensorSettingStatus "activePowerLoadSide" (.type "Power") := member_inner (us := u_SensorSettingStatus) 3 rfl
instance : HasMember s_SensorSettingStatus "lightSourceType" (.type "LightSourceType") := member_inner (us := u_SensorSettingStatus) 3 rfl
instance : HasMember s_SensorSettingStatus "desiredAmbientTemperature" (.type "Temperature8") := member_inner (us := u_SensorSettingStatus) 3 rfl
instance : HasMember s_SensorSettingStatus "sensorGain" (.type "Coefficient") := member_inner (us := u_SensorSettingStatus) 3 rfl
instance : HasMember s_SensorSettingStatus "precisePresentAmbientTemperature" (.type "Temperature") := member_inner (us := u_SensorSettingStatus) 3 rfl
instance : HasMember s_SensorSettingStatus "sensorSettingRaw" (.type "List(UInt8)") := member_inner (us := u_SensorSettingStatus) 3 rfl
instance : IsUnion "LightExtendedControllerParams" s_LightExtendedControllerParams u_LightExtendedControllerParams := isUnion 261 rfl rfl
instance : HasMember s_LightExtendedControllerParams "subopcode" (.type "UInt8") := member_field 0 rfl
instance : HasMember u_LightExtendedControllerParams "propertyGet" (.type "LightExtendedControllerPropertyGet") := member_field 0 rfl
instance : HasMember u_LightExtendedControllerParams "propertySet" (.type "LightExtendedControllerPropertySet") := member_field 1 rfl
instance : HasMember u_LightExtendedControllerParams "propertySetUnacknowledged" (.type "LightExtendedControllerPropertySet") := member_field 2 rfl
instance : HasMember u_LightExtendedControllerParams "propertyStatus" (.type "LightExtendedControllerPropertyStatus") := member_field 3 rfl
instance : HasMember u_LightExtendedControllerParams "syncIntegralStatus" (.type "LightExtendedControllerSyncIntegralStatus") := member_field 4 rfl
instance : HasMember s_LightExtendedControllerParams "propertyGet" (.type "LightExtendedControllerPropertyGet") := member_inner (us := u_LightExtendedControllerParams) 1 rfl
instance : HasMember s_LightExtendedControllerParams "propertySet" (.type "LightExtendedControllerPropertySet") := member_inner (us := u_LightExtendedControllerParams) 1 rfl
instance : HasMember s_LightExtendedControllerParams "propertySetUnacknowledged" (.type "LightExtendedControllerPropertySet") := member_inner (us := u_LightExtendedControllerParams) 1 rfl
instance : HasMember s_LightExtendedControllerParams "propertyStatus" (.type "LightExtendedControllerPropertyStatus") := member_inner (us := u_LightExtendedControllerParams) 1 rfl
instance : HasMember s_LightExtendedControllerParams "syncIntegralStatus" (.type "LightExtendedControllerSyncIntegralStatus") := member_inner (us := u_LightExtendedControllerParams) 1 rfl
instance : IsPlain "LightExtendedControllerPropertyGet" s_LightExtendedControllerPropertyGet := isPlain 262 rfl rfl
instance : HasMember s_LightExtendedControllerPropertyGet "propertyId" (.type "UInt16") := member_field 0 rfl
instance : IsUnion "LightExtendedControllerPropertySet" s_LightExtendedControllerPropertySet u_LightExtendedControllerPropertySet := isUnion 263 rfl rfl
instance : HasMember s_LightExtendedControllerPropertySet "propertyId" (.type "UInt16") := member_field 0 rfl
instance : HasMember u_LightExtendedControllerPropertySet "autoResumeMode" (.type "Bool") := member_field 0 rfl
instance : HasMember u_LightExtendedControllerPropertySet "autoResumeTimer" (.type "TimeMiliseconds24") := member_field 1 rfl
instance : HasMember s_LightExtendedControllerPropertySet "autoResumeMode" (.type "Bool") := member_inner (us := u_LightExtendedControllerPropertySet) 1 rfl
instance : HasMember s_LightExtendedControllerPropertySet "autoResumeTimer" (.type "TimeMiliseconds24") := member_inner (us := u_LightExtendedControllerPropertySet) 1 rfl
instance : IsUnion "LightExtendedControllerPropertyStatus" s_LightExtendedControllerPropertyStatus u_LightExtendedControllerPropertyStatus := isUnion 264 rfl rfl
instance : HasMember s_LightExtendedControllerPropertyStatus "propertyId" (.type "UInt16") := member_field 0 rfl
instance : HasMember u_LightExtendedControllerPropertyStatus "autoResumeMode" (.type "Bool") := member_field 0 rfl
instance : HasMember u_LightExtendedControllerPropertyStatus "autoResumeTimer" (.type "TimeMiliseconds24") := member_field 1 rfl
instance : HasMember s_LightExtendedControllerPropertyStatus "autoResumeMode" (.type "Bool") := member_inner (us := u_LightExtendedControllerPropertyStatus) 1 rfl
instance : HasMember s_LightExtendedControllerPropertyStatus "autoResumeTimer" (.type "TimeMiliseconds24") := member_inner (us := u_LightExtendedControllerPropertyStatus) 1 rfl
instance : IsPlain "LightExtendedControllerSyncIntegralStatus" s_LightExtendedControllerSyncIntegralStatus := isPlain 265 rfl rfl
instance : HasMember s_LightExtendedControllerSyncIntegralStatus "syncIntegral" (.type "UInt16") := member_field 0 rfl
instance : IsPlain "TimeGet" s_TimeGet := isPlain 266 rfl rfl
instance : IsPlain "TimeSet" s_TimeSet := isPlain 267 rfl rfl
instance : HasMember s_TimeSet "date" (.type "DateTime") := member_field 0 rfl
instance : HasMember s_TimeSet "taiUtcDelta" (.type "Int16") := member_field 1 rfl
instance : HasMember s_TimeSet "timeAuthority" (.type "Bool") := member_field 2 rfl
instance : HasMember s_TimeSet "uncertainty" (.type "Float32") := member_field 3 rfl
instance : IsPlain "DateTime" s_DateTime := isPlain 268 rfl rfl
instance : HasMember s_DateTime "year" (.type "UInt16") := member_field 0 rfl
instance : HasMember s_DateTime "month" (.type "UInt8") := member_field 1 rfl
instance : HasMember s_DateTime "day" (.type "UInt8") := member_field 2 rfl
instance : HasMember s_DateTime "hour" (.type "UInt8") := member_field 3 rfl
instance : HasMember s_DateTime "minute" (.type "UInt8") := member_field 4 rfl
instance : HasMember s_DateTime "second" (.type "UInt8") := member_field 5 rfl
instance : HasMember s_DateTime "microsecond" (.type "UInt32") := member_field 6 rfl
instance : HasMember s_DateTime "timeZoneOffset" (.type "Int16") := member_field 7 rfl
instance : IsPlain "TimeStatus" s_TimeStatus := isPlain 269 rfl rfl
instance : HasMember s_TimeStatus "date" (.type "DateTime") := member_field 0 rfl
instance : HasMember s_TimeStatus "taiUtcDelta" (.type "Int16") := member_field 1 rfl
instance : HasMember s_TimeStatus "timeAuthority" (.type "Bool") := member_field 2 rfl
instance : HasMember s_TimeStatus "uncertainty" (.type "Float32") := member_field 3 rfl
instance : IsPlain "TimeZoneGet" s_TimeZoneGet := isPlain 270 rfl rfl
instance : IsPlain "TimeZoneSet" s_TimeZoneSet := isPlain 271 rfl rfl
instance : HasMember s_TimeZoneSet "timeZoneOffsetNew" (.type "UInt8") := member_field 0 rfl
instance : HasMember s_TimeZoneSet "taiOfZoneChange" (.type "UInt64") := member_field 1 rfl
instance : IsPlain "TimeZoneStatus" s_TimeZoneStatus := isPlain 272 rfl rfl
instance : HasMember s_TimeZoneStatus "timeZoneOffsetCurrent" (.type "UInt8") := member_field 0 rfl
instance : HasMember s_TimeZoneStatus "timeZoneOffsetNew" (.type "UInt8") := member_field 1 rfl
instance : HasMember s_TimeZoneStatus "taiOfZoneChange" (.type "UInt64") := member_field 2 rfl
instance : IsPlain "TAIUTCDeltaGet" s_TAIUTCDeltaGet := isPlain 273 rfl rfl
instance : IsPlain "TAIUTCDeltaSet" s_TAIUTCDeltaSet := isPlain 274 rfl rfl
instance : HasMember s_TAIUTCDeltaSet "taiUtcDeltaNew" (.type "UInt16") := member_field 0 rfl
instance : HasMember s_TAIUTCDeltaSet "taiOfDeltaChange" (.type "UInt64") := member_field 1 rfl
instance : IsPlain "TAIUTCDeltaStatus" s_TAIUTCDeltaStatus := isPlain 275 rfl rfl
instance : HasMember s_TAIUTCDeltaStatus "taiUtcDeltaCurrent" (.type "UInt16") := member_field 0 rfl
instance : HasMember s_TAIUTCDeltaStatus "taiUtcDeltaNew" (.type "UInt16") := member_field 1 rfl
instance : HasMember s_TAIUTCDeltaStatus "taiOfDeltaChange" (.type "UInt64") := member_field 2 rfl
instance : IsPlain "TimeRoleGet" s_TimeRoleGet := isPlain 276 rfl rfl
instance : IsPlain "TimeRoleStatus" s_TimeRoleStatus := isPlain 277 rfl rfl
instance : HasMember s_TimeRoleStatus "timeRole" (.type "UInt8") := member_field 0 rfl
instance : IsPlain "DebugV2SubMessage" s_DebugV2SubMessage := isPlain 278 rfl rfl
instance : HasMember s_DebugV2SubMessage "subopcode" (.type "UInt8") := member_field 0 rfl
instance : HasMember s_DebugV2SubMessage "parameterType" (.type "UInt8") := member_field 1 rfl
instance : HasMember s_DebugV2SubMessage "pageNumber" (.type "UInt8") := member_field 2 rfl
instance : HasMember s_DebugV2SubMessage "payload" (.type "List(DebugV2Parameter)") := member_field 3 rfl
instance : IsUnion "DebugV2Parameter" s_DebugV2Parameter u_DebugV2Parameter := isUnion 279 rfl rfl
instance : HasMember s_DebugV2Parameter "dataType" (.type "UInt8") := member_field 0 rfl
instance : HasMember u_DebugV2Parameter "uint8" (.type "UInt8") := member_field 0 rfl
instance : HasMember u_DebugV2Parameter "uint16" (.type "UInt16") := member_field 1 rfl
instance : HasMember u_DebugV2Parameter "uint32" (.type "UInt32") := member_field 2 rfl
instance : HasMember u_DebugV2Parameter "uint64" (.type "UInt64") := member_field 3 rfl
instance : HasMember u_DebugV2Parameter "int8" (.type "Int8") := member_field 4 rfl
instance : HasMember u_DebugV2Parameter "int16" (.type "Int16") := member_field 5 rfl
instance : HasMember u_DebugV2Parameter "int32" (.type "Int32") := member_field 6 rfl
instance : HasMember u_DebugV2Parameter "int64" (.type "Int64") := member_field 7 rfl
instance : HasMember u_DebugV2Parameter "float" (.type "Float32") := member_field 8 rfl
instance : HasMember u_DebugV2Parameter "double" (.type "Float64") := member_field 9 rfl
instance : HasMember u_DebugV2Parameter "enum" (.type "UInt8") := member_field 10 rfl
instance : HasMember u_DebugV2Parameter "string" (.type "Text") := member_field 11 rfl
instance : HasMember u_DebugV2Parameter "array" (.type "List(UInt8)") := member_field 12 rfl
instance : HasMember u_DebugV2Parameter "invalid" (.type "DebugV2MessageParams") := member_field 13 rfl
instance : HasMember s_DebugV2Parameter "uint8" (.type "UInt8") := member_inner (us := u_DebugV2Parameter) 1 rfl
instance : HasMember s_DebugV2Parameter "uint16" (.type "UInt16") := member_inner (us := u_DebugV2Parameter) 1 rfl
instance : HasMember s_DebugV2Parameter "uint32" (.type "UInt32") := member_inner (us := u_DebugV2Parameter) 1 rfl
instance : HasMember s_DebugV2Parameter "uint64" (.type "UInt64") := member_inner (us := u_DebugV2Parameter) 1 rfl
instance : HasMember s_DebugV2Parameter "int8" (.type "Int8") := member_inner (us := u_DebugV2Parameter) 1 rfl
instance : HasMember s_DebugV2Parameter "int16" (.type "Int16") := member_inner (us := u_DebugV2Parameter) 1 rfl
instance : HasMember s_DebugV2Parameter "int32" (.type "Int32") := member_inner (us := u_DebugV2Parameter) 1 rfl
instance : HasMember s_DebugV2Parameter "int64" (.type "Int64") := member_inner (us := u_DebugV2Parameter) 1 rfl
instance : HasMember s_DebugV2Parameter "float" (.type "Float32") := member_inner (us := u_DebugV2Parameter) 1 rfl
instance : HasMember s_DebugV2Parameter "double" (.type "Float64") := member_inner (us := u_DebugV2Parameter) 1 rfl
instance : HasMember s_DebugV2Parameter "enum" (.type "UInt8") := member_inner (us := u_DebugV2Parameter) 1 rfl
instance : HasMember s_DebugV2Parameter "string" (.type "Text") := member_inner (us := u_DebugV2Parameter) 1 rfl
instance : HasMember s_DebugV2Parameter "array" (.type "List(UInt8)") := member_inner (us := u_DebugV2Parameter) 1 rfl
instance : HasMember s_DebugV2Parameter "invalid" (.type "DebugV2MessageParams") := member_inner (us := u_DebugV2Parameter) 1 rfl
instance : IsPlain "DebugV2MessageParams" s_DebugV2MessageParams := isPlain 280 rfl rfl
instance : IsPlain "RRuleSchedulerSubMessage" s_RRuleSchedulerSubMessage := isPlain 281 rfl rfl
instance : HasMember s_RRuleSchedulerSubMessage "subopcode" (.type "UInt8") := member_field 0 rfl
instance : HasMember s_RRuleSchedulerSubMessage "payload" (.group g_RRuleSchedulerSubMessage_payload) := member_group 1 rfl
instance : IsPlain "RulesListGet" s_RulesListGet := isPlain 282 rfl rfl
instance : IsPlain "RulesListStatus" s_RulesListStatus := isPlain 283 rfl rfl
instance : HasMember s_RulesListStatus "ruleIds" (.type "List(UInt8)") := member_field 0 rfl
instance : IsPlain "RegisterMaxSizeGet" s_RegisterMaxSizeGet := isPlain 284 rfl rfl
instance : IsPlain "RegisterMaxSizeStatus" s_RegisterMaxSizeStatus := isPlain 285 rfl rfl
instance : HasMember s_RegisterMaxSizeStatus "registerMaxSize" (.type "UInt32") := member_field 0 rfl
instance : IsPlain "SchedulerModeGet" s_SchedulerModeGet := isPlain 286 rfl rfl
instance : IsPlain "SchedulerModeStatus" s_SchedulerModeStatus := isPlain 287 rfl rfl
instance : HasMember s_SchedulerModeStatus "schedulerMode" (.type "UInt8") := member_field 0 rfl
instance : IsPlain "ScheduleRegisterEntryDelete" s_ScheduleRegisterEntryDelete := isPlain 288 rfl rfl
instance : HasMember s_ScheduleRegisterEntryDelete "entryId" (.type "UInt8") := member_field 0 rfl
instance : IsPlain "ScheduleRegisterEntrySet" s_ScheduleRegisterEntrySet := isPlain 289 rfl rfl
instance : HasMember s_ScheduleRegisterEntrySet "entryId" (.type "UInt8") := member_field 0 rfl
instance : HasMember s_ScheduleRegisterEntrySet "schedulerRegisterEntry" (.type "SchedulerRegisterEntry") := member_field 1 rfl
instance : IsPlain "SchedulerRegisterEntry" s_SchedulerRegisterEntry := isPlain 290 rfl rfl
instance : HasMember s_SchedulerRegisterEntry "arrayOfSlots" (.type "List(Slots)") := member_field 0 rfl
instance : HasMember s_SchedulerRegisterEntry "rules" (.type "List(Rules)") := member_field 1 rfl
instance : IsPlain "Slots" s_Slots := isPlain 291 rfl rfl
instance : HasMember s_Slots "slotId" (.type "UInt16") := member_field 0 rfl
instance : HasMember s_Slots "element" (.type "UInt8") := member_field 1 rfl
instance : HasMember s_Slots "slotParameter" (.type "Data") := member_field 2 rfl
instance : IsPlain "Rules" s_Rules := isPlain 292 rfl rfl
instance : HasMember s_Rules "ruleId" (.type "UInt8") := member_field 0 rfl
instance : HasMember s_Rules "rule" (.group g_Rules_rule) := member_group 1 rfl
instance : IsPlain "ScheduleRegisterEntryDeleteAll" s_ScheduleRegisterEntryDeleteAll := isPlain 293 rfl rfl
instance : IsPlain "ScheduleRegisterEntryStatusOptional" s_ScheduleRegisterEntryStatusOptional := isPlain 294 rfl rfl
instance : HasMember s_ScheduleRegisterEntryStatusOptional "entryId" (.type "UInt8") := member_field 0 rfl
instance : HasMember s_ScheduleRegisterEntryStatusOptional "status" (.type "UInt8") := member_field 1 rfl
instance : HasMember s_ScheduleRegisterEntryStatusOptional "schedulerRegisterEntry" (.type "SchedulerRegisterEntry") := member_field 2 rfl
instance : IsPlain "ScheduleRegisterEntryStatusMinimal" s_ScheduleRegisterEntryStatusMinimal := isPlain 295 rfl rfl
instance : HasMember s_ScheduleRegisterEntryStatusMinimal "entryId" (.type "UInt8") := member_field 0 rfl
instance : HasMember s_ScheduleRegisterEntryStatusMinimal "status" (.type "UInt8") := member_field 1 rfl
instance : IsPlain "ScheduleRegisterListGet" s_ScheduleRegisterListGet := isPlain 296 rfl rfl
instance : IsPlain "ScheduleRegisterListStatus" s_ScheduleRegisterListStatus := isPlain 297 rfl rfl
instance : HasMember s_ScheduleRegisterListStatus "entryIds" (.type "List(UInt8)") := member_field 0 rfl
instance : IsPlain "GenericPropertiesGet" s_GenericPropertiesGet := isPlain 298 rfl rfl
instance : IsPlain "GenericPropertiesStatus" s_GenericPropertiesStatus := isPlain 299 rfl rfl
instance : HasMember s_GenericPropertiesStatus "propertyIds" (.type "List(UInt16)") := member_field 0 rfl
instance : IsPlain "GenericPropertyGet" s_GenericPropertyGet := isPlain 300 rfl rfl
instance : HasMember s_GenericPropertyGet "propertyId" (.type "UInt16") := member_field 0 rfl
instance : IsUnion "GenericUserPropertySet" s_GenericUserPropertySet u_GenericUserPropertySet := isUnion 301 rfl rfl
instance : HasMember s_GenericUserPropertySet "propertyId" (.type "UInt16") := member_field 0 rfl
instance : HasMember u_GenericUserPropertySet "averageAmbientTemperatureInAPeriodOfDay" (.type "Temperature8InAPeriodOfDay") := member_field 0 rfl
instance : HasMember u_GenericUserPropertySet "averageInputCurrent" (.type "AverageCurrent") := member_field 1 rfl
instance : HasMember u_GenericUserPropertySet "averageInputVoltage" (.type "AverageVoltage") := member_field 2 rfl
instance : HasMember u_GenericUserPropertySet "averageOutputCurrent" (.type "AverageCurrent") := member_field 3 rfl
instance : HasMember u_GenericUserPropertySet "averageOutputVoltage" (.type "AverageVoltage") := member_field 4 rfl
instance : HasMember u_GenericUserPropertySet "centerBeamIntensityAtFullPower" (.type "LuminousIntensity") := member_field 5 rfl
instance : HasMember u_GenericUserPropertySet "chromaticityTolerance" (.type "ChromaticityTolerance") := member_field 6 rfl
instance : HasMember u_GenericUserPropertySet "colorRenderingIndexR9" (.type "ColorRenderingIndex") := member_field 7 rfl
instance : HasMember u_GenericUserPropertySet "colorRenderingIndexRa" (.type "ColorRenderingIndex") := member_field 8 rfl
instance : HasMember u_GenericUserPropertySet "deviceAppearance" (.type "Appearance") := member_field 9 rfl
instance : HasMember u_GenericUserPropertySet "deviceCountryOfOrigin" (.type "CountryCode") := member_field 10 rfl
instance : HasMember u_GenericUserPropertySet "deviceDateOfManufacture" (.type "DateUTC") := member_field 11 rfl
instance : HasMember u_GenericUserPropertySet "deviceEnergyUseSinceTurnOn" (.type "Energy") := member_field 12 rfl
instance : HasMember u_GenericUserPropertySet "deviceFirmwareRevision" (.type "Text") := member_field 13 rfl
instance : HasMember u_GenericUserPropertySet "deviceGlobalTradeItemNumber" (.type "GlobalTradeItemNumber") := member_field 14 rfl
instance : HasMember u_GenericUserPropertySet "deviceHardwareRevision" (.type "Text") := member_field 15 rfl
instance : HasMember u_GenericUserPropertySet "deviceManufacturerName" (.type "Text") := member_field 16 rfl
instance : HasMember u_GenericUserPropertySet "deviceModelNumber" (.type "Text") := member_field 17 rfl
instance : HasMember u_GenericUserPropertySet "deviceOperatingTemperatureRangeSpecification" (.type "TemperatureRange") := member_field 18 rfl
instance : HasMember u_GenericUserPropertySet "deviceOperatingTemperatureStatisticalValues" (.type "TemperatureStatistics") := member_field 19 rfl
instance : HasMember u_GenericUserPropertySet "deviceOverTemperatureEventStatistics" (.type "EventStatistics") := member_field 20 rfl
instance : HasMember u_GenericUserPropertySet "devicePowerRangeSpecification" (.type "PowerSpecification") := member_field 21 rfl
instance : HasMember u_GenericUserPropertySet "deviceRuntimeSinceTurnOn" (.type "TimeHour24") := member_field 22 rfl
instance : HasMember u_GenericUserPropertySet "deviceRuntimeWarranty" (.type "TimeHour24") := member_field 23 rfl
instance : HasMember u_GenericUserPropertySet "deviceSerialNumber" (.type "Text") := member_field 24 rfl
instance : HasMember u_GenericUserPropertySet "deviceSoftwareRevision" (.type "Text") := member_field 25 rfl
instance : HasMember u_GenericUserPropertySet "deviceUnderTemperatureEventStatistics" (.type "EventStatistics") := member_field 26 rfl
instance : HasMember u_GenericUserPropertySet "indoorAmbientTemperatureStatisticalValues" (.type "Temperature8Statistics") := member_field 27 rfl
instance : HasMember u_GenericUserPropertySet "initialCie1931ChromaticityCoordinates" (.type "ChromaticityCoordinates") := member_field 28 rfl
instance : HasMember u_GenericUserPropertySet "initialCorrelatedColorTemperature" (.type "CorrelatedColorTemperature") := member_field 29 rfl
instance : HasMember u_GenericUserPropertySet "initialLuminousFlux" (.type "LuminousFlux") := member_field 30 rfl
instance : HasMember u_GenericUserPropertySet "initialPlanckianDistance" (.type "ChromaticDistanceFromPlanckian") := member_field 31 rfl
instance : HasMember u_GenericUserPropertySet "inputCurrentRangeSpecification" (.type "ElectricCurrentSpecification") := member_field 32 rfl
instance : HasMember u_GenericUserPropertySet "inputCurrentStatistics" (.type "ElectricCurrentStatistics") := member_field 33 rfl
instance : HasMember u_GenericUserPropertySet "inputOverCurrentEventStatistics" (.type "EventStatistics") := member_field 34 rfl
instance : HasMember u_GenericUserPropertySet "inputOverRippleVoltageEventStatistics" (.type "EventStatistics") := member_field 35 rfl
instance : HasMember u_GenericUserPropertySet "inputOverVoltageEventStatistics" (.type "EventStatistics") := member_field 36 rfl
instance : HasMember u_GenericUserPropertySet "inputUnderCurrentEventStatistics" (.type "EventStatistics") := member_field 37 rfl
instance : HasMember u_GenericUserPropertySet "inputUnderVoltageEventStatistics" (.type "EventStatistics") := member_field 38 rfl
instance : HasMember u_GenericUserPropertySet "inputVoltageRangeSpecification" (.type "VoltageRange") := member_field 39 rfl
instance : HasMember u_GenericUserPropertySet "inputVoltageRippleSpecification" (.type "Percentage8") := member_field 40 rfl
instance : HasMember u_GenericUserPropertySet "inputVoltageStatistics" (.type "VoltageStatistics") := member_field 41 rfl
instance : HasMember u_GenericUserPropertySet "lightControlAmbientLuxlevelOn" (.type "Illuminance") := member_field 42 rfl
instance : HasMember u_GenericUserPropertySet "lightControlAmbientLuxlevelProlong" (.type "Illuminance") := member_field 43 rfl
instance : HasMember u_GenericUserPropertySet "lightControlAmbientLuxlevelStandby" (.type "Illuminance") := member_field 44 rfl
instance : HasMember u_GenericUserPropertySet "lightControlLightnessOn" (.type "PerceivedLightness") := member_field 45 rfl
instance : HasMember u_GenericUserPropertySet "lightControlLightnessProlong" (.type "PerceivedLightness") := member_field 46 rfl
instance : HasMember u_GenericUserPropertySet "lightControlLightnessStandby" (.type "PerceivedLightness") := member_field 47 rfl
instance : HasMember u_GenericUserPropertySet "lightControlRegulatorAccuracy" (.type "Percentage8") := member_field 48 rfl
instance : HasMember u_GenericUserPropertySet "lightControlRegulatorKid" (.type "Coefficient") := member_field 49 rfl
instance : HasMember u_GenericUserPropertySet "lightControlRegulatorKiu" (.type "Coefficient") := member_field 50 rfl
instance : HasMember u_GenericUserPropertySet "lightControlRegulatorKpd" (.type "Coefficient") := member_field 51 rfl
instance : HasMember u_GenericUserPropertySet "lightControlRegulatorKpu" (.type "Coefficient") := member_field 52 rfl
instance : HasMember u_GenericUserPropertySet "lightControlTimeFade" (.type "TimeMiliseconds24") := member_field 53 rfl
instance : HasMember u_GenericUserPropertySet "lightControlTimeFadeOn" (.type "TimeMiliseconds24") := member_field 54 rfl
instance : HasMember u_GenericUserPropertySet "lightControlTimeFadeStandbyAuto" (.type "TimeMiliseconds24") := member_field 55 rfl
instance : HasMember u_GenericUserPropertySet "lightControlTimeFadeStandbyManual" (.type "TimeMiliseconds24") := member_field 56 rfl
instance : HasMember u_GenericUserPropertySet "lightControlTimeOccupancyDelay" (.type "TimeMiliseconds24") := member_field 57 rfl
instance : HasMember u_GenericUserPropertySet "lightControlTimeProlong" (.type "TimeMiliseconds24") := member_field 58 rfl
instance : HasMember u_GenericUserPropertySet "lightControlTimeRunOn" (.type "TimeMiliseconds24") := member_field 59 rfl
instance : HasMember u_GenericUserPropertySet "lumenMaintenanceFactor" (.type "Percentage8") := member_field 60 rfl
instance : HasMember u_GenericUserPropertySet "luminousEfficacy" (.type "LuminousEfficacy") := member_field 61 rfl
instance : HasMember u_GenericUserPropertySet "luminousEnergySinceTurnOn" (.type "LuminousEnergy") := member_field 62 rfl
instance : HasMember u_GenericUserPropertySet "luminousExposure" (.type "LuminousExposure") := member_field 63 rfl
instance : HasMember u_GenericUserPropertySet "luminousFluxRange" (.type "LuminousFluxRange") := member_field 64 rfl
instance : HasMember u_GenericUserPropertySet "motionSensed" (.type "Percentage8") := member_field 65 rfl
instance : HasMember u_GenericUserPropertySet "motionThreshold" (.type "Percentage8") := member_field 66 rfl
instance : HasMember u_GenericUserPropertySet "openCircuitEventStatistics" (.type "EventStatistics") := member_field 67 rfl
instance : HasMember u_GenericUserPropertySet "outdoorStatisticalValues" (.type "Temperature8Statistics") := member_field 68 rfl
instance : HasMember u_GenericUserPropertySet "outputCurrentRange" (.type "ElectricCurrentRange") := member_field 69 rfl
instance : HasMember u_GenericUserPropertySet "outputCurrentStatistics" (.type "ElectricCurrentStatistics") := member_field 70 rfl
instance : HasMember u_GenericUserPropertySet "outputRippleVoltageSpecification" (.type "Percentage8") := member_field 71 rfl
instance : HasMember u_GenericUserPropertySet "outputVoltageRange" (.type "VoltageRange") := member_field 72 rfl
instance : HasMember u_GenericUserPropertySet "outputVoltageStatistics" (.type "VoltageStatistics") := member_field 73 rfl
instance : HasMember u_GenericUserPropertySet "overOutputRippleVoltageEventStatistics" (.type "EventStatistics") := member_field 74 rfl
instance : HasMember u_GenericUserPropertySet "peopleCount" (.type "Count16") := member_field 75 rfl
instance : HasMember u_GenericUserPropertySet "presenceDetected" (.type "Presence") := member_field 76 rfl
instance : HasMember u_GenericUserPropertySet "presentAmbientLightLevel" (.type "Illuminance") := member_field 77 rfl
instance : HasMember u_GenericUserPropertySet "presentAmbientTemperature" (.type "Temperature8") := member_field 78 rfl
instance : HasMember u_GenericUserPropertySet "presentCie1931ChromaticityCoordinates" (.type "ChromaticityCoordinates") := member_field 79 rfl
instance : HasMember u_GenericUserPropertySet "presentCorrelatedColorTemperature" (.type "CorrelatedColorTemperature") := member_field 80 rfl
instance : HasMember u_GenericUserPropertySet "presentDeviceInputPower" (.type "Power") := member_field 81 rfl
instance : HasMember u_GenericUserPropertySet "presentDeviceOperatingEfficiency" (.type "Percentage8") := member_field 82 rfl
instance : HasMember u_GenericUserPropertySet "presentDeviceOperatingTemperature" (.type "Temperature") := member_field 83 rfl
instance : HasMember u_GenericUserPropertySet "presentIlluminance" (.type "Illuminance") := member_field 84 rfl
instance : HasMember u_GenericUserPropertySet "presentIndoorAmbientTemperature" (.type "Temperature8") := member_field 85 rfl
instance : HasMember u_GenericUserPropertySet "presentInputCurrent" (.type "ElectricCurrent") := member_field 86 rfl
instance : HasMember u_GenericUserPropertySet "presentInputRippleVoltage" (.type "Percentage8") := member_field 87 rfl
instance : HasMember u_GenericUserPropertySet "presentInputVoltage" (.type "Voltage") := member_field 88 rfl
instance : HasMember u_GenericUserPropertySet "presentLuminousFlux" (.type "LuminousFlux") := member_field 89 rfl
instance : HasMember u_GenericUserPropertySet "presentOutdoorAmbientTemperature" (.type "Temperature8") := member_field 90 rfl
instance : HasMember u_GenericUserPropertySet "presentOutputCurrent" (.type "ElectricCurrent") := member_field 91 rfl
instance : HasMember u_GenericUserPropertySet "presentOutputVoltage" (.type "Voltage") := member_field 92 rfl
instance : HasMember u_GenericUserPropertySet "presentPlanckianDistance" (.type "ChromaticDistanceFromPlanckian") := member_field 93 rfl
instance : HasMember u_GenericUserPropertySet "presentRelativeOutputRippleVoltage" (.type "Percentage8") := member_field 94 rfl
instance : HasMember u_GenericUserPropertySet "relativeDeviceEnergyUseInAPeriodOfDay" (.type "EnergyInAPeriodOfDay") := member_field 95 rfl
instance : HasMember u_GenericUserPropertySet "relativeDeviceRuntimeInAGenericLevelRange" (.type "RelativeRuntimeInAGenericLevelRange") := member_field 96 rfl
instance : HasMember u_GenericUserPropertySet "relativeExposureTimeInAnIlluminanceRange" (.type "RelativeValueInAnIlluminanceRange") := member_field 97 rfl
instance : HasMember u_GenericUserPropertySet "relativeRuntimeInACorrelatedColorTemperatureRange" (.type "LuminousEnergy") := member_field 98 rfl
instance : HasMember u_GenericUserPropertySet "relativeRuntimeInADeviceOperatingTemperatureRange" (.type "RelativeValueInATemperatureRange") := member_field 99 rfl
instance : HasMember u_GenericUserPropertySet "relativeRuntimeInAnInputCurrentRange" (.type "RelativeValueInACurrentRange") := member_field 100 rfl
instance : HasMember u_GenericUserPropertySet "relativeRuntimeInAnInputVoltageRange" (.type "RelativeValueInAVoltageRange") := member_field 101 rfl
instance : HasMember u_GenericUserPropertySet "shortCircuitEventStatistics" (.type "EventStatistics") := member_field 102 rfl
instance : HasMember u_GenericUserPropertySet "timeSinceMotionSensed" (.type "TimeSecond16") := member_field 103 rfl
instance : HasMember u_GenericUserPropertySet "timeSincePresenceDetected" (.type "TimeSecond16") := member_field 104 rfl
instance : HasMember u_GenericUserPropertySet "totalDeviceEnergyUse" (.type "Energy") := member_field 105 rfl
instance : HasMember u_GenericUserPropertySet "totalDeviceOffOnCycles" (.type "Count24") := member_field 106 rfl
instance : HasMember u_GenericUserPropertySet "totalDevicePowerOnCycles" (.type "Count24") := member_field 107 rfl
instance : HasMember u_GenericUserPropertySet "totalDevicePowerOnTime" (.type "TimeHour24") := member_field 108 rfl
instance : HasMember u_GenericUserPropertySet "totalDeviceRuntime" (.type "TimeHour24") := member_field 109 rfl
instance : HasMember u_GenericUserPropertySet "totalLightExposureTime" (.type "TimeHour24") := member_field 110 rfl
instance : HasMember u_GenericUserPropertySet "totalLuminousEnergy" (.type "LuminousEnergy") := member_field 111 rfl
instance : HasMember u_GenericUserPropertySet "preciseTotalDeviceEnergyUse" (.type "PreciseEnergy") := member_field 112 rfl
instance : HasMember u_GenericUserPropertySet "powerFactor" (.type "CosineOfTheAngle") := member_field 113 rfl
instance : HasMember u_GenericUserPropertySet "externalSupplyVoltage" (.type "HighVoltage") := member_field 114 rfl
instance : HasMember u_GenericUserPropertySet "externalSupplyVoltageFrequency" (.type "VoltageFrequency") := member_field 115 rfl
instance : HasMember u_GenericUserPropertySet "lightDistribution" (.type "LightDistribution") := member_field 116 rfl
instance : HasMember u_GenericUserPropertySet "lightSourceCurrent" (.type "AverageCurrent") := member_field 117 rfl
instance : HasMember u_GenericUserPropertySet "lightSourceOnTimeNotResettable" (.type "TimeSecond32") := member_field 118 rfl
instance : HasMember u_GenericUserPropertySet "lightSourceOnTimeResettable" (.type "TimeSecond32") := member_field 119 rfl
instance : HasMember u_GenericUserPropertySet "lightSourceOpenCircuitStatistics" (.type "EventStatistics") := member_field 120 rfl
instance : HasMember u_GenericUserPropertySet "lightSourceOverallFailuresStatistics" (.type "EventStatistics") := member_field 121 rfl
instance : HasMember u_GenericUserPropertySet "lightSourceShortCircuitStatistics" (.type "EventStatistics") := member_field 122 rfl
instance : HasMember u_GenericUserPropertySet "lightSourceStartCounterResettable" (.type "Count24") := member_field 123 rfl
instance : HasMember u_GenericUserPropertySet "lightSourceTemperature" (.type "HighTemperature") := member_field 124 rfl
instance : HasMember u_GenericUserPropertySet "lightSourceThermalDeratingStatistics" (.type "EventStatistics") := member_field 125 rfl
instance : HasMember u_GenericUserPropertySet "lightSourceThermalShutdownStatistics" (.type "EventStatistics") := member_field 126 rfl
instance : HasMember u_GenericUserPropertySet "lightSourceTotalPowerOnCycles" (.type "Count24") := member_field 127 rfl
instance : HasMember u_GenericUserPropertySet "lightSourceVoltage" (.type "AverageVoltage") := member_field 128 rfl
instance : HasMember u_GenericUserPropertySet "luminaireColor" (.type "Text") := member_field 129 rfl
instance : HasMember u_GenericUserPropertySet "luminaireIdentificationNumber" (.type "Text") := member_field 130 rfl
instance : HasMember u_GenericUserPropertySet "luminaireNominalInputPower" (.type "Power") := member_field 131 rfl
instance : HasMember u_GenericUserPropertySet "luminaireNominalMaximumAcMainsVoltage" (.type "Voltage") := member_field 132 rfl
instance : HasMember u_GenericUserPropertySet "luminaireNominalMinimumAcMainsVoltage" (.type "Voltage") := member_field 133 rfl
instance : HasMember u_GenericUserPropertySet "luminairePowerAtMinimumDimLevel" (.type "Power") := member_field 134 rfl
instance : HasMember u_GenericUserPropertySet "luminaireTimeOfManufacture" (.type "DateUTC") := member_field 135 rfl
instance : HasMember u_GenericUserPropertySet "nominalLightOutput" (.type "LightOutput") := member_field 136 rfl
instance : HasMember u_GenericUserPropertySet "overallFailureCondition" (.type "EventStatistics") := member_field 137 rfl
instance : HasMember u_GenericUserPropertySet "ratedMedianUsefulLifeOfLuminaire" (.type "TimeHour24") := member_field 138 rfl
instance : HasMember u_GenericUserPropertySet "ratedMedianUsefulLightSourceStarts" (.type "Count24") := member_field 139 rfl
instance : HasMember u_GenericUserPropertySet "referenceTemperature" (.type "HighTemperature") := member_field 140 rfl
instance : HasMember u_GenericUserPropertySet "totalDeviceStarts" (.type "Count24") := member_field 141 rfl
instance : HasMember u_GenericUserPropertySet "luminaireIdentificationString" (.type "Text") := member_field 142 rfl
instance : HasMember u_GenericUserPropertySet "outputPowerLimitation" (.type "EventStatistics") := member_field 143 rfl
instance : HasMember u_GenericUserPropertySet "thermalDerating" (.type "EventStatistics") := member_field 144 rfl
instance : HasMember u_GenericUserPropertySet "outputCurrentPercent" (.type "Percentage8") := member_field 145 rfl
instance : HasMember u_GenericUserPropertySet "luminaireManufacturerGtin" (.type "GlobalTradeItemNumber") := member_field 146 rfl
instance : HasMember u_GenericUserPropertySet "apparentEnergy" (.type "ApparentEnergy32") := member_field 147 rfl
instance : HasMember u_GenericUserPropertySet "apparentPower" (.type "ApparentPower") := member_field 148 rfl
instance : HasMember u_GenericUserPropertySet "activeEnergyLoadSide" (.type "Energy32") := member_field 149 rfl
instance : HasMember u_GenericUserPropertySet "activePowerLoadSide" (.type "Power") := member_field 150 rfl
instance : HasMember u_GenericUserPropertySet "lightSourceType" (.type "LightSourceType") := member_field 151 rfl
instance : HasMember u_GenericUserPropertySet "desiredAmbientTemperature" (.type "Temperature8") := member_field 152 rfl
instance : HasMember u_GenericUserPropertySet "sensorGain" (.type "Coefficient") := member_field 153 rfl
instance : HasMember u_GenericUserPropertySet "precisePresentAmbientTemperature" (.type "Temperature") := member_field 154 rfl
instance : HasMember s_GenericUserPropertySet "averageAmbientTemperatureInAPeriodOfDay" (.type "Temperature8InAPeriodOfDay") := member_inner (us := u_GenericUserPropertySet) 1 rfl
instance : HasMember s_GenericUserPropertySet "averageInputCurrent" (.type "AverageCurrent") := member_inner (us := u_GenericUserPropertySet) 1 rfl
instance : HasMember s_GenericUserPropertySet "averageInputVoltage" (.type "AverageVoltage") := member_inner (us := u_GenericUserPropertySet) 1 rfl
instance : HasMember s_GenericUserPropertySet "averageOutputCurrent" (.type "AverageCurrent") := member_inner (us := u_GenericUserPropertySet) 1 rfl
instance : HasMember s_GenericUserPropertySet "averageOutputVoltage" (.type "AverageVoltage") := member_inner (us := u_GenericUserPropertySet) 1 rfl
instance : HasMember s_GenericUserPropertySet "centerBeamIntensityAtFullPower" (.type "LuminousIntensity") := member_inner (us := u_GenericUserPropertySet) 1 rfl
instance : HasMember s_GenericUserPropertySet "chromaticityTolerance" (.type "ChromaticityTolerance") := member_inner (us := u_GenericUserPropertySet) 1 rfl
instance : HasMember s_GenericUserPropertySet "colorRenderingIndexR9" (.type "ColorRenderingIndex") := member_inner (us := u_GenericUserPropertySet) 1 rfl
instance : HasMember s_GenericUserPropertySet "colorRenderingIndexRa" (.type "ColorRenderingIndex") := member_inner (us := u_GenericUserPropertySet) 1 rfl
instance : HasMember s_GenericUserPropertySet "deviceAppearance" (.type "Appearance") := member_inner (us := u_GenericUserPropertySet) 1 rfl
instance : HasMember s_GenericUserPropertySet "deviceCountryOfOrigin" (.type "CountryCode") := member_inner (us := u_GenericUserPropertySet) 1 rfl
instance : HasMember s_GenericUserPropertySet "deviceDateOfManufacture" (.type "DateUTC") := member_inner (us := u_GenericUserPropertySet) 1 rfl
instance : HasMember s_GenericUserPropertySet "deviceEnergyUseSinceTurnOn" (.type "Energy") := member_inner (us := u_GenericUserPropertySet) 1 rfl
instance : HasMember s_GenericUserPropertySet "deviceFirmwareRevision" (.type "Text") := member_inner (us := u_GenericUserPropertySet) 1 rfl
instance : HasMember s_GenericUserPropertySet "deviceGlobalTradeItemNumber" (.type "GlobalTradeItemNumber") := member_inner (us := u_GenericUserPropertySet) 1 rfl
instance : HasMember s_GenericUserPropertySet "deviceHardwareRevision" (.type "Text") := member_inner (us := u_GenericUserPropertySet) 1 rfl
instance : HasMember s_GenericUserPropertySet "deviceManufacturerName" (.type "Text") := member_inner (us := u_GenericUserPropertySet) 1 rfl
instance : HasMember s_GenericUserPropertySet "deviceModelNumber" (.type "Text") := member_inner (us := u_GenericUserPropertySet) 1 rfl
instance : HasMember s_GenericUserPropertySet "deviceOperatingTemperatureRangeSpecification" (.type "TemperatureRange") := member_inner (us := u_GenericUserPropertySet) 1 rfl
instance : HasMember s_GenericUserPropertySet "deviceOperatingTemperatureStatisticalValues" (.type "TemperatureStatistics") := member_inner (us := u_GenericUserPropertySet) 1 rfl
instance : HasMember s_GenericUserPropertySet "deviceOverTemperatureEventStatistics" (.type "EventStatistics") := member_inner (us := u_GenericUserPropertySet) 1 rfl
instance : HasMember s_GenericUserPropertySet "devicePowerRangeSpecification" (.type "PowerSpecification") := member_inner (us := u_GenericUserPropertySet) 1 rfl
instance : HasMember s_GenericUserPropertySet "deviceRuntimeSinceTurnOn" (.type "TimeHour24") := member_inner (us := u_GenericUserPropertySet) 1 rfl
instance : HasMember s_GenericUserPropertySet "deviceRuntimeWarranty" (.type "TimeHour24") := member_inner (us := u_GenericUserPropertySet) 1 rfl
instance : HasMember s_GenericUserPropertySet "deviceSerialNumber" (.type "Text") := member_inner (us := u_GenericUserPropertySet) 1 rfl
instance : HasMember s_GenericUserPropertySet "deviceSoftwareRevision" (.type "Text") := member_inner (us := u_GenericUserPropertySet) 1 rfl
instance : HasMember s_GenericUserPropertySet "deviceUnderTemperatureEventStatistics" (.type "EventStatistics") := member_inner (us := u_GenericUserPropertySet) 1 rfl
instance : HasMember s_GenericUserPropertySet "indoorAmbientTemperatureStatisticalValues" (.type "Temperature8Statistics") := member_inner (us := u_GenericUserPropertySet) 1 rfl
instance : HasMember s_GenericUserPropertySet "initialCie1931ChromaticityCoordinates" (.type "ChromaticityCoordinates") := member_inner (us := u_GenericUserPropertySet) 1 rfl
instance : HasMember s_GenericUserPropertySet "initialCorrelatedColorTemperature" (.type "CorrelatedColorTemperature") := member_inner (us := u_GenericUserPropertySet) 1 rfl
instance : HasMember s_GenericUserPropertySet "initialLuminousFlux" (.type "LuminousFlux") := member_inner (us := u_GenericUserPropertySet) 1 rfl
instance : HasMember s_GenericUserPropertySet "initialPlanckianDistance" (.type "ChromaticDistanceFromPlanckian") := member_inner (us := u_GenericUserPropertySet) 1 rfl
instance : HasMember s_GenericUserPropertySet "inputCurrentRangeSpecification" (.type "ElectricCurrentSpecification") := member_inner (us := u_GenericUserPropertySet) 1 rfl
instance : HasMember s_GenericUserPropertySet "inputCurrentStatistics" (.type "ElectricCurrentStatistics") := member_inner (us := u_GenericUserPropertySet) 1 rfl
instance : HasMember s_GenericUserPropertySet "inputOverCurrentEventStatistics" (.type "EventStatistics") := member_inner (us := u_GenericUserPropertySet) 1 rfl
instance : HasMember s_GenericUserPropertySet "inputOverRippleVoltageEventStatistics" (.type "EventStatistics") := member_inner (us := u_GenericUserPropertySet) 1 rfl
instance : HasMember s_GenericUserPropertySet "inputOverVoltageEventStatistics" (.type "EventStatistics") := member_inner (us := u_GenericUserPropertySet) 1 rfl
instance : HasMember s_GenericUserPropertySet "inputUnderCurrentEventStatistics" (.type "EventStatistics") := member_inner (us := u_GenericUserPropertySet) 1 rfl
instance : HasMember s_GenericUserPropertySet "inputUnderVoltageEventStatistics" (.type "EventStatistics") := member_inner (us := u_GenericUserPropertySet) 1 rfl
instance : HasMember s_GenericUserPropertySet "inputVoltageRangeSpecification" (.type "VoltageRange") := member_inner (us := u_GenericUserPropertySet) 1 rfl
instance : HasMember s_GenericUserPropertySet "inputVoltageRippleSpecification" (.type "Percentage8") := member_inner (us := u_GenericUserPropertySet) 1 rfl
instance : HasMember s_GenericUserPropertySet "inputVoltageStatistics" (.type "VoltageStatistics") := member_inner (us := u_GenericUserPropertySet) 1 rfl
instance : HasMember s_GenericUserPropertySet "lightControlAmbientLuxlevelOn" (.type "Illuminance") := member_inner (us := u_GenericUserPropertySet) 1 rfl
instance : HasMember s_GenericUserPropertySet "lightControlAmbientLuxlevelProlong" (.type "Illuminance") := member_inner (us := u_GenericUserPropertySet) 1 rfl
instance : HasMember s_GenericUserPropertySet "lightControlAmbientLuxlevelStandby" (.type "Illuminance") := member_inner (us := u_GenericUserPropertySet) 1 rfl
instance : HasMember s_GenericUserPropertySet "lightControlLightnessOn" (.type "PerceivedLightness") := member_inner (us := u_GenericUserPropertySet) 1 rfl
instance : HasMember s_GenericUserPropertySet "lightControlLightnessProlong" (.type "PerceivedLightness") := member_inner (us := u_GenericUserPropertySet) 1 rfl
instance : HasMember s_GenericUserPropertySet "lightControlLightnessStandby" (.type "PerceivedLightness") := member_inner (us := u_GenericUserPropertySet) 1 rfl
instance : HasMember s_GenericUserPropertySet "lightControlRegulatorAccuracy" (.type "Percentage8") := member_inner (us := u_GenericUserPropertySet) 1 rfl
instance : HasMember s_GenericUserPropertySet "lightControlRegulatorKid" (.type "Coefficient") := member_inner (us := u_GenericUserPropertySet) 1 rfl
instance : HasMember s_GenericUserPropertySet "lightControlRegulatorKiu" (.type "Coefficient") := member_inner (us := u_GenericUserPropertySet) 1 rfl
instance : HasMember s_GenericUserPropertySet "lightControlRegulatorKpd" (.type "Coefficient") := member_inner (us := u_GenericUserPropertySet) 1 rfl
instance : HasMember s_GenericUserPropertySet "lightControlRegulatorKpu" (.type "Coefficient") := member_inner (us := u_GenericUserPropertySet) 1 rfl
instance : HasMember s_GenericUserPropertySet "lightControlTimeFade" (.type "TimeMiliseconds24") := member_inner (us := u_GenericUserPropertySet) 1 rfl
instance : HasMember s_GenericUserPropertySet "lightControlTimeFadeOn" (.type "TimeMiliseconds24") := member_inner (us := u_GenericUserPropertySet) 1 rfl
instance : HasMember s_GenericUserPropertySet "lightControlTimeFadeStandbyAuto" (.type "TimeMiliseconds24") := member_inner (us := u_GenericUserPropertySet) 1 rfl
instance : HasMember s_GenericUserPropertySet "lightControlTimeFadeStandbyManual" (.type "TimeMiliseconds24") := member_inner (us := u_GenericUserPropertySet) 1 rfl
instance : HasMember s_GenericUserPropertySet "lightControlTimeOccupancyDelay" (.type "TimeMiliseconds24") := member_inner (us := u_GenericUserPropertySet) 1 rfl
instance : HasMember s_GenericUserPropertySet "lightControlTimeProlong" (.type "TimeMiliseconds24") := member_inner (us := u_GenericUserPropertySet) 1 rfl
instance : HasMember s_GenericUserPropertySet "lightControlTimeRunOn" (.type "TimeMiliseconds24") := member_inner (us := u_GenericUserPropertySet) 1 rfl
instance : HasMember s_GenericUserPropertySet "lumenMaintenanceFactor" (.type "Percentage8") := member_inner (us := u_GenericUserPropertySet) 1 rfl
instance : HasMember s_GenericUserPropertySet "luminousEfficacy" (.type "LuminousEfficacy") := member_inner (us := u_GenericUserPropertySet) 1 rfl
instance : HasMember s_GenericUserPropertySet "luminousEnergySinceTurnOn" (.type "LuminousEnergy") := member_inner (us := u_GenericUserPropertySet) 1 rfl
instance : HasMember s_GenericUserPropertySet "luminousExposure" (.type "LuminousExposure") := member_inner (us := u_GenericUserPropertySet) 1 rfl
instance : HasMember s_GenericUserPropertySet "luminousFluxRange" (.type "LuminousFluxRange") := member_inner (us := u_GenericUserPropertySet) 1 rfl
instance : HasMember s_GenericUserPropertySet "motionSensed" (.type "Percentage8") := member_inner (us := u_GenericUserPropertySet) 1 rfl
instance : HasMember s_GenericUserPropertySet "motionThreshold" (.type "Percentage8") := member_inner (us := u_GenericUserPropertySet) 1 rfl
instance : HasMember s_GenericUserPropertySet "openCircuitEventStatistics" (.type "EventStatistics") := member_inner (us := u_GenericUserPropertySet) 1 rfl
instance : HasMember s_GenericUserPropertySet "outdoorStatisticalValues" (.type "Temperature8Statistics") := member_inner (us := u_GenericUserPropertySet) 1 rfl
instance : HasMember s_GenericUserPropertySet "outputCurrentRange" (.type "ElectricCurrentRange") := member_inner (us := u_GenericUserPropertySet) 1 rfl
instance : HasMember s_GenericUserPropertySet "outputCurrentStatistics" (.type "ElectricCurrentStatistics") := member_inner (us := u_GenericUserPropertySet) 1 rfl
instance : HasMember s_GenericUserPropertySet "outputRippleVoltageSpecification" (.type "Percentage8") := member_inner (us := u_GenericUserPropertySet) 1 rfl
instance : HasMember s_GenericUserPropertySet "outputVoltageRange" (.type "VoltageRange") := member_inner (us := u_GenericUserPropertySet) 1 rfl
instance : HasMember s_GenericUserPropertySet "outputVoltageStatistics" (.type "VoltageStatistics") := member_inner (us := u_GenericUserPropertySet) 1 rfl
instance : HasMember s_GenericUserPropertySet "overOutputRippleVoltageEventStatistics" (.type "EventStatistics") := member_inner (us := u_GenericUserPropertySet) 1 rfl
instance : HasMember s_GenericUserPropertySet "peopleCount" (.type "Count16") := member_inner (us := u_GenericUserPropertySet) 1 rfl
instance : HasMember s_GenericUserPropertySet "presenceDetected" (.type "Presence") := member_inner (us := u_GenericUserPropertySet) 1 rfl
instance : HasMember s_GenericUserPropertySet "presentAmbientLightLevel" (.type "Illuminance") := member_inner (us := u_GenericUserPropertySet) 1 rfl
instance : HasMember s_GenericUserPropertySet "presentAmbientTemperature" (.type "Temperature8") := member_inner (us := u_GenericUserPropertySet) 1 rfl
instance : HasMember s_GenericUserPropertySet "presentCie1931ChromaticityCoordinates" (.type "ChromaticityCoordinates") := member_inner (us := u_GenericUserPropertySet) 1 rfl
instance : HasMember s_GenericUserPropertySet "presentCorrelatedColorTemperature" (.type "CorrelatedColorTemperature") := member_inner (us := u_GenericUserPropertySet) 1 rfl
instance : HasMember s_GenericUserPropertySet "presentDeviceInputPower" (.type "Power") := member_inner (us := u_GenericUserPropertySet) 1 rfl
instance : HasMember s_GenericUserPropertySet "presentDeviceOperatingEfficiency" (.type "Percentage8") := member_inner (us := u_GenericUserPropertySet) 1 rfl
instance : HasMember s_GenericUserPropertySet "presentDeviceOperatingTemperature" (.type "Temperature") := member_inner (us := u_GenericUserPropertySet) 1 rfl
instance : HasMember s_GenericUserPropertySet "presentIlluminance" (.type "Illuminance") := member_inner (us := u_GenericUserPropertySet) 1 rfl
instance : HasMember s_GenericUserPropertySet "presentIndoorAmbientTemperature" (.type "Temperature8") := member_inner (us := u_GenericUserPropertySet) 1 rfl
instance : HasMember s_GenericUserPropertySet "presentInputCurrent" (.type "ElectricCurrent") := member_inner (us := u_GenericUserPropertySet) 1 rfl
instance : HasMember s_GenericUserPropertySet "presentInputRippleVoltage" (.type "Percentage8") := member_inner (us := u_GenericUserPropertySet) 1 rfl
instance : HasMember s_GenericUserPropertySet "presentInputVoltage" (.type "Voltage") := member_inner (us := u_GenericUserPropertySet) 1 rfl
instance : HasMember s_GenericUserPropertySet "presentLuminousFlux" (.type "LuminousFlux") := member_inner (us := u_GenericUserPropertySet) 1 rfl
instance : HasMember s_GenericUserPropertySet "presentOutdoorAmbientTemperature" (.type "Temperature8") := member_inner (us := u_GenericUserPropertySet) 1 rfl
instance : HasMember s_GenericUserPropertySet "presentOutputCurrent" (.type "ElectricCurrent") := member_inner (us := u_GenericUserPropertySet) 1 rfl
instance : HasMember s_GenericUserPropertySet "presentOutputVoltage" (.type "Voltage") := member_inner (us := u_GenericUserPropertySet) 1 rfl
instance : HasMember s_GenericUserPropertySet "presentPlanckianDistance" (.type "ChromaticDistanceFromPlanckian") := member_inner (us := u_GenericUserPropertySet) 1 rfl
instance : HasMember s_GenericUserPropertySet "presentRelativeOutputRippleVoltage" (.type "Percentage8") := member_inner (us := u_GenericUserPropertySet) 1 rfl
instance : HasMember s_GenericUserPropertySet "relativeDeviceEnergyUseInAPeriodOfDay" (.type "EnergyInAPeriodOfDay") := member_inner (us := u_GenericUserPropertySet) 1 rfl
instance : HasMember s_GenericUserPropertySet "relativeDeviceRuntimeInAGenericLevelRange" (.type "RelativeRuntimeInAGenericLevelRange") := member_inner (us := u_GenericUserPropertySet) 1 rfl
instance : HasMember s_GenericUserPropertySet "relativeExposureTimeInAnIlluminanceRange" (.type "RelativeValueInAnIlluminanceRange") := member_inner (us := u_GenericUserPropertySet) 1 rfl
instance : HasMember s_GenericUserPropertySet "relativeRuntimeInACorrelatedColorTemperatureRange" (.type "LuminousEnergy") := member_inner (us := u_GenericUserPropertySet) 1 rfl
instance : HasMember s_GenericUserPropertySet "relativeRuntimeInADeviceOperatingTemperatureRange" (.type "RelativeValueInATemperatureRange") := member_inner (us := u_GenericUserPropertySet) 1 rfl
instance : HasMember s_GenericUserPropertySet "relativeRuntimeInAnInputCurrentRange" (.type "RelativeValueInACurrentRange") := member_inner (us := u_GenericUserPropertySet) 1 rfl
instance : HasMember s_GenericUserPropertySet "relativeRuntimeInAnInputVoltageRange" (.type "RelativeValueInAVoltageRange") := member_inner (us := u_GenericUserPropertySet) 1 rfl
instance : HasMember s_GenericUserPropertySet "shortCircuitEventStatistics" (.type "EventStatistics") := member_inner (us := u_GenericUserPropertySet) 1 rfl
instance : HasMember s_GenericUserPropertySet "timeSinceMotionSensed" (.type "TimeSecond16") := member_inner (us := u_GenericUserPropertySet) 1 rfl
instance : HasMember s_GenericUserPropertySet "timeSincePresenceDetected" (.type "TimeSecond16") := member_inner (us := u_GenericUserPropertySet) 1 rfl
instance : HasMember s_GenericUserPropertySet "totalDeviceEnergyUse" (.type "Energy") := member_inner (us := u_GenericUserPropertySet) 1 rfl
instance : HasMember s_GenericUserPropertySet "totalDeviceOffOnCycles" (.type "Count24") := member_inner (us := u_GenericUserPropertySet) 1 rfl
instance : HasMember s_GenericUserPropertySet "totalDevicePowerOnCycles" (.type "Count24") := member_inner (us := u_GenericUserPropertySet) 1 rfl
instance : HasMember s_GenericUserPropertySet "totalDevicePowerOnTime" (.type "TimeHour24") := member_inner (us := u_GenericUserPropertySet) 1 rfl
instance : HasMember s_GenericUserPropertySet "totalDeviceRuntime" (.type "TimeHour24") := member_inner (us := u_GenericUserPropertySet) 1 rfl
instance : HasMember s_GenericUserPropertySet "totalLightExposureTime" (.type "TimeHour24") := member_inner (us := u_GenericUserPropertySet) 1 rfl
instance : HasMember s_GenericUserPropertySet "totalLuminousEnergy" (.type "LuminousEnergy") := member_inner (us := u_GenericUserPropertySet) 1 rfl
instance : HasMember s_GenericUserPropertySet "preciseTotalDeviceEnergyUse" (.type "PreciseEnergy") := member_inner (us := u_GenericUserPropertySet) 1 rfl
instance : HasMember s_GenericUserPropertySet "powerFactor" (.type "CosineOfTheAngle") := member_inner (us := u_GenericUserPropertySet) 1 rfl
instance : HasMember s_GenericUserPropertySet "externalSupplyVoltage" (.type "HighVoltage") := member_inner (us := u_GenericUserPropertySet) 1 rfl
instance : HasMember s_GenericUserPropertySet "externalSupplyVoltageFrequency" (.type "VoltageFrequency") := member_inner (us := u_GenericUserPropertySet) 1 rfl
instance : HasMember s_GenericUserPropertySet "lightDistribution" (.type "LightDistribution") := member_inner (us := u_GenericUserPropertySet) 1 rfl
instance : HasMember s_GenericUserPropertySet "lightSourceCurrent" (.type "AverageCurrent") := member_inner (us := u_GenericUserPropertySet) 1 rfl
instance : HasMember s_GenericUserPropertySet "lightSourceOnTimeNotResettable" (.type "TimeSecond32") := member_inner (us := u_GenericUserPropertySet) 1 rfl
instance : HasMember s_GenericUserPropertySet "lightSourceOnTimeResettable" (.type "TimeSecond32") := member_inner (us := u_GenericUserPropertySet) 1 rfl
instance : HasMember s_GenericUserPropertySet "lightSourceOpenCircuitStatistics" (.type "EventStatistics") := member_inner (us := u_GenericUserPropertySet) 1 rfl
instance : HasMember s_GenericUserPropertySet "lightSourceOverallFailuresStatistics" (.type "EventStatistics") := member_inner (us := u_GenericUserPropertySet) 1 rfl
instance : HasMember s_GenericUserPropertySet "lightSourceShortCircuitStatistics" (.type "EventStatistics") := member_inner (us := u_GenericUserPropertySet) 1 rfl
instance : HasMember s_GenericUserPropertySet "lightSourceStartCounterResettable" (.type "Count24") := member_inner (us := u_GenericUserPropertySet) 1 rfl
instance : HasMember s_GenericUserPropertySet "lightSourceTemperature" (.type "HighTemperature") := member_inner (us := u_GenericUserPropertySet) 1 rfl
instance : HasMember s_GenericUserPropertySet "lightSourceThermalDeratingStatistics" (.type "EventStatistics") := member_inner (us := u_GenericUserPropertySet) 1 rfl
instance : HasMember s_GenericUserPropertySet "lightSourceThermalShutdownStatistics" (.type "EventStatistics") := member_inner (us := u_GenericUserPropertySet) 1 rfl
instance : HasMember s_GenericUserPropertySet "lightSourceTotalPowerOnCycles" (.type "Count24") := member_inner (us := u_GenericUserPropertySet) 1 rfl
instance : HasMember s_GenericUserPropertySet "lightSourceVoltage" (.type "AverageVoltage") := member_inner (us := u_GenericUserPropertySet) 1 rfl
instance : HasMember s_GenericUserPropertySet "luminaireColor" (.type "Text") := member_inner (us := u_GenericUserPropertySet) 1 rfl
instance : HasMember s_GenericUserPropertySet "luminaireIdentificationNumber" (.type "Text") := member_inner (us := u_GenericUserPropertySet) 1 rfl
instance : HasMember s_GenericUserPropertySet "luminaireNominalInputPower" (.type "Power") := member_inner (us := u_GenericUserPropertySet) 1 rfl
instance : HasMember s_GenericUserPropertySet "luminaireNominalMaximumAcMainsVoltage" (.type "Voltage") := member_inner (us := u_GenericUserPropertySet) 1 rfl
instance : HasMember s_GenericUserPropertySet "luminaireNominalMinimumAcMainsVoltage" (.type "Voltage") := member_inner (us := u_GenericUserPropertySet) 1 rfl
instance : HasMember s_GenericUserPropertySet "luminairePowerAtMinimumDimLevel" (.type "Power") := member_inner (us := u_GenericUserPropertySet) 1 rfl
instance : HasMember s_GenericUserPropertySet "luminaireTimeOfManufacture" (.type "DateUTC") := member_inner (us := u_GenericUserPropertySet) 1 rfl
instance : HasMember s_GenericUserPropertySet "nominalLightOutput" (.type "LightOutput") := member_inner (us := u_GenericUserPropertySet) 1 rfl
instance : HasMember s_GenericUserPropertySet "overallFailureCondition" (.type "EventStatistics") := member_inner (us := u_GenericUserPropertySet) 1 rfl
instance : HasMember s_GenericUserPropertySet "ratedMedianUsefulLifeOfLuminaire" (.type "TimeHour24") := member_inner (us := u_GenericUserPropertySet) 1 rfl
instance : HasMember s_GenericUserPropertySet "ratedMedianUsefulLightSourceStarts" (.type "Count24") := member_inner (us := u_GenericUserPropertySet) 1 rfl
instance : HasMember s_GenericUserPropertySet "referenceTemperature" (.type "HighTemperature") := member_inner (us := u_GenericUserPropertySet) 1 rfl
instance : HasMember s_GenericUserPropertySet "totalDeviceStarts" (.type "Count24") := member_inner (us := u_GenericUserPropertySet) 1 rfl
instance : HasMember s_GenericUserPropertySet "luminaireIdentificationString" (.type "Text") := member_inner (us := u_GenericUserPropertySet) 1 rfl
instance : HasMember s_GenericUserPropertySet "outputPowerLimitation" (.type "EventStatistics") := member_inner (us := u_GenericUserPropertySet) 1 rfl
instance : HasMember s_GenericUserPropertySet "thermalDerating" (.type "EventStatistics") := member_inner (us := u_GenericUserPropertySet) 1 rfl
instance : HasMember s_GenericUserPropertySet "outputCurrentPercent" (.type "Percentage8") := member_inner (us := u_GenericUserPropertySet) 1 rfl
instance : HasMember s_GenericUserPropertySet "luminaireManufacturerGtin" (.type "GlobalTradeItemNumber") := member_inner (us := u_GenericUserPropertySet) 1 rfl
instance : HasMember s_GenericUserPropertySet "apparentEnergy" (.type "ApparentEnergy32") := member_inner (us := u_GenericUserPropertySet) 1 rfl
instance : HasMember s_GenericUserPropertySet "apparentPower" (.type "ApparentPower") := member_inner (us := u_GenericUserPropertySet) 1 rfl
instance : HasMember s_GenericUserPropertySet "activeEnergyLoadSide" (.type "Energy32") := member_inner (us := u_GenericUserPropertySet) 1 rfl
instance : HasMember s_GenericUserPropertySet "activePowerLoadSide" (.type "Power") := member_inner (us := u_GenericUserPropertySet) 1 rfl
instance : HasMember s_GenericUserPropertySet "lightSourceType" (.type "LightSourceType") := member_inner (us := u_GenericUserPropertySet) 1 rfl
instance : HasMember s_GenericUserPropertySet "desiredAmbientTemperature" (.type "Temperature8") := member_inner (us := u_GenericUserPropertySet) 1 rfl
instance : HasMember s_GenericUserPropertySet "sensorGain" (.type "Coefficient") := member_inner (us := u_GenericUserPropertySet) 1 rfl
instance : HasMember s_GenericUserPropertySet "precisePresentAmbientTemperature" (.type "Temperature") := member_inner (us := u_GenericUserPropertySet) 1 rfl
instance : IsPlain "GenericPropertyMessageParams" s_GenericPropertyMessageParams := isPlain 302 rfl rfl
instance : HasMember s_GenericPropertyMessageParams "year" (.type "UInt16") := member_field 0 rfl
instance : HasMember s_GenericPropertyMessageParams "month" (.type "UInt8") := member_field 1 rfl
instance : HasMember s_GenericPropertyMessageParams "day" (.type "UInt8") := member_field 2 rfl
instance : IsUnion "GenericPropertyStatus" s_GenericPropertyStatus u_GenericPropertyStatus := isUnion 303 rfl rfl
instance : HasMember s_GenericPropertyStatus "propertyId" (.type "UInt16") := member_field 0 rfl
instance : HasMember s_GenericPropertyStatus "access" (.type "UInt8") := member_field 1 rfl
instance : HasMember u_GenericPropertyStatus "averageAmbientTemperatureInAPeriodOfDay" (.type "Temperature8InAPeriodOfDay") := member_field 0 rfl
instance : HasMember u_GenericPropertyStatus "averageInputCurrent" (.type "AverageCurrent") := member_field 1 rfl
instance : HasMember u_GenericPropertyStatus "averageInputVoltage" (.type "AverageVoltage") := member_field 2 rfl
instance : HasMember u_GenericPropertyStatus "averageOutputCurrent" (.type "AverageCurrent") := member_field 3 rfl
instance : HasMember u_GenericPropertyStatus "averageOutputVoltage" (.type "AverageVoltage") := member_field 4 rfl
instance : HasMember u_GenericPropertyStatus "centerBeamIntensityAtFullPower" (.type "LuminousIntensity") := member_field 5 rfl
instance : HasMember u_GenericPropertyStatus "chromaticityTolerance" (.type "ChromaticityTolerance") := member_field 6 rfl
instance : HasMember u_GenericPropertyStatus "colorRenderingIndexR9" (.type "ColorRenderingIndex") := member_field 7 rfl
instance : HasMember u_GenericPropertyStatus "colorRenderingIndexRa" (.type "ColorRenderingIndex") := member_field 8 rfl
instance : HasMember u_GenericPropertyStatus "deviceAppearance" (.type "Appearance") := member_field 9 rfl
instance : HasMember u_GenericPropertyStatus "deviceCountryOfOrigin" (.type "CountryCode") := member_field 10 rfl
instance : HasMember u_GenericPropertyStatus "deviceDateOfManufacture" (.type "DateUTC") := member_field 11 rfl
instance : HasMember u_GenericPropertyStatus "deviceEnergyUseSinceTurnOn" (.type "Energy") := member_field 12 rfl
instance : HasMember u_GenericPropertyStatus "deviceFirmwareRevision" (.type "Text") := member_field 13 rfl
instance : HasMember u_GenericPropertyStatus "deviceGlobalTradeItemNumber" (.type "GlobalTradeItemNumber") := member_field 14 rfl
instance : HasMember u_GenericPropertyStatus "deviceHardwareRevision" (.type "Text") := member_field 15 rfl
instance : HasMember u_GenericPropertyStatus "deviceManufacturerName" (.type "Text") := member_field 16 rfl
instance : HasMember u_GenericPropertyStatus "deviceModelNumber" (.type "Text") := member_field 17 rfl
instance : HasMember u_GenericPropertyStatus "deviceOperatingTemperatureRangeSpecification" (.type "TemperatureRange") := member_field 18 rfl
instance : HasMember u_GenericPropertyStatus "deviceOperatingTemperatureStatisticalValues" (.type "TemperatureStatistics") := member_field 19 rfl
instance : HasMember u_GenericPropertyStatus "deviceOverTemperatureEventStatistics" (.type "EventStatistics") := member_field 20 rfl
instance : HasMember u_GenericPropertyStatus "devicePowerRangeSpecification" (.type "PowerSpecification") := member_field 21 rfl
instance : HasMember u_GenericPropertyStatus "deviceRuntimeSinceTurnOn" (.type "TimeHour24") := member_field 22 rfl
instance : HasMember u_GenericPropertyStatus "deviceRuntimeWarranty" (.type "TimeHour24") := member_field 23 rfl
instance : HasMember u_GenericPropertyStatus "deviceSerialNumber" (.type "Text") := member_field 24 rfl
instance : HasMember u_GenericPropertyStatus "deviceSoftwareRevision" (.type "Text") := member_field 25 rfl
instance : HasMember u_GenericPropertyStatus "deviceUnderTemperatureEventStatistics" (.type "EventStatistics") := member_field 26 rfl
instance : HasMember u_GenericPropertyStatus "indoorAmbientTemperatureStatisticalValues" (.type "Temperature8Statistics") := member_field 27 rfl
instance : HasMember u_GenericPropertyStatus "initialCie1931ChromaticityCoordinates" (.type "ChromaticityCoordinates") := member_field 28 rfl
instance : HasMember u_GenericPropertyStatus "initialCorrelatedColorTemperature" (.type "CorrelatedColorTemperature") := member_field 29 rfl
instance : HasMember u_GenericPropertyStatus "initialLuminousFlux" (.type "LuminousFlux") := member_field 30 rfl
instance : HasMember u_GenericPropertyStatus "initialPlanckianDistance" (.type "ChromaticDistanceFromPlanckian") := member_field 31 rfl
instance : HasMember u_GenericPropertyStatus "inputCurrentRangeSpecification" (.type "ElectricCurrentSpecification") := member_field 32 rfl
instance : HasMember u_GenericPropertyStatus "inputCurrentStatistics" (.type "ElectricCurrentStatistics") := member_field 33 rfl
instance : HasMember u_GenericPropertyStatus "inputOverCurrentEventStatistics" (.type "EventStatistics") := member_field 34 rfl
instance : HasMember u_GenericPropertyStatus "inputOverRippleVoltageEventStatistics" (.type "EventStatistics") := member_field 35 rfl
instance : HasMember u_GenericPropertyStatus "inputOverVoltageEventStatistics" (.type "EventStatistics") := member_field 36 rfl
instance : HasMember u_GenericPropertyStatus "inputUnderCurrentEventStatistics" (.type "EventStatistics") := member_field 37 rfl
instance : HasMember u_GenericPropertyStatus "inputUnderVoltageEventStatistics" (.type "EventStatistics") := member_field 38 rfl
instance : HasMember u_GenericPropertyStatus "inputVoltageRangeSpecification" (.type "VoltageRange") := member_field 39 rfl
instance : HasMember u_GenericPropertyStatus "inputVoltageRippleSpecification" (.type "Percentage8") := member_field 40 rfl
instance : HasMember u_GenericPropertyStatus "inputVoltageStatistics" (.type "VoltageStatistics") := member_field 41 rfl
instance : HasMember u_GenericPropertyStatus "lightControlAmbientLuxlevelOn" (.type "Illuminance") := member_field 42 rfl
instance : HasMember u_GenericPropertyStatus "lightControlAmbientLuxlevelProlong" (.type "Illuminance") := member_field 43 rfl
instance : HasMember u_GenericPropertyStatus "lightControlAmbientLuxlevelStandby" (.type "Illuminance") := member_field 44 rfl
instance : HasMember u_GenericPropertyStatus "lightControlLightnessOn" (.type "PerceivedLightness") := member_field 45 rfl
instance : HasMember u_GenericPropertyStatus "lightControlLightnessProlong" (.type "PerceivedLightness") := member_field 46 rfl
instance : HasMember u_GenericPropertyStatus "lightControlLightnessStandby" (.type "PerceivedLightness") := member_field 47 rfl
instance : HasMember u_GenericPropertyStatus "lightControlRegulatorAccuracy" (.type "Percentage8") := member_field 48 rfl
instance : HasMember u_GenericPropertyStatus "lightControlRegulatorKid" (.type "Coefficient") := member_field 49 rfl
instance : HasMember u_GenericPropertyStatus "lightControlRegulatorKiu" (.type "Coefficient") := member_field 50 rfl
instance : HasMember u_GenericPropertyStatus "lightControlRegulatorKpd" (.type "Coefficient") := member_field 51 rfl
instance : HasMember u_GenericPropertyStatus "lightControlRegulatorKpu" (.type "Coefficient") := member_field 52 rfl
instance : HasMember u_GenericPropertyStatus "lightControlTimeFade" (.type "TimeMiliseconds24") := member_field 53 rfl
instance : HasMember u_GenericPropertyStatus "lightControlTimeFadeOn" (.type "TimeMiliseconds24") := member_field 54 rfl
instance : HasMember u_GenericPropertyStatus "lightControlTimeFadeStandbyAuto" (.type "TimeMiliseconds24") := member_field 55 rfl
instance : HasMember u_GenericPropertyStatus "lightControlTimeFadeStandbyManual" (.type "TimeMiliseconds24") := member_field 56 rfl
instance : HasMember u_GenericPropertyStatus "lightControlTimeOccupancyDelay" (.type "TimeMiliseconds24") := member_field 57 rfl
instance : HasMember u_GenericPropertyStatus "lightControlTimeProlong" (.type "TimeMiliseconds24") := member_field 58 rfl
instance : HasMember u_GenericPropertyStatus "lightControlTimeRunOn" (.type "TimeMiliseconds24") := member_field 59 rfl
instance : HasMember u_GenericPropertyStatus "lumenMaintenanceFactor" (.type "Percentage8") := member_field 60 rfl
instance : HasMember u_GenericPropertyStatus "luminousEfficacy" (.type "LuminousEfficacy") := member_field 61 rfl
instance : HasMember u_GenericPropertyStatus "luminousEnergySinceTurnOn" (.type "LuminousEnergy") := member_field 62 rfl
instance : HasMember u_GenericPropertyStatus "luminousExposure" (.type "LuminousExposure") := member_field 63 rfl
instance : HasMember u_GenericPropertyStatus "luminousFluxRange" (.type "LuminousFluxRange") := member_field 64 rfl
instance : HasMember u_GenericPropertyStatus "motionSensed" (.type "Percentage8") := member_field 65 rfl
instance : HasMember u_GenericPropertyStatus "motionThreshold" (.type "Percentage8") := member_field 66 rfl
instance : HasMember u_GenericPropertyStatus "openCircuitEventStatistics" (.type "EventStatistics") := member_field 67 rfl
instance : HasMember u_GenericPropertyStatus "outdoorStatisticalValues" (.type "Temperature8Statistics") := member_field 68 rfl
instance : HasMember u_GenericPropertyStatus "outputCurrentRange" (.type "ElectricCurrentRange") := member_field 69 rfl
instance : HasMember u_GenericPropertyStatus "outputCurrentStatistics" (.type "ElectricCurrentStatistics") := member_field 70 rfl
instance : HasMember u_GenericPropertyStatus "outputRippleVoltageSpecification" (.type "Percentage8") := member_field 71 rfl
instance : HasMember u_GenericPropertyStatus "outputVoltageRange" (.type "VoltageRange") := member_field 72 rfl
instance : HasMember u_GenericPropertyStatus "outputVoltageStatistics" (.type "VoltageStatistics") := member_field 73 rfl
instance : HasMember u_GenericPropertyStatus "overOutputRippleVoltageEventStatistics" (.type "EventStatistics") := member_field 74 rfl
instance : HasMember u_GenericPropertyStatus "peopleCount" (.type "Count16") := member_field 75 rfl
instance : HasMember u_GenericPropertyStatus "presenceDetected" (.type "Presence") := member_field 76 rfl
instance : HasMember u_GenericPropertyStatus "presentAmbientLightLevel" (.type "Illuminance") := member_field 77 rfl
instance : HasMember u_GenericPropertyStatus "presentAmbientTemperature" (.type "Temperature8") := member_field 78 rfl
instance : HasMember u_GenericPropertyStatus "presentCie1931ChromaticityCoordinates" (.type "ChromaticityCoordinates") := member_field 79 rfl
instance : HasMember u_GenericPropertyStatus "presentCorrelatedColorTemperature" (.type "CorrelatedColorTemperature") := member_field 80 rfl
instance : HasMember u_GenericPropertyStatus "presentDeviceInputPower" (.type "Power") := member_field 81 rfl
instance : HasMember u_GenericPropertyStatus "presentDeviceOperatingEfficiency" (.type "Percentage8") := member_field 82 rfl
instance : HasMember u_GenericPropertyStatus "presentDeviceOperatingTemperature" (.type "Temperature") := member_field 83 rfl
instance : HasMember u_GenericPropertyStatus "presentIlluminance" (.type "Illuminance") := member_field 84 rfl
instance : HasMember u_GenericPropertyStatus "presentIndoorAmbientTemperature" (.type "Temperature8") := member_field 85 rfl
instance : HasMember u_GenericPropertyStatus "presentInputCurrent" (.type "ElectricCurrent") := member_field 86 rfl
instance : HasMember u_GenericPropertyStatus "presentInputRippleVoltage" (.type "Percentage8") := member_field 87 rfl
instance : HasMember u_GenericPropertyStatus "presentInputVoltage" (.type "Voltage") := member_field 88 rfl
instance : HasMember u_GenericPropertyStatus "presentLuminousFlux" (.type "LuminousFlux") := member_field 89 rfl
instance : HasMember u_GenericPropertyStatus "presentOutdoorAmbientTemperature" (.type "Temperature8") := member_field 90 rfl
instance : HasMember u_GenericPropertyStatus "presentOutputCurrent" (.type "ElectricCurrent") := member_field 91 rfl
instance : HasMember u_GenericPropertyStatus "presentOutputVoltage" (.type "Voltage") := member_field 92 rfl
instance : HasMember u_GenericPropertyStatus "presentPlanckianDistance" (.type "ChromaticDistanceFromPlanckian") := member_field 93 rfl
instance : HasMember u_GenericPropertyStatus "presentRelativeOutputRippleVoltage" (.type "Percentage8") := member_field 94 rfl
instance : HasMember u_GenericPropertyStatus "relativeDeviceEnergyUseInAPeriodOfDay" (.type "EnergyInAPeriodOfDay") := member_field 95 rfl
instance : HasMember u_GenericPropertyStatus "relativeDeviceRuntimeInAGenericLevelRange" (.type "RelativeRuntimeInAGenericLevelRange") := member_field 96 rfl
instance : HasMember u_GenericPropertyStatus "relativeExposureTimeInAnIlluminanceRange" (.type "RelativeValueInAnIlluminanceRange") := member_field 97 rfl
instance : HasMember u_GenericPropertyStatus "relativeRuntimeInACorrelatedColorTemperatureRange" (.type "LuminousEnergy") := member_field 98 rfl
instance : HasMember u_GenericPropertyStatus "relativeRuntimeInADeviceOperatingTemperatureRange" (.type "RelativeValueInATemperatureRange") := member_field 99 rfl
instance : HasMember u_GenericPropertyStatus "relativeRuntimeInAnInputCurrentRange" (.type "RelativeValueInACurrentRange") := member_field 100 rfl
instance : HasMember u_GenericPropertyStatus "relativeRuntimeInAnInputVoltageRange" (.type "RelativeValueInAVoltageRange") := member_field 101 rfl
instance : HasMember u_GenericPropertyStatus "shortCircuitEventStatistics" (.type "EventStatistics") := member_field 102 rfl
instance : HasMember u_GenericPropertyStatus "timeSinceMotionSensed" (.type "TimeSecond16") := member_field 103 rfl
instance : HasMember u_GenericPropertyStatus "timeSincePresenceDetected" (.type "TimeSecond16") := member_field 104 rfl
instance : HasMember u_GenericPropertyStatus "totalDeviceEnergyUse" (.type "Energy") := member_field 105 rfl
instance : HasMember u_GenericPropertyStatus "totalDeviceOffOnCycles" (.type "Count24") := member_field 106 rfl
instance : HasMember u_GenericPropertyStatus "totalDevicePowerOnCycles" (.type "Count24") := member_field 107 rfl
instance : HasMember u_GenericPropertyStatus "totalDevicePowerOnTime" (.type "TimeHour24") := member_field 108 rfl
instance : HasMember u_GenericPropertyStatus "totalDeviceRuntime" (.type "TimeHour24") := member_field 109 rfl
instance : HasMember u_GenericPropertyStatus "totalLightExposureTime" (.type "TimeHour24") := member_field 110 rfl
instance : HasMember u_GenericPropertyStatus "totalLuminousEnergy" (.type "LuminousEnergy") := member_field 111 rfl
instance : HasMember u_GenericPropertyStatus "preciseTotalDeviceEnergyUse" (.type "PreciseEnergy") := member_field 112 rfl
instance : HasMember u_GenericPropertyStatus "powerFactor" (.type "CosineOfTheAngle") := member_field 113 rfl
instance : HasMember u_GenericPropertyStatus "externalSupplyVoltage" (.type "HighVoltage") := member_field 114 rfl
instance : HasMember u_GenericPropertyStatus "externalSupplyVoltageFrequency" (.type "VoltageFrequency") := member_field 115 rfl
instance : HasMember u_GenericPropertyStatus "lightDistribution" (.type "LightDistribution") := member_field 116 rfl
instance : HasMember u_GenericPropertyStatus "lightSourceCurrent" (.type "AverageCurrent") := member_field 117 rfl
instance : HasMember u_GenericPropertyStatus "lightSourceOnTimeNotResettable" (.type "TimeSecond32") := member_field 118 rfl
instance : HasMember u_GenericPropertyStatus "lightSourceOnTimeResettable" (.type "TimeSecond32") := member_field 119 rfl
instance : HasMember u_GenericPropertyStatus "lightSourceOpenCircuitStatistics" (.type "EventStatistics") := member_field 120 rfl
instance : HasMember u_GenericPropertyStatus "lightSourceOverallFailuresStatistics" (.type "EventStatistics") := member_field 121 rfl
instance : HasMember u_GenericPropertyStatus "lightSourceShortCircuitStatistics" (.type "EventStatistics") := member_field 122 rfl
instance : HasMember u_GenericPropertyStatus "lightSourceStartCounterResettable" (.type "Count24") := member_field 123 rfl
instance : HasMember u_GenericPropertyStatus "lightSourceTemperature" (.type "HighTemperature") := member_field 124 rfl
instance : HasMember u_GenericPropertyStatus "lightSourceThermalDeratingStatistics" (.type "EventStatistics") := member_field 125 rfl
instance : HasMember u_GenericPropertyStatus "lightSourceThermalShutdownStatistics" (.type "EventStatistics") := member_field 126 rfl
instance : HasMember u_GenericPropertyStatus "lightSourceTotalPowerOnCycles" (.type "Count24") := member_field 127 rfl
instance : HasMember u_GenericPropertyStatus "lightSourceVoltage" (.type "AverageVoltage") := member_field 128 rfl
instance : HasMember u_GenericPropertyStatus "luminaireColor" (.type "Text") := member_field 129 rfl
instance : HasMember u_GenericPropertyStatus "luminaireIdentificationNumber" (.type "Text") := member_field 130 rfl
instance : HasMember u_GenericPropertyStatus "luminaireNominalInputPower" (.type "Power") := member_field 131 rfl
instance : HasMember u_GenericPropertyStatus "luminaireNominalMaximumAcMainsVoltage" (.type "Voltage") := member_field 132 rfl
instance : HasMember u_GenericPropertyStatus "luminaireNominalMinimumAcMainsVoltage" (.type "Voltage") := member_field 133 rfl
instance : HasMember u_GenericPropertyStatus "luminairePowerAtMinimumDimLevel" (.type "Power") := member_field 134 rfl
instance : HasMember u_GenericPropertyStatus "luminaireTimeOfManufacture" (.type "DateUTC") := member_field 135 rfl
instance : HasMember u_GenericPropertyStatus "nominalLightOutput" (.type "LightOutput") := member_field 136 rfl
instance : HasMember u_GenericPropertyStatus "overallFailureCondition" (.type "EventStatistics") := member_field 137 rfl
instance : HasMember u_GenericPropertyStatus "ratedMedianUsefulLifeOfLuminaire" (.type "TimeHour24") := member_field 138 rfl
instance : HasMember u_GenericPropertyStatus "ratedMedianUsefulLightSourceStarts" (.type "Count24") := member_field 139 rfl
instance : HasMember u_GenericPropertyStatus "referenceTemperature" (.type "HighTemperature") := member_field 140 rfl
instance : HasMember u_GenericPropertyStatus "totalDeviceStarts" (.type "Count24") := member_field 141 rfl
instance : HasMember u_GenericPropertyStatus "luminaireIdentificationString" (.type "Text") := member_field 142 rfl
instance : HasMember u_GenericPropertyStatus "outputPowerLimitation" (.type "EventStatistics") := member_field 143 rfl
instance : HasMember u_GenericPropertyStatus "thermalDerating" (.type "EventStatistics") := member_field 144 rfl
instance : HasMember u_GenericPropertyStatus "outputCurrentPercent" (.type "Percentage8") := member_field 145 rfl
instance : HasMember u_GenericPropertyStatus "luminaireManufacturerGtin" (.type "GlobalTradeItemNumber") := member_field 146 rfl
instance : HasMember u_GenericPropertyStatus "apparentEnergy" (.type "ApparentEnergy32") := member_field 147 rfl
instance : HasMember u_GenericPropertyStatus "apparentPower" (.type "ApparentPower") := member_field 148 rfl
instance : HasMember u_GenericPropertyStatus "activeEnergyLoadSide" (.type "Energy32") := member_field 149 rfl
instance : HasMember u_GenericPropertyStatus "activePowerLoadSide" (.type "Power") := member_field 150 rfl
instance : HasMember u_GenericPropertyStatus "lightSourceType" (.type "LightSourceType") := member_field 151 rfl
instance : HasMember u_GenericPropertyStatus "desiredAmbientTemperature" (.type "Temperature8") := member_field 152 rfl
instance : HasMember u_GenericPropertyStatus "sensorGain" (.type "Coefficient") := member_field 153 rfl
instance : HasMember u_GenericPropertyStatus "precisePresentAmbientTemperature" (.type "Temperature") := member_field 154 rfl
instance : HasMember s_GenericPropertyStatus "averageAmbientTemperatureInAPeriodOfDay" (.type "Temperature8InAPeriodOfDay") := member_inner (us := u_GenericPropertyStatus) 2 rfl
instance : HasMember s_GenericPropertyStatus "averageInputCurrent" (.type "AverageCurrent") := member_inner (us := u_GenericPropertyStatus) 2 rfl
instance : HasMember s_GenericPropertyStatus "averageInputVoltage" (.type "AverageVoltage") := member_inner (us := u_GenericPropertyStatus) 2 rfl
instance : HasMember s_GenericPropertyStatus "averageOutputCurrent" (.type "AverageCurrent") := member_inner (us := u_GenericPropertyStatus) 2 rfl
instance : HasMember s_GenericPropertyStatus "averageOutputVoltage" (.type "AverageVoltage") := member_inner (us := u_GenericPropertyStatus) 2 rfl
instance : HasMember s_GenericPropertyStatus "centerBeamIntensityAtFullPower" (.type "LuminousIntensity") := member_inner (us := u_GenericPropertyStatus) 2 rfl
instance : HasMember s_GenericPropertyStatus "chromaticityTolerance" (.type "ChromaticityTolerance") := member_inner (us := u_GenericPropertyStatus) 2 rfl
instance : HasMember s_GenericPropertyStatus "colorRenderingIndexR9" (.type "ColorRenderingIndex") := member_inner (us := u_GenericPropertyStatus) 2 rfl
instance : HasMember s_GenericPropertyStatus "colorRenderingIndexRa" (.type "ColorRenderingIndex") := member_inner (us := u_GenericPropertyStatus) 2 rfl
instance : HasMember s_GenericPropertyStatus "deviceAppearance" (.type "Appearance") := member_inner (us := u_GenericPropertyStatus) 2 rfl
instance : HasMember s_GenericPropertyStatus "deviceCountryOfOrigin" (.type "CountryCode") := member_inner (us := u_GenericPropertyStatus) 2 rfl
instance : HasMember s_GenericPropertyStatus "deviceDateOfManufacture" (.type "DateUTC") := member_inner (us := u_GenericPropertyStatus) 2 rfl
instance : HasMember s_GenericPropertyStatus "deviceEnergyUseSinceTurnOn" (.type "Energy") := member_inner (us := u_GenericPropertyStatus) 2 rfl
instance : HasMember s_GenericPropertyStatus "deviceFirmwareRevision" (.type "Text") := member_inner (us := u_GenericPropertyStatus) 2 rfl
instance : HasMember s_GenericPropertyStatus "deviceGlobalTradeItemNumber" (.type "GlobalTradeItemNumber") := member_inner (us := u_GenericPropertyStatus) 2 rfl
instance : HasMember s_GenericPropertyStatus "deviceHardwareRevision" (.type "Text") := member_inner (us := u_GenericPropertyStatus) 2 rfl
instance : HasMember s_GenericPropertyStatus "deviceManufacturerName" (.type "Text") := member_inner (us := u_GenericPropertyStatus) 2 rfl
instance : HasMember s_GenericPropertyStatus "deviceModelNumber" (.type "Text") := member_inner (us := u_GenericPropertyStatus) 2 rfl
instance : HasMember s_GenericPropertyStatus "deviceOperatingTemperatureRangeSpecification" (.type "TemperatureRange") := member_inner (us := u_GenericPropertyStatus) 2 rfl
instance : HasMember s_GenericPropertyStatus "deviceOperatingTemperatureStatisticalValues" (.type "TemperatureStatistics") := member_inner (us := u_GenericPropertyStatus) 2 rfl
instance : HasMember s_GenericPropertyStatus "deviceOverTemperatureEventStatistics" (.type "EventStatistics") := member_inner (us := u_GenericPropertyStatus) 2 rfl
instance : HasMember s_GenericPropertyStatus "devicePowerRangeSpecification" (.type "PowerSpecification") := member_inner (us := u_GenericPropertyStatus) 2 rfl
instance : HasMember s_GenericPropertyStatus "deviceRuntimeSinceTurnOn" (.type "TimeHour24") := member_inner (us := u_GenericPropertyStatus) 2 rfl
instance : HasMember s_GenericPropertyStatus "deviceRuntimeWarranty" (.type "TimeHour24") := member_inner (us := u_GenericPropertyStatus) 2 rfl
instance : HasMember s_GenericPropertyStatus "deviceSerialNumber" (.type "Text") := member_inner (us := u_GenericPropertyStatus) 2 rfl
instance : HasMember s_GenericPropertyStatus "deviceSoftwareRevision" (.type "Text") := member_inner (us := u_GenericPropertyStatus) 2 rfl
instance : HasMember s_GenericPropertyStatus "deviceUnderTemperatureEventStatistics" (.type "EventStatistics") := member_inner (us := u_GenericPropertyStatus) 2 rfl
instance : HasMember s_GenericPropertyStatus "indoorAmbientTemperatureStatisticalValues" (.type "Temperature8Statistics") := member_inner (us := u_GenericPropertyStatus) 2 rfl
instance : HasMember s_GenericPropertyStatus "initialCie1931ChromaticityCoordinates" (.type "ChromaticityCoordinates") := member_inner (us := u_GenericPropertyStatus) 2 rfl
instance : HasMember s_GenericPropertyStatus "initialCorrelatedColorTemperature" (.type "CorrelatedColorTemperature") := member_inner (us := u_GenericPropertyStatus) 2 rfl
instance : HasMember s_GenericPropertyStatus "initialLuminousFlux" (.type "LuminousFlux") := member_inner (us := u_GenericPropertyStatus) 2 rfl
instance : HasMember s_GenericPropertyStatus "initialPlanckianDistance" (.type "ChromaticDistanceFromPlanckian") := member_inner (us := u_GenericPropertyStatus) 2 rfl
instance : HasMember s_GenericPropertyStatus "inputCurrentRangeSpecification" (.type "ElectricCurrentSpecification") := member_inner (us := u_GenericPropertyStatus) 2 rfl
instance : HasMember s_GenericPropertyStatus "inputCurrentStatistics" (.type "ElectricCurrentStatistics") := member_inner (us := u_GenericPropertyStatus) 2 rfl
instance : HasMember s_GenericPropertyStatus "inputOverCurrentEventStatistics" (.type "EventStatistics") := member_inner (us := u_GenericPropertyStatus) 2 rfl
instance : HasMember s_GenericPropertyStatus "inputOverRippleVoltageEventStatistics" (.type "EventStatistics") := member_inner (us := u_GenericPropertyStatus) 2 rfl
instance : HasMember s_GenericPropertyStatus "inputOverVoltageEventStatistics" (.type "EventStatistics") := member_inner (us := u_GenericPropertyStatus) 2 rfl
instance : HasMember s_GenericPropertyStatus "inputUnderCurrentEventStatistics" (.type "EventStatistics") := member_inner (us := u_GenericPropertyStatus) 2 rfl
instance : HasMember s_GenericPropertyStatus "inputUnderVoltageEventStatistics" (.type "EventStatistics") := member_inner (us := u_GenericPropertyStatus) 2 rfl
instance : HasMember s_GenericPropertyStatus "inputVoltageRangeSpecification" (.type "VoltageRange") := member_inner (us := u_GenericPropertyStatus) 2 rfl
instance : HasMember s_GenericPropertyStatus "inputVoltageRippleSpecification" (.type "Percentage8") := member_inner (us := u_GenericPropertyStatus) 2 rfl
instance : HasMember s_GenericPropertyStatus "inputVoltageStatistics" (.type "VoltageStatistics") := member_inner (us := u_GenericPropertyStatus) 2 rfl
instance : HasMember s_GenericPropertyStatus "lightControlAmbientLuxlevelOn" (.type "Illuminance") := member_inner (us := u_GenericPropertyStatus) 2 rfl
instance : HasMember s_GenericPropertyStatus "lightControlAmbientLuxlevelProlong" (.type "Illuminance") := member_inner (us := u_GenericPropertyStatus) 2 rfl
instance : HasMember s_GenericPropertyStatus "lightControlAmbientLuxlevelStandby" (.type "Illuminance") := member_inner (us := u_GenericPropertyStatus) 2 rfl
instance : HasMember s_GenericPropertyStatus "lightControlLightnessOn" (.type "PerceivedLightness") := member_inner (us := u_GenericPropertyStatus) 2 rfl
instance : HasMember s_GenericPropertyStatus "lightControlLightnessProlong" (.type "PerceivedLightness") := member_inner (us := u_GenericPropertyStatus) 2 rfl
instance : HasMember s_GenericPropertyStatus "lightControlLightnessStandby" (.type "PerceivedLightness") := member_inner (us := u_GenericPropertyStatus) 2 rfl
instance : HasMember s_GenericPropertyStatus "lightControlRegulatorAccuracy" (.type "Percentage8") := member_inner (us := u_GenericPropertyStatus) 2 rfl
instance : HasMember s_GenericPropertyStatus "lightControlRegulatorKid" (.type "Coefficient") := member_inner (us := u_GenericPropertyStatus) 2 rfl
instance : HasMember s_GenericPropertyStatus "lightControlRegulatorKiu" (.type "Coefficient") := member_inner (us := u_GenericPropertyStatus) 2 rfl
instance : HasMember s_GenericPropertyStatus "lightControlRegulatorKpd" (.type "Coefficient") := member_inner (us := u_GenericPropertyStatus) 2 rfl
instance : HasMember s_GenericPropertyStatus "lightControlRegulatorKpu" (.type "Coefficient") := member_inner (us := u_GenericPropertyStatus) 2 rfl
instance : HasMember s_GenericPropertyStatus "lightControlTimeFade" (.type "TimeMiliseconds24") := member_inner (us := u_GenericPropertyStatus) 2 rfl
instance : HasMember s_GenericPropertyStatus "lightControlTimeFadeOn" (.type "TimeMiliseconds24") := member_inner (us := u_GenericPropertyStatus) 2 rfl
instance : HasMember s_GenericPropertyStatus "lightControlTimeFadeStandbyAuto" (.type "TimeMiliseconds24") := member_inner (us := u_GenericPropertyStatus) 2 rfl
instance : HasMember s_GenericPropertyStatus "lightControlTimeFadeStandbyManual" (.type "TimeMiliseconds24") := member_inner (us := u_GenericPropertyStatus) 2 rfl
instance : HasMember s_GenericPropertyStatus "lightControlTimeOccupancyDelay" (.type "TimeMiliseconds24") := member_inner (us := u_GenericPropertyStatus) 2 rfl
instance : HasMember s_GenericPropertyStatus "lightControlTimeProlong" (.type "TimeMiliseconds24") := member_inner (us := u_GenericPropertyStatus) 2 rfl
instance : HasMember s_GenericPropertyStatus "lightControlTimeRunOn" (.type "TimeMiliseconds24") := member_inner (us := u_GenericPropertyStatus) 2 rfl
instance : HasMember s_GenericPropertyStatus "lumenMaintenanceFactor" (.type "Percentage8") := member_inner (us := u_GenericPropertyStatus) 2 rfl
instance : HasMember s_GenericPropertyStatus "luminousEfficacy" (.type "LuminousEfficacy") := member_inner (us := u_GenericPropertyStatus) 2 rfl
instance : HasMember s_GenericPropertyStatus "luminousEnergySinceTurnOn" (.type "LuminousEnergy") := member_inner (us := u_GenericPropertyStatus) 2 rfl
instance : HasMember s_GenericPropertyStatus "luminousExposure" (.type "LuminousExposure") := member_inner (us := u_GenericPropertyStatus) 2 rfl
instance : HasMember s_GenericPropertyStatus "luminousFluxRange" (.type "LuminousFluxRange") := member_inner (us := u_GenericPropertyStatus) 2 rfl
instance : HasMember s_GenericPropertyStatus "motionSensed" (.type "Percentage8") := member_inner (us := u_GenericPropertyStatus) 2 rfl
instance : HasMember s_GenericPropertyStatus "motionThreshold" (.type "Percentage8") := member_inner (us := u_GenericPropertyStatus) 2 rfl
instance : HasMember s_GenericPropertyStatus "openCircuitEventStatistics" (.type "EventStatistics") := member_inner (us := u_GenericPropertyStatus) 2 rfl
instance : HasMember s_GenericPropertyStatus "outdoorStatisticalValues" (.type "Temperature8Statistics") := member_inner (us := u_GenericPropertyStatus) 2 rfl
instance : HasMember s_GenericPropertyStatus "outputCurrentRange" (.type "ElectricCurrentRange") := member_inner (us := u_GenericPropertyStatus) 2 rfl
instance : HasMember s_GenericPropertyStatus "outputCurrentStatistics" (.type "ElectricCurrentStatistics") := member_inner (us := u_GenericPropertyStatus) 2 rfl
instance : HasMember s_GenericPropertyStatus "outputRippleVoltageSpecification" (.type "Percentage8") := member_inner (us := u_GenericPropertyStatus) 2 rfl
instance : HasMember s_GenericPropertyStatus "outputVoltageRange" (.type "VoltageRange") := member_inner (us := u_GenericPropertyStatus) 2 rfl
instance : HasMember s_GenericPropertyStatus "outputVoltageStatistics" (.type "VoltageStatistics") := member_inner (us := u_GenericPropertyStatus) 2 rfl
instance : HasMember s_GenericPropertyStatus "overOutputRippleVoltageEventStatistics" (.type "EventStatistics") := member_inner (us := u_GenericPropertyStatus) 2 rfl
instance : HasMember s_GenericPropertyStatus "peopleCount" (.type "Count16") := member_inner (us := u_GenericPropertyStatus) 2 rfl
instance : HasMember s_GenericPropertyStatus "presenceDetected" (.type "Presence") := member_inner (us := u_GenericPropertyStatus) 2 rfl
instance : HasMember s_GenericPropertyStatus "presentAmbientLightLevel" (.type "Illuminance") := member_inner (us := u_GenericPropertyStatus) 2 rfl
instance : HasMember s_GenericPropertyStatus "presentAmbientTemperature" (.type "Temperature8") := member_inner (us := u_GenericPropertyStatus) 2 rfl
instance : HasMember s_GenericPropertyStatus "presentCie1931ChromaticityCoordinates" (.type "ChromaticityCoordinates") := member_inner (us := u_GenericPropertyStatus) 2 rfl
instance : HasMember s_GenericPropertyStatus "presentCorrelatedColorTemperature" (.type "CorrelatedColorTemperature") := member_inner (us := u_GenericPropertyStatus) 2 rfl
instance : HasMember s_GenericPropertyStatus "presentDeviceInputPower" (.type "Power") := member_inner (us := u_GenericPropertyStatus) 2 rfl
instance : HasMember s_GenericPropertyStatus "presentDeviceOperatingEfficiency" (.type "Percentage8") := member_inner (us := u_GenericPropertyStatus) 2 rfl
instance : HasMember s_GenericPropertyStatus "presentDeviceOperatingTemperature" (.type "Temperature") := member_inner (us := u_GenericPropertyStatus) 2 rfl
instance : HasMember s_GenericPropertyStatus "presentIlluminance" (.type "Illuminance") := member_inner (us := u_GenericPropertyStatus) 2 rfl
instance : HasMember s_GenericPropertyStatus "presentIndoorAmbientTemperature" (.type "Temperature8") := member_inner (us := u_GenericPropertyStatus) 2 rfl
instance : HasMember s_GenericPropertyStatus "presentInputCurrent" (.type "ElectricCurrent") := member_inner (us := u_GenericPropertyStatus) 2 rfl
instance : HasMember s_GenericPropertyStatus "presentInputRippleVoltage" (.type "Percentage8") := member_inner (us := u_GenericPropertyStatus) 2 rfl
instance : HasMember s_GenericPropertyStatus "presentInputVoltage" (.type "Voltage") := member_inner (us := u_GenericPropertyStatus) 2 rfl
instance : HasMember s_GenericPropertyStatus "presentLuminousFlux" (.type "LuminousFlux") := member_inner (us := u_GenericPropertyStatus) 2 rfl
instance : HasMember s_GenericPropertyStatus "presentOutdoorAmbientTemperature" (.type "Temperature8") := member_inner (us := u_GenericPropertyStatus) 2 rfl
instance : HasMember s_GenericPropertyStatus "presentOutputCurrent" (.type "ElectricCurrent") := member_inner (us := u_GenericPropertyStatus) 2 rfl
instance : HasMember s_GenericPropertyStatus "presentOutputVoltage" (.type "Voltage") := member_inner (us := u_GenericPropertyStatus) 2 rfl
instance : HasMember s_GenericPropertyStatus "presentPlanckianDistance" (.type "ChromaticDistanceFromPlanckian") := member_inner (us := u_GenericPropertyStatus) 2 rfl
instance : HasMember s_GenericPropertyStatus "presentRelativeOutputRippleVoltage" (.type "Percentage8") := member_inner (us := u_GenericPropertyStatus) 2 rfl
instance : HasMember s_GenericPropertyStatus "relativeDeviceEnergyUseInAPeriodOfDay" (.type "EnergyInAPeriodOfDay") := member_inner (us := u_GenericPropertyStatus) 2 rfl
instance : HasMember s_GenericPropertyStatus "relativeDeviceRuntimeInAGenericLevelRange" (.type "RelativeRuntimeInAGenericLevelRange") := member_inner (us := u_GenericPropertyStatus) 2 rfl
instance : HasMember s_GenericPropertyStatus "relativeExposureTimeInAnIlluminanceRange" (.type "RelativeValueInAnIlluminanceRange") := member_inner (us := u_GenericPropertyStatus) 2 rfl
instance : HasMember s_GenericPropertyStatus "relativeRuntimeInACorrelatedColorTemperatureRange" (.type "LuminousEnergy") := member_inner (us := u_GenericPropertyStatus) 2 rfl
instance : HasMember s_GenericPropertyStatus "relativeRuntimeInADeviceOperatingTemperatureRange" (.type "RelativeValueInATemperatureRange") := member_inner (us := u_GenericPropertyStatus) 2 rfl
instance : HasMember s_GenericPropertyStatus "relativeRuntimeInAnInputCurrentRange" (.type "RelativeValueInACurrentRange") := member_inner (us := u_GenericPropertyStatus) 2 rfl
instance : HasMember s_GenericPropertyStatus "relativeRuntimeInAnInputVoltageRange" (.type "RelativeValueInAVoltageRange") := member_inner (us := u_GenericPropertyStatus) 2 rfl
instance : HasMember s_GenericPropertyStatus "shortCircuitEventStatistics" (.type "EventStatistics") := member_inner (us := u_GenericPropertyStatus) 2 rfl
instance : HasMember s_GenericPropertyStatus "timeSinceMotionSensed" (.type "TimeSecond16") := member_inner (us := u_GenericPropertyStatus) 2 rfl
instance : HasMember s_GenericPropertyStatus "timeSincePresenceDetected" (.type "TimeSecond16") := member_inner (us := u_GenericPropertyStatus) 2 rfl
instance : HasMember s_GenericPropertyStatus "totalDeviceEnergyUse" (.type "Energy") := member_inner (us := u_GenericPropertyStatus) 2 rfl
instance : HasMember s_GenericPropertyStatus "totalDeviceOffOnCycles" (.type "Count24") := member_inner (us := u_GenericPropertyStatus) 2 rfl
instance : HasMember s_GenericPropertyStatus "totalDevicePowerOnCycles" (.type "Count24") := member_inner (us := u_GenericPropertyStatus) 2 rfl
instance : HasMember s_GenericPropertyStatus "totalDevicePowerOnTime" (.type "TimeHour24") := member_inner (us := u_GenericPropertyStatus) 2 rfl
instance : HasMember s_GenericPropertyStatus "totalDeviceRuntime" (.type "TimeHour24") := member_inner (us := u_GenericPropertyStatus) 2 rfl
instance : HasMember s_GenericPropertyStatus "totalLightExposureTime" (.type "TimeHour24") := member_inner (us := u_GenericPropertyStatus) 2 rfl
instance : HasMember s_GenericPropertyStatus "totalLuminousEnergy" (.type "LuminousEnergy") := member_inner (us := u_GenericPropertyStatus) 2 rfl
instance : HasMember s_GenericPropertyStatus "preciseTotalDeviceEnergyUse" (.type "PreciseEnergy") := member_inner (us := u_GenericPropertyStatus) 2 rfl
instance : HasMember s_GenericPropertyStatus "powerFactor" (.type "CosineOfTheAngle") := member_inner (us := u_GenericPropertyStatus) 2 rfl
instance : HasMember s_GenericPropertyStatus "externalSupplyVoltage" (.type "HighVoltage") := member_inner (us := u_GenericPropertyStatus) 2 rfl
instance : HasMember s_GenericPropertyStatus "externalSupplyVoltageFrequency" (.type "VoltageFrequency") := member_inner (us := u_GenericPropertyStatus) 2 rfl
instance : HasMember s_GenericPropertyStatus "lightDistribution" (.type "LightDistribution") := member_inner (us := u_GenericPropertyStatus) 2 rfl
instance : HasMember s_GenericPropertyStatus "lightSourceCurrent" (.type "AverageCurrent") := member_inner (us := u_GenericPropertyStatus) 2 rfl
instance : HasMember s_GenericPropertyStatus "lightSourceOnTimeNotResettable" (.type "TimeSecond32") := member_inner (us := u_GenericPropertyStatus) 2 rfl
instance : HasMember s_GenericPropertyStatus "lightSourceOnTimeResettable" (.type "TimeSecond32") := member_inner (us := u_GenericPropertyStatus) 2 rfl
instance : HasMember s_GenericPropertyStatus "lightSourceOpenCircuitStatistics" (.type "EventStatistics") := member_inner (us := u_GenericPropertyStatus) 2 rfl
instance : HasMember s_GenericPropertyStatus "lightSourceOverallFailuresStatistics" (.type "EventStatistics") := member_inner (us := u_GenericPropertyStatus) 2 rfl
instance : HasMember s_GenericPropertyStatus "lightSourceShortCircuitStatistics" (.type "EventStatistics") := member_inner (us := u_GenericPropertyStatus) 2 rfl
instance : HasMember s_GenericPropertyStatus "lightSourceStartCounterResettable" (.type "Count24") := member_inner (us := u_GenericPropertyStatus) 2 rfl
instance : HasMember s_GenericPropertyStatus "lightSourceTemperature" (.type "HighTemperature") := member_inner (us := u_GenericPropertyStatus) 2 rfl
instance : HasMember s_GenericPropertyStatus "lightSourceThermalDeratingStatistics" (.type "EventStatistics") := member_inner (us := u_GenericPropertyStatus) 2 rfl
instance : HasMember s_GenericPropertyStatus "lightSourceThermalShutdownStatistics" (.type "EventStatistics") := member_inner (us := u_GenericPropertyStatus) 2 rfl
instance : HasMember s_GenericPropertyStatus "lightSourceTotalPowerOnCycles" (.type "Count24") := member_inner (us := u_GenericPropertyStatus) 2 rfl
instance : HasMember s_GenericPropertyStatus "lightSourceVoltage" (.type "AverageVoltage") := member_inner (us := u_GenericPropertyStatus) 2 rfl
instance : HasMember s_GenericPropertyStatus "luminaireColor" (.type "Text") := member_inner (us := u_GenericPropertyStatus) 2 rfl
instance : HasMember s_GenericPropertyStatus "luminaireIdentificationNumber" (.type "Text") := member_inner (us := u_GenericPropertyStatus) 2 rfl
instance : HasMember s_GenericPropertyStatus "luminaireNominalInputPower" (.type "Power") := member_inner (us := u_GenericPropertyStatus) 2 rfl
instance : HasMember s_GenericPropertyStatus "luminaireNominalMaximumAcMainsVoltage" (.type "Voltage") := member_inner (us := u_GenericPropertyStatus) 2 rfl
instance : HasMember s_GenericPropertyStatus "luminaireNominalMinimumAcMainsVoltage" (.type "Voltage") := member_inner (us := u_GenericPropertyStatus) 2 rfl
instance : HasMember s_GenericPropertyStatus "luminairePowerAtMinimumDimLevel" (.type "Power") := member_inner (us := u_GenericPropertyStatus) 2 rfl
instance : HasMember s_GenericPropertyStatus "luminaireTimeOfManufacture" (.type "DateUTC") := member_inner (us := u_GenericPropertyStatus) 2 rfl
instance : HasMember s_GenericPropertyStatus "nominalLightOutput" (.type "LightOutput") := member_inner (us := u_GenericPropertyStatus) 2 rfl
instance : HasMember s_GenericPropertyStatus "overallFailureCondition" (.type "EventStatistics") := member_inner (us := u_GenericPropertyStatus) 2 rfl
instance : HasMember s_GenericPropertyStatus "ratedMedianUsefulLifeOfLuminaire" (.type "TimeHour24") := member_inner (us := u_GenericPropertyStatus) 2 rfl
instance : HasMember s_GenericPropertyStatus "ratedMedianUsefulLightSourceStarts" (.type "Count24") := member_inner (us := u_GenericPropertyStatus) 2 rfl
instance : HasMember s_GenericPropertyStatus "referenceTemperature" (.type "HighTemperature") := member_inner (us := u_GenericPropertyStatus) 2 rfl
instance : HasMember s_GenericPropertyStatus "totalDeviceStarts" (.type "Count24") := member_inner (us := u_GenericPropertyStatus) 2 rfl
instance : HasMember s_GenericPropertyStatus "luminaireIdentificationString" (.type "Text") := member_inner (us := u_GenericPropertyStatus) 2 rfl
instance : HasMember s_GenericPropertyStatus "outputPowerLimitation" (.type "EventStatistics") := member_inner (us := u_GenericPropertyStatus) 2 rfl
instance : HasMember s_GenericPropertyStatus "thermalDerating" (.type "EventStatistics") := member_inner (us := u_GenericPropertyStatus) 2 rfl
instance : HasMember s_GenericPropertyStatus "outputCurrentPercent" (.type "Percentage8") := member_inner (us := u_GenericPropertyStatus) 2 rfl
instance : HasMember s_GenericPropertyStatus "luminaireManufacturerGtin" (.type "GlobalTradeItemNumber") := member_inner (us := u_GenericPropertyStatus) 2 rfl
instance : HasMember s_GenericPropertyStatus "apparentEnergy" (.type "ApparentEnergy32") := member_inner (us := u_GenericPropertyStatus) 2 rfl
instance : HasMember s_GenericPropertyStatus "apparentPower" (.type "ApparentPower") := member_inner (us := u_GenericPropertyStatus) 2 rfl
instance : HasMember s_GenericPropertyStatus "activeEnergyLoadSide" (.type "Energy32") := member_inner (us := u_GenericPropertyStatus) 2 rfl
instance : HasMember s_GenericPropertyStatus "activePowerLoadSide" (.type "Power") := member_inner (us := u_GenericPropertyStatus) 2 rfl
instance : HasMember s_GenericPropertyStatus "lightSourceType" (.type "LightSourceType") := member_inner (us := u_GenericPropertyStatus) 2 rfl
instance : HasMember s_GenericPropertyStatus "desiredAmbientTemperature" (.type "Temperature8") := member_inner (us := u_GenericPropertyStatus) 2 rfl
instance : HasMember s_GenericPropertyStatus "sensorGain" (.type "Coefficient") := member_inner (us := u_GenericPropertyStatus) 2 rfl
instance : HasMember s_GenericPropertyStatus "precisePresentAmbientTemperature" (.type "Temperature") := member_inner (us := u_GenericPropertyStatus) 2 rfl
instance : IsUnion "GenericAdminPropertySet" s_GenericAdminPropertySet u_GenericAdminPropertySet := isUnion 304 rfl rfl
instance : HasMember s_GenericAdminPropertySet "propertyId" (.type "UInt16") := member_field 0 rfl
instance : HasMember s_GenericAdminPropertySet "access" (.type "UInt8") := member_field 1 rfl
instance : HasMember u_GenericAdminPropertySet "averageAmbientTemperatureInAPeriodOfDay" (.type "Temperature8InAPeriodOfDay") := member_field 0 rfl
instance : HasMember u_GenericAdminPropertySet "averageInputCurrent" (.type "AverageCurrent") := member_field 1 rfl
instance : HasMember u_GenericAdminPropertySet "averageInputVoltage" (.type "AverageVoltage") := member_field 2 rfl
instance : HasMember u_GenericAdminPropertySet "averageOutputCurrent" (.type "AverageCurrent") := member_field 3 rfl
instance : HasMember u_GenericAdminPropertySet "averageOutputVoltage" (.type "AverageVoltage") := member_field 4 rfl
instance : HasMember u_GenericAdminPropertySet "centerBeamIntensityAtFullPower" (.type "LuminousIntensity") := member_field 5 rfl
instance : HasMember u_GenericAdminPropertySet "chromaticityTolerance" (.type "ChromaticityTolerance") := member_field 6 rfl
instance : HasMember u_GenericAdminPropertySet "colorRenderingIndexR9" (.type "ColorRenderingIndex") := member_field 7 rfl
instance : HasMember u_GenericAdminPropertySet "colorRenderingIndexRa" (.type "ColorRenderingIndex") := member_field 8 rfl
instance : HasMember u_GenericAdminPropertySet "deviceAppearance" (.type "Appearance") := member_field 9 rfl
instance : HasMember u_GenericAdminPropertySet "deviceCountryOfOrigin" (.type "CountryCode") := member_field 10 rfl
instance : HasMember u_GenericAdminPropertySet "deviceDateOfManufacture" (.type "DateUTC") := member_field 11 rfl
instance : HasMember u_GenericAdminPropertySet "deviceEnergyUseSinceTurnOn" (.type "Energy") := member_field 12 rfl
instance : HasMember u_GenericAdminPropertySet "deviceFirmwareRevision" (.type "Text") := member_field 13 rfl
instance : HasMember u_GenericAdminPropertySet "deviceGlobalTradeItemNumber" (.type "GlobalTradeItemNumber") := member_field 14 rfl
instance : HasMember u_GenericAdminPropertySet "deviceHardwareRevision" (.type "Text") := member_field 15 rfl
instance : HasMember u_GenericAdminPropertySet "deviceManufacturerName" (.type "Text") := member_field 16 rfl
instance : HasMember u_GenericAdminPropertySet "deviceModelNumber" (.type "Text") := member_field 17 rfl
instance : HasMember u_GenericAdminPropertySet "deviceOperatingTemperatureRangeSpecification" (.type "TemperatureRange") := member_field 18 rfl
instance : HasMember u_GenericAdminPropertySet "deviceOperatingTemperatureStatisticalValues" (.type "TemperatureStatistics") := member_field 19 rfl
instance : HasMember u_GenericAdminPropertySet "deviceOverTemperatureEventStatistics" (.type "EventStatistics") := member_field 20 rfl
instance : HasMember u_GenericAdminPropertySet "devicePowerRangeSpecification" (.type "PowerSpecification") := member_field 21 rfl
instance : HasMember u_GenericAdminPropertySet "deviceRuntimeSinceTurnOn" (.type "TimeHour24") := member_field 22 rfl
instance : HasMember u_GenericAdminPropertySet "deviceRuntimeWarranty" (.type "TimeHour24") := member_field 23 rfl
instance : HasMember u_GenericAdminPropertySet "deviceSerialNumber" (.type "Text") := member_field 24 rfl
instance : HasMember u_GenericAdminPropertySet "deviceSoftwareRevision" (.type "Text") := member_field 25 rfl
instance : HasMember u_GenericAdminPropertySet "deviceUnderTemperatureEventStatistics" (.type "EventStatistics") := member_field 26 rfl
instance : HasMember u_GenericAdminPropertySet "indoorAmbientTemperatureStatisticalValues" (.type "Temperature8Statistics") := member_field 27 rfl
instance : HasMember u_GenericAdminPropertySet "initialCie1931ChromaticityCoordinates" (.type "ChromaticityCoordinates") := member_field 28 rfl
instance : HasMember u_GenericAdminPropertySet "initialCorrelatedColorTemperature" (.type "CorrelatedColorTemperature") := member_field 29 rfl
instance : HasMember u_GenericAdminPropertySet "initialLuminousFlux" (.type "LuminousFlux") := member_field 30 rfl
instance : HasMember u_GenericAdminPropertySet "initialPlanckianDistance" (.type "ChromaticDistanceFromPlanckian") := member_field 31 rfl
instance : HasMember u_GenericAdminPropertySet "inputCurrentRangeSpecification" (.type "ElectricCurrentSpecification") := member_field 32 rfl
instance : HasMember u_GenericAdminPropertySet "inputCurrentStatistics" (.type "ElectricCurrentStatistics") := member_field 33 rfl
instance : HasMember u_GenericAdminPropertySet "inputOverCurrentEventStatistics" (.type "EventStatistics") := member_field 34 rfl
instance : HasMember u_GenericAdminPropertySet "inputOverRippleVoltageEventStatistics" (.type "EventStatistics") := member_field 35 rfl
instance : HasMember u_GenericAdminPropertySet "inputOverVoltageEventStatistics" (.type "EventStatistics") := member_field 36 rfl
instance : HasMember u_GenericAdminPropertySet "inputUnderCurrentEventStatistics" (.type "EventStatistics") := member_field 37 rfl
instance : HasMember u_GenericAdminPropertySet "inputUnderVoltageEventStatistics" (.type "EventStatistics") := member_field 38 rfl
instance : HasMember u_GenericAdminPropertySet "inputVoltageRangeSpecification" (.type "VoltageRange") := member_field 39 rfl
instance : HasMember u_GenericAdminPropertySet "inputVoltageRippleSpecification" (.type "Percentage8") := member_field 40 rfl
instance : HasMember u_GenericAdminPropertySet "inputVoltageStatistics" (.type "VoltageStatistics") := member_field 41 rfl
instance : HasMember u_GenericAdminPropertySet "lightControlAmbientLuxlevelOn" (.type "Illuminance") := member_field 42 rfl
instance : HasMember u_GenericAdminPropertySet "lightControlAmbientLuxlevelProlong" (.type "Illuminance") := member_field 43 rfl
instance : HasMember u_GenericAdminPropertySet "lightControlAmbientLuxlevelStandby" (.type "Illuminance") := member_field 44 rfl
instance : HasMember u_GenericAdminPropertySet "lightControlLightnessOn" (.type "PerceivedLightness") := member_field 45 rfl
instance : HasMember u_GenericAdminPropertySet "lightControlLightnessProlong" (.type "PerceivedLightness") := member_field 46 rfl
instance : HasMember u_GenericAdminPropertySet "lightControlLightnessStandby" (.type "PerceivedLightness") := member_field 47 rfl
instance : HasMember u_GenericAdminPropertySet "lightControlRegulatorAccuracy" (.type "Percentage8") := member_field 48 rfl
instance : HasMember u_GenericAdminPropertySet "lightControlRegulatorKid" (.type "Coefficient") := member_field 49 rfl
instance : HasMember u_GenericAdminPropertySet "lightControlRegulatorKiu" (.type "Coefficient") := member_field 50 rfl
instance : HasMember u_GenericAdminPropertySet "lightControlRegulatorKpd" (.type "Coefficient") := member_field 51 rfl
instance : HasMember u_GenericAdminPropertySet "lightControlRegulatorKpu" (.type "Coefficient") := member_field 52 rfl
instance : HasMember u_GenericAdminPropertySet "lightControlTimeFade" (.type "TimeMiliseconds24") := member_field 53 rfl
instance : HasMember u_GenericAdminPropertySet "lightControlTimeFadeOn" (.type "TimeMiliseconds24") := member_field 54 rfl
instance : HasMember u_GenericAdminPropertySet "lightControlTimeFadeStandbyAuto" (.type "TimeMiliseconds24") := member_field 55 rfl
instance : HasMember u_GenericAdminPropertySet "lightControlTimeFadeStandbyManual" (.type "TimeMiliseconds24") := member_field 56 rfl
instance : HasMember u_GenericAdminPropertySet "lightControlTimeOccupancyDelay" (.type "TimeMiliseconds24") := member_field 57 rfl
instance : HasMember u_GenericAdminPropertySet "lightControlTimeProlong" (.type "TimeMiliseconds24") := member_field 58 rfl
instance : HasMember u_GenericAdminPropertySet "lightControlTimeRunOn" (.type "TimeMiliseconds24") := member_field 59 rfl
instance : HasMember u_GenericAdminPropertySet "lumenMaintenanceFactor" (.type "Percentage8") := member_field 60 rfl
instance : HasMember u_GenericAdminPropertySet "luminousEfficacy" (.type "LuminousEfficacy") := member_field 61 rfl
instance : HasMember u_GenericAdminPropertySet "luminousEnergySinceTurnOn" (.type "LuminousEnergy") := member_field 62 rfl
instance : HasMember u_GenericAdminPropertySet "luminousExposure" (.type "LuminousExposure") := member_field 63 rfl
instance : HasMember u_GenericAdminPropertySet "luminousFluxRange" (.type "LuminousFluxRange") := member_field 64 rfl
instance : HasMember u_GenericAdminPropertySet "motionSensed" (.type "Percentage8") := member_field 65 rfl
instance : HasMember u_GenericAdminPropertySet "motionThreshold" (.type "Percentage8") := member_field 66 rfl
instance : HasMember u_GenericAdminPropertySet "openCircuitEventStatistics" (.type "EventStatistics") := member_field 67 rfl
instance : HasMember u_GenericAdminPropertySet "outdoorStatisticalValues" (.type "Temperature8Statistics") := member_field 68 rfl
instance : HasMember u_GenericAdminPropertySet "outputCurrentRange" (.type "ElectricCurrentRange") := member_field 69 rfl
instance : HasMember u_GenericAdminPropertySet "outputCurrentStatistics" (.type "ElectricCurrentStatistics") := member_field 70 rfl
instance : HasMember u_GenericAdminPropertySet "outputRippleVoltageSpecification" (.type "Percentage8") := member_field 71 rfl
instance : HasMember u_GenericAdminPropertySet "outputVoltageRange" (.type "VoltageRange") := member_field 72 rfl
instance : HasMember u_GenericAdminPropertySet "outputVoltageStatistics" (.type "VoltageStatistics") := member_field 73 rfl
instance : HasMember u_GenericAdminPropertySet "overOutputRippleVoltageEventStatistics" (.type "EventStatistics") := member_field 74 rfl
instance : HasMember u_GenericAdminPropertySet "peopleCount" (.type "Count16") := member_field 75 rfl
instance : HasMember u_GenericAdminPropertySet "presenceDetected" (.type "Presence") := member_field 76 rfl
instance : HasMember u_GenericAdminPropertySet "presentAmbientLightLevel" (.type "Illuminance") := member_field 77 rfl
instance : HasMember u_GenericAdminPropertySet "presentAmbientTemperature" (.type "Temperature8") := member_field 78 rfl
instance : HasMember u_GenericAdminPropertySet "presentCie1931ChromaticityCoordinates" (.type "ChromaticityCoordinates") := member_field 79 rfl
instance : HasMember u_GenericAdminPropertySet "presentCorrelatedColorTemperature" (.type "CorrelatedColorTemperature") := member_field 80 rfl
instance : HasMember u_GenericAdminPropertySet "presentDeviceInputPower" (.type "Power") := member_field 81 rfl
instance : HasMember u_GenericAdminPropertySet "presentDeviceOperatingEfficiency" (.type "Percentage8") := member_field 82 rfl
instance : HasMember u_GenericAdminPropertySet "presentDeviceOperatingTemperature" (.type "Temperature") := member_field 83 rfl
instance : HasMember u_GenericAdminPropertySet "presentIlluminance" (.type "Illuminance") := member_field 84 rfl
instance : HasMember u_GenericAdminPropertySet "presentIndoorAmbientTemperature" (.type "Temperature8") := member_field 85 rfl
instance : HasMember u_GenericAdminPropertySet "presentInputCurrent" (.type "ElectricCurrent") := member_field 86 rfl
instance : HasMember u_GenericAdminPropertySet "presentInputRippleVoltage" (.type "Percentage8") := member_field 87 rfl
instance : HasMember u_GenericAdminPropertySet "presentInputVoltage" (.type "Voltage") := member_field 88 rfl
instance : HasMember u_GenericAdminPropertySet "presentLuminousFlux" (.type "LuminousFlux") := member_field 89 rfl
instance : HasMember u_GenericAdminPropertySet "presentOutdoorAmbientTemperature" (.type "Temperature8") := member_field 90 rfl
instance : HasMember u_GenericAdminPropertySet "presentOutputCurrent" (.type "ElectricCurrent") := member_field 91 rfl
instance : HasMember u_GenericAdminPropertySet "presentOutputVoltage" (.type "Voltage") := member_field 92 rfl
instance : HasMember u_GenericAdminPropertySet "presentPlanckianDistance" (.type "ChromaticDistanceFromPlanckian") := member_field 93 rfl
instance : HasMember u_GenericAdminPropertySet "presentRelativeOutputRippleVoltage" (.type "Percentage8") := member_field 94 rfl
instance : HasMember u_GenericAdminPropertySet "relativeDeviceEnergyUseInAPeriodOfDay" (.type "EnergyInAPeriodOfDay") := member_field 95 rfl
instance : HasMember u_GenericAdminPropertySet "relativeDeviceRuntimeInAGenericLevelRange" (.type "RelativeRuntimeInAGenericLevelRange") := member_field 96 rfl
instance : HasMember u_GenericAdminPropertySet "relativeExposureTimeInAnIlluminanceRange" (.type "RelativeValueInAnIlluminanceRange") := member_field 97 rfl
instance : HasMember u_GenericAdminPropertySet "relativeRuntimeInACorrelatedColorTemperatureRange" (.type "LuminousEnergy") := member_field 98 rfl
instance : HasMember u_GenericAdminPropertySet "relativeRuntimeInADeviceOperatingTemperatureRange" (.type "RelativeValueInATemperatureRange") := member_field 99 rfl
instance : HasMember u_GenericAdminPropertySet "relativeRuntimeInAnInputCurrentRange" (.type "RelativeValueInACurrentRange") := member_field 100 rfl
instance : HasMember u_GenericAdminPropertySet "relativeRuntimeInAnInputVoltageRange" (.type "RelativeValueInAVoltageRange") := member_field 101 rfl
instance : HasMember u_GenericAdminPropertySet "shortCircuitEventStatistics" (.type "EventStatistics") := member_field 102 rfl
instance : HasMember u_GenericAdminPropertySet "timeSinceMotionSensed" (.type "TimeSecond16") := member_field 103 rfl
instance : HasMember u_GenericAdminPropertySet "timeSincePresenceDetected" (.type "TimeSecond16") := member_field 104 rfl
instance : HasMember u_GenericAdminPropertySet "totalDeviceEnergyUse" (.type "Energy") := member_field 105 rfl
instance : HasMember u_GenericAdminPropertySet "totalDeviceOffOnCycles" (.type "Count24") := member_field 106 rfl
instance : HasMember u_GenericAdminPropertySet "totalDevicePowerOnCycles" (.type "Count24") := member_field 107 rfl
instance : HasMember u_GenericAdminPropertySet "totalDevicePowerOnTime" (.type "TimeHour24") := member_field 108 rfl
instance : HasMember u_GenericAdminPropertySet "totalDeviceRuntime" (.type "TimeHour24") := member_field 109 rfl
instance : HasMember u_GenericAdminPropertySet "totalLightExposureTime" (.type "TimeHour24") := member_field 110 rfl
instance : HasMember u_GenericAdminPropertySet "totalLuminousEnergy" (.type "LuminousEnergy") := member_field 111 rfl
instance : HasMember u_GenericAdminPropertySet "preciseTotalDeviceEnergyUse" (.type "PreciseEnergy") := member_field 112 rfl
instance : HasMember u_GenericAdminPropertySet "powerFactor" (.type "CosineOfTheAngle") := member_field 113 rfl
instance : HasMember u_GenericAdminPropertySet "externalSupplyVoltage" (.type "HighVoltage") := member_field 114 rfl
instance : HasMember u_GenericAdminPropertySet "externalSupplyVoltageFrequency" (.type "VoltageFrequency") := member_field 115 rfl
instance : HasMember u_GenericAdminPropertySet "lightDistribution" (.type "LightDistribution") := member_field 116 rfl
instance : HasMember u_GenericAdminPropertySet "lightSourceCurrent" (.type "AverageCurrent") := member_field 117 rfl
instance : HasMember u_GenericAdminPropertySet "lightSourceOnTimeNotResettable" (.type "TimeSecond32") := member_field 118 rfl
instance : HasMember u_GenericAdminPropertySet "lightSourceOnTimeResettable" (.type "TimeSecond32") := member_field 119 rfl
instance : HasMember u_GenericAdminPropertySet "lightSourceOpenCircuitStatistics" (.type "EventStatistics") := member_field 120 rfl
instance : HasMember u_GenericAdminPropertySet "lightSourceOverallFailuresStatistics" (.type "EventStatistics") := member_field 121 rfl
instance : HasMember u_GenericAdminPropertySet "lightSourceShortCircuitStatistics" (.type "EventStatistics") := member_field 122 rfl
instance : HasMember u_GenericAdminPropertySet "lightSourceStartCounterResettable" (.type "Count24") := member_field 123 rfl
instance : HasMember u_GenericAdminPropertySet "lightSourceTemperature" (.type "HighTemperature") := member_field 124 rfl
instance : HasMember u_GenericAdminPropertySet "lightSourceThermalDeratingStatistics" (.type "EventStatistics") := member_field 125 rfl
instance : HasMember u_GenericAdminPropertySet "lightSourceThermalShutdownStatistics" (.type "EventStatistics") := member_field 126 rfl
instance : HasMember u_GenericAdminPropertySet "lightSourceTotalPowerOnCycles" (.type "Count24") := member_field 127 rfl
instance : HasMember u_GenericAdminPropertySet "lightSourceVoltage" (.type "AverageVoltage") := member_field 128 rfl
instance : HasMember u_GenericAdminPropertySet "luminaireColor" (.type "Text") := member_field 129 rfl
instance : HasMember u_GenericAdminPropertySet "luminaireIdentificationNumber" (.type "Text") := member_field 130 rfl
instance : HasMember u_GenericAdminPropertySet "luminaireNominalInputPower" (.type "Power") := member_field 131 rfl
instance : HasMember u_GenericAdminPropertySet "luminaireNominalMaximumAcMainsVoltage" (.type "Voltage") := member_field 132 rfl
instance : HasMember u_GenericAdminPropertySet "luminaireNominalMinimumAcMainsVoltage" (.type "Voltage") := member_field 133 rfl
instance : HasMember u_GenericAdminPropertySet "luminairePowerAtMinimumDimLevel" (.type "Power") := member_field 134 rfl
instance : HasMember u_GenericAdminPropertySet "luminaireTimeOfManufacture" (.type "DateUTC") := member_field 135 rfl
instance : HasMember u_GenericAdminPropertySet "nominalLightOutput" (.type "LightOutput") := member_field 136 rfl
instance : HasMember u_GenericAdminPropertySet "overallFailureCondition" (.type "EventStatistics") := member_field 137 rfl
instance : HasMember u_GenericAdminPropertySet "ratedMedianUsefulLifeOfLuminaire" (.type "TimeHour24") := member_field 138 rfl
instance : HasMember u_GenericAdminPropertySet "ratedMedianUsefulLightSourceStarts" (.type "Count24") := member_field 139 rfl
instance : HasMember u_GenericAdminPropertySet "referenceTemperature" (.type "HighTemperature") := member_field 140 rfl
instance : HasMember u_GenericAdminPropertySet "totalDeviceStarts" (.type "Count24") := member_field 141 rfl
instance : HasMember u_GenericAdminPropertySet "luminaireIdentificationString" (.type "Text") := member_field 142 rfl
instance : HasMember u_GenericAdminPropertySet "outputPowerLimitation" (.type "EventStatistics") := member_field 143 rfl
instance : HasMember u_GenericAdminPropertySet "thermalDerating" (.type "EventStatistics") := member_field 144 rfl
instance : HasMember u_GenericAdminPropertySet "outputCurrentPercent" (.type "Percentage8") := member_field 145 rfl
instance : HasMember u_GenericAdminPropertySet "luminaireManufacturerGtin" (.type "GlobalTradeItemNumber") := member_field 146 rfl
instance : HasMember u_GenericAdminPropertySet "apparentEnergy" (.type "ApparentEnergy32") := member_field 147 rfl
instance : HasMember u_GenericAdminPropertySet "apparentPower" (.type "ApparentPower") := member_field 148 rfl
instance : HasMember u_GenericAdminPropertySet "activeEnergyLoadSide" (.type "Energy32") := member_field 149 rfl
instance : HasMember u_GenericAdminPropertySet "activePowerLoadSide" (.type "Power") := member_field 150 rfl
instance : HasMember u_GenericAdminPropertySet "lightSourceType" (.type "LightSourceType") := member_field 151 rfl
instance : HasMember u_GenericAdminPropertySet "desiredAmbientTemperature" (.type "Temperature8") := member_field 152 rfl
instance : HasMember u_GenericAdminPropertySet "sensorGain" (.type "Coefficient") := member_field 153 rfl
instance : HasMember u_GenericAdminPropertySet "precisePresentAmbientTemperature" (.type "Temperature") := member_field 154 rfl
instance : HasMember s_GenericAdminPropertySet "averageAmbientTemperatureInAPeriodOfDay" (.type "Temperature8InAPeriodOfDay") := member_inner (us := u_GenericAdminPropertySet) 2 rfl
instance : HasMember s_GenericAdminPropertySet "averageInputCurrent" (.type "AverageCurrent") := member_inner (us := u_GenericAdminPropertySet) 2 rfl
instance : HasMember s_GenericAdminPropertySet "averageInputVoltage" (.type "AverageVoltage") := member_inner (us := u_GenericAdminPropertySet) 2 rfl
instance : HasMember s_GenericAdminPropertySet "averageOutputCurrent" (.type "AverageCurrent") := member_inner (us := u_GenericAdminPropertySet) 2 rfl
instance : HasMember s_GenericAdminPropertySet "averageOutputVoltage" (.type "AverageVoltage") := member_inner (us := u_GenericAdminPropertySet) 2 rfl
instance : HasMember s_GenericAdminPropertySet "centerBeamIntensityAtFullPower" (.type "LuminousIntensity") := member_inner (us := u_GenericAdminPropertySet) 2 rfl
instance : HasMember s_GenericAdminPropertySet "chromaticityTolerance" (.type "ChromaticityTolerance") := member_inner (us := u_GenericAdminPropertySet) 2 rfl
instance : HasMember s_GenericAdminPropertySet "colorRenderingIndexR9" (.type "ColorRenderingIndex") := member_inner (us := u_GenericAdminPropertySet) 2 rfl
instance : HasMember s_GenericAdminPropertySet "colorRenderingIndexRa" (.type "ColorRenderingIndex") := member_inner (us := u_GenericAdminPropertySet) 2 rfl
instance : HasMember s_GenericAdminPropertySet "deviceAppearance" (.type "Appearance") := member_inner (us := u_GenericAdminPropertySet) 2 rfl
instance : HasMember s_GenericAdminPropertySet "deviceCountryOfOrigin" (.type "CountryCode") := member_inner (us := u_GenericAdminPropertySet) 2 rfl
instance : HasMember s_GenericAdminPropertySet "deviceDateOfManufacture" (.type "DateUTC") := member_inner (us := u_GenericAdminPropertySet) 2 rfl
instance : HasMember s_GenericAdminPropertySet "deviceEnergyUseSinceTurnOn" (.type "Energy") := member_inner (us := u_GenericAdminPropertySet) 2 rfl
instance : HasMember s_GenericAdminPropertySet "deviceFirmwareRevision" (.type "Text") := member_inner (us := u_GenericAdminPropertySet) 2 rfl
instance : HasMember s_GenericAdminPropertySet "deviceGlobalTradeItemNumber" (.type "GlobalTradeItemNumber") := member_inner (us := u_GenericAdminPropertySet) 2 rfl
instance : HasMember s_GenericAdminPropertySet "deviceHardwareRevision" (.type "Text") := member_inner (us := u_GenericAdminPropertySet) 2 rfl
instance : HasMember s_GenericAdminPropertySet "deviceManufacturerName" (.type "Text") := member_inner (us := u_GenericAdminPropertySet) 2 rfl
instance : HasMember s_GenericAdminPropertySet "deviceModelNumber" (.type "Text") := member_inner (us := u_GenericAdminPropertySet) 2 rfl
instance : HasMember s_GenericAdminPropertySet "deviceOperatingTemperatureRangeSpecification" (.type "TemperatureRange") := member_inner (us := u_GenericAdminPropertySet) 2 rfl
instance : HasMember s_GenericAdminPropertySet "deviceOperatingTemperatureStatisticalValues" (.type "TemperatureStatistics") := member_inner (us := u_GenericAdminPropertySet) 2 rfl
instance : HasMember s_GenericAdminPropertySet "deviceOverTemperatureEventStatistics" (.type "EventStatistics") := member_inner (us := u_GenericAdminPropertySet) 2 rfl
instance : HasMember s_GenericAdminPropertySet "devicePowerRangeSpecification" (.type "PowerSpecification") := member_inner (us := u_GenericAdminPropertySet) 2 rfl
instance : HasMember s_GenericAdminPropertySet "deviceRuntimeSinceTurnOn" (.type "TimeHour24") := member_inner (us := u_GenericAdminPropertySet) 2 rfl
instance : HasMember s_GenericAdminPropertySet "deviceRuntimeWarranty" (.type "TimeHour24") := member_inner (us := u_GenericAdminPropertySet) 2 rfl
instance : HasMember s_GenericAdminPropertySet "deviceSerialNumber" (.type "Text") := member_inner (us := u_GenericAdminPropertySet) 2 rfl
instance : HasMember s_GenericAdminPropertySet "deviceSoftwareRevision" (.type "Text") := member_inner (us := u_GenericAdminPropertySet) 2 rfl
instance : HasMember s_GenericAdminPropertySet "deviceUnderTemperatureEventStatistics" (.type "EventStatistics") := member_inner (us := u_GenericAdminPropertySet) 2 rfl
instance : HasMember s_GenericAdminPropertySet "indoorAmbientTemperatureStatisticalValues" (.type "Temperature8Statistics") := member_inner (us := u_GenericAdminPropertySet) 2 rfl
instance : HasMember s_GenericAdminPropertySet "initialCie1931ChromaticityCoordinates" (.type "ChromaticityCoordinates") := member_inner (us := u_GenericAdminPropertySet) 2 rfl
instance : HasMember s_GenericAdminPropertySet "initialCorrelatedColorTemperature" (.type "CorrelatedColorTemperature") := member_inner (us := u_GenericAdminPropertySet) 2 rfl
instance : HasMember s_GenericAdminPropertySet "initialLuminousFlux" (.type "LuminousFlux") := member_inner (us := u_GenericAdminPropertySet) 2 rfl
instance : HasMember s_GenericAdminPropertySet "initialPlanckianDistance" (.type "ChromaticDistanceFromPlanckian") := member_inner (us := u_GenericAdminPropertySet) 2 rfl
instance : HasMember s_GenericAdminPropertySet "inputCurrentRangeSpecification" (.type "ElectricCurrentSpecification") := member_inner (us := u_GenericAdminPropertySet) 2 rfl
instance : HasMember s_GenericAdminPropertySet "inputCurrentStatistics" (.type "ElectricCurrentStatistics") := member_inner (us := u_GenericAdminPropertySet) 2 rfl
instance : HasMember s_GenericAdminPropertySet "inputOverCurrentEventStatistics" (.type "EventStatistics") := member_inner (us := u_GenericAdminPropertySet) 2 rfl
instance : HasMember s_GenericAdminPropertySet "inputOverRippleVoltageEventStatistics" (.type "EventStatistics") := member_inner (us := u_GenericAdminPropertySet) 2 rfl
instance : HasMember s_GenericAdminPropertySet "inputOverVoltageEventStatistics" (.type "EventStatistics") := member_inner (us := u_GenericAdminPropertySet) 2 rfl
instance : HasMember s_GenericAdminPropertySet "inputUnderCurrentEventStatistics" (.type "EventStatistics") := member_inner (us := u_GenericAdminPropertySet) 2 rfl
instance : HasMember s_GenericAdminPropertySet "inputUnderVoltageEventStatistics" (.type "EventStatistics") := member_inner (us := u_GenericAdminPropertySet) 2 rfl
instance : HasMember s_GenericAdminPropertySet "inputVoltageRangeSpecification" (.type "VoltageRange") := member_inner (us := u_GenericAdminPropertySet) 2 rfl
instance : HasMember s_GenericAdminPropertySet "inputVoltageRippleSpecification" (.type "Percentage8") := member_inner (us := u_GenericAdminPropertySet) 2 rfl
instance : HasMember s_GenericAdminPropertySet "inputVoltageStatistics" (.type "VoltageStatistics") := member_inner (us := u_GenericAdminPropertySet) 2 rfl
instance : HasMember s_GenericAdminPropertySet "lightControlAmbientLuxlevelOn" (.type "Illuminance") := member_inner (us := u_GenericAdminPropertySet) 2 rfl
instance : HasMember s_GenericAdminPropertySet "lightControlAmbientLuxlevelProlong" (.type "Illuminance") := member_inner (us := u_GenericAdminPropertySet) 2 rfl
instance : HasMember s_GenericAdminPropertySet "lightControlAmbientLuxlevelStandby" (.type "Illuminance") := member_inner (us := u_GenericAdminPropertySet) 2 rfl
instance : HasMember s_GenericAdminPropertySet "lightControlLightnessOn" (.type "PerceivedLightness") := member_inner (us := u_GenericAdminPropertySet) 2 rfl
instance : HasMember s_GenericAdminPropertySet "lightControlLightnessProlong" (.type "PerceivedLightness") := member_inner (us := u_GenericAdminPropertySet) 2 rfl
instance : HasMember s_GenericAdminPropertySet "lightControlLightnessStandby" (.type "PerceivedLightness") := member_inner (us := u_GenericAdminPropertySet) 2 rfl
instance : HasMember s_GenericAdminPropertySet "lightControlRegulatorAccuracy" (.type "Percentage8") := member_inner (us := u_GenericAdminPropertySet) 2 rfl
instance : HasMember s_GenericAdminPropertySet "lightControlRegulatorKid" (.type "Coefficient") := member_inner (us := u_GenericAdminPropertySet) 2 rfl
instance : HasMember s_GenericAdminPropertySet "lightControlRegulatorKiu" (.type "Coefficient") := member_inner (us := u_GenericAdminPropertySet) 2 rfl
instance : HasMember s_GenericAdminPropertySet "lightControlRegulatorKpd" (.type "Coefficient") := member_inner (us := u_GenericAdminPropertySet) 2 rfl
instance : HasMember s_GenericAdminPropertySet "lightControlRegulatorKpu" (.type "Coefficient") := member_inner (us := u_GenericAdminPropertySet) 2 rfl
instance : HasMember s_GenericAdminPropertySet "lightControlTimeFade" (.type "TimeMiliseconds24") := member_inner (us := u_GenericAdminPropertySet) 2 rfl
instance : HasMember s_GenericAdminPropertySet "lightControlTimeFadeOn" (.type "TimeMiliseconds24") := member_inner (us := u_GenericAdminPropertySet) 2 rfl
instance : HasMember s_GenericAdminPropertySet "lightControlTimeFadeStandbyAuto" (.type "TimeMiliseconds24") := member_inner (us := u_GenericAdminPropertySet) 2 rfl
instance : HasMember s_GenericAdminPropertySet "lightControlTimeFadeStandbyManual" (.type "TimeMiliseconds24") := member_inner (us := u_GenericAdminPropertySet) 2 rfl
instance : HasMember s_GenericAdminPropertySet "lightControlTimeOccupancyDelay" (.type "TimeMiliseconds24") := member_inner (us := u_GenericAdminPropertySet) 2 rfl
instance : HasMember s_GenericAdminPropertySet "lightControlTimeProlong" (.type "TimeMiliseconds24") := member_inner (us := u_GenericAdminPropertySet) 2 rfl
instance : HasMember s_GenericAdminPropertySet "lightControlTimeRunOn" (.type "TimeMiliseconds24") := member_inner (us := u_GenericAdminPropertySet) 2 rfl
instance : HasMember s_GenericAdminPropertySet "lumenMaintenanceFactor" (.type "Percentage8") := member_inner (us := u_GenericAdminPropertySet) 2 rfl
instance : HasMember s_GenericAdminPropertySet "luminousEfficacy" (.type "LuminousEfficacy") := member_inner (us := u_GenericAdminPropertySet) 2 rfl
instance : HasMember s_GenericAdminPropertySet "luminousEnergySinceTurnOn" (.type "LuminousEnergy") := member_inner (us := u_GenericAdminPropertySet) 2 rfl
instance : HasMember s_GenericAdminPropertySet "luminousExposure" (.type "LuminousExposure") := member_inner (us := u_GenericAdminPropertySet) 2 rfl
instance : HasMember s_GenericAdminPropertySet "luminousFluxRange" (.type "LuminousFluxRange") := member_inner (us := u_GenericAdminPropertySet) 2 rfl
instance : HasMember s_GenericAdminPropertySet "motionSensed" (.type "Percentage8") := member_inner (us := u_GenericAdminPropertySet) 2 rfl
instance : HasMember s_GenericAdminPropertySet "motionThreshold" (.type "Percentage8") := member_inner (us := u_GenericAdminPropertySet) 2 rfl
instance : HasMember s_GenericAdminPropertySet "openCircuitEventStatistics" (.type "EventStatistics") := member_inner (us := u_GenericAdminPropertySet) 2 rfl
instance : HasMember s_GenericAdminPropertySet "outdoorStatisticalValues" (.type "Temperature8Statistics") := member_inner (us := u_GenericAdminPropertySet) 2 rfl
instance : HasMember s_GenericAdminPropertySet "outputCurrentRange" (.type "ElectricCurrentRange") := member_inner (us := u_GenericAdminPropertySet) 2 rfl
instance : HasMember s_GenericAdminPropertySet "outputCurrentStatistics" (.type "ElectricCurrentStatistics") := member_inner (us := u_GenericAdminPropertySet) 2 rfl
instance : HasMember s_GenericAdminPropertySet "outputRippleVoltageSpecification" (.type "Percentage8") := member_inner (us := u_GenericAdminPropertySet) 2 rfl
instance : HasMember s_GenericAdminPropertySet "outputVoltageRange" (.type "VoltageRange") := member_inner (us := u_GenericAdminPropertySet) 2 rfl
instance : HasMember s_GenericAdminPropertySet "outputVoltageStatistics" (.type "VoltageStatistics") := member_inner (us := u_GenericAdminPropertySet) 2 rfl
instance : HasMember s_GenericAdminPropertySet "overOutputRippleVoltageEventStatistics" (.type "EventStatistics") := member_inner (us := u_GenericAdminPropertySet) 2 rfl
instance : HasMember s_GenericAdminPropertySet "peopleCount" (.type "Count16") := member_inner (us := u_GenericAdminPropertySet) 2 rfl
instance : HasMember s_GenericAdminPropertySet "presenceDetected" (.type "Presence") := member_inner (us := u_GenericAdminPropertySet) 2 rfl
instance : HasMember s_GenericAdminPropertySet "presentAmbientLightLevel" (.type "Illuminance") := member_inner (us := u_GenericAdminPropertySet) 2 rfl
instance : HasMember s_GenericAdminPropertySet "presentAmbientTemperature" (.type "Temperature8") := member_inner (us := u_GenericAdminPropertySet) 2 rfl
instance : HasMember s_GenericAdminPropertySet "presentCie1931ChromaticityCoordinates" (.type "ChromaticityCoordinates") := member_inner (us := u_GenericAdminPropertySet) 2 rfl
instance : HasMember s_GenericAdminPropertySet "presentCorrelatedColorTemperature" (.type "CorrelatedColorTemperature") := member_inner (us := u_GenericAdminPropertySet) 2 rfl
instance : HasMember s_GenericAdminPropertySet "presentDeviceInputPower" (.type "Power") := member_inner (us := u_GenericAdminPropertySet) 2 rfl
instance : HasMember s_GenericAdminPropertySet "presentDeviceOperatingEfficiency" (.type "Percentage8") := member_inner (us := u_GenericAdminPropertySet) 2 rfl
instance : HasMember s_GenericAdminPropertySet "presentDeviceOperatingTemperature" (.type "Temperature") := member_inner (us := u_GenericAdminPropertySet) 2 rfl
instance : HasMember s_GenericAdminPropertySet "presentIlluminance" (.type "Illuminance") := member_inner (us := u_GenericAdminPropertySet) 2 rfl
instance : HasMember s_GenericAdminPropertySet "presentIndoorAmbientTemperature" (.type "Temperature8") := member_inner (us := u_GenericAdminPropertySet) 2 rfl
instance : HasMember s_GenericAdminPropertySet "presentInputCurrent" (.type "ElectricCurrent") := member_inner (us := u_GenericAdminPropertySet) 2 rfl
instance : HasMember s_GenericAdminPropertySet "presentInputRippleVoltage" (.type "Percentage8") := member_inner (us := u_GenericAdminPropertySet) 2 rfl
instance : HasMember s_GenericAdminPropertySet "presentInputVoltage" (.type "Voltage") := member_inner (us := u_GenericAdminPropertySet) 2 rfl
instance : HasMember s_GenericAdminPropertySet "presentLuminousFlux" (.type "LuminousFlux") := member_inner (us := u_GenericAdminPropertySet) 2 rfl
instance : HasMember s_GenericAdminPropertySet "presentOutdoorAmbientTemperature" (.type "Temperature8") := member_inner (us := u_GenericAdminPropertySet) 2 rfl
instance : HasMember s_GenericAdminPropertySet "presentOutputCurrent" (.type "ElectricCurrent") := member_inner (us := u_GenericAdminPropertySet) 2 rfl
instance : HasMember s_GenericAdminPropertySet "presentOutputVoltage" (.type "Voltage") := member_inner (us := u_GenericAdminPropertySet) 2 rfl
instance : HasMember s_GenericAdminPropertySet "presentPlanckianDistance" (.type "ChromaticDistanceFromPlanckian") := member_inner (us := u_GenericAdminPropertySet) 2 rfl
instance : HasMember s_GenericAdminPropertySet "presentRelativeOutputRippleVoltage" (.type "Percentage8") := member_inner (us := u_GenericAdminPropertySet) 2 rfl
instance : HasMember s_GenericAdminPropertySet "relativeDeviceEnergyUseInAPeriodOfDay" (.type "EnergyInAPeriodOfDay") := member_inner (us := u_GenericAdminPropertySet) 2 rfl
instance : HasMember s_GenericAdminPropertySet "relativeDeviceRuntimeInAGenericLevelRange" (.type "RelativeRuntimeInAGenericLevelRange") := member_inner (us := u_GenericAdminPropertySet) 2 rfl
instance : HasMember s_GenericAdminPropertySet "relativeExposureTimeInAnIlluminanceRange" (.type "RelativeValueInAnIlluminanceRange") := member_inner (us := u_GenericAdminPropertySet) 2 rfl
instance : HasMember s_GenericAdminPropertySet "relativeRuntimeInACorrelatedColorTemperatureRange" (.type "LuminousEnergy") := member_inner (us := u_GenericAdminPropertySet) 2 rfl
instance : HasMember s_GenericAdminPropertySet "relativeRuntimeInADeviceOperatingTemperatureRange" (.type "RelativeValueInATemperatureRange") := member_inner (us := u_GenericAdminPropertySet) 2 rfl
instance : HasMember s_GenericAdminPropertySet "relativeRuntimeInAnInputCurrentRange" (.type "RelativeValueInACurrentRange") := member_inner (us := u_GenericAdminPropertySet) 2 rfl
instance : HasMember s_GenericAdminPropertySet "relativeRuntimeInAnInputVoltageRange" (.type "RelativeValueInAVoltageRange") := member_inner (us := u_GenericAdminPropertySet) 2 rfl
instance : HasMember s_GenericAdminPropertySet "shortCircuitEventStatistics" (.type "EventStatistics") := member_inner (us := u_GenericAdminPropertySet) 2 rfl
instance : HasMember s_GenericAdminPropertySet "timeSinceMotionSensed" (.type "TimeSecond16") := member_inner (us := u_GenericAdminPropertySet) 2 rfl
instance : HasMember s_GenericAdminPropertySet "timeSincePresenceDetected" (.type "TimeSecond16") := member_inner (us := u_GenericAdminPropertySet) 2 rfl
instance : HasMember s_GenericAdminPropertySet "totalDeviceEnergyUse" (.type "Energy") := member_inner (us := u_GenericAdminPropertySet) 2 rfl
instance : HasMember s_GenericAdminPropertySet "totalDeviceOffOnCycles" (.type "Count24") := member_inner (us := u_GenericAdminPropertySet) 2 rfl
instance : HasMember s_GenericAdminPropertySet "totalDevicePowerOnCycles" (.type "Count24") := member_inner (us := u_GenericAdminPropertySet) 2 rfl
instance : HasMember s_GenericAdminPropertySet "totalDevicePowerOnTime" (.type "TimeHour24") := member_inner (us := u_GenericAdminPropertySet) 2 rfl
instance : HasMember s_GenericAdminPropertySet "totalDeviceRuntime" (.type "TimeHour24") := member_inner (us := u_GenericAdminPropertySet) 2 rfl
instance : HasMember s_GenericAdminPropertySet "totalLightExposureTime" (.type "TimeHour24") := member_inner (us := u_GenericAdminPropertySet) 2 rfl
instance : HasMember s_GenericAdminPropertySet "totalLuminousEnergy" (.type "LuminousEnergy") := member_inner (us := u_GenericAdminPropertySet) 2 rfl
instance : HasMember s_GenericAdminPropertySet "preciseTotalDeviceEnergyUse" (.type "PreciseEnergy") := member_inner (us := u_GenericAdminPropertySet) 2 rfl
instance : HasMember s_GenericAdminPropertySet "powerFactor" (.type "CosineOfTheAngle") := member_inner (us := u_GenericAdminPropertySet) 2 rfl
instance : HasMember s_GenericAdminPropertySet "externalSupplyVoltage" (.type "HighVoltage") := member_inner (us := u_GenericAdminPropertySet) 2 rfl
instance : HasMember s_GenericAdminPropertySet "externalSupplyVoltageFrequency" (.type "VoltageFrequency") := member_inner (us := u_GenericAdminPropertySet) 2 rfl
instance : HasMember s_GenericAdminPropertySet "lightDistribution" (.type "LightDistribution") := member_inner (us := u_GenericAdminPropertySet) 2 rfl
instance : HasMember s_GenericAdminPropertySet "lightSourceCurrent" (.type "AverageCurrent") := member_inner (us := u_GenericAdminPropertySet) 2 rfl
instance : HasMember s_GenericAdminPropertySet "lightSourceOnTimeNotResettable" (.type "TimeSecond32") := member_inner (us := u_GenericAdminPropertySet) 2 rfl
instance : HasMember s_GenericAdminPropertySet "lightSourceOnTimeResettable" (.type "TimeSecond32") := member_inner (us := u_GenericAdminPropertySet) 2 rfl
instance : HasMember s_GenericAdminPropertySet "lightSourceOpenCircuitStatistics" (.type "EventStatistics") := member_inner (us := u_GenericAdminPropertySet) 2 rfl
instance : HasMember s_GenericAdminPropertySet "lightSourceOverallFailuresStatistics" (.type "EventStatistics") := member_inner (us := u_GenericAdminPropertySet) 2 rfl
instance : HasMember s_GenericAdminPropertySet "lightSourceShortCircuitStatistics" (.type "EventStatistics") := member_inner (us := u_GenericAdminPropertySet) 2 rfl
instance : HasMember s_GenericAdminPropertySet "lightSourceStartCounterResettable" (.type "Count24") := member_inner (us := u_GenericAdminPropertySet) 2 rfl
instance : HasMember s_GenericAdminPropertySet "lightSourceTemperature" (.type "HighTemperature") := member_inner (us := u_GenericAdminPropertySet) 2 rfl
instance : HasMember s_GenericAdminPropertySet "lightSourceThermalDeratingStatistics" (.type "EventStatistics") := member_inner (us := u_GenericAdminPropertySet) 2 rfl
instance : HasMember s_GenericAdminPropertySet "lightSourceThermalShutdownStatistics" (.type "EventStatistics") := member_inner (us := u_GenericAdminPropertySet) 2 rfl
instance : HasMember s_GenericAdminPropertySet "lightSourceTotalPowerOnCycles" (.type "Count24") := member_inner (us := u_GenericAdminPropertySet) 2 rfl
instance : HasMember s_GenericAdminPropertySet "lightSourceVoltage" (.type "AverageVoltage") := member_inner (us := u_GenericAdminPropertySet) 2 rfl
instance : HasMember s_GenericAdminPropertySet "luminaireColor" (.type "Text") := member_inner (us := u_GenericAdminPropertySet) 2 rfl
instance : HasMember s_GenericAdminPropertySet "luminaireIdentificationNumber" (.type "Text") := member_inner (us := u_GenericAdminPropertySet) 2 rfl
instance : HasMember s_GenericAdminPropertySet "luminaireNominalInputPower" (.type "Power") := member_inner (us := u_GenericAdminPropertySet) 2 rfl
instance : HasMember s_GenericAdminPropertySet "luminaireNominalMaximumAcMainsVoltage" (.type "Voltage") := member_inner (us := u_GenericAdminPropertySet) 2 rfl
instance : HasMember s_GenericAdminPropertySet "luminaireNominalMinimumAcMainsVoltage" (.type "Voltage") := member_inner (us := u_GenericAdminPropertySet) 2 rfl
instance : HasMember s_GenericAdminPropertySet "luminairePowerAtMinimumDimLevel" (.type "Power") := member_inner (us := u_GenericAdminPropertySet) 2 rfl
instance : HasMember s_GenericAdminPropertySet "luminaireTimeOfManufacture" (.type "DateUTC") := member_inner (us := u_GenericAdminPropertySet) 2 rfl
instance : HasMember s_GenericAdminPropertySet "nominalLightOutput" (.type "LightOutput") := member_inner (us := u_GenericAdminPropertySet) 2 rfl
instance : HasMember s_GenericAdminPropertySet "overallFailureCondition" (.type "EventStatistics") := member_inner (us := u_GenericAdminPropertySet) 2 rfl
instance : HasMember s_GenericAdminPropertySet "ratedMedianUsefulLifeOfLuminaire" (.type "TimeHour24") := member_inner (us := u_GenericAdminPropertySet) 2 rfl
instance : HasMember s_GenericAdminPropertySet "ratedMedianUsefulLightSourceStarts" (.type "Count24") := member_inner (us := u_GenericAdminPropertySet) 2 rfl
instance : HasMember s_GenericAdminPropertySet "referenceTemperature" (.type "HighTemperature") := member_inner (us := u_GenericAdminPropertySet) 2 rfl
instance : HasMember s_GenericAdminPropertySet "totalDeviceStarts" (.type "Count24") := member_inner (us := u_GenericAdminPropertySet) 2 rfl
instance : HasMember s_GenericAdminPropertySet "luminaireIdentificationString" (.type "Text") := member_inner (us := u_GenericAdminPropertySet) 2 rfl
instance : HasMember s_GenericAdminPropertySet "outputPowerLimitation" (.type "EventStatistics") := member_inner (us := u_GenericAdminPropertySet) 2 rfl
instance : HasMember s_GenericAdminPropertySet "thermalDerating" (.type "EventStatistics") := member_inner (us := u_GenericAdminPropertySet) 2 rfl
instance : HasMember s_GenericAdminPropertySet "outputCurrentPercent" (.type "Percentage8") := member_inner (us := u_GenericAdminPropertySet) 2 rfl
instance : HasMember s_GenericAdminPropertySet "luminaireManufacturerGtin" (.type "GlobalTradeItemNumber") := member_inner (us := u_GenericAdminPropertySet) 2 rfl
instance : HasMember s_GenericAdminPropertySet "apparentEnergy" (.type "ApparentEnergy32") := member_inner (us := u_GenericAdminPropertySet) 2 rfl
instance : HasMember s_GenericAdminPropertySet "apparentPower" (.type "ApparentPower") := member_inner (us := u_GenericAdminPropertySet) 2 rfl
instance : HasMember s_GenericAdminPropertySet "activeEnergyLoadSide" (.type "Energy32") := member_inner (us := u_GenericAdminPropertySet) 2 rfl
instance : HasMember s_GenericAdminPropertySet "activePowerLoadSide" (.type "Power") := member_inner (us := u_GenericAdminPropertySet) 2 rfl
instance : HasMember s_GenericAdminPropertySet "lightSourceType" (.type "LightSourceType") := member_inner (us := u_GenericAdminPropertySet) 2 rfl
instance : HasMember s_GenericAdminPropertySet "desiredAmbientTemperature" (.type "Temperature8") := member_inner (us := u_GenericAdminPropertySet) 2 rfl
instance : HasMember s_GenericAdminPropertySet "sensorGain" (.type "Coefficient") := member_inner (us := u_GenericAdminPropertySet) 2 rfl
instance : HasMember s_GenericAdminPropertySet "precisePresentAmbientTemperature" (.type "Temperature") := member_inner (us := u_GenericAdminPropertySet) 2 rfl
instance : IsPlain "GenericManufacturerPropertySet" s_GenericManufacturerPropertySet := isPlain 305 rfl rfl
instance : HasMember s_GenericManufacturerPropertySet "propertyId" (.type "UInt16") := member_field 0 rfl
instance : HasMember s_GenericManufacturerPropertySet "access" (.type "UInt8") := member_field 1 rfl
instance : IsUnion "EmergencyLightingParams" s_EmergencyLightingParams u_EmergencyLightingParams := isUnion 306 rfl rfl
instance : HasMember s_EmergencyLightingParams "subopcode" (.type "UInt8") := member_field 0 rfl
instance : HasMember u_EmergencyLightingParams "elInhibitEnter" (.type "EmergencyLightingInhibitEnter") := member_field 0 rfl
instance : HasMember u_EmergencyLightingParams "elInhibitEnterUnacknowledged" (.type "EmergencyLightingInhibitEnter") := member_field 1 rfl
instance : HasMember u_EmergencyLightingParams "elInhibitExit" (.type "EmergencyLightingInhibitExit") := member_field 2 rfl
instance : HasMember u_EmergencyLightingParams "elInhibitExitUnacknowledged" (.type "EmergencyLightingInhibitExit") := member_field 3 rfl
instance : HasMember u_EmergencyLightingParams "elStateGet" (.type "EmergencyLightingStateGet") := member_field 4 rfl
instance : HasMember u_EmergencyLightingParams "elStateStatus" (.type "EmergencyLightingStateStatus") := member_field 5 rfl
instance : HasMember u_EmergencyLightingParams "elPropertyGet" (.type "EmergencyLightingPropertyGet") := member_field 6 rfl
instance : HasMember u_EmergencyLightingParams "elPropertySet" (.type "EmergencyLightingPropertySet") := member_field 7 rfl
instance : HasMember u_EmergencyLightingParams "elPropertySetUnacknowledged" (.type "EmergencyLightingPropertySet") := member_field 8 rfl
instance : HasMember u_EmergencyLightingParams "elPropertyStatus" (.type "EmergencyLightingPropertyStatus") := member_field 9 rfl
instance : HasMember u_EmergencyLightingParams "elLampOperationTimeGet" (.type "EmergencyLightingLampOperationTimeGet") := member_field 10 rfl
instance : HasMember u_EmergencyLightingParams "elLampOperationTimeClear" (.type "EmergencyLightingLampOperationTimeClear") := member_field 11 rfl
instance : HasMember u_EmergencyLightingParams "elLampOperationTimeClearUnacknowledged" (.type "EmergencyLightingLampOperationTimeClear") := member_field 12 rfl
instance : HasMember u_EmergencyLightingParams "elLampOperationTimeStatus" (.type "EmergencyLightingLampOperationTimeStatus") := member_field 13 rfl
instance : HasMember u_EmergencyLightingParams "elRestEnter" (.type "EmergencyLightingRestEnter") := member_field 14 rfl
instance : HasMember u_EmergencyLightingParams "elRestEnterUnacknowledged" (.type "EmergencyLightingRestEnter") := member_field 15 rfl
instance : HasMember u_EmergencyLightingParams "elRestExit" (.type "EmergencyLightingRestExit") := member_field 16 rfl
instance : HasMember u_EmergencyLightingParams "elRestExitUnacknowledged" (.type "EmergencyLightingRestExit") := member_field 17 rfl
instance : HasMember s_EmergencyLightingParams "elInhibitEnter" (.type "EmergencyLightingInhibitEnter") := member_inner (us := u_EmergencyLightingParams) 1 rfl
instance : HasMember s_EmergencyLightingParams "elInhibitEnterUnacknowledged" (.type "EmergencyLightingInhibitEnter") := member_inner (us := u_EmergencyLightingParams) 1 rfl
instance : HasMember s_EmergencyLightingParams "elInhibitExit" (.type "EmergencyLightingInhibitExit") := member_inner (us := u_EmergencyLightingParams) 1 rfl
instance : HasMember s_EmergencyLightingParams "elInhibitExitUnacknowledged" (.type "EmergencyLightingInhibitExit") := member_inner (us := u_EmergencyLightingParams) 1 rfl
instance : HasMember s_EmergencyLightingParams "elStateGet" (.type "EmergencyLightingStateGet") := member_inner (us := u_EmergencyLightingParams) 1 rfl
instance : HasMember s_EmergencyLightingParams "elStateStatus" (.type "EmergencyLightingStateStatus") := member_inner (us := u_EmergencyLightingParams) 1 rfl
instance : HasMember s_EmergencyLightingParams "elPropertyGet" (.type "EmergencyLightingPropertyGet") := member_inner (us := u_EmergencyLightingParams) 1 rfl
instance : HasMember s_EmergencyLightingParams "elPropertySet" (.type "EmergencyLightingPropertySet") := member_inner (us := u_EmergencyLightingParams) 1 rfl
instance : HasMember s_EmergencyLightingParams "elPropertySetUnacknowledged" (.type "EmergencyLightingPropertySet") := member_inner (us := u_EmergencyLightingParams) 1 rfl
instance : HasMember s_EmergencyLightingParams "elPropertyStatus" (.type "EmergencyLightingPropertyStatus") := member_inner (us := u_EmergencyLightingParams) 1 rfl
instance : HasMember s_EmergencyLightingParams "elLampOperationTimeGet" (.type "EmergencyLightingLampOperationTimeGet") := member_inner (us := u_EmergencyLightingParams) 1 rfl
instance : HasMember s_EmergencyLightingParams "elLampOperationTimeClear" (.type "EmergencyLightingLampOperationTimeClear") := member_inner (us := u_EmergencyLightingParams) 1 rfl
instance : HasMember s_EmergencyLightingParams "elLampOperationTimeClearUnacknowledged" (.type "EmergencyLightingLampOperationTimeClear") := member_inner (us := u_EmergencyLightingParams) 1 rfl
instance : HasMember s_EmergencyLightingParams "elLampOperationTimeStatus" (.type "EmergencyLightingLampOperationTimeStatus") := member_inner (us := u_EmergencyLightingParams) 1 rfl
instance : HasMember s_EmergencyLightingParams "elRestEnter" (.type "EmergencyLightingRestEnter") := member_inner (us := u_EmergencyLightingParams) 1 rfl
instance : HasMember s_EmergencyLightingParams "elRestEnterUnacknowledged" (.type "EmergencyLightingRestEnter") := member_inner (us := u_EmergencyLightingParams) 1 rfl
instance : HasMember s_EmergencyLightingParams "elRestExit" (.type "EmergencyLightingRestExit") := member_inner (us := u_EmergencyLightingParams) 1 rfl
instance : HasMember s_EmergencyLightingParams "elRestExitUnacknowledged" (.type "EmergencyLightingRestExit") := member_inner (us := u_EmergencyLightingParams) 1 rfl
instance : IsPlain "EmergencyLightingInhibitEnter" s_EmergencyLightingInhibitEnter := isPlain 307 rfl rfl
instance : IsPlain "EmergencyLightingInhibitExit" s_EmergencyLightingInhibitExit := isPlain 308 rfl rfl
instance : IsPlain "EmergencyLightingStateGet" s_EmergencyLightingStateGet := isPlain 309 rfl rfl
instance : IsPlain "EmergencyLightingStateStatus" s_EmergencyLightingStateStatus := isPlain 310 rfl rfl
instance : HasMember s_EmergencyLightingStateStatus "elState" (.type "UInt8") := member_field 0 rfl
instance : IsPlain "EmergencyLightingPropertyGet" s_EmergencyLightingPropertyGet := isPlain 311 rfl rfl
instance : HasMember s_EmergencyLightingPropertyGet "propertyId" (.type "UInt16") := member_field 0 rfl
instance : IsUnion "EmergencyLightingPropertySet" s_EmergencyLightingPropertySet u_EmergencyLightingPropertySet := isUnion 312 rfl rfl
instance : HasMember s_EmergencyLightingPropertySet "propertyId" (.type "UInt16") := member_field 0 rfl
instance : HasMember u_EmergencyLightingPropertySet "elLightness" (.type "PerceivedLightness") := member_field 0 rfl
instance : HasMember u_EmergencyLightingPropertySet "elLightnessRangeMin" (.type "PerceivedLightness") := member_field 1 rfl
instance : HasMember u_EmergencyLightingPropertySet "elLightnessRangeMax" (.type "PerceivedLightness") := member_field 2 rfl
instance : HasMember u_EmergencyLightingPropertySet "elProlongTime" (.type "TimeSecond16") := member_field 3 rfl
instance : HasMember s_EmergencyLightingPropertySet "elLightness" (.type "PerceivedLightness") := member_inner (us := u_EmergencyLightingPropertySet) 1 rfl
instance : HasMember s_EmergencyLightingPropertySet "elLightnessRangeMin" (.type "PerceivedLightness") := member_inner (us := u_EmergencyLightingPropertySet) 1 rfl
instance : HasMember s_EmergencyLightingPropertySet "elLightnessRangeMax" (.type "PerceivedLightness") := member_inner (us := u_EmergencyLightingPropertySet) 1 rfl
instance : HasMember s_EmergencyLightingPropertySet "elProlongTime" (.type "TimeSecond16") := member_inner (us := u_EmergencyLightingPropertySet) 1 rfl
instance : IsUnion "EmergencyLightingPropertyStatus" s_EmergencyLightingPropertyStatus u_EmergencyLightingPropertyStatus := isUnion 313 rfl rfl
instance : HasMember s_EmergencyLightingPropertyStatus "propertyId" (.type "UInt16") := member_field 0 rfl
instance : HasMember u_EmergencyLightingPropertyStatus "elLightness" (.type "PerceivedLightness") := member_field 0 rfl
instance : HasMember u_EmergencyLightingPropertyStatus "elLightnessRangeMin" (.type "PerceivedLightness") := member_field 1 rfl
instance : HasMember u_EmergencyLightingPropertyStatus "elLightnessRangeMax" (.type "PerceivedLightness") := member_field 2 rfl
instance : HasMember u_EmergencyLightingPropertyStatus "elProlongTime" (.type "TimeSecond16") := member_field 3 rfl
instance : HasMember s_EmergencyLightingPropertyStatus "elLightness" (.type "PerceivedLightness") := member_inner (us := u_EmergencyLightingPropertyStatus) 1 rfl
instance : HasMember s_EmergencyLightingPropertyStatus "elLightnessRangeMin" (.type "PerceivedLightness") := member_inner (us := u_EmergencyLightingPropertyStatus) 1 rfl
instance : HasMember s_EmergencyLightingPropertyStatus "elLightnessRangeMax" (.type "PerceivedLightness") := member_inner (us := u_EmergencyLightingPropertyStatus) 1 rfl
instance : HasMember s_EmergencyLightingPropertyStatus "elProlongTime" (.type "TimeSecond16") := member_inner (us := u_EmergencyLightingPropertyStatus) 1 rfl
instance : IsPlain "EmergencyLightingLampOperationTimeGet" s_EmergencyLightingLampOperationTimeGet := isPlain 314 rfl rfl
instance : IsPlain "EmergencyLightingLampOperationTimeClear" s_EmergencyLightingLampOperationTimeClear := isPlain 315 rfl rfl
instance : IsPlain "EmergencyLightingLampOperationTimeStatus" s_EmergencyLightingLampOperationTimeStatus := isPlain 316 rfl rfl
instance : HasMember s_EmergencyLightingLampOperationTimeStatus "elLampTotalOperationTime" (.type "UInt32") := member_field 0 rfl
instance : HasMember s_EmergencyLightingLampOperationTimeStatus "elLampEmergencyTime" (.type "UInt32") := member_field 1 rfl
instance : IsPlain "EmergencyLightingRestEnter" s_EmergencyLightingRestEnter := isPlain 317 rfl rfl
instance : IsPlain "EmergencyLightingRestExit" s_EmergencyLightingRestExit := isPlain 318 rfl rfl
instance : IsUnion "EmergencyLightingTestParams" s_EmergencyLightingTestParams u_EmergencyLightingTestParams := isUnion 319 rfl rfl
instance : HasMember s_EmergencyLightingTestParams "subopcode" (.type "UInt8") := member_field 0 rfl
instance : HasMember u_EmergencyLightingTestParams "eltFunctionalTestGet" (.type "EmergencyLightingTestFunctionalTestGet") := member_field 0 rfl
instance : HasMember u_EmergencyLightingTestParams "eltFunctionalTestStart" (.type "EmergencyLightingTestFunctionalTestStart") := member_field 1 rfl
instance : HasMember u_EmergencyLightingTestParams "eltFunctionalTestStop" (.type "EmergencyLightingTestFunctionalTestStop") := member_field 2 rfl
instance : HasMember u_EmergencyLightingTestParams "eltFunctionalTestStatus" (.group g_EmergencyLightingTestParams_eltFunctionalTestStatus) := member_group 3 rfl
instance : HasMember u_EmergencyLightingTestParams "eltDurationTestGet" (.type "EmergencyLightingTestDurationTestGet") := member_field 4 rfl
instance : HasMember u_EmergencyLightingTestParams "eltDurationTestStart" (.type "EmergencyLightingTestDurationTestStart") := member_field 5 rfl
instance : HasMember u_EmergencyLightingTestParams "eltDurationTestStop" (.type "EmergencyLightingTestDurationTestStop") := member_field 6 rfl
instance : HasMember u_EmergencyLightingTestParams "eltDurationTestStatus" (.group g_EmergencyLightingTestParams_eltDurationTestStatus) := member_group 7 rfl
instance : HasMember u_EmergencyLightingTestParams "eltPropertyGet" (.type "EmergencyLightingTestPropertyGet") := member_field 8 rfl
instance : HasMember u_EmergencyLightingTestParams "eltPropertySet" (.type "EmergencyLightingTestPropertySet") := member_field 9 rfl
instance : HasMember u_EmergencyLightingTestParams "eltPropertySetUnacknowledged" (.type "EmergencyLightingTestPropertySet") := member_field 10 rfl
instance : HasMember u_EmergencyLightingTestParams "eltPropertyStatus" (.type "EmergencyLightingTestPropertyStatus") := member_field 11 rfl
instance : HasMember s_EmergencyLightingTestParams "eltFunctionalTestGet" (.type "EmergencyLightingTestFunctionalTestGet") := member_inner (us := u_EmergencyLightingTestParams) 1 rfl
instance : HasMember s_EmergencyLightingTestParams "eltFunctionalTestStart" (.type "EmergencyLightingTestFunctionalTestStart") := member_inner (us := u_EmergencyLightingTestParams) 1 rfl
instance : HasMember s_EmergencyLightingTestParams "eltFunctionalTestStop" (.type "EmergencyLightingTestFunctionalTestStop") := member_inner (us := u_EmergencyLightingTestParams) 1 rfl
instance : HasMember s_EmergencyLightingTestParams "eltFunctionalTestStatus" (.group g_EmergencyLightingTestParams_eltFunctionalTestStatus) := member_inner (us := u_EmergencyLightingTestParams) 1 rfl
instance : HasMember s_EmergencyLightingTestParams "eltDurationTestGet" (.type "EmergencyLightingTestDurationTestGet") := member_inner (us := u_EmergencyLightingTestParams) 1 rfl
instance : HasMember s_EmergencyLightingTestParams "eltDurationTestStart" (.type "EmergencyLightingTestDurationTestStart") := member_inner (us := u_EmergencyLightingTestParams) 1 rfl
instance : HasMember s_EmergencyLightingTestParams "eltDurationTestStop" (.type "EmergencyLightingTestDurationTestStop") := member_inner (us := u_EmergencyLightingTestParams) 1 rfl
instance : HasMember s_EmergencyLightingTestParams "eltDurationTestStatus" (.group g_EmergencyLightingTestParams_eltDurationTestStatus) := member_inner (us := u_EmergencyLightingTestParams) 1 rfl
instance : HasMember s_EmergencyLightingTestParams "eltPropertyGet" (.type "EmergencyLightingTestPropertyGet") := member_inner (us := u_EmergencyLightingTestParams) 1 rfl
instance : HasMember s_EmergencyLightingTestParams "eltPropertySet" (.type "EmergencyLightingTestPropertySet") := member_inner (us := u_EmergencyLightingTestParams) 1 rfl
instance : HasMember s_EmergencyLightingTestParams "eltPropertySetUnacknowledged" (.type "EmergencyLightingTestPropertySet") := member_inner (us := u_EmergencyLightingTestParams) 1 rfl
instance : HasMember s_EmergencyLightingTestParams "eltPropertyStatus" (.type "EmergencyLightingTestPropertyStatus") := member_inner (us := u_EmergencyLightingTestParams) 1 rfl
instance : IsPlain "EmergencyLightingTestFunctionalTestGet" s_EmergencyLightingTestFunctionalTestGet := isPlain 320 rfl rfl
instance : IsPlain "EmergencyLightingTestFunctionalTestStart" s_EmergencyLightingTestFunctionalTestStart := isPlain 321 rfl rfl
instance : IsPlain "EmergencyLightingTestFunctionalTestStop" s_EmergencyLightingTestFunctionalTestStop := isPlain 322 rfl rfl
instance : IsPlain "EmergencyLightingTestFunctionalTestStatusOptional" s_EmergencyLightingTestFunctionalTestStatusOptional := isPlain 323 rfl rfl
instance : HasMember s_EmergencyLightingTestFunctionalTestStatusOptional "taiTimestamp" (.type "EmergencyLightingTestMessageParams") := member_field 0 rfl
instance : HasMember s_EmergencyLightingTestFunctionalTestStatusOptional "executionStatus" (.type "UInt8") := member_field 1 rfl
instance : HasMember s_EmergencyLightingTestFunctionalTestStatusOptional "executionResult" (.type "FunctionalExecutionResult") := member_field 2 rfl
instance : HasMember s_EmergencyLightingTestFunctionalTestStatusOptional "relativeTimestamp" (.type "UInt32") := member_field 3 rfl
instance : IsPlain "EmergencyLightingTestMessageParams" s_EmergencyLightingTestMessageParams := isPlain 324 rfl rfl
instance : HasMember s_EmergencyLightingTestMessageParams "date" (.type "DateTime") := member_field 0 rfl
instance : HasMember s_EmergencyLightingTestMessageParams "taiUtcDelta" (.type "Int16") := member_field 1 rfl
instance : IsPlain "FunctionalExecutionResult" s_FunctionalExecutionResult := isPlain 325 rfl rfl
instance : HasMember s_FunctionalExecutionResult "circuitFault" (.type "Bool") := member_field 0 rfl
instance : HasMember s_FunctionalExecutionResult "batteryFault" (.type "Bool") := member_field 1 rfl
instance : HasMember s_FunctionalExecutionResult "lampFault" (.type "Bool") := member_field 2 rfl
instance : IsPlain "EmergencyLightingTestFunctionalTestStatusMinimal" s_EmergencyLightingTestFunctionalTestStatusMinimal := isPlain 326 rfl rfl
instance : HasMember s_EmergencyLightingTestFunctionalTestStatusMinimal "taiTimestamp" (.type "EmergencyLightingTestMessageParams") := member_field 0 rfl
instance : HasMember s_EmergencyLightingTestFunctionalTestStatusMinimal "executionStatus" (.type "UInt8") := member_field 1 rfl
instance : HasMember s_EmergencyLightingTestFunctionalTestStatusMinimal "executionResult" (.type "FunctionalExecutionResult") := member_field 2 rfl
instance : IsPlain "EmergencyLightingTestDurationTestGet" s_EmergencyLightingTestDurationTestGet := isPlain 327 rfl rfl
instance : IsPlain "EmergencyLightingTestDurationTestStart" s_EmergencyLightingTestDurationTestStart := isPlain 328 rfl rfl
instance : IsPlain "EmergencyLightingTestDurationTestStop" s_EmergencyLightingTestDurationTestStop := isPlain 329 rfl rfl
instance : IsPlain "EmergencyLightingTestDurationTestStatusOptional" s_EmergencyLightingTestDurationTestStatusOptional := isPlain 330 rfl rfl
instance : HasMember s_EmergencyLightingTestDurationTestStatusOptional "taiTimestamp" (.type "EmergencyLightingTestMessageParams") := member_field 0 rfl
instance : HasMember s_EmergencyLightingTestDurationTestStatusOptional "executionStatus" (.type "UInt8") := member_field 1 rfl
instance : HasMember s_EmergencyLightingTestDurationTestStatusOptional "executionResult" (.type "DurationExecutionResult") := member_field 2 rfl
instance : HasMember s_EmergencyLightingTestDurationTestStatusOptional "durationResult" (.type "UInt16") := member_field 3 rfl
instance : HasMember s_EmergencyLightingTestDurationTestStatusOptional "relativeTimestamp" (.type "UInt32") := member_field 4 rfl
instance : IsPlain "DurationExecutionResult" s_DurationExecutionResult := isPlain 331 rfl rfl
instance : HasMember s_DurationExecutionResult "batteryDurationFault" (.type "Bool") := member_field 0 rfl
instance : HasMember s_DurationExecutionResult "circuitFault" (.type "Bool") := member_field 1 rfl
instance : HasMember s_DurationExecutionResult "batteryFault" (.type "Bool") := member_field 2 rfl
instance : HasMember s_DurationExecutionResult "lampFault" (.type "Bool") := member_field 3 rfl
instance : IsPlain "EmergencyLightingTestDurationTestStatusMinimal" s_EmergencyLightingTestDurationTestStatusMinimal := isPlain 332 rfl rfl
instance : HasMember s_EmergencyLightingTestDurationTestStatusMinimal "taiTimestamp" (.type "EmergencyLightingTestMessageParams") := member_field 0 rfl
instance : HasMember s_EmergencyLightingTestDurationTestStatusMinimal "executionStatus" (.type "UInt8") := member_field 1 rfl
instance : HasMember s_EmergencyLightingTestDurationTestStatusMinimal "executionResult" (.type "DurationExecutionResult") := member_field 2 rfl
instance : HasMember s_EmergencyLightingTestDurationTestStatusMinimal "durationResult" (.type "UInt16") := member_field 3 rfl
instance : IsPlain "EmergencyLightingTestPropertyGet" s_EmergencyLightingTestPropertyGet := isPlain 333 rfl rfl
instance : HasMember s_EmergencyLightingTestPropertyGet "propertyId" (.type "UInt16") := member_field 0 rfl
instance : IsUnion "EmergencyLightingTestPropertySet" s_EmergencyLightingTestPropertySet u_EmergencyLightingTestPropertySet := isUnion 334 rfl rfl
instance : HasMember s_EmergencyLightingTestPropertySet "propertyId" (.type "UInt16") := member_field 0 rfl
instance : HasMember u_EmergencyLightingTestPropertySet "eltDurationTestExecutionTimeout" (.type "TimeSecond32") := member_field 0 rfl
instance : HasMember u_EmergencyLightingTestPropertySet "eltFunctionalTestExecutionTimeout" (.type "TimeSecond32") := member_field 1 rfl
instance : HasMember u_EmergencyLightingTestPropertySet "eltDurationTestRetryPeriod" (.type "TimeSecond32") := member_field 2 rfl
instance : HasMember u_EmergencyLightingTestPropertySet "eltFunctionalTestRetryPeriod" (.type "TimeSecond32") := member_field 3 rfl
instance : HasMember u_EmergencyLightingTestPropertySet "eltDurationTestBackupAutomaticDelay" (.type "TimeSecond32") := member_field 4 rfl
instance : HasMember u_EmergencyLightingTestPropertySet "eltFunctionalTestBackupAutomaticDelay" (.type "TimeSecond32") := member_field 5 rfl
instance : HasMember u_EmergencyLightingTestPropertySet "eltDurationTestBackupAutomaticInterval" (.type "TimeSecond32") := member_field 6 rfl
instance : HasMember u_EmergencyLightingTestPropertySet "eltFunctionalTestBackupAutomaticInterval" (.type "TimeSecond32") := member_field 7 rfl
instance : HasMember s_EmergencyLightingTestPropertySet "eltDurationTestExecutionTimeout" (.type "TimeSecond32") := member_inner (us := u_EmergencyLightingTestPropertySet) 1 rfl
instance : HasMember s_EmergencyLightingTestPropertySet "eltFunctionalTestExecutionTimeout" (.type "TimeSecond32") := member_inner (us := u_EmergencyLightingTestPropertySet) 1 rfl
instance : HasMember s_EmergencyLightingTestPropertySet "eltDurationTestRetryPeriod" (.type "TimeSecond32") := member_inner (us := u_EmergencyLightingTestPropertySet) 1 rfl
instance : HasMember s_EmergencyLightingTestPropertySet "eltFunctionalTestRetryPeriod" (.type "TimeSecond32") := member_inner (us := u_EmergencyLightingTestPropertySet) 1 rfl
instance : HasMember s_EmergencyLightingTestPropertySet "eltDurationTestBackupAutomaticDelay" (.type "TimeSecond32") := member_inner (us := u_EmergencyLightingTestPropertySet) 1 rfl
instance : HasMember s_EmergencyLightingTestPropertySet "eltFunctionalTestBackupAutomaticDelay" (.type "TimeSecond32") := member_inner (us := u_EmergencyLightingTestPropertySet) 1 rfl
instance : HasMember s_EmergencyLightingTestPropertySet "eltDurationTestBackupAutomaticInterval" (.type "TimeSecond32") := member_inner (us := u_EmergencyLightingTestPropertySet) 1 rfl
instance : HasMember s_EmergencyLightingTestPropertySet "eltFunctionalTestBackupAutomaticInterval" (.type "TimeSecond32") := member_inner (us := u_EmergencyLightingTestPropertySet) 1 rfl
instance : IsUnion "EmergencyLightingTestPropertyStatus" s_EmergencyLightingTestPropertyStatus u_EmergencyLightingTestPropertyStatus := isUnion 335 rfl rfl
instance : HasMember s_EmergencyLightingTestPropertyStatus "propertyId" (.type "UInt16") := member_field 0 rfl
instance : HasMember u_EmergencyLightingTestPropertyStatus "eltDurationTestExecutionTimeout" (.type "TimeSecond32") := member_field 0 rfl
instance : HasMember u_EmergencyLightingTestPropertyStatus "eltFunctionalTestExecutionTimeout" (.type "TimeSecond32") := member_field 1 rfl
instance : HasMember u_EmergencyLightingTestPropertyStatus "eltDurationTestRetryPeriod" (.type "TimeSecond32") := member_field 2 rfl
instance : HasMember u_EmergencyLightingTestPropertyStatus "eltFunctionalTestRetryPeriod" (.type "TimeSecond32") := member_field 3 rfl
instance : HasMember u_EmergencyLightingTestPropertyStatus "eltDurationTestBackupAutomaticDelay" (.type "TimeSecond32") := member_field 4 rfl
instance : HasMember u_EmergencyLightingTestPropertyStatus "eltFunctionalTestBackupAutomaticDelay" (.type "TimeSecond32") := member_field 5 rfl
instance : HasMember u_EmergencyLightingTestPropertyStatus "eltDurationTestBackupAutomaticInterval" (.type "TimeSecond32") := member_field 6 rfl
instance : HasMember u_EmergencyLightingTestPropertyStatus "eltFunctionalTestBackupAutomaticInterval" (.type "TimeSecond32") := member_field 7 rfl
instance : HasMember s_EmergencyLightingTestPropertyStatus "eltDurationTestExecutionTimeout" (.type "TimeSecond32") := member_inner (us := u_EmergencyLightingTestPropertyStatus) 1 rfl
instance : HasMember s_EmergencyLightingTestPropertyStatus "eltFunctionalTestExecutionTimeout" (.type "TimeSecond32") := member_inner (us := u_EmergencyLightingTestPropertyStatus) 1 rfl
instance : HasMember s_EmergencyLightingTestPropertyStatus "eltDurationTestRetryPeriod" (.type "TimeSecond32") := member_inner (us := u_EmergencyLightingTestPropertyStatus) 1 rfl
instance : HasMember s_EmergencyLightingTestPropertyStatus "eltFunctionalTestRetryPeriod" (.type "TimeSecond32") := member_inner (us := u_EmergencyLightingTestPropertyStatus) 1 rfl
instance : HasMember s_EmergencyLightingTestPropertyStatus "eltDurationTestBackupAutomaticDelay" (.type "TimeSecond32") := member_inner (us := u_EmergencyLightingTestPropertyStatus) 1 rfl
instance : HasMember s_EmergencyLightingTestPropertyStatus "eltFunctionalTestBackupAutomaticDelay" (.type "TimeSecond32") := member_inner (us := u_EmergencyLightingTestPropertyStatus) 1 rfl
instance : HasMember s_EmergencyLightingTestPropertyStatus "eltDurationTestBackupAutomaticInterval" (.type "TimeSecond32") := member_inner (us := u_EmergencyLightingTestPropertyStatus) 1 rfl
instance : HasMember s_EmergencyLightingTestPropertyStatus "eltFunctionalTestBackupAutomaticInterval" (.type "TimeSecond32") := member_inner (us := u_EmergencyLightingTestPropertyStatus) 1 rfl
instance : IsList "List(ArapNode)" "ArapNode" := ⟨by decide +kernel⟩
instance : IsList "List(CompositionDataPage0Element)" "CompositionDataPage0Element" := ⟨by decide +kernel⟩
instance : IsList "List(CompositionDataPage1Element)" "CompositionDataPage1Element" := ⟨by decide +kernel⟩
instance : IsList "List(DateTime)" "DateTime" := ⟨by decide +kernel⟩
instance : IsList "List(DebugV2Parameter)" "DebugV2Parameter" := ⟨by decide +kernel⟩
instance : IsList "List(ExtendedModelLongFormat)" "ExtendedModelLongFormat" := ⟨by decide +kernel⟩
instance : IsList "List(ExtendedModelShortFormat)" "ExtendedModelShortFormat" := ⟨by decide +kernel⟩
instance : IsList "List(Int16)" "Int16" := ⟨by decide +kernel⟩
instance : IsList "List(Int8)" "Int8" := ⟨by decide +kernel⟩
instance : IsList "List(MeshProfileEntry)" "MeshProfileEntry" := ⟨by decide +kernel⟩
instance : IsList "List(ModelRelationItem)" "ModelRelationItem" := ⟨by decide +kernel⟩
instance : IsList "List(RegistryRecord)" "RegistryRecord" := ⟨by decide +kernel⟩
instance : IsList "List(Rules)" "Rules" := ⟨by decide +kernel⟩
instance : IsList "List(SIGModelId)" "SIGModelId" := ⟨by decide +kernel⟩
instance : IsList "List(SensorData)" "SensorData" := ⟨by decide +kernel⟩
instance : IsList "List(SensorDescriptorStatusItem)" "SensorDescriptorStatusItem" := ⟨by decide +kernel⟩
instance : IsList "List(Slots)" "Slots" := ⟨by decide +kernel⟩
instance : IsList "List(SystemStat)" "SystemStat" := ⟨by decide +kernel⟩
instance : IsList "List(UInt16)" "UInt16" := ⟨by decide +kernel⟩
instance : IsList "List(UInt8)" "UInt8" := ⟨by decide +kernel⟩
instance : IsList "List(VendorModelId)" "VendorModelId" := ⟨by decide +kernel⟩
instance : Camel "GATT_proxy" "gattProxy" := ⟨by decide +kernel, by decide +kernel⟩
instance : Camel "access" "access" := ⟨by decide +kernel, by decide +kernel⟩
instance : Camel "additional_data" "additionalData" := ⟨by decide +kernel, by decide +kernel⟩
instance : Camel "additional_data_len" "additionalDataLen" := ⟨by decide +kernel, by decide +kernel⟩
instance : Camel "address" "address" := ⟨by decide +kernel, by decide +kernel⟩
instance : Camel "addresses" "addresses" := ⟨by decide +kernel, by decide +kernel⟩
instance : Camel "app key indices" "appKeyIndices" := ⟨by decide +kernel, by decide +kernel⟩
instance : Camel "app_key" "appKey" := ⟨by decide +kernel, by decide +kernel⟩
instance : Camel "app_key_index" "appKeyIndex" := ⟨by decide +kernel, by decide +kernel⟩
instance : Camel "app_key_indices" "appKeyIndices" := ⟨by decide +kernel, by decide +kernel⟩
instance : Camel "array_of_slots" "arrayOfSlots" := ⟨by decide +kernel, by decide +kernel⟩
instance : Camel "attention" "attention" := ⟨by decide +kernel, by decide +kernel⟩
instance : Camel "average_electric_current_value" "averageElectricCurrentValue" := ⟨by decide +kernel, by decide +kernel⟩
instance : Camel "average_event_duration" "averageEventDuration" := ⟨by decide +kernel, by decide +kernel⟩
instance : Camel "average_temperature" "averageTemperature" := ⟨by decide +kernel, by decide +kernel⟩
instance : Camel "average_voltage_value" "averageVoltageValue" := ⟨by decide +kernel, by decide +kernel⟩
instance : Camel "bandwidth" "bandwidth" := ⟨by decide +kernel, by decide +kernel⟩
instance : Camel "battery_charging_flags" "batteryChargingFlags" := ⟨by decide +kernel, by decide +kernel⟩
instance : Camel "battery_duration_fault" "batteryDurationFault" := ⟨by decide +kernel, by decide +kernel⟩
instance : Camel "battery_fault" "batteryFault" := ⟨by decide +kernel, by decide +kernel⟩
instance : Camel "battery_indicator_flags" "batteryIndicatorFlags" := ⟨by decide +kernel, by decide +kernel⟩
instance : Camel "battery_level" "batteryLevel" := ⟨by decide +kernel, by decide +kernel⟩
instance : Camel "battery_presence_flags" "batteryPresenceFlags" := ⟨by decide +kernel, by decide +kernel⟩
instance : Camel "battery_serviceability_flags" "batteryServiceabilityFlags" := ⟨by decide +kernel, by decide +kernel⟩
instance : Camel "beacon" "beacon" := ⟨by decide +kernel, by decide +kernel⟩
instance : Camel "bytes_left" "bytesLeft" := ⟨by decide +kernel, by decide +kernel⟩
instance : Camel "capacity" "capacity" := ⟨by decide +kernel, by decide +kernel⟩
instance : Camel "category" "category" := ⟨by decide +kernel, by decide +kernel⟩
instance : Camel "chip_revision_id" "chipRevisionId" := ⟨by decide +kernel, by decide +kernel⟩
instance : Camel "chromaticity_tolerance" "chromaticityTolerance" := ⟨by decide +kernel, by decide +kernel⟩
instance : Camel "chromaticity_x_coordinate" "chromaticityXCoordinate" := ⟨by decide +kernel, by decide +kernel⟩
instance : Camel "chromaticity_y_coordinate" "chromaticityYCoordinate" := ⟨by decide +kernel, by decide +kernel⟩
instance : Camel "cid" "cid" := ⟨by decide +kernel, by decide +kernel⟩
instance : Camel "circuit_fault" "circuitFault" := ⟨by decide +kernel, by decide +kernel⟩
instance : Camel "coefficient" "coefficient" := ⟨by decide +kernel, by decide +kernel⟩
instance : Camel "color_rendering_index" "colorRenderingIndex" := ⟨by decide +kernel, by decide +kernel⟩
instance : Camel "company_id" "companyId" := ⟨by decide +kernel, by decide +kernel⟩
instance : Camel "conn_state" "connState" := ⟨by decide +kernel, by decide +kernel⟩
instance : Camel "connection_state" "connectionState" := ⟨by decide +kernel, by decide +kernel⟩
instance : Camel "correlated_color_temperature" "correlatedColorTemperature" := ⟨by decide +kernel, by decide +kernel⟩
instance : Camel "corresponding_id" "correspondingId" := ⟨by decide +kernel, by decide +kernel⟩
instance : Camel "corresponding_present" "correspondingPresent" := ⟨by decide +kernel, by decide +kernel⟩
instance : Camel "cosine_of_the_angle" "cosineOfTheAngle" := ⟨by decide +kernel, by decide +kernel⟩
instance : Camel "count" "count" := ⟨by decide +kernel, by decide +kernel⟩
instance : Camel "counter" "counter" := ⟨by decide +kernel, by decide +kernel⟩
instance : Camel "country_code" "countryCode" := ⟨by decide +kernel, by decide +kernel⟩
instance : Camel "credential_flag" "credentialFlag" := ⟨by decide +kernel, by decide +kernel⟩
instance : Camel "crpl" "crpl" := ⟨by decide +kernel, by decide +kernel⟩
instance : Camel "ctl_delta_uv" "ctlDeltaUv" := ⟨by decide +kernel, by decide +kernel⟩
instance : Camel "ctl_lightness" "ctlLightness" := ⟨by decide +kernel, by decide +kernel⟩
instance : Camel "ctl_temperature" "ctlTemperature" := ⟨by decide +kernel, by decide +kernel⟩
instance : Camel "current" "current" := ⟨by decide +kernel, by decide +kernel⟩
instance : Camel "current_page" "currentPage" := ⟨by decide +kernel, by decide +kernel⟩
instance : Camel "current_scene" "currentScene" := ⟨by decide +kernel, by decide +kernel⟩
instance : Camel "data_type" "dataType" := ⟨by decide +kernel, by decide +kernel⟩
instance : Camel "date" "date" := ⟨by decide +kernel, by decide +kernel⟩
instance : Camel "day" "day" := ⟨by decide +kernel, by decide +kernel⟩
instance : Camel "delay" "delay" := ⟨by decide +kernel, by decide +kernel⟩
instance : Camel "delta_level" "deltaLevel" := ⟨by decide +kernel, by decide +kernel⟩
instance : Camel "destination" "destination" := ⟨by decide +kernel, by decide +kernel⟩
instance : Camel "distance_from_planckian" "distanceFromPlanckian" := ⟨by decide +kernel, by decide +kernel⟩
instance : Camel "dns" "dns" := ⟨by decide +kernel, by decide +kernel⟩
instance : Camel "dns_ip_address" "dnsIpAddress" := ⟨by decide +kernel, by decide +kernel⟩
instance : Camel "duration_result" "durationResult" := ⟨by decide +kernel, by decide +kernel⟩
instance : Camel "el_lamp_emergency_time" "elLampEmergencyTime" := ⟨by decide +kernel, by decide +kernel⟩
instance : Camel "el_lamp_total_operation_time" "elLampTotalOperationTime" := ⟨by decide +kernel, by decide +kernel⟩
instance : Camel "el_state" "elState" := ⟨by decide +kernel, by decide +kernel⟩
instance : Camel "electric_current_value" "electricCurrentValue" := ⟨by decide +kernel, by decide +kernel⟩
instance : Camel "element" "element" := ⟨by decide +kernel, by decide +kernel⟩
instance : Camel "element_address" "elementAddress" := ⟨by decide +kernel, by decide +kernel⟩
instance : Camel "element_offset" "elementOffset" := ⟨by decide +kernel, by decide +kernel⟩
instance : Camel "element_offset_list" "elementOffsetList" := ⟨by decide +kernel, by decide +kernel⟩
instance : Camel "elements" "elements" := ⟨by decide +kernel, by decide +kernel⟩
instance : Camel "end_time" "endTime" := ⟨by decide +kernel, by decide +kernel⟩
instance : Camel "energy" "energy" := ⟨by decide +kernel, by decide +kernel⟩
instance : Camel "energy_value" "energyValue" := ⟨by decide +kernel, by decide +kernel⟩
instance : Camel "entry_id" "entryId" := ⟨by decide +kernel, by decide +kernel⟩
instance : Camel "entry_ids" "entryIds" := ⟨by decide +kernel, by decide +kernel⟩
instance : Camel "execution_result" "executionResult" := ⟨by decide +kernel, by decide +kernel⟩
instance : Camel "execution_status" "executionStatus" := ⟨by decide +kernel, by decide +kernel⟩
instance : Camel "extended_items_count" "extendedItemsCount" := ⟨by decide +kernel, by decide +kernel⟩
instance : Camel "extended_models_items" "extendedModelsItems" := ⟨by decide +kernel, by decide +kernel⟩
instance : Camel "fast_period_divisor" "fastPeriodDivisor" := ⟨by decide +kernel, by decide +kernel⟩
instance : Camel "fault" "fault" := ⟨by decide +kernel, by decide +kernel⟩
instance : Camel "fault_array" "faultArray" := ⟨by decide +kernel, by decide +kernel⟩
instance : Camel "features" "features" := ⟨by decide +kernel, by decide +kernel⟩
instance : Camel "flags" "flags" := ⟨by decide +kernel, by decide +kernel⟩
instance : Camel "format" "format" := ⟨by decide +kernel, by decide +kernel⟩
instance : Camel "friend" "friend" := ⟨by decide +kernel, by decide +kernel⟩
instance : Camel "gateway_ip_address" "gatewayIpAddress" := ⟨by decide +kernel, by decide +kernel⟩
instance : Camel "global_trade_item_number" "globalTradeItemNumber" := ⟨by decide +kernel, by decide +kernel⟩
instance : Camel "high_voltage" "highVoltage" := ⟨by decide +kernel, by decide +kernel⟩
instance : Camel "high_water_mark" "highWaterMark" := ⟨by decide +kernel, by decide +kernel⟩
instance : Camel "hour" "hour" := ⟨by decide +kernel, by decide +kernel⟩
instance : Camel "hours" "hours" := ⟨by decide +kernel, by decide +kernel⟩
instance : Camel "identity" "identity" := ⟨by decide +kernel, by decide +kernel⟩
instance : Camel "illuminance" "illuminance" := ⟨by decide +kernel, by decide +kernel⟩
instance : Camel "interval" "interval" := ⟨by decide +kernel, by decide +kernel⟩
instance : Camel "ip_address" "ipAddress" := ⟨by decide +kernel, by decide +kernel⟩
instance : Camel "ivi" "ivi" := ⟨by decide +kernel, by decide +kernel⟩
instance : Camel "ivindex" "ivindex" := ⟨by decide +kernel, by decide +kernel⟩
instance : Camel "label" "label" := ⟨by decide +kernel, by decide +kernel⟩
instance : Camel "lamp_fault" "lampFault" := ⟨by decide +kernel, by decide +kernel⟩
instance : Camel "last_error" "lastError" := ⟨by decide +kernel, by decide +kernel⟩
instance : Camel "last_page" "lastPage" := ⟨by decide +kernel, by decide +kernel⟩
instance : Camel "length" "length" := ⟨by decide +kernel, by decide +kernel⟩
instance : Camel "level" "level" := ⟨by decide +kernel, by decide +kernel⟩
instance : Camel "light_distribution" "lightDistribution" := ⟨by decide +kernel, by decide +kernel⟩
instance : Camel "light_output" "lightOutput" := ⟨by decide +kernel, by decide +kernel⟩
instance : Camel "light_source_type" "lightSourceType" := ⟨by decide +kernel, by decide +kernel⟩
instance : Camel "lightness" "lightness" := ⟨by decide +kernel, by decide +kernel⟩
instance : Camel "link_status" "linkStatus" := ⟨by decide +kernel, by decide +kernel⟩
instance : Camel "location" "location" := ⟨by decide +kernel, by decide +kernel⟩
instance : Camel "lpn_address" "lpnAddress" := ⟨by decide +kernel, by decide +kernel⟩
instance : Camel "luminous_efficacy" "luminousEfficacy" := ⟨by decide +kernel, by decide +kernel⟩
instance : Camel "luminous_energy" "luminousEnergy" := ⟨by decide +kernel, by decide +kernel⟩
instance : Camel "luminous_exposure" "luminousExposure" := ⟨by decide +kernel, by decide +kernel⟩
instance : Camel "luminous_flux" "luminousFlux" := ⟨by decide +kernel, by decide +kernel⟩
instance : Camel "luminous_intensity" "luminousIntensity" := ⟨by decide +kernel, by decide +kernel⟩
instance : Camel "mac_address" "macAddress" := ⟨by decide +kernel, by decide +kernel⟩
instance : Camel "max_hops" "maxHops" := ⟨by decide +kernel, by decide +kernel⟩
instance : Camel "max_record_count" "maxRecordCount" := ⟨by decide +kernel, by decide +kernel⟩
instance : Camel "maximum_current" "maximumCurrent" := ⟨by decide +kernel, by decide +kernel⟩
instance : Camel "maximum_electric_current_value" "maximumElectricCurrentValue" := ⟨by decide +kernel, by decide +kernel⟩
instance : Camel "maximum_generic_level" "maximumGenericLevel" := ⟨by decide +kernel, by decide +kernel⟩
instance : Camel "maximum_illuminance" "maximumIlluminance" := ⟨by decide +kernel, by decide +kernel⟩
instance : Camel "maximum_luminous_flux" "maximumLuminousFlux" := ⟨by decide +kernel, by decide +kernel⟩
instance : Camel "maximum_power_value" "maximumPowerValue" := ⟨by decide +kernel, by decide +kernel⟩
instance : Camel "maximum_temperature" "maximumTemperature" := ⟨by decide +kernel, by decide +kernel⟩
instance : Camel "maximum_voltage" "maximumVoltage" := ⟨by decide +kernel, by decide +kernel⟩
instance : Camel "maximum_voltage_value" "maximumVoltageValue" := ⟨by decide +kernel, by decide +kernel⟩
instance : Camel "mesh_profile_identifier" "meshProfileIdentifier" := ⟨by decide +kernel, by decide +kernel⟩
instance : Camel "microsecond" "microsecond" := ⟨by decide +kernel, by decide +kernel⟩
instance : Camel "min_hops" "minHops" := ⟨by decide +kernel, by decide +kernel⟩
instance : Camel "minimal" "minimal" := ⟨by decide +kernel, by decide +kernel⟩
instance : Camel "minimum_current" "minimumCurrent" := ⟨by decide +kernel, by decide +kernel⟩
instance : Camel "minimum_electric_current_value" "minimumElectricCurrentValue" := ⟨by decide +kernel, by decide +kernel⟩
instance : Camel "minimum_generic_level" "minimumGenericLevel" := ⟨by decide +kernel, by decide +kernel⟩
instance : Camel "minimum_illuminance" "minimumIlluminance" := ⟨by decide +kernel, by decide +kernel⟩
instance : Camel "minimum_luminous_flux" "minimumLuminousFlux" := ⟨by decide +kernel, by decide +kernel⟩
instance : Camel "minimum_power_value" "minimumPowerValue" := ⟨by decide +kernel, by decide +kernel⟩
instance : Camel "minimum_temperature" "minimumTemperature" := ⟨by decide +kernel, by decide +kernel⟩
instance : Camel "minimum_voltage" "minimumVoltage" := ⟨by decide +kernel, by decide +kernel⟩
instance : Camel "minimum_voltage_value" "minimumVoltageValue" := ⟨by decide +kernel, by decide +kernel⟩
instance : Camel "minute" "minute" := ⟨by decide +kernel, by decide +kernel⟩
instance : Camel "model" "model" := ⟨by decide +kernel, by decide +kernel⟩
instance : Camel "model_id" "modelId" := ⟨by decide +kernel, by decide +kernel⟩
instance : Camel "model_item_index" "modelItemIndex" := ⟨by decide +kernel, by decide +kernel⟩
instance : Camel "month" "month" := ⟨by decide +kernel, by decide +kernel⟩
instance : Camel "mtu_size" "mtuSize" := ⟨by decide +kernel, by decide +kernel⟩
instance : Camel "name" "name" := ⟨by decide +kernel, by decide +kernel⟩
instance : Camel "net_key" "netKey" := ⟨by decide +kernel, by decide +kernel⟩
instance : Camel "net_key_index" "netKeyIndex" := ⟨by decide +kernel, by decide +kernel⟩
instance : Camel "net_key_indices" "netKeyIndices" := ⟨by decide +kernel, by decide +kernel⟩
instance : Camel "netmask" "netmask" := ⟨by decide +kernel, by decide +kernel⟩
instance : Camel "new" "new" := ⟨by decide +kernel, by decide +kernel⟩
instance : Camel "nodes" "nodes" := ⟨by decide +kernel, by decide +kernel⟩
instance : Camel "num_element_offsets" "numElementOffsets" := ⟨by decide +kernel, by decide +kernel⟩
instance : Camel "number_of_events" "numberOfEvents" := ⟨by decide +kernel, by decide +kernel⟩
instance : Camel "number_of_steps" "numberOfSteps" := ⟨by decide +kernel, by decide +kernel⟩
instance : Camel "number_s" "numberS" := ⟨by decide +kernel, by decide +kernel⟩
instance : Camel "number_v" "numberV" := ⟨by decide +kernel, by decide +kernel⟩
instance : Camel "old" "old" := ⟨by decide +kernel, by decide +kernel⟩
instance : Camel "onoff" "onoff" := ⟨by decide +kernel, by decide +kernel⟩
instance : Camel "opcode" "opcode" := ⟨by decide +kernel, by decide +kernel⟩
instance : Camel "optional" "optional" := ⟨by decide +kernel, by decide +kernel⟩
instance : Camel "packet_counter" "packetCounter" := ⟨by decide +kernel, by decide +kernel⟩
instance : Camel "page" "page" := ⟨by decide +kernel, by decide +kernel⟩
instance : Camel "page_number" "pageNumber" := ⟨by decide +kernel, by decide +kernel⟩
instance : Camel "parameter_type" "parameterType" := ⟨by decide +kernel, by decide +kernel⟩
instance : Camel "payload" "payload" := ⟨by decide +kernel, by decide +kernel⟩
instance : Camel "perceived_lightness" "perceivedLightness" := ⟨by decide +kernel, by decide +kernel⟩
instance : Camel "percentage" "percentage" := ⟨by decide +kernel, by decide +kernel⟩
instance : Camel "period" "period" := ⟨by decide +kernel, by decide +kernel⟩
instance : Camel "period_log" "periodLog" := ⟨by decide +kernel, by decide +kernel⟩
instance : Camel "phase" "phase" := ⟨by decide +kernel, by decide +kernel⟩
instance : Camel "pid" "pid" := ⟨by decide +kernel, by decide +kernel⟩
instance : Camel "poll_timeout" "pollTimeout" := ⟨by decide +kernel, by decide +kernel⟩
instance : Camel "power" "power" := ⟨by decide +kernel, by decide +kernel⟩
instance : Camel "presence_detected" "presenceDetected" := ⟨by decide +kernel, by decide +kernel⟩
instance : Camel "present_ctl_delta_uv" "presentCtlDeltaUv" := ⟨by decide +kernel, by decide +kernel⟩
instance : Camel "present_ctl_lightness" "presentCtlLightness" := ⟨by decide +kernel, by decide +kernel⟩
instance : Camel "present_ctl_temperature" "presentCtlTemperature" := ⟨by decide +kernel, by decide +kernel⟩
instance : Camel "present_level" "presentLevel" := ⟨by decide +kernel, by decide +kernel⟩
instance : Camel "present_lightness" "presentLightness" := ⟨by decide +kernel, by decide +kernel⟩
instance : Camel "present_onoff" "presentOnoff" := ⟨by decide +kernel, by decide +kernel⟩
instance : Camel "property_id" "propertyId" := ⟨by decide +kernel, by decide +kernel⟩
instance : Camel "property_ids" "propertyIds" := ⟨by decide +kernel, by decide +kernel⟩
instance : Camel "publish_address" "publishAddress" := ⟨by decide +kernel, by decide +kernel⟩
instance : Camel "publish_period" "publishPeriod" := ⟨by decide +kernel, by decide +kernel⟩
instance : Camel "range_max" "rangeMax" := ⟨by decide +kernel, by decide +kernel⟩
instance : Camel "range_min" "rangeMin" := ⟨by decide +kernel, by decide +kernel⟩
instance : Camel "reconnect_interval" "reconnectInterval" := ⟨by decide +kernel, by decide +kernel⟩
instance : Camel "record" "record" := ⟨by decide +kernel, by decide +kernel⟩
instance : Camel "record_list" "recordList" := ⟨by decide +kernel, by decide +kernel⟩
instance : Camel "register_max_size" "registerMaxSize" := ⟨by decide +kernel, by decide +kernel⟩
instance : Camel "relative_timestamp" "relativeTimestamp" := ⟨by decide +kernel, by decide +kernel⟩
instance : Camel "relative_value" "relativeValue" := ⟨by decide +kernel, by decide +kernel⟩
instance : Camel "relay" "relay" := ⟨by decide +kernel, by decide +kernel⟩
instance : Camel "remaining_time" "remainingTime" := ⟨by decide +kernel, by decide +kernel⟩
instance : Camel "resolution" "resolution" := ⟨by decide +kernel, by decide +kernel⟩
instance : Camel "retransmit" "retransmit" := ⟨by decide +kernel, by decide +kernel⟩
instance : Camel "rfu" "rfu" := ⟨by decide +kernel, by decide +kernel⟩
instance : Camel "rssi_threshold" "rssiThreshold" := ⟨by decide +kernel, by decide +kernel⟩
instance : Camel "rule" "rule" := ⟨by decide +kernel, by decide +kernel⟩
instance : Camel "rule_id" "ruleId" := ⟨by decide +kernel, by decide +kernel⟩
instance : Camel "rule_ids" "ruleIds" := ⟨by decide +kernel, by decide +kernel⟩
instance : Camel "rules" "rules" := ⟨by decide +kernel, by decide +kernel⟩
instance : Camel "scene_number" "sceneNumber" := ⟨by decide +kernel, by decide +kernel⟩
instance : Camel "scenes" "scenes" := ⟨by decide +kernel, by decide +kernel⟩
instance : Camel "scheduler_mode" "schedulerMode" := ⟨by decide +kernel, by decide +kernel⟩
instance : Camel "scheduler_register_entry" "schedulerRegisterEntry" := ⟨by decide +kernel, by decide +kernel⟩
instance : Camel "second" "second" := ⟨by decide +kernel, by decide +kernel⟩
instance : Camel "seconds" "seconds" := ⟨by decide +kernel, by decide +kernel⟩
instance : Camel "sensing_duration" "sensingDuration" := ⟨by decide +kernel, by decide +kernel⟩
instance : Camel "sensor_measurement_period" "sensorMeasurementPeriod" := ⟨by decide +kernel, by decide +kernel⟩
instance : Camel "sensor_negative_tolerance" "sensorNegativeTolerance" := ⟨by decide +kernel, by decide +kernel⟩
instance : Camel "sensor_positive_tolerance" "sensorPositiveTolerance" := ⟨by decide +kernel, by decide +kernel⟩
instance : Camel "sensor_property_id" "sensorPropertyId" := ⟨by decide +kernel, by decide +kernel⟩
instance : Camel "sensor_sampling_funcion" "sensorSamplingFuncion" := ⟨by decide +kernel, by decide +kernel⟩
instance : Camel "sensor_setting_access" "sensorSettingAccess" := ⟨by decide +kernel, by decide +kernel⟩
instance : Camel "sensor_setting_property_id" "sensorSettingPropertyId" := ⟨by decide +kernel, by decide +kernel⟩
instance : Camel "sensor_setting_property_ids" "sensorSettingPropertyIds" := ⟨by decide +kernel, by decide +kernel⟩
instance : Camel "sensor_update_interval" "sensorUpdateInterval" := ⟨by decide +kernel, by decide +kernel⟩
instance : Camel "sequence" "sequence" := ⟨by decide +kernel, by decide +kernel⟩
instance : Camel "server_address" "serverAddress" := ⟨by decide +kernel, by decide +kernel⟩
instance : Camel "server_address_length" "serverAddressLength" := ⟨by decide +kernel, by decide +kernel⟩
instance : Camel "server_port_number" "serverPortNumber" := ⟨by decide +kernel, by decide +kernel⟩
instance : Camel "sig" "sig" := ⟨by decide +kernel, by decide +kernel⟩
instance : Camel "sig_models" "sigModels" := ⟨by decide +kernel, by decide +kernel⟩
instance : Camel "sig_number" "sigNumber" := ⟨by decide +kernel, by decide +kernel⟩
instance : Camel "size" "size" := ⟨by decide +kernel, by decide +kernel⟩
instance : Camel "slot_id" "slotId" := ⟨by decide +kernel, by decide +kernel⟩
instance : Camel "slot_parameter" "slotParameter" := ⟨by decide +kernel, by decide +kernel⟩
instance : Camel "source" "source" := ⟨by decide +kernel, by decide +kernel⟩
instance : Camel "standard_deviation_electric_current_value" "standardDeviationElectricCurrentValue" := ⟨by decide +kernel, by decide +kernel⟩
instance : Camel "standard_deviation_temperature" "standardDeviationTemperature" := ⟨by decide +kernel, by decide +kernel⟩
instance : Camel "standard_deviation_voltage_value" "standardDeviationVoltageValue" := ⟨by decide +kernel, by decide +kernel⟩
instance : Camel "start_time" "startTime" := ⟨by decide +kernel, by decide +kernel⟩
instance : Camel "static" "static" := ⟨by decide +kernel, by decide +kernel⟩
instance : Camel "stats" "stats" := ⟨by decide +kernel, by decide +kernel⟩
instance : Camel "status" "status" := ⟨by decide +kernel, by decide +kernel⟩
instance : Camel "status_code" "statusCode" := ⟨by decide +kernel, by decide +kernel⟩
instance : Camel "step_resolution" "stepResolution" := ⟨by decide +kernel, by decide +kernel⟩
instance : Camel "steps" "steps" := ⟨by decide +kernel, by decide +kernel⟩
instance : Camel "sub_category" "subCategory" := ⟨by decide +kernel, by decide +kernel⟩
instance : Camel "subopcode" "subopcode" := ⟨by decide +kernel, by decide +kernel⟩
instance : Camel "sync_integral" "syncIntegral" := ⟨by decide +kernel, by decide +kernel⟩
instance : Camel "tai_of_delta_change" "taiOfDeltaChange" := ⟨by decide +kernel, by decide +kernel⟩
instance : Camel "tai_of_zone_change" "taiOfZoneChange" := ⟨by decide +kernel, by decide +kernel⟩
instance : Camel "tai_timestamp" "taiTimestamp" := ⟨by decide +kernel, by decide +kernel⟩
instance : Camel "tai_utc_delta" "taiUtcDelta" := ⟨by decide +kernel, by decide +kernel⟩
instance : Camel "tai_utc_delta_current" "taiUtcDeltaCurrent" := ⟨by decide +kernel, by decide +kernel⟩
instance : Camel "tai_utc_delta_new" "taiUtcDeltaNew" := ⟨by decide +kernel, by decide +kernel⟩
instance : Camel "target_ctl_delta_uv" "targetCtlDeltaUv" := ⟨by decide +kernel, by decide +kernel⟩
instance : Camel "target_ctl_lightness" "targetCtlLightness" := ⟨by decide +kernel, by decide +kernel⟩
instance : Camel "target_ctl_temperature" "targetCtlTemperature" := ⟨by decide +kernel, by decide +kernel⟩
instance : Camel "target_level" "targetLevel" := ⟨by decide +kernel, by decide +kernel⟩
instance : Camel "target_lightness" "targetLightness" := ⟨by decide +kernel, by decide +kernel⟩
instance : Camel "target_onoff" "targetOnoff" := ⟨by decide +kernel, by decide +kernel⟩
instance : Camel "target_scene" "targetScene" := ⟨by decide +kernel, by decide +kernel⟩
instance : Camel "temperature" "temperature" := ⟨by decide +kernel, by decide +kernel⟩
instance : Camel "test_id" "testId" := ⟨by decide +kernel, by decide +kernel⟩
instance : Camel "tid" "tid" := ⟨by decide +kernel, by decide +kernel⟩
instance : Camel "time" "time" := ⟨by decide +kernel, by decide +kernel⟩
instance : Camel "time_authority" "timeAuthority" := ⟨by decide +kernel, by decide +kernel⟩
instance : Camel "time_elapsed_since_last_event" "timeElapsedSinceLastEvent" := ⟨by decide +kernel, by decide +kernel⟩
instance : Camel "time_role" "timeRole" := ⟨by decide +kernel, by decide +kernel⟩
instance : Camel "time_to_charge" "timeToCharge" := ⟨by decide +kernel, by decide +kernel⟩
instance : Camel "time_to_discharge" "timeToDischarge" := ⟨by decide +kernel, by decide +kernel⟩
instance : Camel "time_zone_offset" "timeZoneOffset" := ⟨by decide +kernel, by decide +kernel⟩
instance : Camel "time_zone_offset_current" "timeZoneOffsetCurrent" := ⟨by decide +kernel, by decide +kernel⟩
instance : Camel "time_zone_offset_new" "timeZoneOffsetNew" := ⟨by decide +kernel, by decide +kernel⟩
instance : Camel "total_eth_rx_errors" "totalEthRxErrors" := ⟨by decide +kernel, by decide +kernel⟩
instance : Camel "total_eth_tx_errors" "totalEthTxErrors" := ⟨by decide +kernel, by decide +kernel⟩
instance : Camel "transition" "transition" := ⟨by decide +kernel, by decide +kernel⟩
instance : Camel "transition_time" "transitionTime" := ⟨by decide +kernel, by decide +kernel⟩
instance : Camel "ttl" "ttl" := ⟨by decide +kernel, by decide +kernel⟩
instance : Camel "typical_electric_current_value" "typicalElectricCurrentValue" := ⟨by decide +kernel, by decide +kernel⟩
instance : Camel "typical_power_value" "typicalPowerValue" := ⟨by decide +kernel, by decide +kernel⟩
instance : Camel "typical_voltage_value" "typicalVoltageValue" := ⟨by decide +kernel, by decide +kernel⟩
instance : Camel "uncertainty" "uncertainty" := ⟨by decide +kernel, by decide +kernel⟩
instance : Camel "uptime" "uptime" := ⟨by decide +kernel, by decide +kernel⟩
instance : Camel "vendor" "vendor" := ⟨by decide +kernel, by decide +kernel⟩
instance : Camel "vendor_id" "vendorId" := ⟨by decide +kernel, by decide +kernel⟩
instance : Camel "vendor_models" "vendorModels" := ⟨by decide +kernel, by decide +kernel⟩
instance : Camel "vendor_number" "vendorNumber" := ⟨by decide +kernel, by decide +kernel⟩
instance : Camel "version" "version" := ⟨by decide +kernel, by decide +kernel⟩
instance : Camel "version_x" "versionX" := ⟨by decide +kernel, by decide +kernel⟩
instance : Camel "version_y" "versionY" := ⟨by decide +kernel, by decide +kernel⟩
instance : Camel "version_z" "versionZ" := ⟨by decide +kernel, by decide +kernel⟩
instance : Camel "vid" "vid" := ⟨by decide +kernel, by decide +kernel⟩
instance : Camel "voltage" "voltage" := ⟨by decide +kernel, by decide +kernel⟩
instance : Camel "voltage_frequency" "voltageFrequency" := ⟨by decide +kernel, by decide +kernel⟩
instance : Camel "voltage_value" "voltageValue" := ⟨by decide +kernel, by decide +kernel⟩
instance : Camel "year" "year" := ⟨by decide +kernel, by decide +kernel⟩
instance : CamelName "ACTIVE_ENERGY_LOAD_SIDE" "activeEnergyLoadSide" := ⟨by decide +kernel⟩
instance : CamelName "ACTIVE_POWER_LOAD_SIDE" "activePowerLoadSide" := ⟨by decide +kernel⟩
instance : CamelName "APPARENT_ENERGY" "apparentEnergy" := ⟨by decide +kernel⟩
instance : CamelName "APPARENT_POWER" "apparentPower" := ⟨by decide +kernel⟩
instance : CamelName "ARAP_LIST_CONTENT_GET" "arapListContentGet" := ⟨by decide +kernel⟩
instance : CamelName "ARAP_LIST_CONTENT_STATUS" "arapListContentStatus" := ⟨by decide +kernel⟩
instance : CamelName "ARAP_LIST_SIZE_GET" "arapListSizeGet" := ⟨by decide +kernel⟩
instance : CamelName "ARAP_LIST_SIZE_STATUS" "arapListSizeStatus" := ⟨by decide +kernel⟩
instance : CamelName "ARRAY" "array" := ⟨by decide +kernel⟩
instance : CamelName "AUTO_RESUME_MODE" "autoResumeMode" := ⟨by decide +kernel⟩
instance : CamelName "AUTO_RESUME_TIMER" "autoResumeTimer" := ⟨by decide +kernel⟩
instance : CamelName "AVERAGE_AMBIENT_TEMPERATURE_IN_A_PERIOD_OF_DAY" "averageAmbientTemperatureInAPeriodOfDay" := ⟨by decide +kernel⟩
instance : CamelName "AVERAGE_INPUT_CURRENT" "averageInputCurrent" := ⟨by decide +kernel⟩
instance : CamelName "AVERAGE_INPUT_VOLTAGE" "averageInputVoltage" := ⟨by decide +kernel⟩
instance : CamelName "AVERAGE_OUTPUT_CURRENT" "averageOutputCurrent" := ⟨by decide +kernel⟩
instance : CamelName "AVERAGE_OUTPUT_VOLTAGE" "averageOutputVoltage" := ⟨by decide +kernel⟩
instance : CamelName "BYDAY" "byday" := ⟨by decide +kernel⟩
instance : CamelName "BYHOUR" "byhour" := ⟨by decide +kernel⟩
instance : CamelName "BYMINUTE" "byminute" := ⟨by decide +kernel⟩
instance : CamelName "BYMONTH" "bymonth" := ⟨by decide +kernel⟩
instance : CamelName "BYMONTHDAY" "bymonthday" := ⟨by decide +kernel⟩
instance : CamelName "BYSECOND" "bysecond" := ⟨by decide +kernel⟩
instance : CamelName "BYSETPOS" "bysetpos" := ⟨by decide +kernel⟩
instance : CamelName "BYTES_BEFORE_GARBAGE_COLLECTOR_GET" "bytesBeforeGarbageCollectorGet" := ⟨by decide +kernel⟩
instance : CamelName "BYTES_BEFORE_GARBAGE_COLLECTOR_STATUS" "bytesBeforeGarbageCollectorStatus" := ⟨by decide +kernel⟩
instance : CamelName "BYWEEKNO" "byweekno" := ⟨by decide +kernel⟩
instance : CamelName "BYYEARDAY" "byyearday" := ⟨by decide +kernel⟩
instance : CamelName "CENTER_BEAM_INTENSITY_AT_FULL_POWER" "centerBeamIntensityAtFullPower" := ⟨by decide +kernel⟩
instance : CamelName "CHROMATICITY_TOLERANCE" "chromaticityTolerance" := ⟨by decide +kernel⟩
instance : CamelName "COLOR_RENDERING_INDEX_R9" "colorRenderingIndexR9" := ⟨by decide +kernel⟩
instance : CamelName "COLOR_RENDERING_INDEX_RA" "colorRenderingIndexRa" := ⟨by decide +kernel⟩
instance : CamelName "CONFIG_APPKEY_ADD" "configAppkeyAdd" := ⟨by decide +kernel⟩
instance : CamelName "CONFIG_APPKEY_DELETE" "configAppkeyDelete" := ⟨by decide +kernel⟩
instance : CamelName "CONFIG_APPKEY_GET" "configAppkeyGet" := ⟨by decide +kernel⟩
instance : CamelName "CONFIG_APPKEY_LIST" "configAppkeyList" := ⟨by decide +kernel⟩
instance : CamelName "CONFIG_APPKEY_STATUS" "configAppkeyStatus" := ⟨by decide +kernel⟩
instance : CamelName "CONFIG_APPKEY_UPDATE" "configAppkeyUpdate" := ⟨by decide +kernel⟩
instance : CamelName "CONFIG_BEACON_GET" "configBeaconGet" := ⟨by decide +kernel⟩
instance : CamelName "CONFIG_BEACON_SET" "configBeaconSet" := ⟨by decide +kernel⟩
instance : CamelName "CONFIG_BEACON_STATUS" "configBeaconStatus" := ⟨by decide +kernel⟩
instance : CamelName "CONFIG_COMPOSITION_DATA_GET" "configCompositionDataGet" := ⟨by decide +kernel⟩
instance : CamelName "CONFIG_COMPOSITION_DATA_STATUS" "configCompositionDataStatus" := ⟨by decide +kernel⟩
instance : CamelName "CONFIG_DEFAULT_TTL_GET" "configDefaultTtlGet" := ⟨by decide +kernel⟩
instance : CamelName "CONFIG_DEFAULT_TTL_SET" "configDefaultTtlSet" := ⟨by decide +kernel⟩
instance : CamelName "CONFIG_DEFAULT_TTL_STATUS" "configDefaultTtlStatus" := ⟨by decide +kernel⟩
instance : CamelName "CONFIG_FRIEND_GET" "configFriendGet" := ⟨by decide +kernel⟩
instance : CamelName "CONFIG_FRIEND_SET" "configFriendSet" := ⟨by decide +kernel⟩
instance : CamelName "CONFIG_FRIEND_STATUS" "configFriendStatus" := ⟨by decide +kernel⟩
instance : CamelName "CONFIG_GATT_PROXY_GET" "configGattProxyGet" := ⟨by decide +kernel⟩
instance : CamelName "CONFIG_GATT_PROXY_SET" "configGattProxySet" := ⟨by decide +kernel⟩
instance : CamelName "CONFIG_GATT_PROXY_STATUS" "configGattProxyStatus" := ⟨by decide +kernel⟩
instance : CamelName "CONFIG_HEARBEAT_PUBLICATION_GET" "configHearbeatPublicationGet" := ⟨by decide +kernel⟩
instance : CamelName "CONFIG_HEARBEAT_PUBLICATION_SET" "configHearbeatPublicationSet" := ⟨by decide +kernel⟩
instance : CamelName "CONFIG_HEARBEAT_PUBLICATION_STATUS" "configHearbeatPublicationStatus" := ⟨by decide +kernel⟩
instance : CamelName "CONFIG_HEARBEAT_SUBSCRIPTION_GET" "configHearbeatSubscriptionGet" := ⟨by decide +kernel⟩
instance : CamelName "CONFIG_HEARBEAT_SUBSCRIPTION_SET" "configHearbeatSubscriptionSet" := ⟨by decide +kernel⟩
instance : CamelName "CONFIG_HEARBEAT_SUBSCRIPTION_STATUS" "configHearbeatSubscriptionStatus" := ⟨by decide +kernel⟩
instance : CamelName "CONFIG_KEY_REFRESH_PHASE_GET" "configKeyRefreshPhaseGet" := ⟨by decide +kernel⟩
instance : CamelName "CONFIG_KEY_REFRESH_PHASE_SET" "configKeyRefreshPhaseSet" := ⟨by decide +kernel⟩
instance : CamelName "CONFIG_KEY_REFRESH_PHASE_STATUS" "configKeyRefreshPhaseStatus" := ⟨by decide +kernel⟩
instance : CamelName "CONFIG_LOW_POWER_NODE_POLL_TIMEOUT_GET" "configLowPowerNodePollTimeoutGet" := ⟨by decide +kernel⟩
instance : CamelName "CONFIG_LOW_POWER_NODE_POLL_TIMEOUT_STATUS" "configLowPowerNodePollTimeoutStatus" := ⟨by decide +kernel⟩
instance : CamelName "CONFIG_MODEL_APP_BIND" "configModelAppBind" := ⟨by decide +kernel⟩
instance : CamelName "CONFIG_MODEL_APP_STATUS" "configModelAppStatus" := ⟨by decide +kernel⟩
instance : CamelName "CONFIG_MODEL_APP_UNBIND" "configModelAppUnbind" := ⟨by decide +kernel⟩
instance : CamelName "CONFIG_MODEL_PUBLICATION_GET" "configModelPublicationGet" := ⟨by decide +kernel⟩
instance : CamelName "CONFIG_MODEL_PUBLICATION_SET" "configModelPublicationSet" := ⟨by decide +kernel⟩
instance : CamelName "CONFIG_MODEL_PUBLICATION_STATUS" "configModelPublicationStatus" := ⟨by decide +kernel⟩
instance : CamelName "CONFIG_MODEL_PUBLICATION_VIRTUAL_ADDRESS_SET" "configModelPublicationVirtualAddressSet" := ⟨by decide +kernel⟩
instance : CamelName "CONFIG_MODEL_SUBSCRIPTION_ADD" "configModelSubscriptionAdd" := ⟨by decide +kernel⟩
instance : CamelName "CONFIG_MODEL_SUBSCRIPTION_DELETE" "configModelSubscriptionDelete" := ⟨by decide +kernel⟩
instance : CamelName "CONFIG_MODEL_SUBSCRIPTION_DELETE_ALL" "configModelSubscriptionDeleteAll" := ⟨by decide +kernel⟩
instance : CamelName "CONFIG_MODEL_SUBSCRIPTION_OVERWRITE" "configModelSubscriptionOverwrite" := ⟨by decide +kernel⟩
instance : CamelName "CONFIG_MODEL_SUBSCRIPTION_STATUS" "configModelSubscriptionStatus" := ⟨by decide +kernel⟩
instance : CamelName "CONFIG_MODEL_SUBSCRIPTION_VIRTUAL_ADDRESS_ADD" "configModelSubscriptionVirtualAddressAdd" := ⟨by decide +kernel⟩
instance : CamelName "CONFIG_MODEL_SUBSCRIPTION_VIRTUAL_ADDRESS_DELETE" "configModelSubscriptionVirtualAddressDelete" := ⟨by decide +kernel⟩
instance : CamelName "CONFIG_MODEL_SUBSCRIPTION_VIRTUAL_ADDRESS_OVERWRITE" "configModelSubscriptionVirtualAddressOverwrite" := ⟨by decide +kernel⟩
instance : CamelName "CONFIG_NETKEY_ADD" "configNetkeyAdd" := ⟨by decide +kernel⟩
instance : CamelName "CONFIG_NETKEY_DELETE" "configNetkeyDelete" := ⟨by decide +kernel⟩
instance : CamelName "CONFIG_NETKEY_GET" "configNetkeyGet" := ⟨by decide +kernel⟩
instance : CamelName "CONFIG_NETKEY_LIST" "configNetkeyList" := ⟨by decide +kernel⟩
instance : CamelName "CONFIG_NETKEY_STATUS" "configNetkeyStatus" := ⟨by decide +kernel⟩
instance : CamelName "CONFIG_NETKEY_UPDATE" "configNetkeyUpdate" := ⟨by decide +kernel⟩
instance : CamelName "CONFIG_NETWORK_TRANSMIT_GET" "configNetworkTransmitGet" := ⟨by decide +kernel⟩
instance : CamelName "CONFIG_NETWORK_TRANSMIT_SET" "configNetworkTransmitSet" := ⟨by decide +kernel⟩
instance : CamelName "CONFIG_NETWORK_TRANSMIT_STATUS" "configNetworkTransmitStatus" := ⟨by decide +kernel⟩
instance : CamelName "CONFIG_NODE_IDENTITY_GET" "configNodeIdentityGet" := ⟨by decide +kernel⟩
instance : CamelName "CONFIG_NODE_IDENTITY_SET" "configNodeIdentitySet" := ⟨by decide +kernel⟩
instance : CamelName "CONFIG_NODE_IDENTITY_STATUS" "configNodeIdentityStatus" := ⟨by decide +kernel⟩
instance : CamelName "CONFIG_NODE_RESET" "configNodeReset" := ⟨by decide +kernel⟩
instance : CamelName "CONFIG_NODE_RESET_STATUS" "configNodeResetStatus" := ⟨by decide +kernel⟩
instance : CamelName "CONFIG_RELAY_GET" "configRelayGet" := ⟨by decide +kernel⟩
instance : CamelName "CONFIG_RELAY_SET" "configRelaySet" := ⟨by decide +kernel⟩
instance : CamelName "CONFIG_RELAY_STATUS" "configRelayStatus" := ⟨by decide +kernel⟩
instance : CamelName "CONFIG_SIG_MODEL_APP_GET" "configSigModelAppGet" := ⟨by decide +kernel⟩
instance : CamelName "CONFIG_SIG_MODEL_APP_LIST" "configSigModelAppList" := ⟨by decide +kernel⟩
instance : CamelName "CONFIG_SIG_MODEL_SUBSCRIPTION_GET" "configSigModelSubscriptionGet" := ⟨by decide +kernel⟩
instance : CamelName "CONFIG_SIG_MODEL_SUBSCRIPTION_LIST" "configSigModelSubscriptionList" := ⟨by decide +kernel⟩
instance : CamelName "CONFIG_VENDOR_MODEL_APP_GET" "configVendorModelAppGet" := ⟨by decide +kernel⟩
instance : CamelName "CONFIG_VENDOR_MODEL_APP_LIST" "configVendorModelAppList" := ⟨by decide +kernel⟩
instance : CamelName "CONFIG_VENDOR_MODEL_SUBSCRIPTION_GET" "configVendorModelSubscriptionGet" := ⟨by decide +kernel⟩
instance : CamelName "CONFIG_VENDOR_MODEL_SUBSCRIPTION_LIST" "configVendorModelSubscriptionList" := ⟨by decide +kernel⟩
instance : CamelName "COUNT" "count" := ⟨by decide +kernel⟩
instance : CamelName "DESIRED_AMBIENT_TEMPERATURE" "desiredAmbientTemperature" := ⟨by decide +kernel⟩
instance : CamelName "DEVICE_APPEARANCE" "deviceAppearance" := ⟨by decide +kernel⟩
instance : CamelName "DEVICE_COUNTRY_OF_ORIGIN" "deviceCountryOfOrigin" := ⟨by decide +kernel⟩
instance : CamelName "DEVICE_DATE_OF_MANUFACTURE" "deviceDateOfManufacture" := ⟨by decide +kernel⟩
instance : CamelName "DEVICE_ENERGY_USE_SINCE_TURN_ON" "deviceEnergyUseSinceTurnOn" := ⟨by decide +kernel⟩
instance : CamelName "DEVICE_FIRMWARE_REVISION" "deviceFirmwareRevision" := ⟨by decide +kernel⟩
instance : CamelName "DEVICE_GLOBAL_TRADE_ITEM_NUMBER" "deviceGlobalTradeItemNumber" := ⟨by decide +kernel⟩
instance : CamelName "DEVICE_HARDWARE_REVISION" "deviceHardwareRevision" := ⟨by decide +kernel⟩
instance : CamelName "DEVICE_MANUFACTURER_NAME" "deviceManufacturerName" := ⟨by decide +kernel⟩
instance : CamelName "DEVICE_MODEL_NUMBER" "deviceModelNumber" := ⟨by decide +kernel⟩
instance : CamelName "DEVICE_OPERATING_TEMPERATURE_RANGE_SPECIFICATION" "deviceOperatingTemperatureRangeSpecification" := ⟨by decide +kernel⟩
instance : CamelName "DEVICE_OPERATING_TEMPERATURE_STATISTICAL_VALUES" "deviceOperatingTemperatureStatisticalValues" := ⟨by decide +kernel⟩
instance : CamelName "DEVICE_OVER_TEMPERATURE_EVENT_STATISTICS" "deviceOverTemperatureEventStatistics" := ⟨by decide +kernel⟩
instance : CamelName "DEVICE_POWER_RANGE_SPECIFICATION" "devicePowerRangeSpecification" := ⟨by decide +kernel⟩
instance : CamelName "DEVICE_RUNTIME_SINCE_TURN_ON" "deviceRuntimeSinceTurnOn" := ⟨by decide +kernel⟩
instance : CamelName "DEVICE_RUNTIME_WARRANTY" "deviceRuntimeWarranty" := ⟨by decide +kernel⟩
instance : CamelName "DEVICE_SERIAL_NUMBER" "deviceSerialNumber" := ⟨by decide +kernel⟩
instance : CamelName "DEVICE_SOFTWARE_REVISION" "deviceSoftwareRevision" := ⟨by decide +kernel⟩
instance : CamelName "DEVICE_UNDER_TEMPERATURE_EVENT_STATISTICS" "deviceUnderTemperatureEventStatistics" := ⟨by decide +kernel⟩
instance : CamelName "DNS_IP_ADDRESS_SET" "dnsIpAddressSet" := ⟨by decide +kernel⟩
instance : CamelName "DOUBLE" "double" := ⟨by decide +kernel⟩
instance : CamelName "DTSTART" "dtstart" := ⟨by decide +kernel⟩
instance : CamelName "ELT_DURATION_TEST_BACKUP_AUTOMATIC_DELAY" "eltDurationTestBackupAutomaticDelay" := ⟨by decide +kernel⟩
instance : CamelName "ELT_DURATION_TEST_BACKUP_AUTOMATIC_INTERVAL" "eltDurationTestBackupAutomaticInterval" := ⟨by decide +kernel⟩
instance : CamelName "ELT_DURATION_TEST_EXECUTION_TIMEOUT" "eltDurationTestExecutionTimeout" := ⟨by decide +kernel⟩
instance : CamelName "ELT_DURATION_TEST_GET" "eltDurationTestGet" := ⟨by decide +kernel⟩
instance : CamelName "ELT_DURATION_TEST_RETRY_PERIOD" "eltDurationTestRetryPeriod" := ⟨by decide +kernel⟩
instance : CamelName "ELT_DURATION_TEST_START" "eltDurationTestStart" := ⟨by decide +kernel⟩
instance : CamelName "ELT_DURATION_TEST_STATUS" "eltDurationTestStatus" := ⟨by decide +kernel⟩
instance : CamelName "ELT_DURATION_TEST_STOP" "eltDurationTestStop" := ⟨by decide +kernel⟩
instance : CamelName "ELT_FUNCTIONAL_TEST_BACKUP_AUTOMATIC_DELAY" "eltFunctionalTestBackupAutomaticDelay" := ⟨by decide +kernel⟩
instance : CamelName "ELT_FUNCTIONAL_TEST_BACKUP_AUTOMATIC_INTERVAL" "eltFunctionalTestBackupAutomaticInterval" := ⟨by decide +kernel⟩
instance : CamelName "ELT_FUNCTIONAL_TEST_EXECUTION_TIMEOUT" "eltFunctionalTestExecutionTimeout" := ⟨by decide +kernel⟩
instance : CamelName "ELT_FUNCTIONAL_TEST_GET" "eltFunctionalTestGet" := ⟨by decide +kernel⟩
instance : CamelName "ELT_FUNCTIONAL_TEST_RETRY_PERIOD" "eltFunctionalTestRetryPeriod" := ⟨by decide +kernel⟩
instance : CamelName "ELT_FUNCTIONAL_TEST_START" "eltFunctionalTestStart" := ⟨by decide +kernel⟩
instance : CamelName "ELT_FUNCTIONAL_TEST_STATUS" "eltFunctionalTestStatus" := ⟨by decide +kernel⟩
instance : CamelName "ELT_FUNCTIONAL_TEST_STOP" "eltFunctionalTestStop" := ⟨by decide +kernel⟩
instance : CamelName "ELT_PROPERTY_GET" "eltPropertyGet" := ⟨by decide +kernel⟩
instance : CamelName "ELT_PROPERTY_SET" "eltPropertySet" := ⟨by decide +kernel⟩
instance : CamelName "ELT_PROPERTY_SET_UNACKNOWLEDGED" "eltPropertySetUnacknowledged" := ⟨by decide +kernel⟩
instance : CamelName "ELT_PROPERTY_STATUS" "eltPropertyStatus" := ⟨by decide +kernel⟩
instance : CamelName "EL_INHIBIT_ENTER" "elInhibitEnter" := ⟨by decide +kernel⟩
instance : CamelName "EL_INHIBIT_ENTER_UNACKNOWLEDGED" "elInhibitEnterUnacknowledged" := ⟨by decide +kernel⟩
instance : CamelName "EL_INHIBIT_EXIT" "elInhibitExit" := ⟨by decide +kernel⟩
instance : CamelName "EL_INHIBIT_EXIT_UNACKNOWLEDGED" "elInhibitExitUnacknowledged" := ⟨by decide +kernel⟩
instance : CamelName "EL_LAMP_OPERATION_TIME_CLEAR" "elLampOperationTimeClear" := ⟨by decide +kernel⟩
instance : CamelName "EL_LAMP_OPERATION_TIME_CLEAR_UNACKNOWLEDGED" "elLampOperationTimeClearUnacknowledged" := ⟨by decide +kernel⟩
instance : CamelName "EL_LAMP_OPERATION_TIME_GET" "elLampOperationTimeGet" := ⟨by decide +kernel⟩
instance : CamelName "EL_LAMP_OPERATION_TIME_STATUS" "elLampOperationTimeStatus" := ⟨by decide +kernel⟩
instance : CamelName "EL_LIGHTNESS" "elLightness" := ⟨by decide +kernel⟩
instance : CamelName "EL_LIGHTNESS_RANGE_MAX" "elLightnessRangeMax" := ⟨by decide +kernel⟩
instance : CamelName "EL_LIGHTNESS_RANGE_MIN" "elLightnessRangeMin" := ⟨by decide +kernel⟩
instance : CamelName "EL_PROLONG_TIME" "elProlongTime" := ⟨by decide +kernel⟩
instance : CamelName "EL_PROPERTY_GET" "elPropertyGet" := ⟨by decide +kernel⟩
instance : CamelName "EL_PROPERTY_SET" "elPropertySet" := ⟨by decide +kernel⟩
instance : CamelName "EL_PROPERTY_SET_UNACKNOWLEDGED" "elPropertySetUnacknowledged" := ⟨by decide +kernel⟩
instance : CamelName "EL_PROPERTY_STATUS" "elPropertyStatus" := ⟨by decide +kernel⟩
instance : CamelName "EL_REST_ENTER" "elRestEnter" := ⟨by decide +kernel⟩
instance : CamelName "EL_REST_ENTER_UNACKNOWLEDGED" "elRestEnterUnacknowledged" := ⟨by decide +kernel⟩
instance : CamelName "EL_REST_EXIT" "elRestExit" := ⟨by decide +kernel⟩
instance : CamelName "EL_REST_EXIT_UNACKNOWLEDGED" "elRestExitUnacknowledged" := ⟨by decide +kernel⟩
instance : CamelName "EL_STATE_GET" "elStateGet" := ⟨by decide +kernel⟩
instance : CamelName "EL_STATE_STATUS" "elStateStatus" := ⟨by decide +kernel⟩
instance : CamelName "ENUM" "enum" := ⟨by decide +kernel⟩
instance : CamelName "ETHERNET_MAC_ADDRESS_SET" "ethernetMacAddressSet" := ⟨by decide +kernel⟩
instance : CamelName "EXCLUSIONS_RDATE" "exclusionsRdate" := ⟨by decide +kernel⟩
instance : CamelName "EXPLICIT_RDATE" "explicitRdate" := ⟨by decide +kernel⟩
instance : CamelName "EXTERNAL_SUPPLY_VOLTAGE" "externalSupplyVoltage" := ⟨by decide +kernel⟩
instance : CamelName "EXTERNAL_SUPPLY_VOLTAGE_FREQUENCY" "externalSupplyVoltageFrequency" := ⟨by decide +kernel⟩
instance : CamelName "FIRST" "first" := ⟨by decide +kernel⟩
instance : CamelName "FLOAT" "float" := ⟨by decide +kernel⟩
instance : CamelName "FREQ" "freq" := ⟨by decide +kernel⟩
instance : CamelName "FULL_FIRMWARE_VERSION_GET" "fullFirmwareVersionGet" := ⟨by decide +kernel⟩
instance : CamelName "FULL_FIRMWARE_VERSION_STATUS" "fullFirmwareVersionStatus" := ⟨by decide +kernel⟩
instance : CamelName "GARBAGE_COLLECTOR_COUNTER_GET" "garbageCollectorCounterGet" := ⟨by decide +kernel⟩
instance : CamelName "GARBAGE_COLLECTOR_COUNTER_STATUS" "garbageCollectorCounterStatus" := ⟨by decide +kernel⟩
instance : CamelName "GATEWAY_CONFIGURATION_SET" "gatewayConfigurationSet" := ⟨by decide +kernel⟩
instance : CamelName "GATEWAY_CONFIGURATION_STATUS" "gatewayConfigurationStatus" := ⟨by decide +kernel⟩
instance : CamelName "GATEWAY_IP_ADDRESS_SET" "gatewayIpAddressSet" := ⟨by decide +kernel⟩
instance : CamelName "GATEWAY_PACKETS_STATUS" "gatewayPacketsStatus" := ⟨by decide +kernel⟩
instance : CamelName "GENERIC_ADMIN_PROPERTIES_GET" "genericAdminPropertiesGet" := ⟨by decide +kernel⟩
instance : CamelName "GENERIC_ADMIN_PROPERTIES_STATUS" "genericAdminPropertiesStatus" := ⟨by decide +kernel⟩
instance : CamelName "GENERIC_ADMIN_PROPERTY_GET" "genericAdminPropertyGet" := ⟨by decide +kernel⟩
instance : CamelName "GENERIC_ADMIN_PROPERTY_SET" "genericAdminPropertySet" := ⟨by decide +kernel⟩
instance : CamelName "GENERIC_ADMIN_PROPERTY_SET_UNACKNOWLEDGED" "genericAdminPropertySetUnacknowledged" := ⟨by decide +kernel⟩
instance : CamelName "GENERIC_ADMIN_PROPERTY_STATUS" "genericAdminPropertyStatus" := ⟨by decide +kernel⟩
instance : CamelName "GENERIC_BATTERY_GET" "genericBatteryGet" := ⟨by decide +kernel⟩
instance : CamelName "GENERIC_BATTERY_STATUS" "genericBatteryStatus" := ⟨by decide +kernel⟩
instance : CamelName "GENERIC_CLIENT_PROPERTIES_GET" "genericClientPropertiesGet" := ⟨by decide +kernel⟩
instance : CamelName "GENERIC_CLIENT_PROPERTIES_STATUS" "genericClientPropertiesStatus" := ⟨by decide +kernel⟩
instance : CamelName "GENERIC_DELTA_SET" "genericDeltaSet" := ⟨by decide +kernel⟩
instance : CamelName "GENERIC_DELTA_SET_UNACKNOWLEDGED" "genericDeltaSetUnacknowledged" := ⟨by decide +kernel⟩
instance : CamelName "GENERIC_LEVEL_GET" "genericLevelGet" := ⟨by decide +kernel⟩
instance : CamelName "GENERIC_LEVEL_SET" "genericLevelSet" := ⟨by decide +kernel⟩
instance : CamelName "GENERIC_LEVEL_SET_UNACKNOWLEDGED" "genericLevelSetUnacknowledged" := ⟨by decide +kernel⟩
instance : CamelName "GENERIC_LEVEL_STATUS" "genericLevelStatus" := ⟨by decide +kernel⟩
instance : CamelName "GENERIC_MANUFACTURER_PROPERTIES_GET" "genericManufacturerPropertiesGet" := ⟨by decide +kernel⟩
instance : CamelName "GENERIC_MANUFACTURER_PROPERTIES_STATUS" "genericManufacturerPropertiesStatus" := ⟨by decide +kernel⟩
instance : CamelName "GENERIC_MANUFACTURER_PROPERTY_GET" "genericManufacturerPropertyGet" := ⟨by decide +kernel⟩
instance : CamelName "GENERIC_MANUFACTURER_PROPERTY_SET" "genericManufacturerPropertySet" := ⟨by decide +kernel⟩
instance : CamelName "GENERIC_MANUFACTURER_PROPERTY_SET_UNACKNOWLEDGED" "genericManufacturerPropertySetUnacknowledged" := ⟨by decide +kernel⟩
instance : CamelName "GENERIC_MANUFACTURER_PROPERTY_STATUS" "genericManufacturerPropertyStatus" := ⟨by decide +kernel⟩
instance : CamelName "GENERIC_MOVE_SET" "genericMoveSet" := ⟨by decide +kernel⟩
instance : CamelName "GENERIC_MOVE_SET_UNACKNOWLEDGED" "genericMoveSetUnacknowledged" := ⟨by decide +kernel⟩
instance : CamelName "GENERIC_ONOFF_GET" "genericOnoffGet" := ⟨by decide +kernel⟩
instance : CamelName "GENERIC_ONOFF_SET" "genericOnoffSet" := ⟨by decide +kernel⟩
instance : CamelName "GENERIC_ONOFF_SET_UNACKNOWLEDGED" "genericOnoffSetUnacknowledged" := ⟨by decide +kernel⟩
instance : CamelName "GENERIC_ONOFF_STATUS" "genericOnoffStatus" := ⟨by decide +kernel⟩
instance : CamelName "GENERIC_USER_PROPERTIES_GET" "genericUserPropertiesGet" := ⟨by decide +kernel⟩
instance : CamelName "GENERIC_USER_PROPERTIES_STATUS" "genericUserPropertiesStatus" := ⟨by decide +kernel⟩
instance : CamelName "GENERIC_USER_PROPERTY_GET" "genericUserPropertyGet" := ⟨by decide +kernel⟩
instance : CamelName "GENERIC_USER_PROPERTY_SET" "genericUserPropertySet" := ⟨by decide +kernel⟩
instance : CamelName "GENERIC_USER_PROPERTY_SET_UNACKNOWLEDGED" "genericUserPropertySetUnacknowledged" := ⟨by decide +kernel⟩
instance : CamelName "GENERIC_USER_PROPERTY_STATUS" "genericUserPropertyStatus" := ⟨by decide +kernel⟩
instance : CamelName "HEALTH_ATTENTION_GET" "healthAttentionGet" := ⟨by decide +kernel⟩
instance : CamelName "HEALTH_ATTENTION_SET" "healthAttentionSet" := ⟨by decide +kernel⟩
instance : CamelName "HEALTH_ATTENTION_SET_UNACKNOWLEDGED" "healthAttentionSetUnacknowledged" := ⟨by decide +kernel⟩
instance : CamelName "HEALTH_ATTENTION_STATUS" "healthAttentionStatus" := ⟨by decide +kernel⟩
instance : CamelName "HEALTH_CURRENT_STATUS" "healthCurrentStatus" := ⟨by decide +kernel⟩
instance : CamelName "HEALTH_FAULT_CLEAR" "healthFaultClear" := ⟨by decide +kernel⟩
instance : CamelName "HEALTH_FAULT_CLEAR_UNACKNOWLEDGED" "healthFaultClearUnacknowledged" := ⟨by decide +kernel⟩
instance : CamelName "HEALTH_FAULT_GET" "healthFaultGet" := ⟨by decide +kernel⟩
instance : CamelName "HEALTH_FAULT_STATUS" "healthFaultStatus" := ⟨by decide +kernel⟩
instance : CamelName "HEALTH_FAULT_TEST" "healthFaultTest" := ⟨by decide +kernel⟩
instance : CamelName "HEALTH_FAULT_TEST_UNACKNOWLEDGED" "healthFaultTestUnacknowledged" := ⟨by decide +kernel⟩
instance : CamelName "HEALTH_PERIOD_GET" "healthPeriodGet" := ⟨by decide +kernel⟩
instance : CamelName "HEALTH_PERIOD_SET" "healthPeriodSet" := ⟨by decide +kernel⟩
instance : CamelName "HEALTH_PERIOD_SET_UNACKNOWLEDGED" "healthPeriodSetUnacknowledged" := ⟨by decide +kernel⟩
instance : CamelName "HEALTH_PERIOD_STATUS" "healthPeriodStatus" := ⟨by decide +kernel⟩
instance : CamelName "INDOOR_AMBIENT_TEMPERATURE_STATISTICAL_VALUES" "indoorAmbientTemperatureStatisticalValues" := ⟨by decide +kernel⟩
instance : CamelName "INITIAL_CIE1931_CHROMATICITY_COORDINATES" "initialCie1931ChromaticityCoordinates" := ⟨by decide +kernel⟩
instance : CamelName "INITIAL_CORRELATED_COLOR_TEMPERATURE" "initialCorrelatedColorTemperature" := ⟨by decide +kernel⟩
instance : CamelName "INITIAL_LUMINOUS_FLUX" "initialLuminousFlux" := ⟨by decide +kernel⟩
instance : CamelName "INITIAL_PLANCKIAN_DISTANCE" "initialPlanckianDistance" := ⟨by decide +kernel⟩
instance : CamelName "INPUT_CURRENT_RANGE_SPECIFICATION" "inputCurrentRangeSpecification" := ⟨by decide +kernel⟩
instance : CamelName "INPUT_CURRENT_STATISTICS" "inputCurrentStatistics" := ⟨by decide +kernel⟩
instance : CamelName "INPUT_OVER_CURRENT_EVENT_STATISTICS" "inputOverCurrentEventStatistics" := ⟨by decide +kernel⟩
instance : CamelName "INPUT_OVER_RIPPLE_VOLTAGE_EVENT_STATISTICS" "inputOverRippleVoltageEventStatistics" := ⟨by decide +kernel⟩
instance : CamelName "INPUT_OVER_VOLTAGE_EVENT_STATISTICS" "inputOverVoltageEventStatistics" := ⟨by decide +kernel⟩
instance : CamelName "INPUT_UNDER_CURRENT_EVENT_STATISTICS" "inputUnderCurrentEventStatistics" := ⟨by decide +kernel⟩
instance : CamelName "INPUT_UNDER_VOLTAGE_EVENT_STATISTICS" "inputUnderVoltageEventStatistics" := ⟨by decide +kernel⟩
instance : CamelName "INPUT_VOLTAGE_RANGE_SPECIFICATION" "inputVoltageRangeSpecification" := ⟨by decide +kernel⟩
instance : CamelName "INPUT_VOLTAGE_RIPPLE_SPECIFICATION" "inputVoltageRippleSpecification" := ⟨by decide +kernel⟩
instance : CamelName "INPUT_VOLTAGE_STATISTICS" "inputVoltageStatistics" := ⟨by decide +kernel⟩
instance : CamelName "INT16" "int16" := ⟨by decide +kernel⟩
instance : CamelName "INT32" "int32" := ⟨by decide +kernel⟩
instance : CamelName "INT64" "int64" := ⟨by decide +kernel⟩
instance : CamelName "INT8" "int8" := ⟨by decide +kernel⟩
instance : CamelName "INTERVAL" "interval" := ⟨by decide +kernel⟩
instance : CamelName "INVALID" "invalid" := ⟨by decide +kernel⟩
instance : CamelName "IP_ADDRESS_SET" "ipAddressSet" := ⟨by decide +kernel⟩
instance : CamelName "IV_INDEX_GET" "ivIndexGet" := ⟨by decide +kernel⟩
instance : CamelName "IV_INDEX_STATUS" "ivIndexStatus" := ⟨by decide +kernel⟩
instance : CamelName "LAST_FDS_FAULT_CLEAR" "lastFdsFaultClear" := ⟨by decide +kernel⟩
instance : CamelName "LAST_FDS_FAULT_GET" "lastFdsFaultGet" := ⟨by decide +kernel⟩
instance : CamelName "LAST_FDS_FAULT_STATUS" "lastFdsFaultStatus" := ⟨by decide +kernel⟩
instance : CamelName "LAST_MALLOC_FAULT_CLEAR" "lastMallocFaultClear" := ⟨by decide +kernel⟩
instance : CamelName "LAST_MALLOC_FAULT_GET" "lastMallocFaultGet" := ⟨by decide +kernel⟩
instance : CamelName "LAST_MALLOC_FAULT_STATUS" "lastMallocFaultStatus" := ⟨by decide +kernel⟩
instance : CamelName "LAST_SW_FAULT_CLEAR" "lastSwFaultClear" := ⟨by decide +kernel⟩
instance : CamelName "LAST_SW_FAULT_GET" "lastSwFaultGet" := ⟨by decide +kernel⟩
instance : CamelName "LAST_SW_FAULT_STATUS" "lastSwFaultStatus" := ⟨by decide +kernel⟩
instance : CamelName "LIGHT_CONTROL_AMBIENT_LUXLEVEL_ON" "lightControlAmbientLuxlevelOn" := ⟨by decide +kernel⟩
instance : CamelName "LIGHT_CONTROL_AMBIENT_LUXLEVEL_PROLONG" "lightControlAmbientLuxlevelProlong" := ⟨by decide +kernel⟩
instance : CamelName "LIGHT_CONTROL_AMBIENT_LUXLEVEL_STANDBY" "lightControlAmbientLuxlevelStandby" := ⟨by decide +kernel⟩
instance : CamelName "LIGHT_CONTROL_LIGHTNESS_ON" "lightControlLightnessOn" := ⟨by decide +kernel⟩
instance : CamelName "LIGHT_CONTROL_LIGHTNESS_PROLONG" "lightControlLightnessProlong" := ⟨by decide +kernel⟩
instance : CamelName "LIGHT_CONTROL_LIGHTNESS_STANDBY" "lightControlLightnessStandby" := ⟨by decide +kernel⟩
instance : CamelName "LIGHT_CONTROL_REGULATOR_ACCURACY" "lightControlRegulatorAccuracy" := ⟨by decide +kernel⟩
instance : CamelName "LIGHT_CONTROL_REGULATOR_KID" "lightControlRegulatorKid" := ⟨by decide +kernel⟩
instance : CamelName "LIGHT_CONTROL_REGULATOR_KIU" "lightControlRegulatorKiu" := ⟨by decide +kernel⟩
instance : CamelName "LIGHT_CONTROL_REGULATOR_KPD" "lightControlRegulatorKpd" := ⟨by decide +kernel⟩
instance : CamelName "LIGHT_CONTROL_REGULATOR_KPU" "lightControlRegulatorKpu" := ⟨by decide +kernel⟩
instance : CamelName "LIGHT_CONTROL_TIME_FADE" "lightControlTimeFade" := ⟨by decide +kernel⟩
instance : CamelName "LIGHT_CONTROL_TIME_FADE_ON" "lightControlTimeFadeOn" := ⟨by decide +kernel⟩
instance : CamelName "LIGHT_CONTROL_TIME_FADE_STANDBY_AUTO" "lightControlTimeFadeStandbyAuto" := ⟨by decide +kernel⟩
instance : CamelName "LIGHT_CONTROL_TIME_FADE_STANDBY_MANUAL" "lightControlTimeFadeStandbyManual" := ⟨by decide +kernel⟩
instance : CamelName "LIGHT_CONTROL_TIME_OCCUPANCY_DELAY" "lightControlTimeOccupancyDelay" := ⟨by decide +kernel⟩
instance : CamelName "LIGHT_CONTROL_TIME_PROLONG" "lightControlTimeProlong" := ⟨by decide +kernel⟩
instance : CamelName "LIGHT_CONTROL_TIME_RUN_ON" "lightControlTimeRunOn" := ⟨by decide +kernel⟩
instance : CamelName "LIGHT_CTL_GET" "lightCtlGet" := ⟨by decide +kernel⟩
instance : CamelName "LIGHT_CTL_SET" "lightCtlSet" := ⟨by decide +kernel⟩
instance : CamelName "LIGHT_CTL_SETUP_TEMPERATURE_DEFAULT_SET" "lightCtlSetupTemperatureDefaultSet" := ⟨by decide +kernel⟩
instance : CamelName "LIGHT_CTL_SETUP_TEMPERATURE_DEFAULT_SET_UNACKNOWLEDGED" "lightCtlSetupTemperatureDefaultSetUnacknowledged" := ⟨by decide +kernel⟩
instance : CamelName "LIGHT_CTL_SETUP_TEMPERATURE_RANGE_SET" "lightCtlSetupTemperatureRangeSet" := ⟨by decide +kernel⟩
instance : CamelName "LIGHT_CTL_SETUP_TEMPERATURE_RANGE_SET_UNACKNOWLEDGED" "lightCtlSetupTemperatureRangeSetUnacknowledged" := ⟨by decide +kernel⟩
instance : CamelName "LIGHT_CTL_SET_UNACKNOWLEDGED" "lightCtlSetUnacknowledged" := ⟨by decide +kernel⟩
instance : CamelName "LIGHT_CTL_STATUS" "lightCtlStatus" := ⟨by decide +kernel⟩
instance : CamelName "LIGHT_CTL_TEMPERATURE_DEFAULT_GET" "lightCtlTemperatureDefaultGet" := ⟨by decide +kernel⟩
instance : CamelName "LIGHT_CTL_TEMPERATURE_DEFAULT_STATUS" "lightCtlTemperatureDefaultStatus" := ⟨by decide +kernel⟩
instance : CamelName "LIGHT_CTL_TEMPERATURE_GET" "lightCtlTemperatureGet" := ⟨by decide +kernel⟩
instance : CamelName "LIGHT_CTL_TEMPERATURE_RANGE_GET" "lightCtlTemperatureRangeGet" := ⟨by decide +kernel⟩
instance : CamelName "LIGHT_CTL_TEMPERATURE_RANGE_STATUS" "lightCtlTemperatureRangeStatus" := ⟨by decide +kernel⟩
instance : CamelName "LIGHT_CTL_TEMPERATURE_SET" "lightCtlTemperatureSet" := ⟨by decide +kernel⟩
instance : CamelName "LIGHT_CTL_TEMPERATURE_SET_UNACKNOWLEDGED" "lightCtlTemperatureSetUnacknowledged" := ⟨by decide +kernel⟩
instance : CamelName "LIGHT_CTL_TEMPERATURE_STATUS" "lightCtlTemperatureStatus" := ⟨by decide +kernel⟩
instance : CamelName "LIGHT_DISTRIBUTION" "lightDistribution" := ⟨by decide +kernel⟩
instance : CamelName "LIGHT_LIGHTNESS_DEFAULT_GET" "lightLightnessDefaultGet" := ⟨by decide +kernel⟩
instance : CamelName "LIGHT_LIGHTNESS_DEFAULT_STATUS" "lightLightnessDefaultStatus" := ⟨by decide +kernel⟩
instance : CamelName "LIGHT_LIGHTNESS_GET" "lightLightnessGet" := ⟨by decide +kernel⟩
instance : CamelName "LIGHT_LIGHTNESS_LAST_GET" "lightLightnessLastGet" := ⟨by decide +kernel⟩
instance : CamelName "LIGHT_LIGHTNESS_LAST_STATUS" "lightLightnessLastStatus" := ⟨by decide +kernel⟩
instance : CamelName "LIGHT_LIGHTNESS_LINEAR_GET" "lightLightnessLinearGet" := ⟨by decide +kernel⟩
instance : CamelName "LIGHT_LIGHTNESS_LINEAR_SET" "lightLightnessLinearSet" := ⟨by decide +kernel⟩
instance : CamelName "LIGHT_LIGHTNESS_LINEAR_SET_UNACKNOWLEDGED" "lightLightnessLinearSetUnacknowledged" := ⟨by decide +kernel⟩
instance : CamelName "LIGHT_LIGHTNESS_LINEAR_STATUS" "lightLightnessLinearStatus" := ⟨by decide +kernel⟩
instance : CamelName "LIGHT_LIGHTNESS_RANGE_GET" "lightLightnessRangeGet" := ⟨by decide +kernel⟩
instance : CamelName "LIGHT_LIGHTNESS_RANGE_STATUS" "lightLightnessRangeStatus" := ⟨by decide +kernel⟩
instance : CamelName "LIGHT_LIGHTNESS_SET" "lightLightnessSet" := ⟨by decide +kernel⟩
instance : CamelName "LIGHT_LIGHTNESS_SETUP_DEFAULT_SET" "lightLightnessSetupDefaultSet" := ⟨by decide +kernel⟩
instance : CamelName "LIGHT_LIGHTNESS_SETUP_DEFAULT_SET_UNACKNOWLEDGED" "lightLightnessSetupDefaultSetUnacknowledged" := ⟨by decide +kernel⟩
instance : CamelName "LIGHT_LIGHTNESS_SETUP_RANGE_SET" "lightLightnessSetupRangeSet" := ⟨by decide +kernel⟩
instance : CamelName "LIGHT_LIGHTNESS_SETUP_RANGE_SET_UNACKNOWLEDGED" "lightLightnessSetupRangeSetUnacknowledged" := ⟨by decide +kernel⟩
instance : CamelName "LIGHT_LIGHTNESS_SET_UNACKNOWLEDGED" "lightLightnessSetUnacknowledged" := ⟨by decide +kernel⟩
instance : CamelName "LIGHT_LIGHTNESS_STATUS" "lightLightnessStatus" := ⟨by decide +kernel⟩
instance : CamelName "LIGHT_SOURCE_CURRENT" "lightSourceCurrent" := ⟨by decide +kernel⟩
instance : CamelName "LIGHT_SOURCE_ON_TIME_NOT_RESETTABLE" "lightSourceOnTimeNotResettable" := ⟨by decide +kernel⟩
instance : CamelName "LIGHT_SOURCE_ON_TIME_RESETTABLE" "lightSourceOnTimeResettable" := ⟨by decide +kernel⟩
instance : CamelName "LIGHT_SOURCE_OPEN_CIRCUIT_STATISTICS" "lightSourceOpenCircuitStatistics" := ⟨by decide +kernel⟩
instance : CamelName "LIGHT_SOURCE_OVERALL_FAILURES_STATISTICS" "lightSourceOverallFailuresStatistics" := ⟨by decide +kernel⟩
instance : CamelName "LIGHT_SOURCE_SHORT_CIRCUIT_STATISTICS" "lightSourceShortCircuitStatistics" := ⟨by decide +kernel⟩
instance : CamelName "LIGHT_SOURCE_START_COUNTER_RESETTABLE" "lightSourceStartCounterResettable" := ⟨by decide +kernel⟩
instance : CamelName "LIGHT_SOURCE_TEMPERATURE" "lightSourceTemperature" := ⟨by decide +kernel⟩
instance : CamelName "LIGHT_SOURCE_THERMAL_DERATING_STATISTICS" "lightSourceThermalDeratingStatistics" := ⟨by decide +kernel⟩
instance : CamelName "LIGHT_SOURCE_THERMAL_SHUTDOWN_STATISTICS" "lightSourceThermalShutdownStatistics" := ⟨by decide +kernel⟩
instance : CamelName "LIGHT_SOURCE_TOTAL_POWER_ON_CYCLES" "lightSourceTotalPowerOnCycles" := ⟨by decide +kernel⟩
instance : CamelName "LIGHT_SOURCE_TYPE" "lightSourceType" := ⟨by decide +kernel⟩
instance : CamelName "LIGHT_SOURCE_VOLTAGE" "lightSourceVoltage" := ⟨by decide +kernel⟩
instance : CamelName "LONG" "long" := ⟨by decide +kernel⟩
instance : CamelName "LUMEN_MAINTENANCE_FACTOR" "lumenMaintenanceFactor" := ⟨by decide +kernel⟩
instance : CamelName "LUMINAIRE_COLOR" "luminaireColor" := ⟨by decide +kernel⟩
instance : CamelName "LUMINAIRE_IDENTIFICATION_NUMBER" "luminaireIdentificationNumber" := ⟨by decide +kernel⟩
instance : CamelName "LUMINAIRE_IDENTIFICATION_STRING" "luminaireIdentificationString" := ⟨by decide +kernel⟩
instance : CamelName "LUMINAIRE_MANUFACTURER_GTIN" "luminaireManufacturerGtin" := ⟨by decide +kernel⟩
instance : CamelName "LUMINAIRE_NOMINAL_INPUT_POWER" "luminaireNominalInputPower" := ⟨by decide +kernel⟩
instance : CamelName "LUMINAIRE_NOMINAL_MAXIMUM_AC_MAINS_VOLTAGE" "luminaireNominalMaximumAcMainsVoltage" := ⟨by decide +kernel⟩
instance : CamelName "LUMINAIRE_NOMINAL_MINIMUM_AC_MAINS_VOLTAGE" "luminaireNominalMinimumAcMainsVoltage" := ⟨by decide +kernel⟩
instance : CamelName "LUMINAIRE_POWER_AT_MINIMUM_DIM_LEVEL" "luminairePowerAtMinimumDimLevel" := ⟨by decide +kernel⟩
instance : CamelName "LUMINAIRE_TIME_OF_MANUFACTURE" "luminaireTimeOfManufacture" := ⟨by decide +kernel⟩
instance : CamelName "LUMINOUS_EFFICACY" "luminousEfficacy" := ⟨by decide +kernel⟩
instance : CamelName "LUMINOUS_ENERGY_SINCE_TURN_ON" "luminousEnergySinceTurnOn" := ⟨by decide +kernel⟩
instance : CamelName "LUMINOUS_EXPOSURE" "luminousExposure" := ⟨by decide +kernel⟩
instance : CamelName "LUMINOUS_FLUX_RANGE" "luminousFluxRange" := ⟨by decide +kernel⟩
instance : CamelName "MOTION_SENSED" "motionSensed" := ⟨by decide +kernel⟩
instance : CamelName "MOTION_THRESHOLD" "motionThreshold" := ⟨by decide +kernel⟩
instance : CamelName "MTU_SIZE_SET" "mtuSizeSet" := ⟨by decide +kernel⟩
instance : CamelName "NETMASK_SET" "netmaskSet" := ⟨by decide +kernel⟩
instance : CamelName "NOMINAL_LIGHT_OUTPUT" "nominalLightOutput" := ⟨by decide +kernel⟩
instance : CamelName "OPEN_CIRCUIT_EVENT_STATISTICS" "openCircuitEventStatistics" := ⟨by decide +kernel⟩
instance : CamelName "OUTDOOR_STATISTICAL_VALUES" "outdoorStatisticalValues" := ⟨by decide +kernel⟩
instance : CamelName "OUTPUT_CURRENT_PERCENT" "outputCurrentPercent" := ⟨by decide +kernel⟩
instance : CamelName "OUTPUT_CURRENT_RANGE" "outputCurrentRange" := ⟨by decide +kernel⟩
instance : CamelName "OUTPUT_CURRENT_STATISTICS" "outputCurrentStatistics" := ⟨by decide +kernel⟩
instance : CamelName "OUTPUT_POWER_LIMITATION" "outputPowerLimitation" := ⟨by decide +kernel⟩
instance : CamelName "OUTPUT_RIPPLE_VOLTAGE_SPECIFICATION" "outputRippleVoltageSpecification" := ⟨by decide +kernel⟩
instance : CamelName "OUTPUT_VOLTAGE_RANGE" "outputVoltageRange" := ⟨by decide +kernel⟩
instance : CamelName "OUTPUT_VOLTAGE_STATISTICS" "outputVoltageStatistics" := ⟨by decide +kernel⟩
instance : CamelName "OVERALL_FAILURE_CONDITION" "overallFailureCondition" := ⟨by decide +kernel⟩
instance : CamelName "OVER_OUTPUT_RIPPLE_VOLTAGE_EVENT_STATISTICS" "overOutputRippleVoltageEventStatistics" := ⟨by decide +kernel⟩
instance : CamelName "PEOPLE_COUNT" "peopleCount" := ⟨by decide +kernel⟩
instance : CamelName "POWER_FACTOR" "powerFactor" := ⟨by decide +kernel⟩
instance : CamelName "PRECISE_PRESENT_AMBIENT_TEMPERATURE" "precisePresentAmbientTemperature" := ⟨by decide +kernel⟩
instance : CamelName "PRECISE_TOTAL_DEVICE_ENERGY_USE" "preciseTotalDeviceEnergyUse" := ⟨by decide +kernel⟩
instance : CamelName "PRESENCE_DETECTED" "presenceDetected" := ⟨by decide +kernel⟩
instance : CamelName "PRESENT_AMBIENT_LIGHT_LEVEL" "presentAmbientLightLevel" := ⟨by decide +kernel⟩
instance : CamelName "PRESENT_AMBIENT_TEMPERATURE" "presentAmbientTemperature" := ⟨by decide +kernel⟩
instance : CamelName "PRESENT_CIE1931_CHROMATICITY_COORDINATES" "presentCie1931ChromaticityCoordinates" := ⟨by decide +kernel⟩
instance : CamelName "PRESENT_CORRELATED_COLOR_TEMPERATURE" "presentCorrelatedColorTemperature" := ⟨by decide +kernel⟩
instance : CamelName "PRESENT_DEVICE_INPUT_POWER" "presentDeviceInputPower" := ⟨by decide +kernel⟩
instance : CamelName "PRESENT_DEVICE_OPERATING_EFFICIENCY" "presentDeviceOperatingEfficiency" := ⟨by decide +kernel⟩
instance : CamelName "PRESENT_DEVICE_OPERATING_TEMPERATURE" "presentDeviceOperatingTemperature" := ⟨by decide +kernel⟩
instance : CamelName "PRESENT_ILLUMINANCE" "presentIlluminance" := ⟨by decide +kernel⟩
instance : CamelName "PRESENT_INDOOR_AMBIENT_TEMPERATURE" "presentIndoorAmbientTemperature" := ⟨by decide +kernel⟩
instance : CamelName "PRESENT_INPUT_CURRENT" "presentInputCurrent" := ⟨by decide +kernel⟩
instance : CamelName "PRESENT_INPUT_RIPPLE_VOLTAGE" "presentInputRippleVoltage" := ⟨by decide +kernel⟩
instance : CamelName "PRESENT_INPUT_VOLTAGE" "presentInputVoltage" := ⟨by decide +kernel⟩
instance : CamelName "PRESENT_LUMINOUS_FLUX" "presentLuminousFlux" := ⟨by decide +kernel⟩
instance : CamelName "PRESENT_OUTDOOR_AMBIENT_TEMPERATURE" "presentOutdoorAmbientTemperature" := ⟨by decide +kernel⟩
instance : CamelName "PRESENT_OUTPUT_CURRENT" "presentOutputCurrent" := ⟨by decide +kernel⟩
instance : CamelName "PRESENT_OUTPUT_VOLTAGE" "presentOutputVoltage" := ⟨by decide +kernel⟩
instance : CamelName "PRESENT_PLANCKIAN_DISTANCE" "presentPlanckianDistance" := ⟨by decide +kernel⟩
instance : CamelName "PRESENT_RELATIVE_OUTPUT_RIPPLE_VOLTAGE" "presentRelativeOutputRippleVoltage" := ⟨by decide +kernel⟩
instance : CamelName "PROPERTY_GET" "propertyGet" := ⟨by decide +kernel⟩
instance : CamelName "PROPERTY_SET" "propertySet" := ⟨by decide +kernel⟩
instance : CamelName "PROPERTY_SET_UNACKNOWLEDGED" "propertySetUnacknowledged" := ⟨by decide +kernel⟩
instance : CamelName "PROPERTY_STATUS" "propertyStatus" := ⟨by decide +kernel⟩
instance : CamelName "PROVISIONED_APP_VERSION_GET" "provisionedAppVersionGet" := ⟨by decide +kernel⟩
instance : CamelName "PROVISIONED_APP_VERSION_STATUS" "provisionedAppVersionStatus" := ⟨by decide +kernel⟩
instance : CamelName "PUBLICATION_GET" "publicationGet" := ⟨by decide +kernel⟩
instance : CamelName "PUBLICATION_SET" "publicationSet" := ⟨by decide +kernel⟩
instance : CamelName "PUBLICATION_STATUS" "publicationStatus" := ⟨by decide +kernel⟩
instance : CamelName "RADIO_STAT_GET" "radioStatGet" := ⟨by decide +kernel⟩
instance : CamelName "RADIO_TEST" "radioTest" := ⟨by decide +kernel⟩
instance : CamelName "RATED_MEDIAN_USEFUL_LIFE_OF_LUMINAIRE" "ratedMedianUsefulLifeOfLuminaire" := ⟨by decide +kernel⟩
instance : CamelName "RATED_MEDIAN_USEFUL_LIGHT_SOURCE_STARTS" "ratedMedianUsefulLightSourceStarts" := ⟨by decide +kernel⟩
instance : CamelName "RECONNECT_INTERVAL_SET" "reconnectIntervalSet" := ⟨by decide +kernel⟩
instance : CamelName "REFERENCE_TEMPERATURE" "referenceTemperature" := ⟨by decide +kernel⟩
instance : CamelName "REGISTER_MAX_SIZE_GET" "registerMaxSizeGet" := ⟨by decide +kernel⟩
instance : CamelName "REGISTER_MAX_SIZE_STATUS" "registerMaxSizeStatus" := ⟨by decide +kernel⟩
instance : CamelName "RELATIVE_DEVICE_ENERGY_USE_IN_A_PERIOD_OF_DAY" "relativeDeviceEnergyUseInAPeriodOfDay" := ⟨by decide +kernel⟩
instance : CamelName "RELATIVE_DEVICE_RUNTIME_IN_A_GENERIC_LEVEL_RANGE" "relativeDeviceRuntimeInAGenericLevelRange" := ⟨by decide +kernel⟩
instance : CamelName "RELATIVE_EXPOSURE_TIME_IN_AN_ILLUMINANCE_RANGE" "relativeExposureTimeInAnIlluminanceRange" := ⟨by decide +kernel⟩
instance : CamelName "RELATIVE_RUNTIME_IN_AN_INPUT_CURRENT_RANGE" "relativeRuntimeInAnInputCurrentRange" := ⟨by decide +kernel⟩
instance : CamelName "RELATIVE_RUNTIME_IN_AN_INPUT_VOLTAGE_RANGE" "relativeRuntimeInAnInputVoltageRange" := ⟨by decide +kernel⟩
instance : CamelName "RELATIVE_RUNTIME_IN_A_CORRELATED_COLOR_TEMPERATURE_RANGE" "relativeRuntimeInACorrelatedColorTemperatureRange" := ⟨by decide +kernel⟩
instance : CamelName "RELATIVE_RUNTIME_IN_A_DEVICE_OPERATING_TEMPERATURE_RANGE" "relativeRuntimeInADeviceOperatingTemperatureRange" := ⟨by decide +kernel⟩
instance : CamelName "RSSI_THRESHOLD_GET" "rssiThresholdGet" := ⟨by decide +kernel⟩
instance : CamelName "RSSI_THRESHOLD_SET" "rssiThresholdSet" := ⟨by decide +kernel⟩
instance : CamelName "RSSI_THRESHOLD_STATUS" "rssiThresholdStatus" := ⟨by decide +kernel⟩
instance : CamelName "RULES_LIST_GET" "rulesListGet" := ⟨by decide +kernel⟩
instance : CamelName "RULES_LIST_STATUS" "rulesListStatus" := ⟨by decide +kernel⟩
instance : CamelName "SCENE_DELETE" "sceneDelete" := ⟨by decide +kernel⟩
instance : CamelName "SCENE_DELETE_UNACKNOWLEDGED" "sceneDeleteUnacknowledged" := ⟨by decide +kernel⟩
instance : CamelName "SCENE_GET" "sceneGet" := ⟨by decide +kernel⟩
instance : CamelName "SCENE_RECALL" "sceneRecall" := ⟨by decide +kernel⟩
instance : CamelName "SCENE_RECALL_UNACKNOWLEDGED" "sceneRecallUnacknowledged" := ⟨by decide +kernel⟩
instance : CamelName "SCENE_REGISTER_GET" "sceneRegisterGet" := ⟨by decide +kernel⟩
instance : CamelName "SCENE_REGISTER_STATUS" "sceneRegisterStatus" := ⟨by decide +kernel⟩
instance : CamelName "SCENE_STATUS" "sceneStatus" := ⟨by decide +kernel⟩
instance : CamelName "SCENE_STORE" "sceneStore" := ⟨by decide +kernel⟩
instance : CamelName "SCENE_STORE_UNACKNOWLEDGED" "sceneStoreUnacknowledged" := ⟨by decide +kernel⟩
instance : CamelName "SCHEDULER_MODE_GET" "schedulerModeGet" := ⟨by decide +kernel⟩
instance : CamelName "SCHEDULER_MODE_SET" "schedulerModeSet" := ⟨by decide +kernel⟩
instance : CamelName "SCHEDULER_MODE_STATUS" "schedulerModeStatus" := ⟨by decide +kernel⟩
instance : CamelName "SCHEDULE_REGISTER_ENTRY_DELETE" "scheduleRegisterEntryDelete" := ⟨by decide +kernel⟩
instance : CamelName "SCHEDULE_REGISTER_ENTRY_DELETE_ALL" "scheduleRegisterEntryDeleteAll" := ⟨by decide +kernel⟩
instance : CamelName "SCHEDULE_REGISTER_ENTRY_GET" "scheduleRegisterEntryGet" := ⟨by decide +kernel⟩
instance : CamelName "SCHEDULE_REGISTER_ENTRY_SET" "scheduleRegisterEntrySet" := ⟨by decide +kernel⟩
instance : CamelName "SCHEDULE_REGISTER_ENTRY_STATUS" "scheduleRegisterEntryStatus" := ⟨by decide +kernel⟩
instance : CamelName "SCHEDULE_REGISTER_LIST_GET" "scheduleRegisterListGet" := ⟨by decide +kernel⟩
instance : CamelName "SCHEDULE_REGISTER_LIST_STATUS" "scheduleRegisterListStatus" := ⟨by decide +kernel⟩
instance : CamelName "SECOND" "second" := ⟨by decide +kernel⟩
instance : CamelName "SENSOR_CADENCE_GET" "sensorCadenceGet" := ⟨by decide +kernel⟩
instance : CamelName "SENSOR_DESCRIPTOR_GET" "sensorDescriptorGet" := ⟨by decide +kernel⟩
instance : CamelName "SENSOR_DESCRIPTOR_STATUS" "sensorDescriptorStatus" := ⟨by decide +kernel⟩
instance : CamelName "SENSOR_GAIN" "sensorGain" := ⟨by decide +kernel⟩
instance : CamelName "SENSOR_GET" "sensorGet" := ⟨by decide +kernel⟩
instance : CamelName "SENSOR_SETTINGS_GET" "sensorSettingsGet" := ⟨by decide +kernel⟩
instance : CamelName "SENSOR_SETTINGS_STATUS" "sensorSettingsStatus" := ⟨by decide +kernel⟩
instance : CamelName "SENSOR_SETTING_GET" "sensorSettingGet" := ⟨by decide +kernel⟩
instance : CamelName "SENSOR_SETTING_SET" "sensorSettingSet" := ⟨by decide +kernel⟩
instance : CamelName "SENSOR_SETTING_SET_UNACKNOWLEDGED" "sensorSettingSetUnacknowledged" := ⟨by decide +kernel⟩
instance : CamelName "SENSOR_SETTING_STATUS" "sensorSettingStatus" := ⟨by decide +kernel⟩
instance : CamelName "SENSOR_STATUS" "sensorStatus" := ⟨by decide +kernel⟩
instance : CamelName "SERVER_ADDRESS_AND_PORT_NUMBER_SET" "serverAddressAndPortNumberSet" := ⟨by decide +kernel⟩
instance : CamelName "SHORT" "short" := ⟨by decide +kernel⟩
instance : CamelName "SHORT_CIRCUIT_EVENT_STATISTICS" "shortCircuitEventStatistics" := ⟨by decide +kernel⟩
instance : CamelName "SILVAIR_DEBUG" "silvairDebug" := ⟨by decide +kernel⟩
instance : CamelName "SILVAIR_DEBUG_V2" "silvairDebugV2" := ⟨by decide +kernel⟩
instance : CamelName "SILVAIR_EL" "silvairEl" := ⟨by decide +kernel⟩
instance : CamelName "SILVAIR_ELT" "silvairElt" := ⟨by decide +kernel⟩
instance : CamelName "SILVAIR_GATEWAY" "silvairGateway" := ⟨by decide +kernel⟩
instance : CamelName "SILVAIR_LEC" "silvairLec" := ⟨by decide +kernel⟩
instance : CamelName "SILVAIR_NDS" "silvairNds" := ⟨by decide +kernel⟩
instance : CamelName "SILVAIR_NDS_SETUP" "silvairNdsSetup" := ⟨by decide +kernel⟩
instance : CamelName "SILVAIR_RRULE_SCHEDULER" "silvairRruleScheduler" := ⟨by decide +kernel⟩
instance : CamelName "STRING" "string" := ⟨by decide +kernel⟩
instance : CamelName "SUBSCRIPTION_GET" "subscriptionGet" := ⟨by decide +kernel⟩
instance : CamelName "SUBSCRIPTION_SET" "subscriptionSet" := ⟨by decide +kernel⟩
instance : CamelName "SUBSCRIPTION_SET_UNACKNOWLEDGED" "subscriptionSetUnacknowledged" := ⟨by decide +kernel⟩
instance : CamelName "SUBSCRIPTION_STATUS" "subscriptionStatus" := ⟨by decide +kernel⟩
instance : CamelName "SYNC_INTEGRAL_STATUS" "syncIntegralStatus" := ⟨by decide +kernel⟩
instance : CamelName "SYSTEM_STATS_GET" "systemStatsGet" := ⟨by decide +kernel⟩
instance : CamelName "SYSTEM_STATS_STATUS" "systemStatsStatus" := ⟨by decide +kernel⟩
instance : CamelName "TAI_UTC_DELTA_GET" "taiUtcDeltaGet" := ⟨by decide +kernel⟩
instance : CamelName "TAI_UTC_DELTA_SET" "taiUtcDeltaSet" := ⟨by decide +kernel⟩
instance : CamelName "TAI_UTC_DELTA_STATUS" "taiUtcDeltaStatus" := ⟨by decide +kernel⟩
instance : CamelName "THERMAL_DERATING" "thermalDerating" := ⟨by decide +kernel⟩
instance : CamelName "TIME_GET" "timeGet" := ⟨by decide +kernel⟩
instance : CamelName "TIME_ROLE_GET" "timeRoleGet" := ⟨by decide +kernel⟩
instance : CamelName "TIME_ROLE_SET" "timeRoleSet" := ⟨by decide +kernel⟩
instance : CamelName "TIME_ROLE_STATUS" "timeRoleStatus" := ⟨by decide +kernel⟩
instance : CamelName "TIME_SET" "timeSet" := ⟨by decide +kernel⟩
instance : CamelName "TIME_SINCE_MOTION_SENSED" "timeSinceMotionSensed" := ⟨by decide +kernel⟩
instance : CamelName "TIME_SINCE_PRESENCE_DETECTED" "timeSincePresenceDetected" := ⟨by decide +kernel⟩
instance : CamelName "TIME_STATUS" "timeStatus" := ⟨by decide +kernel⟩
instance : CamelName "TIME_ZONE_GET" "timeZoneGet" := ⟨by decide +kernel⟩
instance : CamelName "TIME_ZONE_SET" "timeZoneSet" := ⟨by decide +kernel⟩
instance : CamelName "TIME_ZONE_STATUS" "timeZoneStatus" := ⟨by decide +kernel⟩
instance : CamelName "TOTAL_DEVICE_ENERGY_USE" "totalDeviceEnergyUse" := ⟨by decide +kernel⟩
instance : CamelName "TOTAL_DEVICE_OFF_ON_CYCLES" "totalDeviceOffOnCycles" := ⟨by decide +kernel⟩
instance : CamelName "TOTAL_DEVICE_POWER_ON_CYCLES" "totalDevicePowerOnCycles" := ⟨by decide +kernel⟩
instance : CamelName "TOTAL_DEVICE_POWER_ON_TIME" "totalDevicePowerOnTime" := ⟨by decide +kernel⟩
instance : CamelName "TOTAL_DEVICE_RUNTIME" "totalDeviceRuntime" := ⟨by decide +kernel⟩
instance : CamelName "TOTAL_DEVICE_STARTS" "totalDeviceStarts" := ⟨by decide +kernel⟩
instance : CamelName "TOTAL_LIGHT_EXPOSURE_TIME" "totalLightExposureTime" := ⟨by decide +kernel⟩
instance : CamelName "TOTAL_LUMINOUS_ENERGY" "totalLuminousEnergy" := ⟨by decide +kernel⟩
instance : CamelName "TWO_HUNDRED_AND_FIFTY_FIFTH" "twoHundredAndFiftyFifth" := ⟨by decide +kernel⟩
instance : CamelName "UINT16" "uint16" := ⟨by decide +kernel⟩
instance : CamelName "UINT32" "uint32" := ⟨by decide +kernel⟩
instance : CamelName "UINT64" "uint64" := ⟨by decide +kernel⟩
instance : CamelName "UINT8" "uint8" := ⟨by decide +kernel⟩
instance : CamelName "UNTIL" "until" := ⟨by decide +kernel⟩
instance : CamelName "UPTIME_GET" "uptimeGet" := ⟨by decide +kernel⟩
instance : CamelName "UPTIME_STATUS" "uptimeStatus" := ⟨by decide +kernel⟩
instance : CamelName "ZERO" "zero" := ⟨by decide +kernel⟩
instance : CamelName "sensor_setting_raw" "sensorSettingRaw" := ⟨by decide +kernel⟩
end BM.Capnp
