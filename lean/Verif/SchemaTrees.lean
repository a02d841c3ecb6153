import Verif.Schema
/-!
# The constructs of the messages, as the schema generator sees them

Generated by tools/gen_schema_trees.py from the text of bluetooth_mesh/messages/**/*.py; the names are those of capnproto/generator.py:36-57
(`VariableNames`).  `Embedded(s)` inside a `Struct` stands for the members of `s` (construct 2.9.45 merges them when the structure is made);
conditions, lengths and adapters, which the generator does not look at, are left out.
-/
namespace BM.Schema.Trees
open BM.Schema

/-- `Int32ub` of the library construct. -/
def t_Int32ub : Con :=
  .leaf (some "Int32ub") (.format 'L')

/-- messages/config.py:947-950 `ConfigAppKeyAdd`. -/
def t_ConfigAppKeyUpdate : Con :=
  .struct (some "ConfigAppKeyUpdate") [.renamed none "_" (.wrap none (.wrap none (.wrap none (.struct none [.renamed none "app_key_index" (.leaf none (.bits 12 false)), .renamed none "net_key_index" (.leaf none (.bits 12 false))])))), .renamed none "app_key_index" (.wrap none (.renamed none "app_key_index" (.leaf none (.bits 12 false)))), .renamed none "net_key_index" (.wrap none (.renamed none "net_key_index" (.leaf none (.bits 12 false)))), .renamed none "app_key" (.leaf none (.data))]

/-- messages/config.py:954-956 `ConfigAppKeyDelete`. -/
def t_ConfigAppKeyDelete : Con :=
  .struct (some "ConfigAppKeyDelete") [.renamed none "_" (.wrap none (.wrap none (.wrap none (.struct none [.renamed none "app_key_index" (.leaf none (.bits 12 false)), .renamed none "net_key_index" (.leaf none (.bits 12 false))])))), .renamed none "app_key_index" (.wrap none (.renamed none "app_key_index" (.leaf none (.bits 12 false)))), .renamed none "net_key_index" (.wrap none (.renamed none "net_key_index" (.leaf none (.bits 12 false))))]

/-- messages/config.py:963-965 `ConfigAppKeyGet`. -/
def t_ConfigAppKeyGet : Con :=
  .struct (some "ConfigAppKeyGet") [.renamed none "_" (.wrap none (.wrap none (.wrap none (.struct none [.wrap none (.skip (some "Pass")), .renamed none "net_key_index" (.leaf none (.bits 12 false))])))), .renamed none "net_key_index" (.wrap none (.renamed none "net_key_index" (.leaf none (.bits 12 false))))]

/-- `Int8ul` of the library construct. -/
def t_Int8ul : Con :=
  .leaf (some "Int8ul") (.format 'B')

/-- messages/config.py:419 `StatusCodeAdapter`. -/
def t_StatusCodeAdapter : Con :=
  .wrap (some "StatusCodeAdapter") (t_Int8ul)

/-- messages/config.py:713-730 `KeyIndices`. -/
def t_KeyIndices : Con :=
  .wrap (some "KeyIndices") (.many none (.leaf none (.bits 12 false)))

/-- messages/config.py:967-971 `ConfigAppKeyList`. -/
def t_ConfigAppKeyList : Con :=
  .struct (some "ConfigAppKeyList") [.renamed none "status" (t_StatusCodeAdapter), .renamed none "_" (.wrap none (.wrap none (.wrap none (.struct none [.wrap none (.skip (some "Pass")), .renamed none "net_key_index" (.leaf none (.bits 12 false))])))), .renamed none "net_key_index" (.wrap none (.renamed none "net_key_index" (.leaf none (.bits 12 false)))), .renamed none "app_key_indices" (t_KeyIndices)]

/-- messages/config.py:958-961 `ConfigAppKeyStatus`. -/
def t_ConfigAppKeyStatus : Con :=
  .struct (some "ConfigAppKeyStatus") [.renamed none "status" (t_StatusCodeAdapter), .renamed none "_" (.wrap none (.wrap none (.wrap none (.struct none [.renamed none "app_key_index" (.leaf none (.bits 12 false)), .renamed none "net_key_index" (.leaf none (.bits 12 false))])))), .renamed none "app_key_index" (.wrap none (.renamed none "app_key_index" (.leaf none (.bits 12 false)))), .renamed none "net_key_index" (.wrap none (.renamed none "net_key_index" (.leaf none (.bits 12 false))))]

/-- messages/config.py:767 `ConfigBeaconGet`. -/
def t_ConfigBeaconGet : Con :=
  .struct (some "ConfigBeaconGet") []

/-- messages/config.py:409 `SecureNetworkBeaconAdapter`. -/
def t_SecureNetworkBeaconAdapter : Con :=
  .wrap (some "SecureNetworkBeaconAdapter") (t_Int8ul)

/-- messages/config.py:769-771 `ConfigBeaconSet`. -/
def t_ConfigBeaconStatus : Con :=
  .struct (some "ConfigBeaconStatus") [.renamed none "beacon" (t_SecureNetworkBeaconAdapter)]

/-- messages/config.py:783 `CompositionDataPageAdapter`. -/
def t_CompositionDataPageAdapter : Con :=
  .wrap (some "CompositionDataPageAdapter") (t_Int8ul)

/-- messages/config.py:785-787 `ConfigCompositionDataGet`. -/
def t_ConfigCompositionDataGet : Con :=
  .struct (some "ConfigCompositionDataGet") [.renamed none "page" (t_CompositionDataPageAdapter)]

/-- `Int16ul` of the library construct. -/
def t_Int16ul : Con :=
  .leaf (some "Int16ul") (.format 'H')

/-- messages/config.py:415 `GATTNamespaceDescriptorAdapter`. -/
def t_GATTNamespaceDescriptorAdapter : Con :=
  .wrap (some "GATTNamespaceDescriptorAdapter") (t_Int16ul)

/-- messages/config.py:428-430 `SIGModelId`. -/
def t_SIGModelId : Con :=
  .struct (some "SIGModelId") [.renamed none "model_id" (t_Int16ul)]

/-- messages/config.py:432-435 `VendorModelId`. -/
def t_VendorModelId : Con :=
  .struct (some "VendorModelId") [.renamed none "vendor_id" (t_Int16ul), .renamed none "model_id" (t_Int16ul)]

/-- messages/config.py:548-554 `CompositionDataPage0Element`. -/
def t_CompositionDataPage0Element : Con :=
  .struct (some "CompositionDataPage0Element") [.renamed none "location" (t_GATTNamespaceDescriptorAdapter), .renamed none "sig_number" (.wrap none (t_Int8ul)), .renamed none "vendor_number" (.wrap none (t_Int8ul)), .renamed none "sig_models" (.many none (t_SIGModelId)), .renamed none "vendor_models" (.many none (t_VendorModelId))]

/-- messages/config.py:556-563 `CompositionDataPage0`. -/
def t_CompositionDataPage0 : Con :=
  .struct (some "CompositionDataPage0") [.renamed none "cid" (t_Int16ul), .renamed none "pid" (t_Int16ul), .renamed none "vid" (t_Int16ul), .renamed none "crpl" (t_Int16ul), .renamed none "features" (t_Int16ul), .renamed none "elements" (.many none (t_CompositionDataPage0Element))]

/-- messages/config.py:570-573 `ExtendedModelShortFormat`. -/
def t_ExtendedModelShortFormat : Con :=
  .wrap (some "ExtendedModelShortFormat") (.struct none [.renamed none "model_item_index" (.leaf none (.bits 5 false)), .renamed none "element_offset" (.leaf none (.bits 3 true))])

/-- `Int8sl` of the library construct. -/
def t_Int8sl : Con :=
  .leaf (some "Int8sl") (.format 'b')

/-- messages/config.py:565-568 `ExtendedModelLongFormat`. -/
def t_ExtendedModelLongFormat : Con :=
  .struct (some "ExtendedModelLongFormat") [.renamed none "model_item_index" (t_Int8ul), .renamed none "element_offset" (t_Int8sl)]

/-- messages/config.py:581-593 `ModelRelationItem`. -/
def t_ModelRelationItem : Con :=
  .wrap (some "ModelRelationItem") (.struct none [.renamed none "extended_items_count" (.wrap none (.leaf none (.bits 6 false))), .renamed none "format" (.wrap none (.leaf none (.bits 1 false))), .renamed none "corresponding_present" (.leaf none (.bits 1 false)), .renamed none "corresponding_id" (.ifThen none (.bits 8 false)), .renamed none "extended_models_items" (.wrap none (.wrap none (.switch none [("SHORT", .many none (t_ExtendedModelShortFormat)), ("LONG", .many none (t_ExtendedModelLongFormat))] none)))])

/-- messages/config.py:595-600 `CompositionDataPage1Element`. -/
def t_CompositionDataPage1Element : Con :=
  .struct (some "CompositionDataPage1Element") [.renamed none "number_s" (.wrap none (t_Int8ul)), .renamed none "number_v" (.wrap none (t_Int8ul)), .renamed none "sig_models" (.many none (t_ModelRelationItem)), .renamed none "vendor_models" (.many none (t_ModelRelationItem))]

/-- messages/config.py:602-604 `CompositionDataPage1`. -/
def t_CompositionDataPage1 : Con :=
  .struct (some "CompositionDataPage1") [.renamed none "element" (.many none (t_CompositionDataPage1Element))]

/-- messages/config.py:606-610 `Version`. -/
def t_Version : Con :=
  .struct (some "Version") [.renamed none "version_x" (t_Int8ul), .renamed none "version_y" (t_Int8ul), .renamed none "version_z" (t_Int8ul)]

/-- messages/config.py:612-619 `MeshProfileEntry`. -/
def t_MeshProfileEntry : Con :=
  .struct (some "MeshProfileEntry") [.renamed none "mesh_profile_identifier" (t_Int16ul), .renamed none "version" (t_Version), .renamed none "num_element_offsets" (.wrap none (t_Int8ul)), .renamed none "element_offset_list" (.many none (t_Int8ul)), .renamed none "additional_data_len" (.wrap none (t_Int16ul)), .renamed none "additional_data" (.many none (t_Int8ul))]

/-- messages/config.py:621-623 `CompositionDataPage2`. -/
def t_CompositionDataPage2 : Con :=
  .struct (some "CompositionDataPage2") [.renamed none "record_list" (.many none (t_MeshProfileEntry))]

/-- `GreedyBytes` of the library construct. -/
def t_GreedyBytes : Con :=
  .leaf (some "GreedyBytes") (.data)

/-- messages/config.py:789-797 `ConfigCompositionData`. -/
def t_ConfigCompositionData : Con :=
  .switch (some "ConfigCompositionData") [("ZERO", t_CompositionDataPage0), ("FIRST", t_CompositionDataPage1), ("SECOND", t_CompositionDataPage2), ("TWO_HUNDRED_AND_FIFTY_FIFTH", t_GreedyBytes)] none

/-- messages/config.py:799-802 `ConfigCompositionDataStatus`. -/
def t_ConfigCompositionDataStatus : Con :=
  .wrap (some "ConfigCompositionDataStatus") (.struct none [.renamed none "page" (t_CompositionDataPageAdapter), t_ConfigCompositionData])

/-- messages/config.py:804 `ConfigDefaultTTLGet`. -/
def t_ConfigDefaultTTLGet : Con :=
  .struct (some "ConfigDefaultTTLGet") []

/-- messages/config.py:425 `TTL`. -/
def t_TTL : Con :=
  .wrap (some "TTL") (t_Int8ul)

/-- messages/config.py:806-808 `ConfigDefaultTTLSet`. -/
def t_ConfigDefaultTTLStatus : Con :=
  .struct (some "ConfigDefaultTTLStatus") [.renamed none "ttl" (t_TTL)]

/-- messages/config.py:1026 `ConfigFriendGet`. -/
def t_ConfigFriendGet : Con :=
  .struct (some "ConfigFriendGet") []

/-- messages/config.py:423 `FriendAdapter`. -/
def t_FriendAdapter : Con :=
  .wrap (some "FriendAdapter") (t_Int8ul)

/-- messages/config.py:1028-1030 `ConfigFriendSet`. -/
def t_ConfigFriendStatus : Con :=
  .struct (some "ConfigFriendStatus") [.renamed none "friend" (t_FriendAdapter)]

/-- messages/config.py:812 `ConfigGATTProxyGet`. -/
def t_ConfigGATTProxyGet : Con :=
  .struct (some "ConfigGATTProxyGet") []

/-- messages/config.py:411 `GATTProxyAdapter`. -/
def t_GATTProxyAdapter : Con :=
  .wrap (some "GATTProxyAdapter") (t_Int8ul)

/-- messages/config.py:814-816 `ConfigGATTProxySet`. -/
def t_ConfigGATTProxyStatus : Con :=
  .struct (some "ConfigGATTProxyStatus") [.renamed none "GATT_proxy" (t_GATTProxyAdapter)]

/-- messages/config.py:1053 `ConfigHeartbeatPublicationGet`. -/
def t_ConfigHeartbeatPublicationGet : Con :=
  .struct (some "ConfigHeartbeatPublicationGet") []

/-- messages/config.py:536-541 `UnicastUnassignedGroupAddress`. -/
def t_UnicastUnassignedGroupAddress : Con :=
  .wrap (some "UnicastUnassignedGroupAddress") (t_Int16ul)

/-- `Bit` of the library construct. -/
def t_Bit : Con :=
  .leaf (some "Bit") (.bits 1 false)

/-- messages/config.py:1055-1062 `ConfigHeartbeatPublicationSet`. -/
def t_ConfigHeartbeatPublicationSet : Con :=
  .struct (some "ConfigHeartbeatPublicationSet") [.renamed none "destination" (t_UnicastUnassignedGroupAddress), .renamed none "count" (.wrap none (t_Int8ul)), .renamed none "period" (.wrap none (t_Int8ul)), .renamed none "ttl" (t_TTL), .renamed none "features" (.wrap none (.wrap none (.many none (t_Bit)))), .renamed none "_" (.wrap none (.wrap none (.wrap none (.struct none [.wrap none (.skip (some "Pass")), .renamed none "net_key_index" (.leaf none (.bits 12 false))])))), .renamed none "net_key_index" (.wrap none (.renamed none "net_key_index" (.leaf none (.bits 12 false))))]

/-- messages/config.py:1064-1067 `ConfigHeartbeatPublicationStatus`. -/
def t_ConfigHeartbeatPublicationStatus : Con :=
  .struct (some "ConfigHeartbeatPublicationStatus") [.renamed none "status" (t_StatusCodeAdapter), .renamed none "destination" (t_UnicastUnassignedGroupAddress), .renamed none "count" (.wrap none (t_Int8ul)), .renamed none "period" (.wrap none (t_Int8ul)), .renamed none "ttl" (t_TTL), .renamed none "features" (.wrap none (.wrap none (.many none (t_Bit)))), .renamed none "_" (.wrap none (.wrap none (.wrap none (.struct none [.wrap none (.skip (some "Pass")), .renamed none "net_key_index" (.leaf none (.bits 12 false))])))), .renamed none "net_key_index" (.wrap none (.renamed none "net_key_index" (.leaf none (.bits 12 false))))]

/-- messages/config.py:1069 `ConfigHeartbeatSubscriptionGet`. -/
def t_ConfigHeartbeatSubscriptionGet : Con :=
  .struct (some "ConfigHeartbeatSubscriptionGet") []

/-- messages/config.py:530-534 `UnicastUnassignedAddress`. -/
def t_UnicastUnassignedAddress : Con :=
  .wrap (some "UnicastUnassignedAddress") (t_Int16ul)

/-- messages/config.py:1071-1075 `ConfigHeartbeatSubscriptionSet`. -/
def t_ConfigHeartbeatSubscriptionSet : Con :=
  .struct (some "ConfigHeartbeatSubscriptionSet") [.renamed none "source" (t_UnicastUnassignedAddress), .renamed none "destination" (t_UnicastUnassignedGroupAddress), .renamed none "period_log" (.wrap none (t_Int8ul))]

/-- messages/config.py:1077-1083 `ConfigHeartbeatSubscriptionStatus`. -/
def t_ConfigHeartbeatSubscriptionStatus : Con :=
  .struct (some "ConfigHeartbeatSubscriptionStatus") [.renamed none "status" (t_StatusCodeAdapter), .renamed none "source" (t_UnicastUnassignedAddress), .renamed none "destination" (t_UnicastUnassignedGroupAddress), .renamed none "period_log" (.wrap none (t_Int8ul)), .renamed none "count" (.wrap none (t_Int8ul)), .renamed none "min_hops" (.wrap none (t_Int8ul)), .renamed none "max_hops" (.wrap none (t_Int8ul))]

/-- messages/config.py:1034-1036 `ConfigKeyRefreshPhaseGet`. -/
def t_ConfigKeyRefreshPhaseGet : Con :=
  .struct (some "ConfigKeyRefreshPhaseGet") [.renamed none "_" (.wrap none (.wrap none (.wrap none (.struct none [.wrap none (.skip (some "Pass")), .renamed none "net_key_index" (.leaf none (.bits 12 false))])))), .renamed none "net_key_index" (.wrap none (.renamed none "net_key_index" (.leaf none (.bits 12 false))))]

/-- messages/config.py:1038-1041 `ConfigKeyRefreshPhaseSet`. -/
def t_ConfigKeyRefreshPhaseSet : Con :=
  .struct (some "ConfigKeyRefreshPhaseSet") [.renamed none "_" (.wrap none (.wrap none (.wrap none (.struct none [.wrap none (.skip (some "Pass")), .renamed none "net_key_index" (.leaf none (.bits 12 false))])))), .renamed none "net_key_index" (.wrap none (.renamed none "net_key_index" (.leaf none (.bits 12 false)))), .renamed none "transition" (.wrap none (t_Int8ul))]

/-- messages/config.py:1043-1047 `ConfigKeyRefreshPhaseStatus`. -/
def t_ConfigKeyRefreshPhaseStatus : Con :=
  .struct (some "ConfigKeyRefreshPhaseStatus") [.renamed none "status" (t_StatusCodeAdapter), .renamed none "_" (.wrap none (.wrap none (.wrap none (.struct none [.wrap none (.skip (some "Pass")), .renamed none "net_key_index" (.leaf none (.bits 12 false))])))), .renamed none "net_key_index" (.wrap none (.renamed none "net_key_index" (.leaf none (.bits 12 false)))), .renamed none "phase" (.wrap none (t_Int8ul))]

/-- messages/config.py:1085-1087 `ConfigLowPowerNodePollTimeoutGet`. -/
def t_ConfigLowPowerNodePollTimeoutGet : Con :=
  .struct (some "ConfigLowPowerNodePollTimeoutGet") [.renamed none "lpn_address" (t_Int16ul)]

/-- `Int24ul` of the library construct. -/
def t_Int24ul : Con :=
  .leaf (some "Int24ul") (.bytesInt 3 false)

/-- messages/config.py:1089-1092 `ConfigLowPowerNodePollTimeoutStatus`. -/
def t_ConfigLowPowerNodePollTimeoutStatus : Con :=
  .struct (some "ConfigLowPowerNodePollTimeoutStatus") [.renamed none "lpn_address" (t_Int16ul), .renamed none "poll_timeout" (t_Int24ul)]

/-- messages/config.py:496-499 `UnicastAddress`. -/
def t_UnicastAddress : Con :=
  .wrap (some "UnicastAddress") (t_Int16ul)

/-- messages/config.py:437-440 `ModelId`. -/
def t_ModelId : Con :=
  .wrap (some "ModelId") (.select none [.renamed none "vendor" (t_VendorModelId), .renamed none "sig" (t_SIGModelId)])

/-- messages/config.py:987-991 `ConfigModelAppBind`. -/
def t_ConfigModelAppUnbind : Con :=
  .struct (some "ConfigModelAppUnbind") [.renamed none "element_address" (t_UnicastAddress), .renamed none "_" (.wrap none (.wrap none (.wrap none (.struct none [.wrap none (.skip (some "Pass")), .renamed none "app_key_index" (.leaf none (.bits 12 false))])))), .renamed none "app_key_index" (.wrap none (.renamed none "app_key_index" (.leaf none (.bits 12 false)))), .renamed none "model" (t_ModelId)]

/-- messages/config.py:995-998 `ConfigModelAppStatus`. -/
def t_ConfigModelAppStatus : Con :=
  .struct (some "ConfigModelAppStatus") [.renamed none "status" (t_StatusCodeAdapter), .renamed none "element_address" (t_UnicastAddress), .renamed none "_" (.wrap none (.wrap none (.wrap none (.struct none [.wrap none (.skip (some "Pass")), .renamed none "app_key_index" (.leaf none (.bits 12 false))])))), .renamed none "app_key_index" (.wrap none (.renamed none "app_key_index" (.leaf none (.bits 12 false)))), .renamed none "model" (t_ModelId)]

/-- messages/config.py:829-832 `ConfigModelPublicationGet`. -/
def t_ConfigModelPublicationGet : Con :=
  .struct (some "ConfigModelPublicationGet") [.renamed none "element_address" (t_UnicastAddress), .renamed none "model" (t_ModelId)]

/-- messages/config.py:511-514 `NotVirtualLabel`. -/
def t_NotVirtualLabel : Con :=
  .wrap (some "NotVirtualLabel") (t_Int16ul)

/-- `Flag` of the library construct. -/
def t_Flag : Con :=
  .leaf (some "Flag") (.flag)

/-- messages/config.py:417 `PublishFriendshipCredentialsFlagAdapter`. -/
def t_PublishFriendshipCredentialsFlagAdapter : Con :=
  .wrap (some "PublishFriendshipCredentialsFlagAdapter") (t_Flag)

/-- messages/config.py:757-760 `PublishPeriodStepResolutionAdapter`. -/
def t_PublishPeriodStepResolutionAdapter : Con :=
  .wrap (some "PublishPeriodStepResolutionAdapter") (.leaf none (.bits 2 false))

/-- messages/config.py:762-765 `PublishPeriod`. -/
def t_PublishPeriod : Con :=
  .wrap (some "PublishPeriod") (.struct none [.renamed none "step_resolution" (t_PublishPeriodStepResolutionAdapter), .renamed none "number_of_steps" (.leaf none (.bits 6 false))])

/-- messages/config.py:662 `PublishRetransmit`. -/
def t_PublishRetransmit : Con :=
  .wrap (some "PublishRetransmit") (.struct none [.renamed none "count" (t_Int8ul), .renamed none "interval" (t_Int16ul)])

/-- messages/config.py:834-848 `ConfigModelPublicationSet`. -/
def t_ConfigModelPublicationSet : Con :=
  .struct (some "ConfigModelPublicationSet") [.renamed none "element_address" (t_UnicastAddress), .renamed none "publish_address" (t_NotVirtualLabel), .renamed none "_" (.wrap none (.wrap none (.wrap none (.struct none [.renamed none "rfu" (.leaf none (.bits 3 false)), .renamed none "credential_flag" (t_PublishFriendshipCredentialsFlagAdapter), .renamed none "app_key_index" (.leaf none (.bits 12 false))])))), .renamed none "rfu" (.wrap none (.renamed none "rfu" (.leaf none (.bits 3 false)))), .renamed none "credential_flag" (.wrap none (.renamed none "credential_flag" (t_PublishFriendshipCredentialsFlagAdapter))), .renamed none "app_key_index" (.wrap none (.renamed none "app_key_index" (.leaf none (.bits 12 false)))), .renamed none "ttl" (t_TTL), .renamed none "publish_period" (t_PublishPeriod), .renamed none "retransmit" (t_PublishRetransmit), .renamed none "model" (t_ModelId)]

/-- messages/config.py:850-853 `ConfigModelPublicationStatus`. -/
def t_ConfigModelPublicationStatus : Con :=
  .struct (some "ConfigModelPublicationStatus") [.renamed none "status" (t_StatusCodeAdapter), .renamed none "element_address" (t_UnicastAddress), .renamed none "publish_address" (t_NotVirtualLabel), .renamed none "_" (.wrap none (.wrap none (.wrap none (.struct none [.renamed none "rfu" (.leaf none (.bits 3 false)), .renamed none "credential_flag" (t_PublishFriendshipCredentialsFlagAdapter), .renamed none "app_key_index" (.leaf none (.bits 12 false))])))), .renamed none "rfu" (.wrap none (.renamed none "rfu" (.leaf none (.bits 3 false)))), .renamed none "credential_flag" (.wrap none (.renamed none "credential_flag" (t_PublishFriendshipCredentialsFlagAdapter))), .renamed none "app_key_index" (.wrap none (.renamed none "app_key_index" (.leaf none (.bits 12 false)))), .renamed none "ttl" (t_TTL), .renamed none "publish_period" (t_PublishPeriod), .renamed none "retransmit" (t_PublishRetransmit), .renamed none "model" (t_ModelId)]

/-- messages/config.py:855-869 `ConfigModelPublicationVASet`. -/
def t_ConfigModelPublicationVASet : Con :=
  .struct (some "ConfigModelPublicationVASet") [.renamed none "element_address" (t_UnicastAddress), .renamed none "publish_address" (.leaf none (.data)), .renamed none "_" (.wrap none (.wrap none (.wrap none (.struct none [.renamed none "rfu" (.leaf none (.bits 3 false)), .renamed none "credential_flag" (t_PublishFriendshipCredentialsFlagAdapter), .renamed none "app_key_index" (.leaf none (.bits 12 false))])))), .renamed none "rfu" (.wrap none (.renamed none "rfu" (.leaf none (.bits 3 false)))), .renamed none "credential_flag" (.wrap none (.renamed none "credential_flag" (t_PublishFriendshipCredentialsFlagAdapter))), .renamed none "app_key_index" (.wrap none (.renamed none "app_key_index" (.leaf none (.bits 12 false)))), .renamed none "ttl" (t_TTL), .renamed none "publish_period" (t_PublishPeriod), .renamed none "retransmit" (t_PublishRetransmit), .renamed none "model" (t_ModelId)]

/-- messages/config.py:516-522 `SubscriptionAddress`. -/
def t_SubscriptionAddress : Con :=
  .wrap (some "SubscriptionAddress") (t_Int16ul)

/-- messages/config.py:871-875 `ConfigModelSubscriptionAdd`. -/
def t_ConfigModelSubscriptionOverwrite : Con :=
  .struct (some "ConfigModelSubscriptionOverwrite") [.renamed none "element_address" (t_UnicastAddress), .renamed none "address" (t_SubscriptionAddress), .renamed none "model" (t_ModelId)]

/-- messages/config.py:896-899 `ConfigModelSubscriptionDeleteAll`. -/
def t_ConfigModelSubscriptionDeleteAll : Con :=
  .struct (some "ConfigModelSubscriptionDeleteAll") [.renamed none "element_address" (t_UnicastAddress), .renamed none "model" (t_ModelId)]

/-- messages/config.py:524-528 `StatusSubscriptionAddress`. -/
def t_StatusSubscriptionAddress : Con :=
  .wrap (some "StatusSubscriptionAddress") (t_Int16ul)

/-- messages/config.py:889-894 `ConfigModelSubscriptionStatus`. -/
def t_ConfigModelSubscriptionStatus : Con :=
  .struct (some "ConfigModelSubscriptionStatus") [.renamed none "status" (t_StatusCodeAdapter), .renamed none "element_address" (t_UnicastAddress), .renamed none "address" (t_StatusSubscriptionAddress), .renamed none "model" (t_ModelId)]

/-- messages/config.py:880-884 `ConfigModelSubscriptionVAAdd`. -/
def t_ConfigModelSubscriptionVAOverwrite : Con :=
  .struct (some "ConfigModelSubscriptionVAOverwrite") [.renamed none "element_address" (t_UnicastAddress), .renamed none "label" (.leaf none (.data)), .renamed none "model" (t_ModelId)]

/-- messages/config.py:925-928 `ConfigNetKeyAdd`. -/
def t_ConfigNetKeyUpdate : Con :=
  .struct (some "ConfigNetKeyUpdate") [.renamed none "_" (.wrap none (.wrap none (.wrap none (.struct none [.wrap none (.skip (some "Pass")), .renamed none "net_key_index" (.leaf none (.bits 12 false))])))), .renamed none "net_key_index" (.wrap none (.renamed none "net_key_index" (.leaf none (.bits 12 false)))), .renamed none "net_key" (.leaf none (.data))]

/-- messages/config.py:932-934 `ConfigNetKeyDelete`. -/
def t_ConfigNetKeyDelete : Con :=
  .struct (some "ConfigNetKeyDelete") [.renamed none "_" (.wrap none (.wrap none (.wrap none (.struct none [.wrap none (.skip (some "Pass")), .renamed none "net_key_index" (.leaf none (.bits 12 false))])))), .renamed none "net_key_index" (.wrap none (.renamed none "net_key_index" (.leaf none (.bits 12 false))))]

/-- messages/config.py:941 `ConfigNetKeyGet`. -/
def t_ConfigNetKeyGet : Con :=
  .struct (some "ConfigNetKeyGet") []

/-- messages/config.py:943-945 `ConfigNetKeyList`. -/
def t_ConfigNetKeyList : Con :=
  .struct (some "ConfigNetKeyList") [.renamed none "net_key_indices" (t_KeyIndices)]

/-- messages/config.py:936-939 `ConfigNetKeyStatus`. -/
def t_ConfigNetKeyStatus : Con :=
  .struct (some "ConfigNetKeyStatus") [.renamed none "status" (t_StatusCodeAdapter), .renamed none "_" (.wrap none (.wrap none (.wrap none (.struct none [.wrap none (.skip (some "Pass")), .renamed none "net_key_index" (.leaf none (.bits 12 false))])))), .renamed none "net_key_index" (.wrap none (.renamed none "net_key_index" (.leaf none (.bits 12 false))))]

/-- messages/config.py:1094 `ConfigNetworkTransmitGet`. -/
def t_ConfigNetworkTransmitGet : Con :=
  .struct (some "ConfigNetworkTransmitGet") []

/-- messages/config.py:658 `NetworkRetransmit`. -/
def t_ConfigNetworkTransmitStatus : Con :=
  .wrap (some "ConfigNetworkTransmitStatus") (.struct none [.renamed none "count" (t_Int8ul), .renamed none "interval" (t_Int16ul)])

/-- messages/config.py:973-975 `ConfigNodeIdentityGet`. -/
def t_ConfigNodeIdentityGet : Con :=
  .struct (some "ConfigNodeIdentityGet") [.renamed none "_" (.wrap none (.wrap none (.wrap none (.struct none [.wrap none (.skip (some "Pass")), .renamed none "net_key_index" (.leaf none (.bits 12 false))])))), .renamed none "net_key_index" (.wrap none (.renamed none "net_key_index" (.leaf none (.bits 12 false))))]

/-- messages/config.py:421 `NodeIdentityAdapter`. -/
def t_NodeIdentityAdapter : Con :=
  .wrap (some "NodeIdentityAdapter") (t_Int8ul)

/-- messages/config.py:977-980 `ConfigNodeIdentitySet`. -/
def t_ConfigNodeIdentitySet : Con :=
  .struct (some "ConfigNodeIdentitySet") [.renamed none "_" (.wrap none (.wrap none (.wrap none (.struct none [.wrap none (.skip (some "Pass")), .renamed none "net_key_index" (.leaf none (.bits 12 false))])))), .renamed none "net_key_index" (.wrap none (.renamed none "net_key_index" (.leaf none (.bits 12 false)))), .renamed none "identity" (t_NodeIdentityAdapter)]

/-- messages/config.py:982-985 `ConfigNodeIdentityStatus`. -/
def t_ConfigNodeIdentityStatus : Con :=
  .struct (some "ConfigNodeIdentityStatus") [.renamed none "status" (t_StatusCodeAdapter), .renamed none "_" (.wrap none (.wrap none (.wrap none (.struct none [.wrap none (.skip (some "Pass")), .renamed none "net_key_index" (.leaf none (.bits 12 false))])))), .renamed none "net_key_index" (.wrap none (.renamed none "net_key_index" (.leaf none (.bits 12 false)))), .renamed none "identity" (t_NodeIdentityAdapter)]

/-- messages/config.py:1022 `ConfigNodeReset`. -/
def t_ConfigNodeReset : Con :=
  .struct (some "ConfigNodeReset") []

/-- messages/config.py:1024 `ConfigNodeResetStatus`. -/
def t_ConfigNodeResetStatus : Con :=
  .struct (some "ConfigNodeResetStatus") []

/-- messages/config.py:820 `ConfigRelayGet`. -/
def t_ConfigRelayGet : Con :=
  .struct (some "ConfigRelayGet") []

/-- messages/config.py:413 `RelayAdapter`. -/
def t_RelayAdapter : Con :=
  .wrap (some "RelayAdapter") (t_Int8ul)

/-- messages/config.py:822-825 `ConfigRelaySet`. -/
def t_ConfigRelayStatus : Con :=
  .struct (some "ConfigRelayStatus") [.renamed none "relay" (t_RelayAdapter), .renamed none "retransmit" (t_ConfigNetworkTransmitStatus)]

/-- messages/config.py:1000-1003 `ConfigSIGModelAppGet`. -/
def t_ConfigSIGModelAppGet : Con :=
  .struct (some "ConfigSIGModelAppGet") [.renamed none "element_address" (t_UnicastAddress), .renamed none "model" (t_SIGModelId)]

/-- messages/config.py:1005-1009 `ConfigSIGModelAppList`. -/
def t_ConfigSIGModelAppList : Con :=
  .struct (some "ConfigSIGModelAppList") [.renamed none "status" (t_StatusCodeAdapter), .renamed none "element_address" (t_UnicastAddress), .renamed none "model" (t_SIGModelId), .renamed none "app key indices" (t_KeyIndices)]

/-- messages/config.py:901-904 `ConfigSIGModelSubscriptionGet`. -/
def t_ConfigSIGModelSubscriptionGet : Con :=
  .struct (some "ConfigSIGModelSubscriptionGet") [.renamed none "element_address" (t_UnicastAddress), .renamed none "model" (t_SIGModelId)]

/-- messages/config.py:906-911 `ConfigSIGModelSubscriptionList`. -/
def t_ConfigSIGModelSubscriptionList : Con :=
  .struct (some "ConfigSIGModelSubscriptionList") [.renamed none "status" (t_StatusCodeAdapter), .renamed none "element_address" (t_UnicastAddress), .renamed none "model" (t_SIGModelId), .renamed none "addresses" (.many none (t_Int16ul))]

/-- messages/config.py:1011-1014 `ConfigVendorModelAppGet`. -/
def t_ConfigVendorModelAppGet : Con :=
  .struct (some "ConfigVendorModelAppGet") [.renamed none "element_address" (t_UnicastAddress), .renamed none "model" (t_VendorModelId)]

/-- messages/config.py:1016-1020 `ConfigVendorModelAppList`. -/
def t_ConfigVendorModelAppList : Con :=
  .struct (some "ConfigVendorModelAppList") [.renamed none "status" (t_StatusCodeAdapter), .renamed none "element_address" (t_UnicastAddress), .renamed none "model" (t_VendorModelId), .renamed none "app_key_indices" (t_KeyIndices)]

/-- messages/config.py:913-916 `ConfigVendorModelSubscriptionGet`. -/
def t_ConfigVendorModelSubscriptionGet : Con :=
  .struct (some "ConfigVendorModelSubscriptionGet") [.renamed none "element_address" (t_UnicastAddress), .renamed none "model" (t_VendorModelId)]

/-- messages/config.py:918-923 `ConfigVendorModelSubscriptionList`. -/
def t_ConfigVendorModelSubscriptionList : Con :=
  .struct (some "ConfigVendorModelSubscriptionList") [.renamed none "status" (t_StatusCodeAdapter), .renamed none "element_address" (t_UnicastAddress), .renamed none "model" (t_VendorModelId), .renamed none "addresses" (.many none (t_Int16ul))]

/-- messages/config.py:1177-1255 `ConfigMessage`. -/
def t_ConfigMessage : Con :=
  .wrap (some "ConfigMessage") (.struct none [.renamed none "opcode" (.wrap none (t_Int32ub)), .switch none [("CONFIG_APPKEY_ADD", t_ConfigAppKeyUpdate), ("CONFIG_APPKEY_DELETE", t_ConfigAppKeyDelete), ("CONFIG_APPKEY_GET", t_ConfigAppKeyGet), ("CONFIG_APPKEY_LIST", t_ConfigAppKeyList), ("CONFIG_APPKEY_STATUS", t_ConfigAppKeyStatus), ("CONFIG_APPKEY_UPDATE", t_ConfigAppKeyUpdate), ("CONFIG_BEACON_GET", t_ConfigBeaconGet), ("CONFIG_BEACON_SET", t_ConfigBeaconStatus), ("CONFIG_BEACON_STATUS", t_ConfigBeaconStatus), ("CONFIG_COMPOSITION_DATA_GET", t_ConfigCompositionDataGet), ("CONFIG_COMPOSITION_DATA_STATUS", t_ConfigCompositionDataStatus), ("CONFIG_DEFAULT_TTL_GET", t_ConfigDefaultTTLGet), ("CONFIG_DEFAULT_TTL_SET", t_ConfigDefaultTTLStatus), ("CONFIG_DEFAULT_TTL_STATUS", t_ConfigDefaultTTLStatus), ("CONFIG_FRIEND_GET", t_ConfigFriendGet), ("CONFIG_FRIEND_SET", t_ConfigFriendStatus), ("CONFIG_FRIEND_STATUS", t_ConfigFriendStatus), ("CONFIG_GATT_PROXY_GET", t_ConfigGATTProxyGet), ("CONFIG_GATT_PROXY_SET", t_ConfigGATTProxyStatus), ("CONFIG_GATT_PROXY_STATUS", t_ConfigGATTProxyStatus), ("CONFIG_HEARBEAT_PUBLICATION_GET", t_ConfigHeartbeatPublicationGet), ("CONFIG_HEARBEAT_PUBLICATION_SET", t_ConfigHeartbeatPublicationSet), ("CONFIG_HEARBEAT_PUBLICATION_STATUS", t_ConfigHeartbeatPublicationStatus), ("CONFIG_HEARBEAT_SUBSCRIPTION_GET", t_ConfigHeartbeatSubscriptionGet), ("CONFIG_HEARBEAT_SUBSCRIPTION_SET", t_ConfigHeartbeatSubscriptionSet), ("CONFIG_HEARBEAT_SUBSCRIPTION_STATUS", t_ConfigHeartbeatSubscriptionStatus), ("CONFIG_KEY_REFRESH_PHASE_GET", t_ConfigKeyRefreshPhaseGet), ("CONFIG_KEY_REFRESH_PHASE_SET", t_ConfigKeyRefreshPhaseSet), ("CONFIG_KEY_REFRESH_PHASE_STATUS", t_ConfigKeyRefreshPhaseStatus), ("CONFIG_LOW_POWER_NODE_POLL_TIMEOUT_GET", t_ConfigLowPowerNodePollTimeoutGet), ("CONFIG_LOW_POWER_NODE_POLL_TIMEOUT_STATUS", t_ConfigLowPowerNodePollTimeoutStatus), ("CONFIG_MODEL_APP_BIND", t_ConfigModelAppUnbind), ("CONFIG_MODEL_APP_STATUS", t_ConfigModelAppStatus), ("CONFIG_MODEL_APP_UNBIND", t_ConfigModelAppUnbind), ("CONFIG_MODEL_PUBLICATION_GET", t_ConfigModelPublicationGet), ("CONFIG_MODEL_PUBLICATION_SET", t_ConfigModelPublicationSet), ("CONFIG_MODEL_PUBLICATION_STATUS", t_ConfigModelPublicationStatus), ("CONFIG_MODEL_PUBLICATION_VIRTUAL_ADDRESS_SET", t_ConfigModelPublicationVASet), ("CONFIG_MODEL_SUBSCRIPTION_ADD", t_ConfigModelSubscriptionOverwrite), ("CONFIG_MODEL_SUBSCRIPTION_DELETE", t_ConfigModelSubscriptionOverwrite), ("CONFIG_MODEL_SUBSCRIPTION_DELETE_ALL", t_ConfigModelSubscriptionDeleteAll), ("CONFIG_MODEL_SUBSCRIPTION_OVERWRITE", t_ConfigModelSubscriptionOverwrite), ("CONFIG_MODEL_SUBSCRIPTION_STATUS", t_ConfigModelSubscriptionStatus), ("CONFIG_MODEL_SUBSCRIPTION_VIRTUAL_ADDRESS_ADD", t_ConfigModelSubscriptionVAOverwrite), ("CONFIG_MODEL_SUBSCRIPTION_VIRTUAL_ADDRESS_DELETE", t_ConfigModelSubscriptionVAOverwrite), ("CONFIG_MODEL_SUBSCRIPTION_VIRTUAL_ADDRESS_OVERWRITE", t_ConfigModelSubscriptionVAOverwrite), ("CONFIG_NETKEY_ADD", t_ConfigNetKeyUpdate), ("CONFIG_NETKEY_DELETE", t_ConfigNetKeyDelete), ("CONFIG_NETKEY_GET", t_ConfigNetKeyGet), ("CONFIG_NETKEY_LIST", t_ConfigNetKeyList), ("CONFIG_NETKEY_STATUS", t_ConfigNetKeyStatus), ("CONFIG_NETKEY_UPDATE", t_ConfigNetKeyUpdate), ("CONFIG_NETWORK_TRANSMIT_GET", t_ConfigNetworkTransmitGet), ("CONFIG_NETWORK_TRANSMIT_SET", t_ConfigNetworkTransmitStatus), ("CONFIG_NETWORK_TRANSMIT_STATUS", t_ConfigNetworkTransmitStatus), ("CONFIG_NODE_IDENTITY_GET", t_ConfigNodeIdentityGet), ("CONFIG_NODE_IDENTITY_SET", t_ConfigNodeIdentitySet), ("CONFIG_NODE_IDENTITY_STATUS", t_ConfigNodeIdentityStatus), ("CONFIG_NODE_RESET", t_ConfigNodeReset), ("CONFIG_NODE_RESET_STATUS", t_ConfigNodeResetStatus), ("CONFIG_RELAY_GET", t_ConfigRelayGet), ("CONFIG_RELAY_SET", t_ConfigRelayStatus), ("CONFIG_RELAY_STATUS", t_ConfigRelayStatus), ("CONFIG_SIG_MODEL_APP_GET", t_ConfigSIGModelAppGet), ("CONFIG_SIG_MODEL_APP_LIST", t_ConfigSIGModelAppList), ("CONFIG_SIG_MODEL_SUBSCRIPTION_GET", t_ConfigSIGModelSubscriptionGet), ("CONFIG_SIG_MODEL_SUBSCRIPTION_LIST", t_ConfigSIGModelSubscriptionList), ("CONFIG_VENDOR_MODEL_APP_GET", t_ConfigVendorModelAppGet), ("CONFIG_VENDOR_MODEL_APP_LIST", t_ConfigVendorModelAppList), ("CONFIG_VENDOR_MODEL_SUBSCRIPTION_GET", t_ConfigVendorModelSubscriptionGet), ("CONFIG_VENDOR_MODEL_SUBSCRIPTION_LIST", t_ConfigVendorModelSubscriptionList)] none])

/-- messages/silvair/debug.py:83 `RssiThresholdGet`. -/
def t_RssiThresholdGet : Con :=
  .struct (some "RssiThresholdGet") []

/-- messages/silvair/debug.py:85-87 `RssiThreshold`. -/
def t_RssiThreshold : Con :=
  .struct (some "RssiThreshold") [.renamed none "rssi_threshold" (t_Int8ul)]

/-- messages/silvair/debug.py:89-91 `RadioTest`. -/
def t_RadioTest : Con :=
  .struct (some "RadioTest") [.renamed none "packet_counter" (t_Int8ul)]

/-- messages/silvair/debug.py:93 `UptimeGet`. -/
def t_UptimeGet : Con :=
  .struct (some "UptimeGet") []

/-- `Int32ul` of the library construct. -/
def t_Int32ul : Con :=
  .leaf (some "Int32ul") (.format 'L')

/-- messages/silvair/debug.py:95-97 `UptimeStatus`. -/
def t_UptimeStatus : Con :=
  .struct (some "UptimeStatus") [.renamed none "uptime" (t_Int32ul)]

/-- messages/silvair/debug.py:99 `LastSwFaultGet`. -/
def t_LastSwFaultGet : Con :=
  .struct (some "LastSwFaultGet") []

/-- messages/silvair/debug.py:101 `LastSwFaultClear`. -/
def t_LastSwFaultClear : Con :=
  .struct (some "LastSwFaultClear") []

/-- messages/silvair/debug.py:103-106 `LastSwFaultStatus`. -/
def t_LastFdsFaultStatus : Con :=
  .struct (some "LastFdsFaultStatus") [.renamed none "time" (t_Int32ul), .renamed none "fault" (.text none)]

/-- messages/silvair/debug.py:108 `SystemStatsGet`. -/
def t_SystemStatsGet : Con :=
  .struct (some "SystemStatsGet") []

/-- messages/silvair/debug.py:110-114 `SystemStat`. -/
def t_SystemStat : Con :=
  .struct (some "SystemStat") [.renamed none "name" (.text none), .renamed none "high_water_mark" (t_Int32ul), .renamed none "_rfu" (.wrap none (.skip (some "Pass")))]

/-- messages/silvair/debug.py:116-118 `SystemStatsStatus`. -/
def t_SystemStatsStatus : Con :=
  .struct (some "SystemStatsStatus") [.renamed none "stats" (.many none (t_SystemStat))]

/-- messages/silvair/debug.py:120 `LastMallocFaultGet`. -/
def t_LastMallocFaultGet : Con :=
  .struct (some "LastMallocFaultGet") []

/-- messages/silvair/debug.py:122 `LastMallocFaultClear`. -/
def t_LastMallocFaultClear : Con :=
  .struct (some "LastMallocFaultClear") []

/-- messages/silvair/debug.py:126 `LastFdsFaultGet`. -/
def t_LastFdsFaultGet : Con :=
  .struct (some "LastFdsFaultGet") []

/-- messages/silvair/debug.py:128 `LastFdsFaultClear`. -/
def t_LastFdsFaultClear : Con :=
  .struct (some "LastFdsFaultClear") []

/-- messages/silvair/debug.py:132 `BytesBeforeGarbageCollectorGet`. -/
def t_BytesBeforeGarbageCollectorGet : Con :=
  .struct (some "BytesBeforeGarbageCollectorGet") []

/-- messages/silvair/debug.py:134-136 `BytesBeforeGarbageCollectorStatus`. -/
def t_BytesBeforeGarbageCollectorStatus : Con :=
  .struct (some "BytesBeforeGarbageCollectorStatus") [.renamed none "bytes_left" (t_Int16ul)]

/-- messages/silvair/debug.py:138 `ProvisionedAppVersionGet`. -/
def t_ProvisionedAppVersionGet : Con :=
  .struct (some "ProvisionedAppVersionGet") []

/-- messages/silvair/debug.py:140-142 `ProvisionedAppVersionStatus`. -/
def t_ProvisionedAppVersionStatus : Con :=
  .struct (some "ProvisionedAppVersionStatus") [.renamed none "version" (t_Int16ul)]

/-- messages/silvair/debug.py:144 `FullFirmwareVersionGet`. -/
def t_FullFirmwareVersionGet : Con :=
  .struct (some "FullFirmwareVersionGet") []

/-- messages/silvair/debug.py:146-148 `FullFirmwareVersionStatus`. -/
def t_FullFirmwareVersionStatus : Con :=
  .struct (some "FullFirmwareVersionStatus") [.renamed none "version" (.text none)]

/-- messages/silvair/debug.py:150 `IvIndexGet`. -/
def t_IvIndexGet : Con :=
  .struct (some "IvIndexGet") []

/-- messages/silvair/debug.py:152-154 `IvIndexStatus`. -/
def t_IvIndexStatus : Con :=
  .struct (some "IvIndexStatus") [.renamed none "ivindex" (t_Int32ul)]

/-- messages/silvair/debug.py:156 `GarbageCollectorCounterGet`. -/
def t_GarbageCollectorCounterGet : Con :=
  .struct (some "GarbageCollectorCounterGet") []

/-- messages/silvair/debug.py:158-160 `GarbageCollectorCounterStatus`. -/
def t_GarbageCollectorCounterStatus : Con :=
  .struct (some "GarbageCollectorCounterStatus") [.renamed none "counter" (t_Int16ul)]

/-- messages/silvair/debug.py:172 `ArapListSizeGet`. -/
def t_ArapListSizeGet : Con :=
  .struct (some "ArapListSizeGet") []

/-- messages/silvair/debug.py:162-165 `ArapSize16`. -/
def t_ArapSize16 : Con :=
  .struct (some "ArapSize16") [.renamed none "capacity" (t_Int16ul), .renamed none "size" (t_Int16ul)]

/-- messages/silvair/debug.py:167-170 `ArapSize8`. -/
def t_ArapSize8 : Con :=
  .struct (some "ArapSize8") [.renamed none "capacity" (t_Int8ul), .renamed none "size" (t_Int8ul)]

/-- messages/silvair/debug.py:174-177 `ArapListSizeStatus`. -/
def t_ArapListSizeStatus : Con :=
  .wrap (some "ArapListSizeStatus") (.select none [.renamed none "new" (t_ArapSize16), .renamed none "old" (t_ArapSize8)])

/-- messages/silvair/debug.py:179-181 `ArapListContentGet`. -/
def t_ArapListContentGet : Con :=
  .struct (some "ArapListContentGet") [.renamed none "page" (t_Int8ul)]

/-- `Int24ub` of the library construct. -/
def t_Int24ub : Con :=
  .leaf (some "Int24ub") (.bytesInt 3 false)

/-- messages/silvair/debug.py:183-189 `ArapNode`. -/
def t_ArapNode : Con :=
  .wrap (some "ArapNode") (.wrap none (.struct none [.renamed none "sequence" (.wrap none (t_Int24ub)), .renamed none "ivi" (.leaf none (.bits 1 false)), .renamed none "address" (.leaf none (.bits 15 false))]))

/-- messages/silvair/debug.py:191-195 `ArapListContentStatus`. -/
def t_ArapListContentStatus : Con :=
  .struct (some "ArapListContentStatus") [.renamed none "current_page" (t_Int8ul), .renamed none "last_page" (t_Int8ul), .renamed none "nodes" (.many none (t_ArapNode))]

/-- messages/silvair/debug.py:197-235 `DebugParams`. -/
def t_DebugParams : Con :=
  .wrap (some "DebugParams") (.struct none [.renamed none "subopcode" (.wrap none (t_Int8ul)), .switch none [("RSSI_THRESHOLD_GET", t_RssiThresholdGet), ("RSSI_THRESHOLD_SET", t_RssiThreshold), ("RSSI_THRESHOLD_STATUS", t_RssiThreshold), ("RADIO_TEST", t_RadioTest), ("UPTIME_GET", t_UptimeGet), ("UPTIME_STATUS", t_UptimeStatus), ("LAST_SW_FAULT_GET", t_LastSwFaultGet), ("LAST_SW_FAULT_CLEAR", t_LastSwFaultClear), ("LAST_SW_FAULT_STATUS", t_LastFdsFaultStatus), ("SYSTEM_STATS_GET", t_SystemStatsGet), ("SYSTEM_STATS_STATUS", t_SystemStatsStatus), ("LAST_MALLOC_FAULT_GET", t_LastMallocFaultGet), ("LAST_MALLOC_FAULT_CLEAR", t_LastMallocFaultClear), ("LAST_MALLOC_FAULT_STATUS", t_LastFdsFaultStatus), ("LAST_FDS_FAULT_GET", t_LastFdsFaultGet), ("LAST_FDS_FAULT_CLEAR", t_LastFdsFaultClear), ("LAST_FDS_FAULT_STATUS", t_LastFdsFaultStatus), ("BYTES_BEFORE_GARBAGE_COLLECTOR_GET", t_BytesBeforeGarbageCollectorGet), ("BYTES_BEFORE_GARBAGE_COLLECTOR_STATUS", t_BytesBeforeGarbageCollectorStatus), ("PROVISIONED_APP_VERSION_GET", t_ProvisionedAppVersionGet), ("PROVISIONED_APP_VERSION_STATUS", t_ProvisionedAppVersionStatus), ("FULL_FIRMWARE_VERSION_GET", t_FullFirmwareVersionGet), ("FULL_FIRMWARE_VERSION_STATUS", t_FullFirmwareVersionStatus), ("IV_INDEX_GET", t_IvIndexGet), ("IV_INDEX_STATUS", t_IvIndexStatus), ("GARBAGE_COLLECTOR_COUNTER_GET", t_GarbageCollectorCounterGet), ("GARBAGE_COLLECTOR_COUNTER_STATUS", t_GarbageCollectorCounterStatus), ("ARAP_LIST_SIZE_GET", t_ArapListSizeGet), ("ARAP_LIST_SIZE_STATUS", t_ArapListSizeStatus), ("ARAP_LIST_CONTENT_GET", t_ArapListContentGet), ("ARAP_LIST_CONTENT_STATUS", t_ArapListContentStatus)] none])

/-- messages/silvair/debug.py:237-245 `DebugMessage`. -/
def t_DebugMessage : Con :=
  .wrap (some "DebugMessage") (.struct none [.renamed none "opcode" (.wrap none (t_Int32ub)), .switch none [("SILVAIR_DEBUG", t_DebugParams)] none])

/-- messages/silvair/gateway_config_server.py:178-183 `ConfigurationSetWithOptionalDhcpDisabled`. -/
def t_ConfigurationSetWithOptionalDhcpDisabled : Con :=
  .struct (some "ConfigurationSetWithOptionalDhcpDisabled") [.renamed none "mtu_size" (t_Int16ul), .renamed none "mac_address" (.wrap none (.leaf none (.data))), .renamed none "server_port_number" (t_Int16ul), .renamed none "reconnect_interval" (t_Int16ul), .renamed none "server_address_length" (t_Int8ul), .renamed none "server_address" (.text none), .renamed none "dns_ip_address" (.wrap none (.leaf none (.data))), .renamed none "ip_address" (.wrap none (.leaf none (.data))), .renamed none "gateway_ip_address" (.wrap none (.leaf none (.data))), .renamed none "netmask" (t_Int8ul)]

/-- messages/silvair/gateway_config_server.py:173-176 `ConfigurationSetWithOptionalDhcpEnabledWithStaticDns`. -/
def t_ConfigurationSetWithOptionalDhcpEnabledWithStaticDns : Con :=
  .struct (some "ConfigurationSetWithOptionalDhcpEnabledWithStaticDns") [.renamed none "mtu_size" (t_Int16ul), .renamed none "mac_address" (.wrap none (.leaf none (.data))), .renamed none "server_port_number" (t_Int16ul), .renamed none "reconnect_interval" (t_Int16ul), .renamed none "server_address_length" (t_Int8ul), .renamed none "server_address" (.text none), .renamed none "dns_ip_address" (.wrap none (.leaf none (.data)))]

/-- messages/silvair/gateway_config_server.py:164-171 `ConfigurationSetWithoutOptionalAutoDhcpEnabled`. -/
def t_ConfigurationSetWithoutOptionalAutoDhcpEnabled : Con :=
  .struct (some "ConfigurationSetWithoutOptionalAutoDhcpEnabled") [.renamed none "mtu_size" (t_Int16ul), .renamed none "mac_address" (.wrap none (.leaf none (.data))), .renamed none "server_port_number" (t_Int16ul), .renamed none "reconnect_interval" (t_Int16ul), .renamed none "server_address_length" (t_Int8ul), .renamed none "server_address" (.text none)]

/-- messages/silvair/gateway_config_server.py:185-189 `ConfigurationSet`. -/
def t_ConfigurationSet : Con :=
  .select (some "ConfigurationSet") [.renamed none "static" (t_ConfigurationSetWithOptionalDhcpDisabled), .renamed none "dns" (t_ConfigurationSetWithOptionalDhcpEnabledWithStaticDns), .renamed none "minimal" (t_ConfigurationSetWithoutOptionalAutoDhcpEnabled)]

/-- messages/silvair/gateway_config_server.py:130-132 `ConfigurationSetMtu`. -/
def t_ConfigurationSetMtu : Con :=
  .struct (some "ConfigurationSetMtu") [.renamed none "mtu_size" (t_Int16ul)]

/-- messages/silvair/gateway_config_server.py:134-136 `ConfigurationSetMacAddr`. -/
def t_ConfigurationSetMacAddr : Con :=
  .struct (some "ConfigurationSetMacAddr") [.renamed none "mac_address" (.wrap none (.leaf none (.data)))]

/-- messages/silvair/gateway_config_server.py:138-142 `ConfigurationSetServerAddrAndPortNr`. -/
def t_ConfigurationSetServerAddrAndPortNr : Con :=
  .struct (some "ConfigurationSetServerAddrAndPortNr") [.renamed none "server_port_number" (t_Int16ul), .renamed none "server_address_length" (t_Int8ul), .renamed none "server_address" (.text none)]

/-- messages/silvair/gateway_config_server.py:144-146 `ConfigurationSetReconnectInterval`. -/
def t_ConfigurationSetReconnectInterval : Con :=
  .struct (some "ConfigurationSetReconnectInterval") [.renamed none "reconnect_interval" (t_Int16ul)]

/-- messages/silvair/gateway_config_server.py:148-150 `ConfigurationSetDnsIpAddr`. -/
def t_ConfigurationSetDnsIpAddr : Con :=
  .struct (some "ConfigurationSetDnsIpAddr") [.renamed none "dns_ip_address" (.wrap none (.leaf none (.data)))]

/-- messages/silvair/gateway_config_server.py:152-154 `ConfigurationSetIpAddr`. -/
def t_ConfigurationSetIpAddr : Con :=
  .struct (some "ConfigurationSetIpAddr") [.renamed none "ip_address" (.wrap none (.leaf none (.data)))]

/-- messages/silvair/gateway_config_server.py:156-158 `ConfigurationSetGatewayIpAddr`. -/
def t_ConfigurationSetGatewayIpAddr : Con :=
  .struct (some "ConfigurationSetGatewayIpAddr") [.renamed none "gateway_ip_address" (.wrap none (.leaf none (.data)))]

/-- messages/silvair/gateway_config_server.py:160-162 `ConfigurationSetNetmask`. -/
def t_ConfigurationSetNetmask : Con :=
  .struct (some "ConfigurationSetNetmask") [.renamed none "netmask" (t_Int8ul)]

/-- messages/silvair/gateway_config_server.py:191-196 `ConfigurationStatus`. -/
def t_ConfigurationStatus : Con :=
  .struct (some "ConfigurationStatus") [.renamed none "chip_revision_id" (t_Int8ul), .renamed none "mtu_size" (t_Int16ul), .renamed none "mac_address" (.wrap none (.leaf none (.data))), .renamed none "server_port_number" (t_Int16ul), .renamed none "reconnect_interval" (t_Int16ul), .renamed none "server_address_length" (t_Int8ul), .renamed none "server_address" (.text none), .renamed none "dns_ip_address" (.wrap none (.leaf none (.data))), .renamed none "ip_address" (.wrap none (.leaf none (.data))), .renamed none "gateway_ip_address" (.wrap none (.leaf none (.data))), .renamed none "netmask" (t_Int8ul), .renamed none "flags" (.wrap none (t_Int8ul)), .renamed none "status_code" (.wrap none (t_Int8ul))]

/-- messages/silvair/gateway_config_server.py:198-202 `ConnectionState`. -/
def t_ConnectionState : Con :=
  .wrap (some "ConnectionState") (.struct none [.renamed none "conn_state" (.wrap none (.leaf none (.bits 3 false))), .renamed none "link_status" (.wrap none (.leaf none (.bits 1 false))), .renamed none "last_error" (.wrap none (.leaf none (.bits 4 false)))])

/-- messages/silvair/gateway_config_server.py:205-210 `PacketsStatus`. -/
def t_PacketsStatus : Con :=
  .struct (some "PacketsStatus") [.renamed none "total_eth_rx_errors" (t_Int16ul), .renamed none "total_eth_tx_errors" (t_Int16ul), .renamed none "bandwidth" (t_Int16ul), .renamed none "connection_state" (t_ConnectionState)]

/-- messages/silvair/gateway_config_server.py:212-230 `GatewayConfigParams`. -/
def t_GatewayConfigParams : Con :=
  .wrap (some "GatewayConfigParams") (.struct none [.renamed none "subopcode" (.wrap none (t_Int8ul)), .switch none [("GATEWAY_CONFIGURATION_SET", t_ConfigurationSet), ("MTU_SIZE_SET", t_ConfigurationSetMtu), ("ETHERNET_MAC_ADDRESS_SET", t_ConfigurationSetMacAddr), ("SERVER_ADDRESS_AND_PORT_NUMBER_SET", t_ConfigurationSetServerAddrAndPortNr), ("RECONNECT_INTERVAL_SET", t_ConfigurationSetReconnectInterval), ("DNS_IP_ADDRESS_SET", t_ConfigurationSetDnsIpAddr), ("IP_ADDRESS_SET", t_ConfigurationSetIpAddr), ("GATEWAY_IP_ADDRESS_SET", t_ConfigurationSetGatewayIpAddr), ("NETMASK_SET", t_ConfigurationSetNetmask), ("GATEWAY_CONFIGURATION_STATUS", t_ConfigurationStatus), ("GATEWAY_PACKETS_STATUS", t_PacketsStatus)] none])

/-- messages/silvair/gateway_config_server.py:232-240 `GatewayConfigMessage`. -/
def t_GatewayConfigMessage : Con :=
  .wrap (some "GatewayConfigMessage") (.struct none [.renamed none "opcode" (.wrap none (t_Int32ub)), .switch none [("SILVAIR_GATEWAY", t_GatewayConfigParams)] none])

/-- messages/generic/onoff.py:38 `GenericOnOffGet`. -/
def t_GenericOnOffGet : Con :=
  .struct (some "GenericOnOffGet") []

/-- `Float32b` of the library construct. -/
def t_Float32b : Con :=
  .leaf (some "Float32b") (.format 'f')

/-- messages/generic/onoff.py:45-50 `GenericOnOffSetOptional`. -/
def t_GenericOnOffSetOptional : Con :=
  .struct (some "GenericOnOffSetOptional") [.renamed none "onoff" (t_Int8ul), .renamed none "tid" (t_Int8ul), .renamed none "transition_time" (.wrap none (t_Float32b)), .renamed none "delay" (.wrap none (t_Float32b))]

/-- messages/generic/onoff.py:40-43 `GenericOnOffSetMinimal`. -/
def t_GenericOnOffSetMinimal : Con :=
  .struct (some "GenericOnOffSetMinimal") [.renamed none "onoff" (t_Int8ul), .renamed none "tid" (t_Int8ul)]

/-- messages/generic/onoff.py:52-55 `GenericOnOffSet`. -/
def t_GenericOnOffSet : Con :=
  .wrap (some "GenericOnOffSet") (.select none [.renamed none "optional" (t_GenericOnOffSetOptional), .renamed none "minimal" (t_GenericOnOffSetMinimal)])

/-- messages/generic/onoff.py:61-65 `GenericOnOffStatusOptional`. -/
def t_GenericOnOffStatusOptional : Con :=
  .struct (some "GenericOnOffStatusOptional") [.renamed none "present_onoff" (t_Int8ul), .renamed none "target_onoff" (t_Int8ul), .renamed none "remaining_time" (.wrap none (t_Float32b))]

/-- messages/generic/onoff.py:57-59 `GenericOnOffStatusMinimal`. -/
def t_GenericOnOffStatusMinimal : Con :=
  .struct (some "GenericOnOffStatusMinimal") [.renamed none "present_onoff" (t_Int8ul)]

/-- messages/generic/onoff.py:67-70 `GenericOnOffStatus`. -/
def t_GenericOnOffStatus : Con :=
  .wrap (some "GenericOnOffStatus") (.select none [.renamed none "optional" (t_GenericOnOffStatusOptional), .renamed none "minimal" (t_GenericOnOffStatusMinimal)])

/-- messages/generic/onoff.py:73-84 `GenericOnOffMessage`. -/
def t_GenericOnOffMessage : Con :=
  .wrap (some "GenericOnOffMessage") (.struct none [.renamed none "opcode" (.wrap none (t_Int32ub)), .switch none [("GENERIC_ONOFF_GET", t_GenericOnOffGet), ("GENERIC_ONOFF_SET", t_GenericOnOffSet), ("GENERIC_ONOFF_SET_UNACKNOWLEDGED", t_GenericOnOffSet), ("GENERIC_ONOFF_STATUS", t_GenericOnOffStatus)] none])

/-- messages/generic/battery.py:80 `GenericBatteryGet`. -/
def t_GenericBatteryGet : Con :=
  .struct (some "GenericBatteryGet") []

/-- `Float64b` of the library construct. -/
def t_Float64b : Con :=
  .leaf (some "Float64b") (.format 'd')

/-- messages/generic/battery.py:69-78 `BatteryFlags`. -/
def t_BatteryFlags : Con :=
  .wrap (some "BatteryFlags") (.struct none [.renamed none "battery_serviceability_flags" (.wrap none (.leaf none (.bits 2 false))), .renamed none "battery_charging_flags" (.wrap none (.leaf none (.bits 2 false))), .renamed none "battery_indicator_flags" (.wrap none (.leaf none (.bits 2 false))), .renamed none "battery_presence_flags" (.wrap none (.leaf none (.bits 2 false)))])

/-- messages/generic/battery.py:82-87 `GenericBatteryStatus`. -/
def t_GenericBatteryStatus : Con :=
  .struct (some "GenericBatteryStatus") [.renamed none "battery_level" (.wrap none (t_Float64b)), .renamed none "time_to_discharge" (.wrap none (t_Float64b)), .renamed none "time_to_charge" (.wrap none (t_Float64b)), .renamed none "flags" (t_BatteryFlags)]

/-- messages/generic/battery.py:89-98 `GenericBatteryMessage`. -/
def t_GenericBatteryMessage : Con :=
  .wrap (some "GenericBatteryMessage") (.struct none [.renamed none "opcode" (.wrap none (t_Int32ub)), .switch none [("GENERIC_BATTERY_GET", t_GenericBatteryGet), ("GENERIC_BATTERY_STATUS", t_GenericBatteryStatus)] none])

/-- messages/generic/level.py:42 `GenericLevelGet`. -/
def t_GenericLevelGet : Con :=
  .struct (some "GenericLevelGet") []

/-- `Int16sl` of the library construct. -/
def t_Int16sl : Con :=
  .leaf (some "Int16sl") (.format 'h')

/-- messages/generic/level.py:49-52 `GenericLevelSetOptional`. -/
def t_GenericLevelSetOptional : Con :=
  .struct (some "GenericLevelSetOptional") [.renamed none "level" (t_Int16sl), .renamed none "tid" (t_Int8ul), .renamed none "transition_time" (.wrap none (t_Float32b)), .renamed none "delay" (.wrap none (t_Float32b))]

/-- messages/generic/level.py:44-47 `GenericLevelSetMinimal`. -/
def t_GenericLevelSetMinimal : Con :=
  .struct (some "GenericLevelSetMinimal") [.renamed none "level" (t_Int16sl), .renamed none "tid" (t_Int8ul)]

/-- messages/generic/level.py:54-57 `GenericLevelSet`. -/
def t_GenericLevelSet : Con :=
  .wrap (some "GenericLevelSet") (.select none [.renamed none "optional" (t_GenericLevelSetOptional), .renamed none "minimal" (t_GenericLevelSetMinimal)])

/-- messages/generic/level.py:93-97 `GenericLevelStatusOptional`. -/
def t_GenericLevelStatusOptional : Con :=
  .struct (some "GenericLevelStatusOptional") [.renamed none "present_level" (t_Int16sl), .renamed none "target_level" (t_Int16sl), .renamed none "remaining_time" (.wrap none (t_Float32b))]

/-- messages/generic/level.py:89-91 `GenericLevelStatusMinimal`. -/
def t_GenericLevelStatusMinimal : Con :=
  .struct (some "GenericLevelStatusMinimal") [.renamed none "present_level" (t_Int16sl)]

/-- messages/generic/level.py:99-102 `GenericLevelStatus`. -/
def t_GenericLevelStatus : Con :=
  .wrap (some "GenericLevelStatus") (.select none [.renamed none "optional" (t_GenericLevelStatusOptional), .renamed none "minimal" (t_GenericLevelStatusMinimal)])

/-- `Int32sl` of the library construct. -/
def t_Int32sl : Con :=
  .leaf (some "Int32sl") (.format 'l')

/-- messages/generic/level.py:64-67 `GenericDeltaSetOptional`. -/
def t_GenericDeltaSetOptional : Con :=
  .struct (some "GenericDeltaSetOptional") [.renamed none "delta_level" (t_Int32sl), .renamed none "tid" (t_Int8ul), .renamed none "transition_time" (.wrap none (t_Float32b)), .renamed none "delay" (.wrap none (t_Float32b))]

/-- messages/generic/level.py:59-62 `GenericDeltaSetMinimal`. -/
def t_GenericDeltaSetMinimal : Con :=
  .struct (some "GenericDeltaSetMinimal") [.renamed none "delta_level" (t_Int32sl), .renamed none "tid" (t_Int8ul)]

/-- messages/generic/level.py:69-72 `GenericDeltaSet`. -/
def t_GenericDeltaSet : Con :=
  .wrap (some "GenericDeltaSet") (.select none [.renamed none "optional" (t_GenericDeltaSetOptional), .renamed none "minimal" (t_GenericDeltaSetMinimal)])

/-- messages/generic/level.py:79-82 `GenericMoveSetOptional`. -/
def t_GenericMoveSetOptional : Con :=
  .struct (some "GenericMoveSetOptional") [.renamed none "delta_level" (t_Int16sl), .renamed none "tid" (t_Int8ul), .renamed none "transition_time" (.wrap none (t_Float32b)), .renamed none "delay" (.wrap none (t_Float32b))]

/-- messages/generic/level.py:74-77 `GenericMoveSetMinimal`. -/
def t_GenericMoveSetMinimal : Con :=
  .struct (some "GenericMoveSetMinimal") [.renamed none "delta_level" (t_Int16sl), .renamed none "tid" (t_Int8ul)]

/-- messages/generic/level.py:84-87 `GenericMoveSet`. -/
def t_GenericMoveSet : Con :=
  .wrap (some "GenericMoveSet") (.select none [.renamed none "optional" (t_GenericMoveSetOptional), .renamed none "minimal" (t_GenericMoveSetMinimal)])

/-- messages/generic/level.py:104-119 `GenericLevelMessage`. -/
def t_GenericLevelMessage : Con :=
  .wrap (some "GenericLevelMessage") (.struct none [.renamed none "opcode" (.wrap none (t_Int32ub)), .switch none [("GENERIC_LEVEL_GET", t_GenericLevelGet), ("GENERIC_LEVEL_SET", t_GenericLevelSet), ("GENERIC_LEVEL_SET_UNACKNOWLEDGED", t_GenericLevelSet), ("GENERIC_LEVEL_STATUS", t_GenericLevelStatus), ("GENERIC_DELTA_SET", t_GenericDeltaSet), ("GENERIC_DELTA_SET_UNACKNOWLEDGED", t_GenericDeltaSet), ("GENERIC_MOVE_SET", t_GenericMoveSet), ("GENERIC_MOVE_SET_UNACKNOWLEDGED", t_GenericMoveSet)] none])

/-- messages/light/lightness.py:62 `LightLightnessGet`. -/
def t_LightLightnessGet : Con :=
  .struct (some "LightLightnessGet") []

/-- messages/light/lightness.py:98-101 `LightLightnessSetOptional`. -/
def t_LightLightnessSetOptional : Con :=
  .struct (some "LightLightnessSetOptional") [.renamed none "lightness" (t_Int16ul), .renamed none "tid" (t_Int8ul), .renamed none "transition_time" (.wrap none (t_Float32b)), .renamed none "delay" (.wrap none (t_Float32b))]

/-- messages/light/lightness.py:93-96 `LightLightnessSetMinimal`. -/
def t_LightLightnessSetMinimal : Con :=
  .struct (some "LightLightnessSetMinimal") [.renamed none "lightness" (t_Int16ul), .renamed none "tid" (t_Int8ul)]

/-- messages/light/lightness.py:103-106 `LightLightnessSet`. -/
def t_LightLightnessSet : Con :=
  .wrap (some "LightLightnessSet") (.select none [.renamed none "optional" (t_LightLightnessSetOptional), .renamed none "minimal" (t_LightLightnessSetMinimal)])

/-- messages/light/lightness.py:72-76 `LightLightnessStatusOptional`. -/
def t_LightLightnessStatusOptional : Con :=
  .struct (some "LightLightnessStatusOptional") [.renamed none "present_lightness" (t_Int16ul), .renamed none "target_lightness" (t_Int16ul), .renamed none "remaining_time" (.wrap none (t_Float32b))]

/-- messages/light/lightness.py:68-70 `LightLightnessStatusMinimal`. -/
def t_LightLightnessStatusMinimal : Con :=
  .struct (some "LightLightnessStatusMinimal") [.renamed none "present_lightness" (t_Int16ul)]

/-- messages/light/lightness.py:78-81 `LightLightnessStatus`. -/
def t_LightLightnessStatus : Con :=
  .wrap (some "LightLightnessStatus") (.select none [.renamed none "optional" (t_LightLightnessStatusOptional), .renamed none "minimal" (t_LightLightnessStatusMinimal)])

/-- messages/light/lightness.py:64-66 `LightLightnessDefault`. -/
def t_LightLightnessDefault : Con :=
  .struct (some "LightLightnessDefault") [.renamed none "lightness" (t_Int16ul)]

/-- messages/light/lightness.py:88-91 `LightLightnessRangeStatus`. -/
def t_LightLightnessRangeStatus : Con :=
  .struct (some "LightLightnessRangeStatus") [.renamed none "status" (t_StatusCodeAdapter), .renamed none "range_min" (t_Int16ul), .renamed none "range_max" (t_Int16ul)]

/-- messages/light/lightness.py:108-129 `LightLightnessMessage`. -/
def t_LightLightnessMessage : Con :=
  .wrap (some "LightLightnessMessage") (.struct none [.renamed none "opcode" (.wrap none (t_Int32ub)), .switch none [("LIGHT_LIGHTNESS_GET", t_LightLightnessGet), ("LIGHT_LIGHTNESS_SET", t_LightLightnessSet), ("LIGHT_LIGHTNESS_SET_UNACKNOWLEDGED", t_LightLightnessSet), ("LIGHT_LIGHTNESS_STATUS", t_LightLightnessStatus), ("LIGHT_LIGHTNESS_LINEAR_GET", t_LightLightnessGet), ("LIGHT_LIGHTNESS_LINEAR_SET", t_LightLightnessSet), ("LIGHT_LIGHTNESS_LINEAR_SET_UNACKNOWLEDGED", t_LightLightnessSet), ("LIGHT_LIGHTNESS_LINEAR_STATUS", t_LightLightnessStatus), ("LIGHT_LIGHTNESS_LAST_GET", t_LightLightnessGet), ("LIGHT_LIGHTNESS_LAST_STATUS", t_LightLightnessDefault), ("LIGHT_LIGHTNESS_DEFAULT_GET", t_LightLightnessGet), ("LIGHT_LIGHTNESS_DEFAULT_STATUS", t_LightLightnessDefault), ("LIGHT_LIGHTNESS_RANGE_GET", t_LightLightnessGet), ("LIGHT_LIGHTNESS_RANGE_STATUS", t_LightLightnessRangeStatus)] none])

/-- messages/light/lightness.py:83-86 `LightLightnessRange`. -/
def t_LightLightnessRange : Con :=
  .struct (some "LightLightnessRange") [.renamed none "range_min" (t_Int16ul), .renamed none "range_max" (t_Int16ul)]

/-- messages/light/lightness.py:131-142 `LightLightnessSetupMessage`. -/
def t_LightLightnessSetupMessage : Con :=
  .wrap (some "LightLightnessSetupMessage") (.struct none [.renamed none "opcode" (.wrap none (t_Int32ub)), .switch none [("LIGHT_LIGHTNESS_SETUP_DEFAULT_SET", t_LightLightnessDefault), ("LIGHT_LIGHTNESS_SETUP_DEFAULT_SET_UNACKNOWLEDGED", t_LightLightnessDefault), ("LIGHT_LIGHTNESS_SETUP_RANGE_SET", t_LightLightnessRange), ("LIGHT_LIGHTNESS_SETUP_RANGE_SET_UNACKNOWLEDGED", t_LightLightnessRange)] none])

/-- messages/light/ctl.py:60 `LightCTLGet`. -/
def t_LightCTLGet : Con :=
  .struct (some "LightCTLGet") []

/-- messages/light/ctl.py:73-76 `LightCTLSetOptional`. -/
def t_LightCTLSetOptional : Con :=
  .struct (some "LightCTLSetOptional") [.renamed none "ctl_lightness" (t_Int16ul), .renamed none "ctl_temperature" (t_Int16ul), .renamed none "ctl_delta_uv" (t_Int16ul), .renamed none "tid" (t_Int8ul), .renamed none "transition_time" (.wrap none (t_Float32b)), .renamed none "delay" (.wrap none (t_Float32b))]

/-- messages/light/ctl.py:68-71 `LightCTLSetMinimal`. -/
def t_LightCTLSetMinimal : Con :=
  .struct (some "LightCTLSetMinimal") [.renamed none "ctl_lightness" (t_Int16ul), .renamed none "ctl_temperature" (t_Int16ul), .renamed none "ctl_delta_uv" (t_Int16ul), .renamed none "tid" (t_Int8ul)]

/-- messages/light/ctl.py:78-81 `LightCTLSet`. -/
def t_LightCTLSet : Con :=
  .wrap (some "LightCTLSet") (.select none [.renamed none "optional" (t_LightCTLSetOptional), .renamed none "minimal" (t_LightCTLSetMinimal)])

/-- messages/light/ctl.py:88-93 `LightCTLStatusOptional`. -/
def t_LightCTLStatusOptional : Con :=
  .struct (some "LightCTLStatusOptional") [.renamed none "present_ctl_lightness" (t_Int16ul), .renamed none "present_ctl_temperature" (t_Int16ul), .renamed none "target_ctl_lightness" (t_Int16ul), .renamed none "target_ctl_temperature" (t_Int16ul), .renamed none "remaining_time" (.wrap none (t_Float32b))]

/-- messages/light/ctl.py:83-86 `LightCTLStatusMinimal`. -/
def t_LightCTLStatusMinimal : Con :=
  .struct (some "LightCTLStatusMinimal") [.renamed none "present_ctl_lightness" (t_Int16ul), .renamed none "present_ctl_temperature" (t_Int16ul)]

/-- messages/light/ctl.py:95-98 `LightCTLStatus`. -/
def t_LightCTLStatus : Con :=
  .wrap (some "LightCTLStatus") (.select none [.renamed none "optional" (t_LightCTLStatusOptional), .renamed none "minimal" (t_LightCTLStatusMinimal)])

/-- messages/light/ctl.py:138-141 `LightCTLRangeStatus`. -/
def t_LightCTLRangeStatus : Con :=
  .struct (some "LightCTLRangeStatus") [.renamed none "status" (t_StatusCodeAdapter), .renamed none "range_min" (t_Int16ul), .renamed none "range_max" (t_Int16ul)]

/-- messages/light/ctl.py:123-126 `LightCTLTemperatureSetOptional`. -/
def t_LightCTLTemperatureSetOptional : Con :=
  .struct (some "LightCTLTemperatureSetOptional") [.renamed none "ctl_temperature" (t_Int16ul), .renamed none "ctl_delta_uv" (t_Int16ul), .renamed none "tid" (t_Int8ul), .renamed none "transition_time" (.wrap none (t_Float32b)), .renamed none "delay" (.wrap none (t_Float32b))]

/-- messages/light/ctl.py:117-121 `LightCTLTemperatureSetMinimal`. -/
def t_LightCTLTemperatureSetMinimal : Con :=
  .struct (some "LightCTLTemperatureSetMinimal") [.renamed none "ctl_temperature" (t_Int16ul), .renamed none "ctl_delta_uv" (t_Int16ul), .renamed none "tid" (t_Int8ul)]

/-- messages/light/ctl.py:128-131 `LightCTLTemperatureSet`. -/
def t_LightCTLTemperatureSet : Con :=
  .wrap (some "LightCTLTemperatureSet") (.select none [.renamed none "optional" (t_LightCTLTemperatureSetOptional), .renamed none "minimal" (t_LightCTLTemperatureSetMinimal)])

/-- messages/light/ctl.py:105-110 `LightCTLTemperatureStatusOptional`. -/
def t_LightCTLTemperatureStatusOptional : Con :=
  .struct (some "LightCTLTemperatureStatusOptional") [.renamed none "present_ctl_temperature" (t_Int16ul), .renamed none "present_ctl_delta_uv" (t_Int16ul), .renamed none "target_ctl_temperature" (t_Int16ul), .renamed none "target_ctl_delta_uv" (t_Int16ul), .renamed none "remaining_time" (.wrap none (t_Float32b))]

/-- messages/light/ctl.py:100-103 `LightCTLTemperatureStatusMinimal`. -/
def t_LightCTLTemperatureStatusMinimal : Con :=
  .struct (some "LightCTLTemperatureStatusMinimal") [.renamed none "present_ctl_temperature" (t_Int16ul), .renamed none "present_ctl_delta_uv" (t_Int16ul)]

/-- messages/light/ctl.py:112-115 `LightCTLTemperatureStatus`. -/
def t_LightCTLTemperatureStatus : Con :=
  .wrap (some "LightCTLTemperatureStatus") (.select none [.renamed none "optional" (t_LightCTLTemperatureStatusOptional), .renamed none "minimal" (t_LightCTLTemperatureStatusMinimal)])

/-- messages/light/ctl.py:62-66 `LightCTLDefault`. -/
def t_LightCTLDefault : Con :=
  .struct (some "LightCTLDefault") [.renamed none "ctl_lightness" (t_Int16ul), .renamed none "ctl_temperature" (t_Int16ul), .renamed none "ctl_delta_uv" (t_Int16ul)]

/-- messages/light/ctl.py:144-163 `LightCTLMessage`. -/
def t_LightCTLMessage : Con :=
  .wrap (some "LightCTLMessage") (.struct none [.renamed none "opcode" (.wrap none (t_Int32ub)), .switch none [("LIGHT_CTL_GET", t_LightCTLGet), ("LIGHT_CTL_SET", t_LightCTLSet), ("LIGHT_CTL_SET_UNACKNOWLEDGED", t_LightCTLSet), ("LIGHT_CTL_STATUS", t_LightCTLStatus), ("LIGHT_CTL_TEMPERATURE_GET", t_LightCTLGet), ("LIGHT_CTL_TEMPERATURE_RANGE_GET", t_LightCTLGet), ("LIGHT_CTL_TEMPERATURE_RANGE_STATUS", t_LightCTLRangeStatus), ("LIGHT_CTL_TEMPERATURE_SET", t_LightCTLTemperatureSet), ("LIGHT_CTL_TEMPERATURE_SET_UNACKNOWLEDGED", t_LightCTLTemperatureSet), ("LIGHT_CTL_TEMPERATURE_STATUS", t_LightCTLTemperatureStatus), ("LIGHT_CTL_TEMPERATURE_DEFAULT_GET", t_LightCTLGet), ("LIGHT_CTL_TEMPERATURE_DEFAULT_STATUS", t_LightCTLDefault)] none])

/-- messages/light/ctl.py:133-136 `LightCTLRange`. -/
def t_LightCTLRange : Con :=
  .struct (some "LightCTLRange") [.renamed none "range_min" (t_Int16ul), .renamed none "range_max" (t_Int16ul)]

/-- messages/light/ctl.py:166-177 `LightCTLSetupMessage`. -/
def t_LightCTLSetupMessage : Con :=
  .wrap (some "LightCTLSetupMessage") (.struct none [.renamed none "opcode" (.wrap none (t_Int32ub)), .switch none [("LIGHT_CTL_SETUP_TEMPERATURE_DEFAULT_SET", t_LightCTLDefault), ("LIGHT_CTL_SETUP_TEMPERATURE_DEFAULT_SET_UNACKNOWLEDGED", t_LightCTLDefault), ("LIGHT_CTL_SETUP_TEMPERATURE_RANGE_SET", t_LightCTLRange), ("LIGHT_CTL_SETUP_TEMPERATURE_RANGE_SET_UNACKNOWLEDGED", t_LightCTLRange)] none])

/-- messages/health.py:68 `HealthAttentionGet`. -/
def t_HealthAttentionGet : Con :=
  .struct (some "HealthAttentionGet") []

/-- messages/health.py:44-46 `Attention`. -/
def t_HealthAttentionStatus : Con :=
  .struct (some "HealthAttentionStatus") [.renamed none "attention" (t_Int8ul)]

/-- messages/health.py:34-38 `FaultStatus`. -/
def t_HealthFaultStatus : Con :=
  .struct (some "HealthFaultStatus") [.renamed none "test_id" (t_Int8ul), .renamed none "company_id" (t_Int16ul), .renamed none "fault_array" (.wrap none (.many none (t_Int8ul)))]

/-- messages/health.py:48-50 `CompanyId`. -/
def t_HealthFaultClear : Con :=
  .struct (some "HealthFaultClear") [.renamed none "company_id" (t_Int16ul)]

/-- messages/health.py:29-32 `FaultTest`. -/
def t_HealthFaultTest : Con :=
  .struct (some "HealthFaultTest") [.renamed none "test_id" (t_Int8ul), .renamed none "company_id" (t_Int16ul)]

/-- messages/health.py:62 `HealthPeriodGet`. -/
def t_HealthPeriodGet : Con :=
  .struct (some "HealthPeriodGet") []

/-- messages/health.py:40-42 `FastPeriodDivisor`. -/
def t_HealthPeriodStatus : Con :=
  .struct (some "HealthPeriodStatus") [.renamed none "fast_period_divisor" (.wrap none (t_Int8ul))]

/-- messages/health.py:95-117 `HealthMessage`. -/
def t_HealthMessage : Con :=
  .wrap (some "HealthMessage") (.struct none [.renamed none "opcode" (.wrap none (t_Int32ub)), .switch none [("HEALTH_ATTENTION_GET", t_HealthAttentionGet), ("HEALTH_ATTENTION_SET", t_HealthAttentionStatus), ("HEALTH_ATTENTION_SET_UNACKNOWLEDGED", t_HealthAttentionStatus), ("HEALTH_ATTENTION_STATUS", t_HealthAttentionStatus), ("HEALTH_CURRENT_STATUS", t_HealthFaultStatus), ("HEALTH_FAULT_CLEAR", t_HealthFaultClear), ("HEALTH_FAULT_CLEAR_UNACKNOWLEDGED", t_HealthFaultClear), ("HEALTH_FAULT_GET", t_HealthFaultClear), ("HEALTH_FAULT_STATUS", t_HealthFaultStatus), ("HEALTH_FAULT_TEST", t_HealthFaultTest), ("HEALTH_FAULT_TEST_UNACKNOWLEDGED", t_HealthFaultTest), ("HEALTH_PERIOD_GET", t_HealthPeriodGet), ("HEALTH_PERIOD_SET", t_HealthPeriodStatus), ("HEALTH_PERIOD_SET_UNACKNOWLEDGED", t_HealthPeriodStatus), ("HEALTH_PERIOD_STATUS", t_HealthPeriodStatus)] none])

/-- messages/silvair/network_diagnostic_server.py:92 `NetworkDiagnosticServerSubscriptionGet`. -/
def t_NetworkDiagnosticServerSubscriptionGet : Con :=
  .struct (some "NetworkDiagnosticServerSubscriptionGet") []

/-- messages/silvair/network_diagnostic_server.py:94-97 `NetworkDiagnosticServerSubscriptionSet`. -/
def t_NetworkDiagnosticServerSubscriptionSet : Con :=
  .struct (some "NetworkDiagnosticServerSubscriptionSet") [.renamed none "destination" (t_UnicastUnassignedGroupAddress), .renamed none "period" (t_Int16ul)]

/-- messages/config.py:1051 `ConfigHeartbeatHops`. -/
def t_ConfigHeartbeatHops : Con :=
  .wrap (some "ConfigHeartbeatHops") (t_Int8ul)

/-- messages/silvair/network_diagnostic_server.py:65-70 `RegistryRecord`. -/
def t_RegistryRecord : Con :=
  .struct (some "RegistryRecord") [.renamed none "source" (t_UnicastUnassignedAddress), .renamed none "count" (t_Int16ul), .renamed none "min_hops" (t_ConfigHeartbeatHops), .renamed none "max_hops" (t_ConfigHeartbeatHops)]

/-- messages/silvair/network_diagnostic_server.py:99-104 `NetworkDiagnosticServerSubscriptionStatus`. -/
def t_NetworkDiagnosticServerSubscriptionStatus : Con :=
  .struct (some "NetworkDiagnosticServerSubscriptionStatus") [.renamed none "destination" (t_UnicastUnassignedGroupAddress), .renamed none "period" (t_Int16ul), .renamed none "max_record_count" (t_Int8ul), .renamed none "record" (.many none (t_RegistryRecord))]

/-- messages/silvair/network_diagnostic_server.py:106 `NetworkDiagnosticServerRadioStatGet`. -/
def t_NetworkDiagnosticServerRadioStatGet : Con :=
  .struct (some "NetworkDiagnosticServerRadioStatGet") []

/-- messages/silvair/network_diagnostic_server.py:108-120 `NetworkDiagnosticServerParams`. -/
def t_NetworkDiagnosticServerParams : Con :=
  .wrap (some "NetworkDiagnosticServerParams") (.struct none [.renamed none "subopcode" (.wrap none (t_Int8ul)), .switch none [("SUBSCRIPTION_GET", t_NetworkDiagnosticServerSubscriptionGet), ("SUBSCRIPTION_SET", t_NetworkDiagnosticServerSubscriptionSet), ("SUBSCRIPTION_SET_UNACKNOWLEDGED", t_NetworkDiagnosticServerSubscriptionSet), ("SUBSCRIPTION_STATUS", t_NetworkDiagnosticServerSubscriptionStatus), ("RADIO_STAT_GET", t_NetworkDiagnosticServerRadioStatGet)] none])

/-- messages/silvair/network_diagnostic_server.py:134-142 `NetworkDiagnosticServerMessage`. -/
def t_NetworkDiagnosticServerMessage : Con :=
  .wrap (some "NetworkDiagnosticServerMessage") (.struct none [.renamed none "opcode" (.wrap none (t_Int32ub)), .switch none [("SILVAIR_NDS", t_NetworkDiagnosticServerParams)] none])

/-- messages/silvair/network_diagnostic_server.py:63 `NetworkDiagnosticSetupServerPublicationGet`. -/
def t_NetworkDiagnosticSetupServerPublicationGet : Con :=
  .struct (some "NetworkDiagnosticSetupServerPublicationGet") []

/-- messages/generics.py:65-68 `TransitionTime`. -/
def t_TransitionTime : Con :=
  .wrap (some "TransitionTime") (.struct none [.renamed none "resolution" (.leaf none (.bits 2 false)), .renamed none "steps" (.leaf none (.bits 6 false))])

/-- messages/config.py:543-546 `Int12ul`. -/
def t_Int12ul : Con :=
  .wrap (some "Int12ul") (t_Int16ul)

/-- messages/config.py:1049 `ConfigHeartbeatPublicationFeatures`. -/
def t_ConfigHeartbeatPublicationFeatures : Con :=
  .wrap (some "ConfigHeartbeatPublicationFeatures") (t_Int16ul)

/-- messages/silvair/network_diagnostic_server.py:80-83 `NetworkDiagnosticSetupServerPublicationSetOptional`. -/
def t_NetworkDiagnosticSetupServerPublicationSetOptional : Con :=
  .struct (some "NetworkDiagnosticSetupServerPublicationSetOptional") [.renamed none "destination" (t_UnicastUnassignedGroupAddress), .renamed none "count" (t_Int16ul), .renamed none "period" (t_TransitionTime), .renamed none "ttl" (t_TTL), .renamed none "net_key_index" (t_Int12ul), .renamed none "features" (t_ConfigHeartbeatPublicationFeatures)]

/-- messages/silvair/network_diagnostic_server.py:72-78 `NetworkDiagnosticSetupServerPublicationSetMinimal`. -/
def t_NetworkDiagnosticSetupServerPublicationSetMinimal : Con :=
  .struct (some "NetworkDiagnosticSetupServerPublicationSetMinimal") [.renamed none "destination" (t_UnicastUnassignedGroupAddress), .renamed none "count" (t_Int16ul), .renamed none "period" (t_TransitionTime), .renamed none "ttl" (t_TTL), .renamed none "net_key_index" (t_Int12ul)]

/-- messages/silvair/network_diagnostic_server.py:85-88 `NetworkDiagnosticSetupServerPublicationSet`. -/
def t_NetworkDiagnosticSetupServerPublicationStatus : Con :=
  .wrap (some "NetworkDiagnosticSetupServerPublicationStatus") (.select none [.renamed none "optional" (t_NetworkDiagnosticSetupServerPublicationSetOptional), .renamed none "minimal" (t_NetworkDiagnosticSetupServerPublicationSetMinimal)])

/-- messages/silvair/network_diagnostic_server.py:122-132 `NetworkDiagnosticSetupServerParams`. -/
def t_NetworkDiagnosticSetupServerParams : Con :=
  .wrap (some "NetworkDiagnosticSetupServerParams") (.struct none [.renamed none "subopcode" (.wrap none (t_Int8ul)), .switch none [("PUBLICATION_GET", t_NetworkDiagnosticSetupServerPublicationGet), ("PUBLICATION_SET", t_NetworkDiagnosticSetupServerPublicationStatus), ("PUBLICATION_STATUS", t_NetworkDiagnosticSetupServerPublicationStatus)] none])

/-- messages/silvair/network_diagnostic_server.py:144-152 `NetworkDiagnosticSetupServerMessage`. -/
def t_NetworkDiagnosticSetupServerMessage : Con :=
  .wrap (some "NetworkDiagnosticSetupServerMessage") (.struct none [.renamed none "opcode" (.wrap none (t_Int32ub)), .switch none [("SILVAIR_NDS_SETUP", t_NetworkDiagnosticSetupServerParams)] none])

/-- messages/scene.py:50 `SceneGet`. -/
def t_SceneGet : Con :=
  .struct (some "SceneGet") []

/-- messages/scene.py:57-62 `SceneRecallWithTransition`. -/
def t_SceneRecallWithTransition : Con :=
  .struct (some "SceneRecallWithTransition") [.renamed none "scene_number" (.wrap none (t_Int16ul)), .renamed none "tid" (t_Int8ul), .renamed none "transition_time" (.wrap none (t_Float32b)), .renamed none "delay" (.wrap none (t_Float32b))]

/-- messages/scene.py:52-55 `SceneRecallMinimal`. -/
def t_SceneRecallMinimal : Con :=
  .struct (some "SceneRecallMinimal") [.renamed none "scene_number" (.wrap none (t_Int16ul)), .renamed none "tid" (t_Int8ul)]

/-- messages/scene.py:64-67 `SceneRecall`. -/
def t_SceneRecall : Con :=
  .wrap (some "SceneRecall") (.select none [.renamed none "optional" (t_SceneRecallWithTransition), .renamed none "minimal" (t_SceneRecallMinimal)])

/-- messages/scene.py:74-79 `SceneStatusWithTargetScene`. -/
def t_SceneStatusWithTargetScene : Con :=
  .struct (some "SceneStatusWithTargetScene") [.renamed none "status_code" (.wrap none (t_Int8ul)), .renamed none "current_scene" (t_Int16ul), .renamed none "target_scene" (t_Int16ul), .renamed none "remaining_time" (.wrap none (t_Float32b))]

/-- messages/scene.py:69-72 `SceneStatusMinimal`. -/
def t_SceneStatusMinimal : Con :=
  .struct (some "SceneStatusMinimal") [.renamed none "status_code" (.wrap none (t_Int8ul)), .renamed none "current_scene" (t_Int16ul)]

/-- messages/scene.py:81-84 `SceneStatus`. -/
def t_SceneStatus : Con :=
  .wrap (some "SceneStatus") (.select none [.renamed none "optional" (t_SceneStatusWithTargetScene), .renamed none "minimal" (t_SceneStatusMinimal)])

/-- messages/scene.py:86 `SceneRegisterGet`. -/
def t_SceneRegisterGet : Con :=
  .struct (some "SceneRegisterGet") []

/-- messages/scene.py:88-92 `SceneRegisterStatus`. -/
def t_SceneRegisterStatus : Con :=
  .struct (some "SceneRegisterStatus") [.renamed none "status_code" (.wrap none (t_Int8ul)), .renamed none "current_scene" (t_Int16ul), .renamed none "scenes" (.many none (t_Int16ul))]

/-- messages/scene.py:94-96 `SceneSetupWithValidation`. -/
def t_SceneSetupWithValidation : Con :=
  .struct (some "SceneSetupWithValidation") [.renamed none "scene_number" (.wrap none (t_Int16ul))]

/-- messages/scene.py:98-100 `SceneSetup`. -/
def t_SceneSetup : Con :=
  .struct (some "SceneSetup") [.renamed none "scene_number" (t_Int16ul)]

/-- messages/scene.py:102-120 `SceneMessage`. -/
def t_SceneMessage : Con :=
  .wrap (some "SceneMessage") (.struct none [.renamed none "opcode" (.wrap none (t_Int32ub)), .switch none [("SCENE_GET", t_SceneGet), ("SCENE_RECALL", t_SceneRecall), ("SCENE_RECALL_UNACKNOWLEDGED", t_SceneRecall), ("SCENE_STATUS", t_SceneStatus), ("SCENE_REGISTER_GET", t_SceneRegisterGet), ("SCENE_REGISTER_STATUS", t_SceneRegisterStatus), ("SCENE_STORE", t_SceneSetupWithValidation), ("SCENE_STORE_UNACKNOWLEDGED", t_SceneSetupWithValidation), ("SCENE_DELETE", t_SceneSetup), ("SCENE_DELETE_UNACKNOWLEDGED", t_SceneSetup)] none])

/-- messages/sensor.py:106-111 `SensorPropertyId`. -/
def t_SensorPropertyId : Con :=
  .wrap (some "SensorPropertyId") (t_Int16ul)

/-- messages/sensor.py:115-117 `SensorGetOptional`. -/
def t_SensorGetOptional : Con :=
  .struct (some "SensorGetOptional") [.renamed none "property_id" (t_SensorPropertyId)]

/-- messages/sensor.py:113 `SensorGetMinimal`. -/
def t_SensorGetMinimal : Con :=
  .struct (some "SensorGetMinimal") []

/-- messages/sensor.py:119-122 `SensorGet`. -/
def t_SensorGet : Con :=
  .wrap (some "SensorGet") (.select none [.renamed none "optional" (t_SensorGetOptional), .renamed none "minimal" (t_SensorGetMinimal)])

/-- messages/sensor.py:235-241 `SensorDescriptorOptional`. -/
def t_SensorDescriptorOptional : Con :=
  .struct (some "SensorDescriptorOptional") [.renamed none "sensor_property_id" (t_SensorPropertyId), .renamed none "_" (.wrap none (.wrap none (.wrap none (.struct none [.renamed none "sensor_positive_tolerance" (.leaf none (.bits 12 false)), .renamed none "sensor_negative_tolerance" (.leaf none (.bits 12 false))])))), .renamed none "sensor_positive_tolerance" (.wrap none (.renamed none "sensor_positive_tolerance" (.leaf none (.bits 12 false)))), .renamed none "sensor_negative_tolerance" (.wrap none (.renamed none "sensor_negative_tolerance" (.leaf none (.bits 12 false)))), .renamed none "sensor_sampling_funcion" (t_Int8ul), .renamed none "sensor_measurement_period" (t_Int8ul), .renamed none "sensor_update_interval" (t_Int8ul)]

/-- messages/sensor.py:231-233 `SensorDescriptorMinimal`. -/
def t_SensorDescriptorMinimal : Con :=
  .struct (some "SensorDescriptorMinimal") [.renamed none "sensor_property_id" (t_SensorPropertyId)]

/-- messages/sensor.py:243-246 `SensorDescriptorStatusItem`. -/
def t_SensorDescriptorStatusItem : Con :=
  .wrap (some "SensorDescriptorStatusItem") (.select none [.renamed none "optional" (t_SensorDescriptorOptional), .renamed none "minimal" (t_SensorDescriptorMinimal)])

/-- messages/sensor.py:248 `SensorDescriptorStatus`. -/
def t_SensorDescriptorStatus : Con :=
  .many (some "SensorDescriptorStatus") (t_SensorDescriptorStatusItem)

/-- messages/properties.py:314-316 `TimeDecihour8`. -/
def t_TimeDecihour8 : Con :=
  .struct (some "TimeDecihour8") [.renamed none "hour" (.wrap none (t_Float64b))]

/-- messages/properties.py:458-462 `Temperature8InAPeriodOfDay`. -/
def t_Temperature8InAPeriodOfDay : Con :=
  .struct (some "Temperature8InAPeriodOfDay") [.renamed none "temperature" (.wrap none (t_Float64b)), .renamed none "start_time" (t_TimeDecihour8), .renamed none "end_time" (t_TimeDecihour8)]

/-- messages/properties.py:310-312 `TimeExponential8`. -/
def t_TimeExponential8 : Con :=
  .struct (some "TimeExponential8") [.renamed none "seconds" (.wrap none (t_Float32b))]

/-- messages/properties.py:328-331 `AverageCurrent`. -/
def t_AverageCurrent : Con :=
  .struct (some "AverageCurrent") [.renamed none "electric_current_value" (.wrap none (t_Float64b)), .renamed none "sensing_duration" (t_TimeExponential8)]

/-- messages/properties.py:363-366 `AverageVoltage`. -/
def t_AverageVoltage : Con :=
  .struct (some "AverageVoltage") [.renamed none "voltage_value" (.wrap none (t_Float64b)), .renamed none "sensing_duration" (t_TimeExponential8)]

/-- messages/properties.py:501-503 `LuminousIntensity`. -/
def t_LuminousIntensity : Con :=
  .struct (some "LuminousIntensity") [.renamed none "luminous_intensity" (.wrap none (t_Float64b))]

/-- messages/properties.py:554-556 `ChromaticityTolerance`. -/
def t_ChromaticityTolerance : Con :=
  .struct (some "ChromaticityTolerance") [.renamed none "chromaticity_tolerance" (.wrap none (t_Float64b))]

/-- messages/properties.py:571-573 `ColorRenderingIndex`. -/
def t_ColorRenderingIndex : Con :=
  .struct (some "ColorRenderingIndex") [.renamed none "color_rendering_index" (.wrap none (t_Float64b))]

/-- messages/properties.py:585-592 `Appearance`. -/
def t_Appearance : Con :=
  .struct (some "Appearance") [.renamed none "_" (.wrap none (.wrap none (.wrap none (.struct none [.renamed none "category" (.leaf none (.bits 10 false)), .renamed none "sub_category" (.leaf none (.bits 6 false))])))), .renamed none "category" (.wrap none (.renamed none "category" (.leaf none (.bits 10 false)))), .renamed none "sub_category" (.wrap none (.renamed none "sub_category" (.leaf none (.bits 6 false))))]

/-- messages/properties.py:594-596 `CountryCode`. -/
def t_CountryCode : Con :=
  .struct (some "CountryCode") [.renamed none "country_code" (.wrap none (t_Float64b))]

/-- messages/properties.py:318-320 `DateUTC`. -/
def t_DateUTC : Con :=
  .struct (some "DateUTC") [.renamed none "date" (.wrap none (.struct none [.renamed none "year" (t_Int16ul), .renamed none "month" (t_Int8ul), .renamed none "day" (t_Int8ul)]))]

/-- messages/properties.py:397-399 `Energy`. -/
def t_Energy : Con :=
  .struct (some "Energy") [.renamed none "energy" (.wrap none (t_Float64b))]

/-- messages/properties.py:581-583 `GlobalTradeItemNumber`. -/
def t_GlobalTradeItemNumber : Con :=
  .struct (some "GlobalTradeItemNumber") [.renamed none "global_trade_item_number" (.leaf none (.bytesInt 6 false))]

/-- messages/properties.py:446-449 `TemperatureRange`. -/
def t_TemperatureRange : Con :=
  .struct (some "TemperatureRange") [.renamed none "minimum_temperature" (.wrap none (t_Float64b)), .renamed none "maximum_temperature" (.wrap none (t_Float64b))]

/-- messages/properties.py:464-470 `TemperatureStatistics`. -/
def t_TemperatureStatistics : Con :=
  .struct (some "TemperatureStatistics") [.renamed none "average_temperature" (.wrap none (t_Float64b)), .renamed none "standard_deviation_temperature" (.wrap none (t_Float64b)), .renamed none "minimum_temperature" (.wrap none (t_Float64b)), .renamed none "maximum_temperature" (.wrap none (t_Float64b)), .renamed none "sensing_duration" (t_TimeExponential8)]

/-- messages/properties.py:540-542 `Count16`. -/
def t_Count16 : Con :=
  .struct (some "Count16") [.renamed none "count" (.wrap none (t_Float64b))]

/-- messages/properties.py:302-304 `TimeSecond16`. -/
def t_TimeSecond16 : Con :=
  .struct (some "TimeSecond16") [.renamed none "seconds" (.wrap none (t_Float64b))]

/-- messages/properties.py:602-607 `EventStatistics`. -/
def t_EventStatistics : Con :=
  .struct (some "EventStatistics") [.renamed none "number_of_events" (t_Count16), .renamed none "average_event_duration" (t_TimeSecond16), .renamed none "time_elapsed_since_last_event" (t_TimeExponential8), .renamed none "sensing_duration" (t_TimeExponential8)]

/-- messages/properties.py:426-430 `PowerSpecification`. -/
def t_PowerSpecification : Con :=
  .struct (some "PowerSpecification") [.renamed none "minimum_power_value" (.wrap none (t_Float64b)), .renamed none "typical_power_value" (.wrap none (t_Float64b)), .renamed none "maximum_power_value" (.wrap none (t_Float64b))]

/-- messages/properties.py:298-300 `TimeHour24`. -/
def t_TimeHour24 : Con :=
  .struct (some "TimeHour24") [.renamed none "hours" (.wrap none (t_Float64b))]

/-- messages/properties.py:451-456 `Temperature8Statistics`. -/
def t_Temperature8Statistics : Con :=
  .struct (some "Temperature8Statistics") [.renamed none "average_temperature" (.wrap none (t_Float64b)), .renamed none "standard_deviation_temperature" (.wrap none (t_Float64b)), .renamed none "minimum_temperature" (.wrap none (t_Float64b)), .renamed none "maximum_temperature" (.wrap none (t_Float64b)), .renamed none "sensing_duration" (t_TimeExponential8)]

/-- messages/properties.py:566-569 `ChromaticityCoordinates`. -/
def t_ChromaticityCoordinates : Con :=
  .struct (some "ChromaticityCoordinates") [.renamed none "chromaticity_x_coordinate" (.wrap none (t_Float64b)), .renamed none "chromaticity_y_coordinate" (.wrap none (t_Float64b))]

/-- messages/properties.py:562-564 `CorrelatedColorTemperature`. -/
def t_CorrelatedColorTemperature : Con :=
  .struct (some "CorrelatedColorTemperature") [.renamed none "correlated_color_temperature" (.wrap none (t_Float64b))]

/-- messages/properties.py:484-486 `LuminousFlux`. -/
def t_LuminousFlux : Con :=
  .struct (some "LuminousFlux") [.renamed none "luminous_flux" (.wrap none (t_Float64b))]

/-- messages/properties.py:558-560 `ChromaticDistanceFromPlanckian`. -/
def t_ChromaticDistanceFromPlanckian : Con :=
  .struct (some "ChromaticDistanceFromPlanckian") [.renamed none "distance_from_planckian" (.wrap none (t_Float64b))]

/-- messages/properties.py:338-342 `ElectricCurrentSpecification`. -/
def t_ElectricCurrentSpecification : Con :=
  .struct (some "ElectricCurrentSpecification") [.renamed none "minimum_electric_current_value" (.wrap none (t_Float64b)), .renamed none "typical_electric_current_value" (.wrap none (t_Float64b)), .renamed none "maximum_electric_current_value" (.wrap none (t_Float64b))]

/-- messages/properties.py:344-349 `ElectricCurrentStatistics`. -/
def t_ElectricCurrentStatistics : Con :=
  .struct (some "ElectricCurrentStatistics") [.renamed none "average_electric_current_value" (.wrap none (t_Float64b)), .renamed none "standard_deviation_electric_current_value" (.wrap none (t_Float64b)), .renamed none "minimum_electric_current_value" (.wrap none (t_Float64b)), .renamed none "maximum_electric_current_value" (.wrap none (t_Float64b)), .renamed none "sensing_duration" (t_TimeExponential8)]

/-- messages/properties.py:368-372 `VoltageRange`. -/
def t_VoltageRange : Con :=
  .struct (some "VoltageRange") [.renamed none "minimum_voltage_value" (.wrap none (t_Float64b)), .renamed none "typical_voltage_value" (.wrap none (t_Float64b)), .renamed none "maximum_voltage_value" (.wrap none (t_Float64b))]

/-- messages/properties.py:536-538 `Percentage8`. -/
def t_Percentage8 : Con :=
  .struct (some "Percentage8") [.renamed none "percentage" (.wrap none (t_Float64b))]

/-- messages/properties.py:374-380 `VoltageStatistics`. -/
def t_VoltageStatistics : Con :=
  .struct (some "VoltageStatistics") [.renamed none "average_voltage_value" (.wrap none (t_Float64b)), .renamed none "standard_deviation_voltage_value" (.wrap none (t_Float64b)), .renamed none "minimum_voltage_value" (.wrap none (t_Float64b)), .renamed none "maximum_voltage_value" (.wrap none (t_Float64b)), .renamed none "sensing_duration" (t_TimeExponential8)]

/-- messages/properties.py:509-511 `Illuminance`. -/
def t_Illuminance : Con :=
  .struct (some "Illuminance") [.renamed none "illuminance" (.wrap none (t_Float64b))]

/-- messages/properties.py:519-521 `PerceivedLightness`. -/
def t_PerceivedLightness : Con :=
  .struct (some "PerceivedLightness") [.renamed none "perceived_lightness" (t_Int16ul)]

/-- messages/properties.py:548-550 `Coefficient`. -/
def t_Coefficient : Con :=
  .struct (some "Coefficient") [.renamed none "coefficient" (.wrap none (t_Float64b))]

/-- messages/properties.py:294-296 `TimeMiliseconds24`. -/
def t_TimeMiliseconds24 : Con :=
  .struct (some "TimeMiliseconds24") [.renamed none "seconds" (.wrap none (t_Float64b))]

/-- messages/properties.py:505-507 `LuminousEfficacy`. -/
def t_LuminousEfficacy : Con :=
  .struct (some "LuminousEfficacy") [.renamed none "luminous_efficacy" (.wrap none (t_Float64b))]

/-- messages/properties.py:493-495 `LuminousEnergy`. -/
def t_LuminousEnergy : Con :=
  .struct (some "LuminousEnergy") [.renamed none "luminous_energy" (.wrap none (t_Float64b))]

/-- messages/properties.py:497-499 `LuminousExposure`. -/
def t_LuminousExposure : Con :=
  .struct (some "LuminousExposure") [.renamed none "luminous_exposure" (.wrap none (t_Float64b))]

/-- messages/properties.py:488-491 `LuminousFluxRange`. -/
def t_LuminousFluxRange : Con :=
  .struct (some "LuminousFluxRange") [.renamed none "minimum_luminous_flux" (.wrap none (t_Float64b)), .renamed none "maximum_luminous_flux" (.wrap none (t_Float64b))]

/-- messages/properties.py:333-336 `ElectricCurrentRange`. -/
def t_ElectricCurrentRange : Con :=
  .struct (some "ElectricCurrentRange") [.renamed none "minimum_electric_current_value" (.wrap none (t_Float64b)), .renamed none "maximum_electric_current_value" (.wrap none (t_Float64b))]

/-- messages/properties.py:598-600 `Presence`. -/
def t_Presence : Con :=
  .struct (some "Presence") [.renamed none "presence_detected" (t_Flag)]

/-- messages/properties.py:442-444 `Temperature8`. -/
def t_Temperature8 : Con :=
  .struct (some "Temperature8") [.renamed none "temperature" (.wrap none (t_Float64b))]

/-- messages/properties.py:422-424 `Power`. -/
def t_Power : Con :=
  .struct (some "Power") [.renamed none "power" (.wrap none (t_Float64b))]

/-- messages/properties.py:438-440 `Temperature`. -/
def t_Temperature : Con :=
  .struct (some "Temperature") [.renamed none "temperature" (.wrap none (t_Float64b))]

/-- messages/properties.py:324-326 `ElectricCurrent`. -/
def t_ElectricCurrent : Con :=
  .struct (some "ElectricCurrent") [.renamed none "current" (.wrap none (t_Float64b))]

/-- messages/properties.py:359-361 `Voltage`. -/
def t_Voltage : Con :=
  .struct (some "Voltage") [.renamed none "voltage" (.wrap none (t_Float64b))]

/-- messages/properties.py:406-410 `EnergyInAPeriodOfDay`. -/
def t_EnergyInAPeriodOfDay : Con :=
  .struct (some "EnergyInAPeriodOfDay") [.renamed none "energy_value" (.wrap none (t_Float64b)), .renamed none "start_time" (t_TimeDecihour8), .renamed none "end_time" (t_TimeDecihour8)]

/-- messages/properties.py:609-613 `RelativeRuntimeInAGenericLevelRange`. -/
def t_RelativeRuntimeInAGenericLevelRange : Con :=
  .struct (some "RelativeRuntimeInAGenericLevelRange") [.renamed none "relative_value" (.wrap none (t_Float64b)), .renamed none "minimum_generic_level" (.wrap none (t_Float64b)), .renamed none "maximum_generic_level" (.wrap none (t_Float64b))]

/-- messages/properties.py:513-517 `RelativeValueInAnIlluminanceRange`. -/
def t_RelativeValueInAnIlluminanceRange : Con :=
  .struct (some "RelativeValueInAnIlluminanceRange") [.renamed none "relative_value" (.wrap none (t_Float64b)), .renamed none "minimum_illuminance" (.wrap none (t_Float64b)), .renamed none "maximum_illuminance" (.wrap none (t_Float64b))]

/-- messages/properties.py:476-480 `RelativeValueInATemperatureRange`. -/
def t_RelativeValueInATemperatureRange : Con :=
  .struct (some "RelativeValueInATemperatureRange") [.renamed none "relative_value" (.wrap none (t_Float64b)), .renamed none "minimum_temperature" (.wrap none (t_Float64b)), .renamed none "maximum_temperature" (.wrap none (t_Float64b))]

/-- messages/properties.py:351-355 `RelativeValueInACurrentRange`. -/
def t_RelativeValueInACurrentRange : Con :=
  .struct (some "RelativeValueInACurrentRange") [.renamed none "relative_value" (.wrap none (t_Float64b)), .renamed none "minimum_current" (.wrap none (t_Float64b)), .renamed none "maximum_current" (.wrap none (t_Float64b))]

/-- messages/properties.py:382-386 `RelativeValueInAVoltageRange`. -/
def t_RelativeValueInAVoltageRange : Con :=
  .struct (some "RelativeValueInAVoltageRange") [.renamed none "relative_value" (.wrap none (t_Float64b)), .renamed none "minimum_voltage" (.wrap none (t_Float64b)), .renamed none "maximum_voltage" (.wrap none (t_Float64b))]

/-- messages/properties.py:544-546 `Count24`. -/
def t_Count24 : Con :=
  .struct (some "Count24") [.renamed none "count" (.wrap none (t_Float64b))]

/-- messages/properties.py:401-403 `PreciseEnergy`. -/
def t_PreciseEnergy : Con :=
  .struct (some "PreciseEnergy") [.renamed none "energy" (.wrap none (t_Float64b))]

/-- messages/properties.py:577-579 `CosineOfTheAngle`. -/
def t_CosineOfTheAngle : Con :=
  .struct (some "CosineOfTheAngle") [.renamed none "cosine_of_the_angle" (t_Int8sl)]

/-- messages/properties.py:388-390 `HighVoltage`. -/
def t_HighVoltage : Con :=
  .struct (some "HighVoltage") [.renamed none "high_voltage" (.wrap none (t_Float64b))]

/-- messages/properties.py:392-394 `VoltageFrequency`. -/
def t_VoltageFrequency : Con :=
  .struct (some "VoltageFrequency") [.renamed none "voltage_frequency" (t_Int16ul)]

/-- messages/properties.py:523-525 `LightDistribution`. -/
def t_LightDistribution : Con :=
  .struct (some "LightDistribution") [.renamed none "light_distribution" (.wrap none (t_Int8ul))]

/-- messages/properties.py:306-308 `TimeSecond32`. -/
def t_TimeSecond32 : Con :=
  .struct (some "TimeSecond32") [.renamed none "seconds" (.wrap none (t_Float64b))]

/-- messages/properties.py:472-474 `HighTemperature`. -/
def t_HighTemperature : Con :=
  .struct (some "HighTemperature") [.renamed none "temperature" (.wrap none (t_Float64b))]

/-- messages/properties.py:527-529 `LightOutput`. -/
def t_LightOutput : Con :=
  .struct (some "LightOutput") [.renamed none "light_output" (.wrap none (t_Float64b))]

/-- messages/properties.py:412-414 `ApparentEnergy32`. -/
def t_ApparentEnergy32 : Con :=
  .struct (some "ApparentEnergy32") [.renamed none "energy" (.wrap none (t_Float64b))]

/-- messages/properties.py:432-434 `ApparentPower`. -/
def t_ApparentPower : Con :=
  .struct (some "ApparentPower") [.renamed none "power" (.wrap none (t_Float64b))]

/-- messages/properties.py:416-418 `Energy32`. -/
def t_Energy32 : Con :=
  .struct (some "Energy32") [.renamed none "energy" (.wrap none (t_Float64b))]

/-- messages/properties.py:531-533 `LightSourceType`. -/
def t_LightSourceType : Con :=
  .struct (some "LightSourceType") [.renamed none "light_source_type" (.wrap none (t_Int8ul))]

/-- `Byte` of the library construct. -/
def t_Byte : Con :=
  .leaf (some "Byte") (.format 'B')

/-- messages/sensor.py:133-138 `SensorSettingPropertyValue`. -/
def t_SensorSettingPropertyValue : Con :=
  .switch (some "SensorSettingPropertyValue") [("AVERAGE_AMBIENT_TEMPERATURE_IN_A_PERIOD_OF_DAY", t_Temperature8InAPeriodOfDay), ("AVERAGE_INPUT_CURRENT", t_AverageCurrent), ("AVERAGE_INPUT_VOLTAGE", t_AverageVoltage), ("AVERAGE_OUTPUT_CURRENT", t_AverageCurrent), ("AVERAGE_OUTPUT_VOLTAGE", t_AverageVoltage), ("CENTER_BEAM_INTENSITY_AT_FULL_POWER", t_LuminousIntensity), ("CHROMATICITY_TOLERANCE", t_ChromaticityTolerance), ("COLOR_RENDERING_INDEX_R9", t_ColorRenderingIndex), ("COLOR_RENDERING_INDEX_RA", t_ColorRenderingIndex), ("DEVICE_APPEARANCE", t_Appearance), ("DEVICE_COUNTRY_OF_ORIGIN", t_CountryCode), ("DEVICE_DATE_OF_MANUFACTURE", t_DateUTC), ("DEVICE_ENERGY_USE_SINCE_TURN_ON", t_Energy), ("DEVICE_FIRMWARE_REVISION", .wrap none (.text none)), ("DEVICE_GLOBAL_TRADE_ITEM_NUMBER", t_GlobalTradeItemNumber), ("DEVICE_HARDWARE_REVISION", .wrap none (.text none)), ("DEVICE_MANUFACTURER_NAME", .wrap none (.text none)), ("DEVICE_MODEL_NUMBER", .wrap none (.text none)), ("DEVICE_OPERATING_TEMPERATURE_RANGE_SPECIFICATION", t_TemperatureRange), ("DEVICE_OPERATING_TEMPERATURE_STATISTICAL_VALUES", t_TemperatureStatistics), ("DEVICE_OVER_TEMPERATURE_EVENT_STATISTICS", t_EventStatistics), ("DEVICE_POWER_RANGE_SPECIFICATION", t_PowerSpecification), ("DEVICE_RUNTIME_SINCE_TURN_ON", t_TimeHour24), ("DEVICE_RUNTIME_WARRANTY", t_TimeHour24), ("DEVICE_SERIAL_NUMBER", .wrap none (.text none)), ("DEVICE_SOFTWARE_REVISION", .wrap none (.text none)), ("DEVICE_UNDER_TEMPERATURE_EVENT_STATISTICS", t_EventStatistics), ("INDOOR_AMBIENT_TEMPERATURE_STATISTICAL_VALUES", t_Temperature8Statistics), ("INITIAL_CIE1931_CHROMATICITY_COORDINATES", t_ChromaticityCoordinates), ("INITIAL_CORRELATED_COLOR_TEMPERATURE", t_CorrelatedColorTemperature), ("INITIAL_LUMINOUS_FLUX", t_LuminousFlux), ("INITIAL_PLANCKIAN_DISTANCE", t_ChromaticDistanceFromPlanckian), ("INPUT_CURRENT_RANGE_SPECIFICATION", t_ElectricCurrentSpecification), ("INPUT_CURRENT_STATISTICS", t_ElectricCurrentStatistics), ("INPUT_OVER_CURRENT_EVENT_STATISTICS", t_EventStatistics), ("INPUT_OVER_RIPPLE_VOLTAGE_EVENT_STATISTICS", t_EventStatistics), ("INPUT_OVER_VOLTAGE_EVENT_STATISTICS", t_EventStatistics), ("INPUT_UNDER_CURRENT_EVENT_STATISTICS", t_EventStatistics), ("INPUT_UNDER_VOLTAGE_EVENT_STATISTICS", t_EventStatistics), ("INPUT_VOLTAGE_RANGE_SPECIFICATION", t_VoltageRange), ("INPUT_VOLTAGE_RIPPLE_SPECIFICATION", t_Percentage8), ("INPUT_VOLTAGE_STATISTICS", t_VoltageStatistics), ("LIGHT_CONTROL_AMBIENT_LUXLEVEL_ON", t_Illuminance), ("LIGHT_CONTROL_AMBIENT_LUXLEVEL_PROLONG", t_Illuminance), ("LIGHT_CONTROL_AMBIENT_LUXLEVEL_STANDBY", t_Illuminance), ("LIGHT_CONTROL_LIGHTNESS_ON", t_PerceivedLightness), ("LIGHT_CONTROL_LIGHTNESS_PROLONG", t_PerceivedLightness), ("LIGHT_CONTROL_LIGHTNESS_STANDBY", t_PerceivedLightness), ("LIGHT_CONTROL_REGULATOR_ACCURACY", t_Percentage8), ("LIGHT_CONTROL_REGULATOR_KID", t_Coefficient), ("LIGHT_CONTROL_REGULATOR_KIU", t_Coefficient), ("LIGHT_CONTROL_REGULATOR_KPD", t_Coefficient), ("LIGHT_CONTROL_REGULATOR_KPU", t_Coefficient), ("LIGHT_CONTROL_TIME_FADE", t_TimeMiliseconds24), ("LIGHT_CONTROL_TIME_FADE_ON", t_TimeMiliseconds24), ("LIGHT_CONTROL_TIME_FADE_STANDBY_AUTO", t_TimeMiliseconds24), ("LIGHT_CONTROL_TIME_FADE_STANDBY_MANUAL", t_TimeMiliseconds24), ("LIGHT_CONTROL_TIME_OCCUPANCY_DELAY", t_TimeMiliseconds24), ("LIGHT_CONTROL_TIME_PROLONG", t_TimeMiliseconds24), ("LIGHT_CONTROL_TIME_RUN_ON", t_TimeMiliseconds24), ("LUMEN_MAINTENANCE_FACTOR", t_Percentage8), ("LUMINOUS_EFFICACY", t_LuminousEfficacy), ("LUMINOUS_ENERGY_SINCE_TURN_ON", t_LuminousEnergy), ("LUMINOUS_EXPOSURE", t_LuminousExposure), ("LUMINOUS_FLUX_RANGE", t_LuminousFluxRange), ("MOTION_SENSED", t_Percentage8), ("MOTION_THRESHOLD", t_Percentage8), ("OPEN_CIRCUIT_EVENT_STATISTICS", t_EventStatistics), ("OUTDOOR_STATISTICAL_VALUES", t_Temperature8Statistics), ("OUTPUT_CURRENT_RANGE", t_ElectricCurrentRange), ("OUTPUT_CURRENT_STATISTICS", t_ElectricCurrentStatistics), ("OUTPUT_RIPPLE_VOLTAGE_SPECIFICATION", t_Percentage8), ("OUTPUT_VOLTAGE_RANGE", t_VoltageRange), ("OUTPUT_VOLTAGE_STATISTICS", t_VoltageStatistics), ("OVER_OUTPUT_RIPPLE_VOLTAGE_EVENT_STATISTICS", t_EventStatistics), ("PEOPLE_COUNT", t_Count16), ("PRESENCE_DETECTED", t_Presence), ("PRESENT_AMBIENT_LIGHT_LEVEL", t_Illuminance), ("PRESENT_AMBIENT_TEMPERATURE", t_Temperature8), ("PRESENT_CIE1931_CHROMATICITY_COORDINATES", t_ChromaticityCoordinates), ("PRESENT_CORRELATED_COLOR_TEMPERATURE", t_CorrelatedColorTemperature), ("PRESENT_DEVICE_INPUT_POWER", t_Power), ("PRESENT_DEVICE_OPERATING_EFFICIENCY", t_Percentage8), ("PRESENT_DEVICE_OPERATING_TEMPERATURE", t_Temperature), ("PRESENT_ILLUMINANCE", t_Illuminance), ("PRESENT_INDOOR_AMBIENT_TEMPERATURE", t_Temperature8), ("PRESENT_INPUT_CURRENT", t_ElectricCurrent), ("PRESENT_INPUT_RIPPLE_VOLTAGE", t_Percentage8), ("PRESENT_INPUT_VOLTAGE", t_Voltage), ("PRESENT_LUMINOUS_FLUX", t_LuminousFlux), ("PRESENT_OUTDOOR_AMBIENT_TEMPERATURE", t_Temperature8), ("PRESENT_OUTPUT_CURRENT", t_ElectricCurrent), ("PRESENT_OUTPUT_VOLTAGE", t_Voltage), ("PRESENT_PLANCKIAN_DISTANCE", t_ChromaticDistanceFromPlanckian), ("PRESENT_RELATIVE_OUTPUT_RIPPLE_VOLTAGE", t_Percentage8), ("RELATIVE_DEVICE_ENERGY_USE_IN_A_PERIOD_OF_DAY", t_EnergyInAPeriodOfDay), ("RELATIVE_DEVICE_RUNTIME_IN_A_GENERIC_LEVEL_RANGE", t_RelativeRuntimeInAGenericLevelRange), ("RELATIVE_EXPOSURE_TIME_IN_AN_ILLUMINANCE_RANGE", t_RelativeValueInAnIlluminanceRange), ("RELATIVE_RUNTIME_IN_A_CORRELATED_COLOR_TEMPERATURE_RANGE", t_LuminousEnergy), ("RELATIVE_RUNTIME_IN_A_DEVICE_OPERATING_TEMPERATURE_RANGE", t_RelativeValueInATemperatureRange), ("RELATIVE_RUNTIME_IN_AN_INPUT_CURRENT_RANGE", t_RelativeValueInACurrentRange), ("RELATIVE_RUNTIME_IN_AN_INPUT_VOLTAGE_RANGE", t_RelativeValueInAVoltageRange), ("SHORT_CIRCUIT_EVENT_STATISTICS", t_EventStatistics), ("TIME_SINCE_MOTION_SENSED", t_TimeSecond16), ("TIME_SINCE_PRESENCE_DETECTED", t_TimeSecond16), ("TOTAL_DEVICE_ENERGY_USE", t_Energy), ("TOTAL_DEVICE_OFF_ON_CYCLES", t_Count24), ("TOTAL_DEVICE_POWER_ON_CYCLES", t_Count24), ("TOTAL_DEVICE_POWER_ON_TIME", t_TimeHour24), ("TOTAL_DEVICE_RUNTIME", t_TimeHour24), ("TOTAL_LIGHT_EXPOSURE_TIME", t_TimeHour24), ("TOTAL_LUMINOUS_ENERGY", t_LuminousEnergy), ("PRECISE_TOTAL_DEVICE_ENERGY_USE", t_PreciseEnergy), ("POWER_FACTOR", t_CosineOfTheAngle), ("EXTERNAL_SUPPLY_VOLTAGE", t_HighVoltage), ("EXTERNAL_SUPPLY_VOLTAGE_FREQUENCY", t_VoltageFrequency), ("LIGHT_DISTRIBUTION", t_LightDistribution), ("LIGHT_SOURCE_CURRENT", t_AverageCurrent), ("LIGHT_SOURCE_ON_TIME_NOT_RESETTABLE", t_TimeSecond32), ("LIGHT_SOURCE_ON_TIME_RESETTABLE", t_TimeSecond32), ("LIGHT_SOURCE_OPEN_CIRCUIT_STATISTICS", t_EventStatistics), ("LIGHT_SOURCE_OVERALL_FAILURES_STATISTICS", t_EventStatistics), ("LIGHT_SOURCE_SHORT_CIRCUIT_STATISTICS", t_EventStatistics), ("LIGHT_SOURCE_START_COUNTER_RESETTABLE", t_Count24), ("LIGHT_SOURCE_TEMPERATURE", t_HighTemperature), ("LIGHT_SOURCE_THERMAL_DERATING_STATISTICS", t_EventStatistics), ("LIGHT_SOURCE_THERMAL_SHUTDOWN_STATISTICS", t_EventStatistics), ("LIGHT_SOURCE_TOTAL_POWER_ON_CYCLES", t_Count24), ("LIGHT_SOURCE_VOLTAGE", t_AverageVoltage), ("LUMINAIRE_COLOR", .wrap none (.text none)), ("LUMINAIRE_IDENTIFICATION_NUMBER", .wrap none (.text none)), ("LUMINAIRE_NOMINAL_INPUT_POWER", t_Power), ("LUMINAIRE_NOMINAL_MAXIMUM_AC_MAINS_VOLTAGE", t_Voltage), ("LUMINAIRE_NOMINAL_MINIMUM_AC_MAINS_VOLTAGE", t_Voltage), ("LUMINAIRE_POWER_AT_MINIMUM_DIM_LEVEL", t_Power), ("LUMINAIRE_TIME_OF_MANUFACTURE", t_DateUTC), ("NOMINAL_LIGHT_OUTPUT", t_LightOutput), ("OVERALL_FAILURE_CONDITION", t_EventStatistics), ("RATED_MEDIAN_USEFUL_LIFE_OF_LUMINAIRE", t_TimeHour24), ("RATED_MEDIAN_USEFUL_LIGHT_SOURCE_STARTS", t_Count24), ("REFERENCE_TEMPERATURE", t_HighTemperature), ("TOTAL_DEVICE_STARTS", t_Count24), ("LUMINAIRE_IDENTIFICATION_STRING", .wrap none (.text none)), ("OUTPUT_POWER_LIMITATION", t_EventStatistics), ("THERMAL_DERATING", t_EventStatistics), ("OUTPUT_CURRENT_PERCENT", t_Percentage8), ("LUMINAIRE_MANUFACTURER_GTIN", t_GlobalTradeItemNumber), ("APPARENT_ENERGY", t_ApparentEnergy32), ("APPARENT_POWER", t_ApparentPower), ("ACTIVE_ENERGY_LOAD_SIDE", t_Energy32), ("ACTIVE_POWER_LOAD_SIDE", t_Power), ("LIGHT_SOURCE_TYPE", t_LightSourceType), ("DESIRED_AMBIENT_TEMPERATURE", t_Temperature8), ("SENSOR_GAIN", t_Coefficient), ("PRECISE_PRESENT_AMBIENT_TEMPERATURE", t_Temperature)] (some ("sensor_setting_raw", .many none (t_Byte)))

/-- messages/sensor.py:291 `SensorData`. -/
def t_SensorData : Con :=
  .wrap (some "SensorData") (.struct none [.renamed none "format" (t_Int8ul), .renamed none "length" (t_Int16ul), .renamed none "sensor_setting_property_id" (t_SensorPropertyId), t_SensorSettingPropertyValue])

/-- messages/sensor.py:293 `SensorStatus`. -/
def t_SensorStatus : Con :=
  .many (some "SensorStatus") (t_SensorData)

/-- messages/sensor.py:340-355 `SensorMessage`. -/
def t_SensorMessage : Con :=
  .wrap (some "SensorMessage") (.struct none [.renamed none "opcode" (.wrap none (t_Int32ub)), .switch none [("SENSOR_DESCRIPTOR_GET", t_SensorGet), ("SENSOR_DESCRIPTOR_STATUS", t_SensorDescriptorStatus), ("SENSOR_GET", t_SensorGet), ("SENSOR_STATUS", t_SensorStatus)] none])

/-- messages/sensor.py:124-126 `SensorSettingsGet`. -/
def t_SensorSettingsGet : Con :=
  .struct (some "SensorSettingsGet") [.renamed none "sensor_property_id" (t_SensorPropertyId)]

/-- messages/sensor.py:226-229 `SensorSettingsStatus`. -/
def t_SensorSettingsStatus : Con :=
  .struct (some "SensorSettingsStatus") [.renamed none "sensor_property_id" (t_SensorPropertyId), .renamed none "sensor_setting_property_ids" (.many none (t_SensorPropertyId))]

/-- messages/sensor.py:128-131 `SensorSettingGet`. -/
def t_SensorSettingGet : Con :=
  .struct (some "SensorSettingGet") [.renamed none "sensor_property_id" (t_SensorPropertyId), .renamed none "sensor_setting_property_id" (t_SensorPropertyId)]

/-- messages/sensor.py:200 `SensorSettingSet`. -/
def t_SensorSettingSet : Con :=
  .wrap (some "SensorSettingSet") (.struct none [.renamed none "sensor_property_id" (t_SensorPropertyId), .renamed none "sensor_setting_property_id" (t_SensorPropertyId), t_SensorSettingPropertyValue])

/-- messages/sensor.py:224 `SensorSettingStatus`. -/
def t_SensorSettingStatus : Con :=
  .wrap (some "SensorSettingStatus") (.struct none [.renamed none "sensor_property_id" (t_SensorPropertyId), .renamed none "sensor_setting_property_id" (t_SensorPropertyId), .renamed none "sensor_setting_access" (t_Int8ul), t_SensorSettingPropertyValue])

/-- messages/sensor.py:357-374 `SensorSetupMessage`. -/
def t_SensorSetupMessage : Con :=
  .wrap (some "SensorSetupMessage") (.struct none [.renamed none "opcode" (.wrap none (t_Int32ub)), .switch none [("SENSOR_CADENCE_GET", t_SensorGetOptional), ("SENSOR_SETTINGS_GET", t_SensorSettingsGet), ("SENSOR_SETTINGS_STATUS", t_SensorSettingsStatus), ("SENSOR_SETTING_GET", t_SensorSettingGet), ("SENSOR_SETTING_SET", t_SensorSettingSet), ("SENSOR_SETTING_SET_UNACKNOWLEDGED", t_SensorSettingSet), ("SENSOR_SETTING_STATUS", t_SensorSettingStatus)] none])

/-- messages/silvair/light_extended_controller.py:77-79 `LightExtendedControllerPropertyGet`. -/
def t_LightExtendedControllerPropertyGet : Con :=
  .struct (some "LightExtendedControllerPropertyGet") [.renamed none "property_id" (.wrap none (t_Int16ul))]

/-- messages/silvair/light_extended_controller.py:81 `LightExtendedControllerPropertySet`. -/
def t_LightExtendedControllerPropertySet : Con :=
  .wrap (some "LightExtendedControllerPropertySet") (.struct none [.renamed none "property_id" (.wrap none (t_Int16ul)), .switch none [("AUTO_RESUME_MODE", t_Flag), ("AUTO_RESUME_TIMER", t_TimeMiliseconds24)] none])

/-- messages/silvair/light_extended_controller.py:83 `LightExtendedControllerPropertyStatus`. -/
def t_LightExtendedControllerPropertyStatus : Con :=
  .wrap (some "LightExtendedControllerPropertyStatus") (.struct none [.renamed none "property_id" (.wrap none (t_Int16ul)), .switch none [("AUTO_RESUME_MODE", t_Flag), ("AUTO_RESUME_TIMER", t_TimeMiliseconds24)] none])

/-- messages/silvair/light_extended_controller.py:85-87 `LightExtendedControllerSyncIntegralStatus`. -/
def t_LightExtendedControllerSyncIntegralStatus : Con :=
  .struct (some "LightExtendedControllerSyncIntegralStatus") [.renamed none "sync_integral" (t_Int16ul)]

/-- messages/silvair/light_extended_controller.py:89-101 `LightExtendedControllerParams`. -/
def t_LightExtendedControllerParams : Con :=
  .wrap (some "LightExtendedControllerParams") (.struct none [.renamed none "subopcode" (.wrap none (t_Int8ul)), .switch none [("PROPERTY_GET", t_LightExtendedControllerPropertyGet), ("PROPERTY_SET", t_LightExtendedControllerPropertySet), ("PROPERTY_SET_UNACKNOWLEDGED", t_LightExtendedControllerPropertySet), ("PROPERTY_STATUS", t_LightExtendedControllerPropertyStatus), ("SYNC_INTEGRAL_STATUS", t_LightExtendedControllerSyncIntegralStatus)] none])

/-- messages/silvair/light_extended_controller.py:103-111 `LightExtendedControllerMessage`. -/
def t_LightExtendedControllerMessage : Con :=
  .wrap (some "LightExtendedControllerMessage") (.struct none [.renamed none "opcode" (.wrap none (t_Int32ub)), .switch none [("SILVAIR_LEC", t_LightExtendedControllerParams)] none])

/-- messages/time.py:251 `TimeGet`. -/
def t_TimeGet : Con :=
  .struct (some "TimeGet") []

/-- messages/time.py:173-182 `DateTime`. -/
def t_DateTime : Con :=
  .struct (some "DateTime") [.renamed none "year" (t_Int16ul), .renamed none "month" (t_Int8ul), .renamed none "day" (t_Int8ul), .renamed none "hour" (t_Int8ul), .renamed none "minute" (t_Int8ul), .renamed none "second" (t_Int8ul), .renamed none "microsecond" (t_Int24ul), .renamed none "time_zone_offset" (.wrap none (t_Int16sl))]

/-- `Float32l` of the library construct. -/
def t_Float32l : Con :=
  .leaf (some "Float32l") (.format 'f')

/-- messages/time.py:253 `TimeSet`. -/
def t_TimeSet : Con :=
  .wrap (some "TimeSet") (.struct none [.renamed none "date" (t_DateTime), .renamed none "tai_utc_delta" (.wrap none (t_Int16sl)), .renamed none "time_authority" (t_Flag), .renamed none "uncertainty" (.wrap none (t_Float32l))])

/-- messages/time.py:255 `TimeStatus`. -/
def t_TimeStatus : Con :=
  .wrap (some "TimeStatus") (.struct none [.renamed none "date" (t_DateTime), .renamed none "tai_utc_delta" (.wrap none (t_Int16sl)), .renamed none "time_authority" (t_Flag), .renamed none "uncertainty" (.wrap none (t_Float32l))])

/-- messages/time.py:257 `TimeZoneGet`. -/
def t_TimeZoneGet : Con :=
  .struct (some "TimeZoneGet") []

/-- messages/time.py:259-262 `TimeZoneSet`. -/
def t_TimeZoneSet : Con :=
  .struct (some "TimeZoneSet") [.renamed none "time_zone_offset_new" (t_Int8ul), .renamed none "tai_of_zone_change" (.leaf none (.bytesInt 5 false))]

/-- messages/time.py:264-268 `TimeZoneStatus`. -/
def t_TimeZoneStatus : Con :=
  .struct (some "TimeZoneStatus") [.renamed none "time_zone_offset_current" (t_Int8ul), .renamed none "time_zone_offset_new" (t_Int8ul), .renamed none "tai_of_zone_change" (.leaf none (.bytesInt 5 false))]

/-- messages/time.py:270 `TAIUTCDeltaGet`. -/
def t_TAIUTCDeltaGet : Con :=
  .struct (some "TAIUTCDeltaGet") []

/-- messages/time.py:272-275 `TAIUTCDeltaSet`. -/
def t_TAIUTCDeltaSet : Con :=
  .struct (some "TAIUTCDeltaSet") [.renamed none "_" (.wrap none (.wrap none (.wrap none (.struct none [.wrap none (.skip (some "Pass")), .renamed none "tai_utc_delta_new" (.leaf none (.bits 15 false))])))), .renamed none "tai_utc_delta_new" (.wrap none (.renamed none "tai_utc_delta_new" (.leaf none (.bits 15 false)))), .renamed none "tai_of_delta_change" (.leaf none (.bytesInt 5 false))]

/-- messages/time.py:277-281 `TAIUTCDeltaStatus`. -/
def t_TAIUTCDeltaStatus : Con :=
  .struct (some "TAIUTCDeltaStatus") [.renamed none "_" (.wrap none (.wrap none (.wrap none (.struct none [.wrap none (.skip (some "Pass")), .renamed none "tai_utc_delta_current" (.leaf none (.bits 15 false))])))), .renamed none "tai_utc_delta_current" (.wrap none (.renamed none "tai_utc_delta_current" (.leaf none (.bits 15 false)))), .renamed none "_" (.wrap none (.wrap none (.wrap none (.struct none [.wrap none (.skip (some "Pass")), .renamed none "tai_utc_delta_new" (.leaf none (.bits 15 false))])))), .renamed none "tai_utc_delta_new" (.wrap none (.renamed none "tai_utc_delta_new" (.leaf none (.bits 15 false)))), .renamed none "tai_of_delta_change" (.leaf none (.bytesInt 5 false))]

/-- messages/time.py:283 `TimeRoleGet`. -/
def t_TimeRoleGet : Con :=
  .struct (some "TimeRoleGet") []

/-- messages/time.py:247-249 `TimeRoleMsg`. -/
def t_TimeRoleStatus : Con :=
  .struct (some "TimeRoleStatus") [.renamed none "time_role" (.wrap none (t_Int8ul))]

/-- messages/time.py:308-327 `TimeMessage`. -/
def t_TimeMessage : Con :=
  .wrap (some "TimeMessage") (.struct none [.renamed none "opcode" (.wrap none (t_Int32ub)), .switch none [("TIME_GET", t_TimeGet), ("TIME_SET", t_TimeSet), ("TIME_STATUS", t_TimeStatus), ("TIME_ZONE_GET", t_TimeZoneGet), ("TIME_ZONE_SET", t_TimeZoneSet), ("TIME_ZONE_STATUS", t_TimeZoneStatus), ("TAI_UTC_DELTA_GET", t_TAIUTCDeltaGet), ("TAI_UTC_DELTA_SET", t_TAIUTCDeltaSet), ("TAI_UTC_DELTA_STATUS", t_TAIUTCDeltaStatus), ("TIME_ROLE_GET", t_TimeRoleGet), ("TIME_ROLE_SET", t_TimeRoleStatus), ("TIME_ROLE_STATUS", t_TimeRoleStatus)] none])

/-- `Int64ul` of the library construct. -/
def t_Int64ul : Con :=
  .leaf (some "Int64ul") (.format 'Q')

/-- `Int64sl` of the library construct. -/
def t_Int64sl : Con :=
  .leaf (some "Int64sl") (.format 'q')

/-- `Float64l` of the library construct. -/
def t_Float64l : Con :=
  .leaf (some "Float64l") (.format 'd')

/-- messages/silvair/debugV2.py:125-146 `DebugV2Parameter`. -/
def t_DebugV2Parameter : Con :=
  .wrap (some "DebugV2Parameter") (.struct none [.renamed none "data_type" (.wrap none (t_Int8ul)), .switch none [("UINT8", t_Int8ul), ("UINT16", t_Int16ul), ("UINT32", t_Int32ul), ("UINT64", t_Int64ul), ("INT8", t_Int8sl), ("INT16", t_Int16sl), ("INT32", t_Int32sl), ("INT64", t_Int64sl), ("FLOAT", t_Float32l), ("DOUBLE", t_Float64l), ("ENUM", t_Int8ul), ("STRING", .text none), ("ARRAY", .focused none (.many none (t_Int8ul))), ("INVALID", .struct none [])] none])

/-- messages/silvair/debugV2.py:148-153 `DebugV2SubMessage`. -/
def t_DebugV2SubMessage : Con :=
  .struct (some "DebugV2SubMessage") [.renamed none "subopcode" (.wrap none (t_Int8ul)), .renamed none "parameter_type" (t_Int8ul), .renamed none "page_number" (t_Int8ul), .renamed none "payload" (.many none (t_DebugV2Parameter))]

/-- messages/silvair/debugV2.py:155-163 `DebugV2Message`. -/
def t_DebugV2Message : Con :=
  .wrap (some "DebugV2Message") (.struct none [.renamed none "opcode" (.wrap none (t_Int32ub)), .switch none [("SILVAIR_DEBUG_V2", t_DebugV2SubMessage)] none])

/-- messages/silvair/rrule_scheduler.py:188 `RulesListGet`. -/
def t_RulesListGet : Con :=
  .struct (some "RulesListGet") []

/-- messages/silvair/rrule_scheduler.py:152 `RuleID`. -/
def t_RuleID : Con :=
  .wrap (some "RuleID") (t_Int8ul)

/-- messages/silvair/rrule_scheduler.py:190-192 `RulesListStatus`. -/
def t_RulesListStatus : Con :=
  .struct (some "RulesListStatus") [.renamed none "rule_ids" (.wrap none (.many none (t_RuleID)))]

/-- messages/silvair/rrule_scheduler.py:194 `RegisterMaxSizeGet`. -/
def t_RegisterMaxSizeGet : Con :=
  .struct (some "RegisterMaxSizeGet") []

/-- messages/silvair/rrule_scheduler.py:196-198 `RegisterMaxSizeStatus`. -/
def t_RegisterMaxSizeStatus : Con :=
  .struct (some "RegisterMaxSizeStatus") [.renamed none "register_max_size" (t_Int32ul)]

/-- messages/silvair/rrule_scheduler.py:200 `SchedulerModeGet`. -/
def t_SchedulerModeGet : Con :=
  .struct (some "SchedulerModeGet") []

/-- messages/silvair/rrule_scheduler.py:202-204 `SchedulerModeSet`. -/
def t_SchedulerModeStatus : Con :=
  .struct (some "SchedulerModeStatus") [.renamed none "scheduler_mode" (.wrap none (t_Int8ul))]

/-- messages/silvair/rrule_scheduler.py:208-210 `ScheduleRegisterEntryGet`. -/
def t_ScheduleRegisterEntryDelete : Con :=
  .struct (some "ScheduleRegisterEntryDelete") [.renamed none "entry_id" (t_Int8ul)]

/-- messages/silvair/rrule_scheduler.py:135-139 `Slots`. -/
def t_Slots : Con :=
  .struct (some "Slots") [.renamed none "slot_id" (t_Int16ul), .renamed none "element" (t_Int8ul), .renamed none "slot_parameter" (.wrap none (t_GreedyBytes))]

/-- messages/silvair/rrule_scheduler.py:154 `Freq`. -/
def t_Freq : Con :=
  .wrap (some "Freq") (t_Int8ul)

/-- messages/silvair/rrule_scheduler.py:141-150 `DateTime`. -/
def t_DateTime' : Con :=
  .wrap (some "DateTime") (.wrap none (.struct none [.renamed none "second" (.leaf none (.bits 6 false)), .renamed none "minute" (.leaf none (.bits 6 false)), .renamed none "hour" (.leaf none (.bits 5 false)), .renamed none "day" (.leaf none (.bits 5 false)), .renamed none "month" (.leaf none (.bits 4 false)), .renamed none "year" (.leaf none (.bits 14 false))]))

/-- messages/silvair/rrule_scheduler.py:156 `Day`. -/
def t_Day : Con :=
  .wrap (some "Day") (t_Int8sl)

/-- messages/silvair/rrule_scheduler.py:158-181 `Rules`. -/
def t_Rules : Con :=
  .struct (some "Rules") [.renamed none "rule_id" (t_RuleID), .renamed none "rule" (.switch none [("FREQ", t_Freq), ("UNTIL", t_DateTime'), ("COUNT", t_Int16ul), ("INTERVAL", t_Int16ul), ("BYSECOND", .focused none (.many none (t_Int8ul))), ("BYMINUTE", .focused none (.many none (t_Int8ul))), ("BYHOUR", .focused none (.many none (t_Int8ul))), ("BYDAY", .focused none (.many none (t_Day))), ("BYMONTHDAY", .focused none (.many none (t_Int8sl))), ("BYYEARDAY", .focused none (.many none (t_Int16sl))), ("BYWEEKNO", .focused none (.many none (t_Int8sl))), ("BYMONTH", t_Int16ul), ("BYSETPOS", .focused none (.many none (t_Int16sl))), ("DTSTART", t_DateTime'), ("EXPLICIT_RDATE", .focused none (.many none (t_DateTime'))), ("EXCLUSIONS_RDATE", .focused none (.many none (t_DateTime')))] none)]

/-- messages/silvair/rrule_scheduler.py:183-186 `SchedulerRegisterEntry`. -/
def t_SchedulerRegisterEntry : Con :=
  .struct (some "SchedulerRegisterEntry") [.renamed none "array_of_slots" (.focused none (.many none (t_Slots))), .renamed none "rules" (.many none (t_Rules))]

/-- messages/silvair/rrule_scheduler.py:212-215 `ScheduleRegisterEntrySet`. -/
def t_ScheduleRegisterEntrySet : Con :=
  .struct (some "ScheduleRegisterEntrySet") [.renamed none "entry_id" (t_Int8ul), .renamed none "scheduler_register_entry" (t_SchedulerRegisterEntry)]

/-- messages/silvair/rrule_scheduler.py:219 `ScheduleRegisterEntryDeleteAll`. -/
def t_ScheduleRegisterEntryDeleteAll : Con :=
  .struct (some "ScheduleRegisterEntryDeleteAll") []

/-- messages/silvair/rrule_scheduler.py:226-229 `ScheduleRegisterEntryStatusOptional`. -/
def t_ScheduleRegisterEntryStatusOptional : Con :=
  .struct (some "ScheduleRegisterEntryStatusOptional") [.renamed none "entry_id" (t_Int8ul), .renamed none "status" (.wrap none (t_Int8ul)), .renamed none "scheduler_register_entry" (t_SchedulerRegisterEntry)]

/-- messages/silvair/rrule_scheduler.py:221-224 `ScheduleRegisterEntryStatusMinimal`. -/
def t_ScheduleRegisterEntryStatusMinimal : Con :=
  .struct (some "ScheduleRegisterEntryStatusMinimal") [.renamed none "entry_id" (t_Int8ul), .renamed none "status" (.wrap none (t_Int8ul))]

/-- messages/silvair/rrule_scheduler.py:231-234 `ScheduleRegisterEntryStatus`. -/
def t_ScheduleRegisterEntryStatus : Con :=
  .wrap (some "ScheduleRegisterEntryStatus") (.select none [.renamed none "optional" (t_ScheduleRegisterEntryStatusOptional), .renamed none "minimal" (t_ScheduleRegisterEntryStatusMinimal)])

/-- messages/silvair/rrule_scheduler.py:236 `ScheduleRegisterListGet`. -/
def t_ScheduleRegisterListGet : Con :=
  .struct (some "ScheduleRegisterListGet") []

/-- messages/silvair/rrule_scheduler.py:238-240 `ScheduleRegisterListStatus`. -/
def t_ScheduleRegisterListStatus : Con :=
  .struct (some "ScheduleRegisterListStatus") [.renamed none "entry_ids" (.wrap none (.many none (t_Int8ul)))]

/-- messages/silvair/rrule_scheduler.py:242-263 `RRuleSchedulerSubMessage`. -/
def t_RRuleSchedulerSubMessage : Con :=
  .struct (some "RRuleSchedulerSubMessage") [.renamed none "subopcode" (.wrap none (t_Int8ul)), .renamed none "payload" (.switch none [("RULES_LIST_GET", t_RulesListGet), ("RULES_LIST_STATUS", t_RulesListStatus), ("REGISTER_MAX_SIZE_GET", t_RegisterMaxSizeGet), ("REGISTER_MAX_SIZE_STATUS", t_RegisterMaxSizeStatus), ("SCHEDULER_MODE_GET", t_SchedulerModeGet), ("SCHEDULER_MODE_SET", t_SchedulerModeStatus), ("SCHEDULER_MODE_STATUS", t_SchedulerModeStatus), ("SCHEDULE_REGISTER_ENTRY_GET", t_ScheduleRegisterEntryDelete), ("SCHEDULE_REGISTER_ENTRY_SET", t_ScheduleRegisterEntrySet), ("SCHEDULE_REGISTER_ENTRY_DELETE", t_ScheduleRegisterEntryDelete), ("SCHEDULE_REGISTER_ENTRY_DELETE_ALL", t_ScheduleRegisterEntryDeleteAll), ("SCHEDULE_REGISTER_ENTRY_STATUS", t_ScheduleRegisterEntryStatus), ("SCHEDULE_REGISTER_LIST_GET", t_ScheduleRegisterListGet), ("SCHEDULE_REGISTER_LIST_STATUS", t_ScheduleRegisterListStatus)] none)]

/-- messages/silvair/rrule_scheduler.py:265-273 `RRuleSchedulerMessage`. -/
def t_RRuleSchedulerMessage : Con :=
  .wrap (some "RRuleSchedulerMessage") (.struct none [.renamed none "opcode" (.wrap none (t_Int32ub)), .switch none [("SILVAIR_RRULE_SCHEDULER", t_RRuleSchedulerSubMessage)] none])

/-- messages/generic/property.py:72 `GenericPropertiesGet`. -/
def t_GenericPropertiesGet : Con :=
  .struct (some "GenericPropertiesGet") []

/-- messages/generic/property.py:74-76 `GenericPropertiesStatus`. -/
def t_GenericPropertiesStatus : Con :=
  .struct (some "GenericPropertiesStatus") [.renamed none "property_ids" (.many none (t_SensorPropertyId))]

/-- messages/generic/property.py:78-80 `GenericPropertyGet`. -/
def t_GenericPropertyGet : Con :=
  .struct (some "GenericPropertyGet") [.renamed none "property_id" (t_SensorPropertyId)]

/-- messages/generic/property.py:120 `GenericUserPropertySet`. -/
def t_GenericUserPropertySet : Con :=
  .wrap (some "GenericUserPropertySet") (.struct none [.renamed none "property_id" (.wrap none (t_Int16ul)), .switch none [("AVERAGE_AMBIENT_TEMPERATURE_IN_A_PERIOD_OF_DAY", t_Temperature8InAPeriodOfDay), ("AVERAGE_INPUT_CURRENT", t_AverageCurrent), ("AVERAGE_INPUT_VOLTAGE", t_AverageVoltage), ("AVERAGE_OUTPUT_CURRENT", t_AverageCurrent), ("AVERAGE_OUTPUT_VOLTAGE", t_AverageVoltage), ("CENTER_BEAM_INTENSITY_AT_FULL_POWER", t_LuminousIntensity), ("CHROMATICITY_TOLERANCE", t_ChromaticityTolerance), ("COLOR_RENDERING_INDEX_R9", t_ColorRenderingIndex), ("COLOR_RENDERING_INDEX_RA", t_ColorRenderingIndex), ("DEVICE_APPEARANCE", t_Appearance), ("DEVICE_COUNTRY_OF_ORIGIN", t_CountryCode), ("DEVICE_DATE_OF_MANUFACTURE", t_DateUTC), ("DEVICE_ENERGY_USE_SINCE_TURN_ON", t_Energy), ("DEVICE_FIRMWARE_REVISION", .wrap none (.text none)), ("DEVICE_GLOBAL_TRADE_ITEM_NUMBER", t_GlobalTradeItemNumber), ("DEVICE_HARDWARE_REVISION", .wrap none (.text none)), ("DEVICE_MANUFACTURER_NAME", .wrap none (.text none)), ("DEVICE_MODEL_NUMBER", .wrap none (.text none)), ("DEVICE_OPERATING_TEMPERATURE_RANGE_SPECIFICATION", t_TemperatureRange), ("DEVICE_OPERATING_TEMPERATURE_STATISTICAL_VALUES", t_TemperatureStatistics), ("DEVICE_OVER_TEMPERATURE_EVENT_STATISTICS", t_EventStatistics), ("DEVICE_POWER_RANGE_SPECIFICATION", t_PowerSpecification), ("DEVICE_RUNTIME_SINCE_TURN_ON", t_TimeHour24), ("DEVICE_RUNTIME_WARRANTY", t_TimeHour24), ("DEVICE_SERIAL_NUMBER", .wrap none (.text none)), ("DEVICE_SOFTWARE_REVISION", .wrap none (.text none)), ("DEVICE_UNDER_TEMPERATURE_EVENT_STATISTICS", t_EventStatistics), ("INDOOR_AMBIENT_TEMPERATURE_STATISTICAL_VALUES", t_Temperature8Statistics), ("INITIAL_CIE1931_CHROMATICITY_COORDINATES", t_ChromaticityCoordinates), ("INITIAL_CORRELATED_COLOR_TEMPERATURE", t_CorrelatedColorTemperature), ("INITIAL_LUMINOUS_FLUX", t_LuminousFlux), ("INITIAL_PLANCKIAN_DISTANCE", t_ChromaticDistanceFromPlanckian), ("INPUT_CURRENT_RANGE_SPECIFICATION", t_ElectricCurrentSpecification), ("INPUT_CURRENT_STATISTICS", t_ElectricCurrentStatistics), ("INPUT_OVER_CURRENT_EVENT_STATISTICS", t_EventStatistics), ("INPUT_OVER_RIPPLE_VOLTAGE_EVENT_STATISTICS", t_EventStatistics), ("INPUT_OVER_VOLTAGE_EVENT_STATISTICS", t_EventStatistics), ("INPUT_UNDER_CURRENT_EVENT_STATISTICS", t_EventStatistics), ("INPUT_UNDER_VOLTAGE_EVENT_STATISTICS", t_EventStatistics), ("INPUT_VOLTAGE_RANGE_SPECIFICATION", t_VoltageRange), ("INPUT_VOLTAGE_RIPPLE_SPECIFICATION", t_Percentage8), ("INPUT_VOLTAGE_STATISTICS", t_VoltageStatistics), ("LIGHT_CONTROL_AMBIENT_LUXLEVEL_ON", t_Illuminance), ("LIGHT_CONTROL_AMBIENT_LUXLEVEL_PROLONG", t_Illuminance), ("LIGHT_CONTROL_AMBIENT_LUXLEVEL_STANDBY", t_Illuminance), ("LIGHT_CONTROL_LIGHTNESS_ON", t_PerceivedLightness), ("LIGHT_CONTROL_LIGHTNESS_PROLONG", t_PerceivedLightness), ("LIGHT_CONTROL_LIGHTNESS_STANDBY", t_PerceivedLightness), ("LIGHT_CONTROL_REGULATOR_ACCURACY", t_Percentage8), ("LIGHT_CONTROL_REGULATOR_KID", t_Coefficient), ("LIGHT_CONTROL_REGULATOR_KIU", t_Coefficient), ("LIGHT_CONTROL_REGULATOR_KPD", t_Coefficient), ("LIGHT_CONTROL_REGULATOR_KPU", t_Coefficient), ("LIGHT_CONTROL_TIME_FADE", t_TimeMiliseconds24), ("LIGHT_CONTROL_TIME_FADE_ON", t_TimeMiliseconds24), ("LIGHT_CONTROL_TIME_FADE_STANDBY_AUTO", t_TimeMiliseconds24), ("LIGHT_CONTROL_TIME_FADE_STANDBY_MANUAL", t_TimeMiliseconds24), ("LIGHT_CONTROL_TIME_OCCUPANCY_DELAY", t_TimeMiliseconds24), ("LIGHT_CONTROL_TIME_PROLONG", t_TimeMiliseconds24), ("LIGHT_CONTROL_TIME_RUN_ON", t_TimeMiliseconds24), ("LUMEN_MAINTENANCE_FACTOR", t_Percentage8), ("LUMINOUS_EFFICACY", t_LuminousEfficacy), ("LUMINOUS_ENERGY_SINCE_TURN_ON", t_LuminousEnergy), ("LUMINOUS_EXPOSURE", t_LuminousExposure), ("LUMINOUS_FLUX_RANGE", t_LuminousFluxRange), ("MOTION_SENSED", t_Percentage8), ("MOTION_THRESHOLD", t_Percentage8), ("OPEN_CIRCUIT_EVENT_STATISTICS", t_EventStatistics), ("OUTDOOR_STATISTICAL_VALUES", t_Temperature8Statistics), ("OUTPUT_CURRENT_RANGE", t_ElectricCurrentRange), ("OUTPUT_CURRENT_STATISTICS", t_ElectricCurrentStatistics), ("OUTPUT_RIPPLE_VOLTAGE_SPECIFICATION", t_Percentage8), ("OUTPUT_VOLTAGE_RANGE", t_VoltageRange), ("OUTPUT_VOLTAGE_STATISTICS", t_VoltageStatistics), ("OVER_OUTPUT_RIPPLE_VOLTAGE_EVENT_STATISTICS", t_EventStatistics), ("PEOPLE_COUNT", t_Count16), ("PRESENCE_DETECTED", t_Presence), ("PRESENT_AMBIENT_LIGHT_LEVEL", t_Illuminance), ("PRESENT_AMBIENT_TEMPERATURE", t_Temperature8), ("PRESENT_CIE1931_CHROMATICITY_COORDINATES", t_ChromaticityCoordinates), ("PRESENT_CORRELATED_COLOR_TEMPERATURE", t_CorrelatedColorTemperature), ("PRESENT_DEVICE_INPUT_POWER", t_Power), ("PRESENT_DEVICE_OPERATING_EFFICIENCY", t_Percentage8), ("PRESENT_DEVICE_OPERATING_TEMPERATURE", t_Temperature), ("PRESENT_ILLUMINANCE", t_Illuminance), ("PRESENT_INDOOR_AMBIENT_TEMPERATURE", t_Temperature8), ("PRESENT_INPUT_CURRENT", t_ElectricCurrent), ("PRESENT_INPUT_RIPPLE_VOLTAGE", t_Percentage8), ("PRESENT_INPUT_VOLTAGE", t_Voltage), ("PRESENT_LUMINOUS_FLUX", t_LuminousFlux), ("PRESENT_OUTDOOR_AMBIENT_TEMPERATURE", t_Temperature8), ("PRESENT_OUTPUT_CURRENT", t_ElectricCurrent), ("PRESENT_OUTPUT_VOLTAGE", t_Voltage), ("PRESENT_PLANCKIAN_DISTANCE", t_ChromaticDistanceFromPlanckian), ("PRESENT_RELATIVE_OUTPUT_RIPPLE_VOLTAGE", t_Percentage8), ("RELATIVE_DEVICE_ENERGY_USE_IN_A_PERIOD_OF_DAY", t_EnergyInAPeriodOfDay), ("RELATIVE_DEVICE_RUNTIME_IN_A_GENERIC_LEVEL_RANGE", t_RelativeRuntimeInAGenericLevelRange), ("RELATIVE_EXPOSURE_TIME_IN_AN_ILLUMINANCE_RANGE", t_RelativeValueInAnIlluminanceRange), ("RELATIVE_RUNTIME_IN_A_CORRELATED_COLOR_TEMPERATURE_RANGE", t_LuminousEnergy), ("RELATIVE_RUNTIME_IN_A_DEVICE_OPERATING_TEMPERATURE_RANGE", t_RelativeValueInATemperatureRange), ("RELATIVE_RUNTIME_IN_AN_INPUT_CURRENT_RANGE", t_RelativeValueInACurrentRange), ("RELATIVE_RUNTIME_IN_AN_INPUT_VOLTAGE_RANGE", t_RelativeValueInAVoltageRange), ("SHORT_CIRCUIT_EVENT_STATISTICS", t_EventStatistics), ("TIME_SINCE_MOTION_SENSED", t_TimeSecond16), ("TIME_SINCE_PRESENCE_DETECTED", t_TimeSecond16), ("TOTAL_DEVICE_ENERGY_USE", t_Energy), ("TOTAL_DEVICE_OFF_ON_CYCLES", t_Count24), ("TOTAL_DEVICE_POWER_ON_CYCLES", t_Count24), ("TOTAL_DEVICE_POWER_ON_TIME", t_TimeHour24), ("TOTAL_DEVICE_RUNTIME", t_TimeHour24), ("TOTAL_LIGHT_EXPOSURE_TIME", t_TimeHour24), ("TOTAL_LUMINOUS_ENERGY", t_LuminousEnergy), ("PRECISE_TOTAL_DEVICE_ENERGY_USE", t_PreciseEnergy), ("POWER_FACTOR", t_CosineOfTheAngle), ("EXTERNAL_SUPPLY_VOLTAGE", t_HighVoltage), ("EXTERNAL_SUPPLY_VOLTAGE_FREQUENCY", t_VoltageFrequency), ("LIGHT_DISTRIBUTION", t_LightDistribution), ("LIGHT_SOURCE_CURRENT", t_AverageCurrent), ("LIGHT_SOURCE_ON_TIME_NOT_RESETTABLE", t_TimeSecond32), ("LIGHT_SOURCE_ON_TIME_RESETTABLE", t_TimeSecond32), ("LIGHT_SOURCE_OPEN_CIRCUIT_STATISTICS", t_EventStatistics), ("LIGHT_SOURCE_OVERALL_FAILURES_STATISTICS", t_EventStatistics), ("LIGHT_SOURCE_SHORT_CIRCUIT_STATISTICS", t_EventStatistics), ("LIGHT_SOURCE_START_COUNTER_RESETTABLE", t_Count24), ("LIGHT_SOURCE_TEMPERATURE", t_HighTemperature), ("LIGHT_SOURCE_THERMAL_DERATING_STATISTICS", t_EventStatistics), ("LIGHT_SOURCE_THERMAL_SHUTDOWN_STATISTICS", t_EventStatistics), ("LIGHT_SOURCE_TOTAL_POWER_ON_CYCLES", t_Count24), ("LIGHT_SOURCE_VOLTAGE", t_AverageVoltage), ("LUMINAIRE_COLOR", .wrap none (.text none)), ("LUMINAIRE_IDENTIFICATION_NUMBER", .wrap none (.text none)), ("LUMINAIRE_NOMINAL_INPUT_POWER", t_Power), ("LUMINAIRE_NOMINAL_MAXIMUM_AC_MAINS_VOLTAGE", t_Voltage), ("LUMINAIRE_NOMINAL_MINIMUM_AC_MAINS_VOLTAGE", t_Voltage), ("LUMINAIRE_POWER_AT_MINIMUM_DIM_LEVEL", t_Power), ("LUMINAIRE_TIME_OF_MANUFACTURE", t_DateUTC), ("NOMINAL_LIGHT_OUTPUT", t_LightOutput), ("OVERALL_FAILURE_CONDITION", t_EventStatistics), ("RATED_MEDIAN_USEFUL_LIFE_OF_LUMINAIRE", t_TimeHour24), ("RATED_MEDIAN_USEFUL_LIGHT_SOURCE_STARTS", t_Count24), ("REFERENCE_TEMPERATURE", t_HighTemperature), ("TOTAL_DEVICE_STARTS", t_Count24), ("LUMINAIRE_IDENTIFICATION_STRING", .wrap none (.text none)), ("OUTPUT_POWER_LIMITATION", t_EventStatistics), ("THERMAL_DERATING", t_EventStatistics), ("OUTPUT_CURRENT_PERCENT", t_Percentage8), ("LUMINAIRE_MANUFACTURER_GTIN", t_GlobalTradeItemNumber), ("APPARENT_ENERGY", t_ApparentEnergy32), ("APPARENT_POWER", t_ApparentPower), ("ACTIVE_ENERGY_LOAD_SIDE", t_Energy32), ("ACTIVE_POWER_LOAD_SIDE", t_Power), ("LIGHT_SOURCE_TYPE", t_LightSourceType), ("DESIRED_AMBIENT_TEMPERATURE", t_Temperature8), ("SENSOR_GAIN", t_Coefficient), ("PRECISE_PRESENT_AMBIENT_TEMPERATURE", t_Temperature)] none])

/-- messages/generic/property.py:129 `GenericPropertyStatus`. -/
def t_GenericPropertyStatus : Con :=
  .wrap (some "GenericPropertyStatus") (.struct none [.renamed none "property_id" (.wrap none (t_Int16ul)), .renamed none "access" (.wrap none (t_Int8ul)), .switch none [("AVERAGE_AMBIENT_TEMPERATURE_IN_A_PERIOD_OF_DAY", t_Temperature8InAPeriodOfDay), ("AVERAGE_INPUT_CURRENT", t_AverageCurrent), ("AVERAGE_INPUT_VOLTAGE", t_AverageVoltage), ("AVERAGE_OUTPUT_CURRENT", t_AverageCurrent), ("AVERAGE_OUTPUT_VOLTAGE", t_AverageVoltage), ("CENTER_BEAM_INTENSITY_AT_FULL_POWER", t_LuminousIntensity), ("CHROMATICITY_TOLERANCE", t_ChromaticityTolerance), ("COLOR_RENDERING_INDEX_R9", t_ColorRenderingIndex), ("COLOR_RENDERING_INDEX_RA", t_ColorRenderingIndex), ("DEVICE_APPEARANCE", t_Appearance), ("DEVICE_COUNTRY_OF_ORIGIN", t_CountryCode), ("DEVICE_DATE_OF_MANUFACTURE", t_DateUTC), ("DEVICE_ENERGY_USE_SINCE_TURN_ON", t_Energy), ("DEVICE_FIRMWARE_REVISION", .wrap none (.text none)), ("DEVICE_GLOBAL_TRADE_ITEM_NUMBER", t_GlobalTradeItemNumber), ("DEVICE_HARDWARE_REVISION", .wrap none (.text none)), ("DEVICE_MANUFACTURER_NAME", .wrap none (.text none)), ("DEVICE_MODEL_NUMBER", .wrap none (.text none)), ("DEVICE_OPERATING_TEMPERATURE_RANGE_SPECIFICATION", t_TemperatureRange), ("DEVICE_OPERATING_TEMPERATURE_STATISTICAL_VALUES", t_TemperatureStatistics), ("DEVICE_OVER_TEMPERATURE_EVENT_STATISTICS", t_EventStatistics), ("DEVICE_POWER_RANGE_SPECIFICATION", t_PowerSpecification), ("DEVICE_RUNTIME_SINCE_TURN_ON", t_TimeHour24), ("DEVICE_RUNTIME_WARRANTY", t_TimeHour24), ("DEVICE_SERIAL_NUMBER", .wrap none (.text none)), ("DEVICE_SOFTWARE_REVISION", .wrap none (.text none)), ("DEVICE_UNDER_TEMPERATURE_EVENT_STATISTICS", t_EventStatistics), ("INDOOR_AMBIENT_TEMPERATURE_STATISTICAL_VALUES", t_Temperature8Statistics), ("INITIAL_CIE1931_CHROMATICITY_COORDINATES", t_ChromaticityCoordinates), ("INITIAL_CORRELATED_COLOR_TEMPERATURE", t_CorrelatedColorTemperature), ("INITIAL_LUMINOUS_FLUX", t_LuminousFlux), ("INITIAL_PLANCKIAN_DISTANCE", t_ChromaticDistanceFromPlanckian), ("INPUT_CURRENT_RANGE_SPECIFICATION", t_ElectricCurrentSpecification), ("INPUT_CURRENT_STATISTICS", t_ElectricCurrentStatistics), ("INPUT_OVER_CURRENT_EVENT_STATISTICS", t_EventStatistics), ("INPUT_OVER_RIPPLE_VOLTAGE_EVENT_STATISTICS", t_EventStatistics), ("INPUT_OVER_VOLTAGE_EVENT_STATISTICS", t_EventStatistics), ("INPUT_UNDER_CURRENT_EVENT_STATISTICS", t_EventStatistics), ("INPUT_UNDER_VOLTAGE_EVENT_STATISTICS", t_EventStatistics), ("INPUT_VOLTAGE_RANGE_SPECIFICATION", t_VoltageRange), ("INPUT_VOLTAGE_RIPPLE_SPECIFICATION", t_Percentage8), ("INPUT_VOLTAGE_STATISTICS", t_VoltageStatistics), ("LIGHT_CONTROL_AMBIENT_LUXLEVEL_ON", t_Illuminance), ("LIGHT_CONTROL_AMBIENT_LUXLEVEL_PROLONG", t_Illuminance), ("LIGHT_CONTROL_AMBIENT_LUXLEVEL_STANDBY", t_Illuminance), ("LIGHT_CONTROL_LIGHTNESS_ON", t_PerceivedLightness), ("LIGHT_CONTROL_LIGHTNESS_PROLONG", t_PerceivedLightness), ("LIGHT_CONTROL_LIGHTNESS_STANDBY", t_PerceivedLightness), ("LIGHT_CONTROL_REGULATOR_ACCURACY", t_Percentage8), ("LIGHT_CONTROL_REGULATOR_KID", t_Coefficient), ("LIGHT_CONTROL_REGULATOR_KIU", t_Coefficient), ("LIGHT_CONTROL_REGULATOR_KPD", t_Coefficient), ("LIGHT_CONTROL_REGULATOR_KPU", t_Coefficient), ("LIGHT_CONTROL_TIME_FADE", t_TimeMiliseconds24), ("LIGHT_CONTROL_TIME_FADE_ON", t_TimeMiliseconds24), ("LIGHT_CONTROL_TIME_FADE_STANDBY_AUTO", t_TimeMiliseconds24), ("LIGHT_CONTROL_TIME_FADE_STANDBY_MANUAL", t_TimeMiliseconds24), ("LIGHT_CONTROL_TIME_OCCUPANCY_DELAY", t_TimeMiliseconds24), ("LIGHT_CONTROL_TIME_PROLONG", t_TimeMiliseconds24), ("LIGHT_CONTROL_TIME_RUN_ON", t_TimeMiliseconds24), ("LUMEN_MAINTENANCE_FACTOR", t_Percentage8), ("LUMINOUS_EFFICACY", t_LuminousEfficacy), ("LUMINOUS_ENERGY_SINCE_TURN_ON", t_LuminousEnergy), ("LUMINOUS_EXPOSURE", t_LuminousExposure), ("LUMINOUS_FLUX_RANGE", t_LuminousFluxRange), ("MOTION_SENSED", t_Percentage8), ("MOTION_THRESHOLD", t_Percentage8), ("OPEN_CIRCUIT_EVENT_STATISTICS", t_EventStatistics), ("OUTDOOR_STATISTICAL_VALUES", t_Temperature8Statistics), ("OUTPUT_CURRENT_RANGE", t_ElectricCurrentRange), ("OUTPUT_CURRENT_STATISTICS", t_ElectricCurrentStatistics), ("OUTPUT_RIPPLE_VOLTAGE_SPECIFICATION", t_Percentage8), ("OUTPUT_VOLTAGE_RANGE", t_VoltageRange), ("OUTPUT_VOLTAGE_STATISTICS", t_VoltageStatistics), ("OVER_OUTPUT_RIPPLE_VOLTAGE_EVENT_STATISTICS", t_EventStatistics), ("PEOPLE_COUNT", t_Count16), ("PRESENCE_DETECTED", t_Presence), ("PRESENT_AMBIENT_LIGHT_LEVEL", t_Illuminance), ("PRESENT_AMBIENT_TEMPERATURE", t_Temperature8), ("PRESENT_CIE1931_CHROMATICITY_COORDINATES", t_ChromaticityCoordinates), ("PRESENT_CORRELATED_COLOR_TEMPERATURE", t_CorrelatedColorTemperature), ("PRESENT_DEVICE_INPUT_POWER", t_Power), ("PRESENT_DEVICE_OPERATING_EFFICIENCY", t_Percentage8), ("PRESENT_DEVICE_OPERATING_TEMPERATURE", t_Temperature), ("PRESENT_ILLUMINANCE", t_Illuminance), ("PRESENT_INDOOR_AMBIENT_TEMPERATURE", t_Temperature8), ("PRESENT_INPUT_CURRENT", t_ElectricCurrent), ("PRESENT_INPUT_RIPPLE_VOLTAGE", t_Percentage8), ("PRESENT_INPUT_VOLTAGE", t_Voltage), ("PRESENT_LUMINOUS_FLUX", t_LuminousFlux), ("PRESENT_OUTDOOR_AMBIENT_TEMPERATURE", t_Temperature8), ("PRESENT_OUTPUT_CURRENT", t_ElectricCurrent), ("PRESENT_OUTPUT_VOLTAGE", t_Voltage), ("PRESENT_PLANCKIAN_DISTANCE", t_ChromaticDistanceFromPlanckian), ("PRESENT_RELATIVE_OUTPUT_RIPPLE_VOLTAGE", t_Percentage8), ("RELATIVE_DEVICE_ENERGY_USE_IN_A_PERIOD_OF_DAY", t_EnergyInAPeriodOfDay), ("RELATIVE_DEVICE_RUNTIME_IN_A_GENERIC_LEVEL_RANGE", t_RelativeRuntimeInAGenericLevelRange), ("RELATIVE_EXPOSURE_TIME_IN_AN_ILLUMINANCE_RANGE", t_RelativeValueInAnIlluminanceRange), ("RELATIVE_RUNTIME_IN_A_CORRELATED_COLOR_TEMPERATURE_RANGE", t_LuminousEnergy), ("RELATIVE_RUNTIME_IN_A_DEVICE_OPERATING_TEMPERATURE_RANGE", t_RelativeValueInATemperatureRange), ("RELATIVE_RUNTIME_IN_AN_INPUT_CURRENT_RANGE", t_RelativeValueInACurrentRange), ("RELATIVE_RUNTIME_IN_AN_INPUT_VOLTAGE_RANGE", t_RelativeValueInAVoltageRange), ("SHORT_CIRCUIT_EVENT_STATISTICS", t_EventStatistics), ("TIME_SINCE_MOTION_SENSED", t_TimeSecond16), ("TIME_SINCE_PRESENCE_DETECTED", t_TimeSecond16), ("TOTAL_DEVICE_ENERGY_USE", t_Energy), ("TOTAL_DEVICE_OFF_ON_CYCLES", t_Count24), ("TOTAL_DEVICE_POWER_ON_CYCLES", t_Count24), ("TOTAL_DEVICE_POWER_ON_TIME", t_TimeHour24), ("TOTAL_DEVICE_RUNTIME", t_TimeHour24), ("TOTAL_LIGHT_EXPOSURE_TIME", t_TimeHour24), ("TOTAL_LUMINOUS_ENERGY", t_LuminousEnergy), ("PRECISE_TOTAL_DEVICE_ENERGY_USE", t_PreciseEnergy), ("POWER_FACTOR", t_CosineOfTheAngle), ("EXTERNAL_SUPPLY_VOLTAGE", t_HighVoltage), ("EXTERNAL_SUPPLY_VOLTAGE_FREQUENCY", t_VoltageFrequency), ("LIGHT_DISTRIBUTION", t_LightDistribution), ("LIGHT_SOURCE_CURRENT", t_AverageCurrent), ("LIGHT_SOURCE_ON_TIME_NOT_RESETTABLE", t_TimeSecond32), ("LIGHT_SOURCE_ON_TIME_RESETTABLE", t_TimeSecond32), ("LIGHT_SOURCE_OPEN_CIRCUIT_STATISTICS", t_EventStatistics), ("LIGHT_SOURCE_OVERALL_FAILURES_STATISTICS", t_EventStatistics), ("LIGHT_SOURCE_SHORT_CIRCUIT_STATISTICS", t_EventStatistics), ("LIGHT_SOURCE_START_COUNTER_RESETTABLE", t_Count24), ("LIGHT_SOURCE_TEMPERATURE", t_HighTemperature), ("LIGHT_SOURCE_THERMAL_DERATING_STATISTICS", t_EventStatistics), ("LIGHT_SOURCE_THERMAL_SHUTDOWN_STATISTICS", t_EventStatistics), ("LIGHT_SOURCE_TOTAL_POWER_ON_CYCLES", t_Count24), ("LIGHT_SOURCE_VOLTAGE", t_AverageVoltage), ("LUMINAIRE_COLOR", .wrap none (.text none)), ("LUMINAIRE_IDENTIFICATION_NUMBER", .wrap none (.text none)), ("LUMINAIRE_NOMINAL_INPUT_POWER", t_Power), ("LUMINAIRE_NOMINAL_MAXIMUM_AC_MAINS_VOLTAGE", t_Voltage), ("LUMINAIRE_NOMINAL_MINIMUM_AC_MAINS_VOLTAGE", t_Voltage), ("LUMINAIRE_POWER_AT_MINIMUM_DIM_LEVEL", t_Power), ("LUMINAIRE_TIME_OF_MANUFACTURE", t_DateUTC), ("NOMINAL_LIGHT_OUTPUT", t_LightOutput), ("OVERALL_FAILURE_CONDITION", t_EventStatistics), ("RATED_MEDIAN_USEFUL_LIFE_OF_LUMINAIRE", t_TimeHour24), ("RATED_MEDIAN_USEFUL_LIGHT_SOURCE_STARTS", t_Count24), ("REFERENCE_TEMPERATURE", t_HighTemperature), ("TOTAL_DEVICE_STARTS", t_Count24), ("LUMINAIRE_IDENTIFICATION_STRING", .wrap none (.text none)), ("OUTPUT_POWER_LIMITATION", t_EventStatistics), ("THERMAL_DERATING", t_EventStatistics), ("OUTPUT_CURRENT_PERCENT", t_Percentage8), ("LUMINAIRE_MANUFACTURER_GTIN", t_GlobalTradeItemNumber), ("APPARENT_ENERGY", t_ApparentEnergy32), ("APPARENT_POWER", t_ApparentPower), ("ACTIVE_ENERGY_LOAD_SIDE", t_Energy32), ("ACTIVE_POWER_LOAD_SIDE", t_Power), ("LIGHT_SOURCE_TYPE", t_LightSourceType), ("DESIRED_AMBIENT_TEMPERATURE", t_Temperature8), ("SENSOR_GAIN", t_Coefficient), ("PRECISE_PRESENT_AMBIENT_TEMPERATURE", t_Temperature)] none])

/-- messages/generic/property.py:122 `GenericAdminPropertySet`. -/
def t_GenericAdminPropertySet : Con :=
  .wrap (some "GenericAdminPropertySet") (.struct none [.renamed none "property_id" (.wrap none (t_Int16ul)), .renamed none "access" (.wrap none (t_Int8ul)), .switch none [("AVERAGE_AMBIENT_TEMPERATURE_IN_A_PERIOD_OF_DAY", t_Temperature8InAPeriodOfDay), ("AVERAGE_INPUT_CURRENT", t_AverageCurrent), ("AVERAGE_INPUT_VOLTAGE", t_AverageVoltage), ("AVERAGE_OUTPUT_CURRENT", t_AverageCurrent), ("AVERAGE_OUTPUT_VOLTAGE", t_AverageVoltage), ("CENTER_BEAM_INTENSITY_AT_FULL_POWER", t_LuminousIntensity), ("CHROMATICITY_TOLERANCE", t_ChromaticityTolerance), ("COLOR_RENDERING_INDEX_R9", t_ColorRenderingIndex), ("COLOR_RENDERING_INDEX_RA", t_ColorRenderingIndex), ("DEVICE_APPEARANCE", t_Appearance), ("DEVICE_COUNTRY_OF_ORIGIN", t_CountryCode), ("DEVICE_DATE_OF_MANUFACTURE", t_DateUTC), ("DEVICE_ENERGY_USE_SINCE_TURN_ON", t_Energy), ("DEVICE_FIRMWARE_REVISION", .wrap none (.text none)), ("DEVICE_GLOBAL_TRADE_ITEM_NUMBER", t_GlobalTradeItemNumber), ("DEVICE_HARDWARE_REVISION", .wrap none (.text none)), ("DEVICE_MANUFACTURER_NAME", .wrap none (.text none)), ("DEVICE_MODEL_NUMBER", .wrap none (.text none)), ("DEVICE_OPERATING_TEMPERATURE_RANGE_SPECIFICATION", t_TemperatureRange), ("DEVICE_OPERATING_TEMPERATURE_STATISTICAL_VALUES", t_TemperatureStatistics), ("DEVICE_OVER_TEMPERATURE_EVENT_STATISTICS", t_EventStatistics), ("DEVICE_POWER_RANGE_SPECIFICATION", t_PowerSpecification), ("DEVICE_RUNTIME_SINCE_TURN_ON", t_TimeHour24), ("DEVICE_RUNTIME_WARRANTY", t_TimeHour24), ("DEVICE_SERIAL_NUMBER", .wrap none (.text none)), ("DEVICE_SOFTWARE_REVISION", .wrap none (.text none)), ("DEVICE_UNDER_TEMPERATURE_EVENT_STATISTICS", t_EventStatistics), ("INDOOR_AMBIENT_TEMPERATURE_STATISTICAL_VALUES", t_Temperature8Statistics), ("INITIAL_CIE1931_CHROMATICITY_COORDINATES", t_ChromaticityCoordinates), ("INITIAL_CORRELATED_COLOR_TEMPERATURE", t_CorrelatedColorTemperature), ("INITIAL_LUMINOUS_FLUX", t_LuminousFlux), ("INITIAL_PLANCKIAN_DISTANCE", t_ChromaticDistanceFromPlanckian), ("INPUT_CURRENT_RANGE_SPECIFICATION", t_ElectricCurrentSpecification), ("INPUT_CURRENT_STATISTICS", t_ElectricCurrentStatistics), ("INPUT_OVER_CURRENT_EVENT_STATISTICS", t_EventStatistics), ("INPUT_OVER_RIPPLE_VOLTAGE_EVENT_STATISTICS", t_EventStatistics), ("INPUT_OVER_VOLTAGE_EVENT_STATISTICS", t_EventStatistics), ("INPUT_UNDER_CURRENT_EVENT_STATISTICS", t_EventStatistics), ("INPUT_UNDER_VOLTAGE_EVENT_STATISTICS", t_EventStatistics), ("INPUT_VOLTAGE_RANGE_SPECIFICATION", t_VoltageRange), ("INPUT_VOLTAGE_RIPPLE_SPECIFICATION", t_Percentage8), ("INPUT_VOLTAGE_STATISTICS", t_VoltageStatistics), ("LIGHT_CONTROL_AMBIENT_LUXLEVEL_ON", t_Illuminance), ("LIGHT_CONTROL_AMBIENT_LUXLEVEL_PROLONG", t_Illuminance), ("LIGHT_CONTROL_AMBIENT_LUXLEVEL_STANDBY", t_Illuminance), ("LIGHT_CONTROL_LIGHTNESS_ON", t_PerceivedLightness), ("LIGHT_CONTROL_LIGHTNESS_PROLONG", t_PerceivedLightness), ("LIGHT_CONTROL_LIGHTNESS_STANDBY", t_PerceivedLightness), ("LIGHT_CONTROL_REGULATOR_ACCURACY", t_Percentage8), ("LIGHT_CONTROL_REGULATOR_KID", t_Coefficient), ("LIGHT_CONTROL_REGULATOR_KIU", t_Coefficient), ("LIGHT_CONTROL_REGULATOR_KPD", t_Coefficient), ("LIGHT_CONTROL_REGULATOR_KPU", t_Coefficient), ("LIGHT_CONTROL_TIME_FADE", t_TimeMiliseconds24), ("LIGHT_CONTROL_TIME_FADE_ON", t_TimeMiliseconds24), ("LIGHT_CONTROL_TIME_FADE_STANDBY_AUTO", t_TimeMiliseconds24), ("LIGHT_CONTROL_TIME_FADE_STANDBY_MANUAL", t_TimeMiliseconds24), ("LIGHT_CONTROL_TIME_OCCUPANCY_DELAY", t_TimeMiliseconds24), ("LIGHT_CONTROL_TIME_PROLONG", t_TimeMiliseconds24), ("LIGHT_CONTROL_TIME_RUN_ON", t_TimeMiliseconds24), ("LUMEN_MAINTENANCE_FACTOR", t_Percentage8), ("LUMINOUS_EFFICACY", t_LuminousEfficacy), ("LUMINOUS_ENERGY_SINCE_TURN_ON", t_LuminousEnergy), ("LUMINOUS_EXPOSURE", t_LuminousExposure), ("LUMINOUS_FLUX_RANGE", t_LuminousFluxRange), ("MOTION_SENSED", t_Percentage8), ("MOTION_THRESHOLD", t_Percentage8), ("OPEN_CIRCUIT_EVENT_STATISTICS", t_EventStatistics), ("OUTDOOR_STATISTICAL_VALUES", t_Temperature8Statistics), ("OUTPUT_CURRENT_RANGE", t_ElectricCurrentRange), ("OUTPUT_CURRENT_STATISTICS", t_ElectricCurrentStatistics), ("OUTPUT_RIPPLE_VOLTAGE_SPECIFICATION", t_Percentage8), ("OUTPUT_VOLTAGE_RANGE", t_VoltageRange), ("OUTPUT_VOLTAGE_STATISTICS", t_VoltageStatistics), ("OVER_OUTPUT_RIPPLE_VOLTAGE_EVENT_STATISTICS", t_EventStatistics), ("PEOPLE_COUNT", t_Count16), ("PRESENCE_DETECTED", t_Presence), ("PRESENT_AMBIENT_LIGHT_LEVEL", t_Illuminance), ("PRESENT_AMBIENT_TEMPERATURE", t_Temperature8), ("PRESENT_CIE1931_CHROMATICITY_COORDINATES", t_ChromaticityCoordinates), ("PRESENT_CORRELATED_COLOR_TEMPERATURE", t_CorrelatedColorTemperature), ("PRESENT_DEVICE_INPUT_POWER", t_Power), ("PRESENT_DEVICE_OPERATING_EFFICIENCY", t_Percentage8), ("PRESENT_DEVICE_OPERATING_TEMPERATURE", t_Temperature), ("PRESENT_ILLUMINANCE", t_Illuminance), ("PRESENT_INDOOR_AMBIENT_TEMPERATURE", t_Temperature8), ("PRESENT_INPUT_CURRENT", t_ElectricCurrent), ("PRESENT_INPUT_RIPPLE_VOLTAGE", t_Percentage8), ("PRESENT_INPUT_VOLTAGE", t_Voltage), ("PRESENT_LUMINOUS_FLUX", t_LuminousFlux), ("PRESENT_OUTDOOR_AMBIENT_TEMPERATURE", t_Temperature8), ("PRESENT_OUTPUT_CURRENT", t_ElectricCurrent), ("PRESENT_OUTPUT_VOLTAGE", t_Voltage), ("PRESENT_PLANCKIAN_DISTANCE", t_ChromaticDistanceFromPlanckian), ("PRESENT_RELATIVE_OUTPUT_RIPPLE_VOLTAGE", t_Percentage8), ("RELATIVE_DEVICE_ENERGY_USE_IN_A_PERIOD_OF_DAY", t_EnergyInAPeriodOfDay), ("RELATIVE_DEVICE_RUNTIME_IN_A_GENERIC_LEVEL_RANGE", t_RelativeRuntimeInAGenericLevelRange), ("RELATIVE_EXPOSURE_TIME_IN_AN_ILLUMINANCE_RANGE", t_RelativeValueInAnIlluminanceRange), ("RELATIVE_RUNTIME_IN_A_CORRELATED_COLOR_TEMPERATURE_RANGE", t_LuminousEnergy), ("RELATIVE_RUNTIME_IN_A_DEVICE_OPERATING_TEMPERATURE_RANGE", t_RelativeValueInATemperatureRange), ("RELATIVE_RUNTIME_IN_AN_INPUT_CURRENT_RANGE", t_RelativeValueInACurrentRange), ("RELATIVE_RUNTIME_IN_AN_INPUT_VOLTAGE_RANGE", t_RelativeValueInAVoltageRange), ("SHORT_CIRCUIT_EVENT_STATISTICS", t_EventStatistics), ("TIME_SINCE_MOTION_SENSED", t_TimeSecond16), ("TIME_SINCE_PRESENCE_DETECTED", t_TimeSecond16), ("TOTAL_DEVICE_ENERGY_USE", t_Energy), ("TOTAL_DEVICE_OFF_ON_CYCLES", t_Count24), ("TOTAL_DEVICE_POWER_ON_CYCLES", t_Count24), ("TOTAL_DEVICE_POWER_ON_TIME", t_TimeHour24), ("TOTAL_DEVICE_RUNTIME", t_TimeHour24), ("TOTAL_LIGHT_EXPOSURE_TIME", t_TimeHour24), ("TOTAL_LUMINOUS_ENERGY", t_LuminousEnergy), ("PRECISE_TOTAL_DEVICE_ENERGY_USE", t_PreciseEnergy), ("POWER_FACTOR", t_CosineOfTheAngle), ("EXTERNAL_SUPPLY_VOLTAGE", t_HighVoltage), ("EXTERNAL_SUPPLY_VOLTAGE_FREQUENCY", t_VoltageFrequency), ("LIGHT_DISTRIBUTION", t_LightDistribution), ("LIGHT_SOURCE_CURRENT", t_AverageCurrent), ("LIGHT_SOURCE_ON_TIME_NOT_RESETTABLE", t_TimeSecond32), ("LIGHT_SOURCE_ON_TIME_RESETTABLE", t_TimeSecond32), ("LIGHT_SOURCE_OPEN_CIRCUIT_STATISTICS", t_EventStatistics), ("LIGHT_SOURCE_OVERALL_FAILURES_STATISTICS", t_EventStatistics), ("LIGHT_SOURCE_SHORT_CIRCUIT_STATISTICS", t_EventStatistics), ("LIGHT_SOURCE_START_COUNTER_RESETTABLE", t_Count24), ("LIGHT_SOURCE_TEMPERATURE", t_HighTemperature), ("LIGHT_SOURCE_THERMAL_DERATING_STATISTICS", t_EventStatistics), ("LIGHT_SOURCE_THERMAL_SHUTDOWN_STATISTICS", t_EventStatistics), ("LIGHT_SOURCE_TOTAL_POWER_ON_CYCLES", t_Count24), ("LIGHT_SOURCE_VOLTAGE", t_AverageVoltage), ("LUMINAIRE_COLOR", .wrap none (.text none)), ("LUMINAIRE_IDENTIFICATION_NUMBER", .wrap none (.text none)), ("LUMINAIRE_NOMINAL_INPUT_POWER", t_Power), ("LUMINAIRE_NOMINAL_MAXIMUM_AC_MAINS_VOLTAGE", t_Voltage), ("LUMINAIRE_NOMINAL_MINIMUM_AC_MAINS_VOLTAGE", t_Voltage), ("LUMINAIRE_POWER_AT_MINIMUM_DIM_LEVEL", t_Power), ("LUMINAIRE_TIME_OF_MANUFACTURE", t_DateUTC), ("NOMINAL_LIGHT_OUTPUT", t_LightOutput), ("OVERALL_FAILURE_CONDITION", t_EventStatistics), ("RATED_MEDIAN_USEFUL_LIFE_OF_LUMINAIRE", t_TimeHour24), ("RATED_MEDIAN_USEFUL_LIGHT_SOURCE_STARTS", t_Count24), ("REFERENCE_TEMPERATURE", t_HighTemperature), ("TOTAL_DEVICE_STARTS", t_Count24), ("LUMINAIRE_IDENTIFICATION_STRING", .wrap none (.text none)), ("OUTPUT_POWER_LIMITATION", t_EventStatistics), ("THERMAL_DERATING", t_EventStatistics), ("OUTPUT_CURRENT_PERCENT", t_Percentage8), ("LUMINAIRE_MANUFACTURER_GTIN", t_GlobalTradeItemNumber), ("APPARENT_ENERGY", t_ApparentEnergy32), ("APPARENT_POWER", t_ApparentPower), ("ACTIVE_ENERGY_LOAD_SIDE", t_Energy32), ("ACTIVE_POWER_LOAD_SIDE", t_Power), ("LIGHT_SOURCE_TYPE", t_LightSourceType), ("DESIRED_AMBIENT_TEMPERATURE", t_Temperature8), ("SENSOR_GAIN", t_Coefficient), ("PRECISE_PRESENT_AMBIENT_TEMPERATURE", t_Temperature)] none])

/-- messages/generic/property.py:124-127 `GenericManufacturerPropertySet`. -/
def t_GenericManufacturerPropertySet : Con :=
  .struct (some "GenericManufacturerPropertySet") [.renamed none "property_id" (.wrap none (t_Int16ul)), .renamed none "access" (.wrap none (t_Int8ul))]

/-- messages/generic/property.py:131-159 `GenericPropertyMessage`. -/
def t_GenericPropertyMessage : Con :=
  .wrap (some "GenericPropertyMessage") (.struct none [.renamed none "opcode" (.wrap none (t_Int32ub)), .switch none [("GENERIC_USER_PROPERTIES_GET", t_GenericPropertiesGet), ("GENERIC_USER_PROPERTIES_STATUS", t_GenericPropertiesStatus), ("GENERIC_USER_PROPERTY_GET", t_GenericPropertyGet), ("GENERIC_USER_PROPERTY_SET", t_GenericUserPropertySet), ("GENERIC_USER_PROPERTY_SET_UNACKNOWLEDGED", t_GenericUserPropertySet), ("GENERIC_USER_PROPERTY_STATUS", t_GenericPropertyStatus), ("GENERIC_ADMIN_PROPERTIES_GET", t_GenericPropertiesGet), ("GENERIC_ADMIN_PROPERTIES_STATUS", t_GenericPropertiesStatus), ("GENERIC_ADMIN_PROPERTY_GET", t_GenericPropertyGet), ("GENERIC_ADMIN_PROPERTY_SET", t_GenericAdminPropertySet), ("GENERIC_ADMIN_PROPERTY_SET_UNACKNOWLEDGED", t_GenericAdminPropertySet), ("GENERIC_ADMIN_PROPERTY_STATUS", t_GenericPropertyStatus), ("GENERIC_MANUFACTURER_PROPERTIES_GET", t_GenericPropertiesGet), ("GENERIC_MANUFACTURER_PROPERTIES_STATUS", t_GenericPropertiesStatus), ("GENERIC_MANUFACTURER_PROPERTY_GET", t_GenericPropertyGet), ("GENERIC_MANUFACTURER_PROPERTY_SET", t_GenericManufacturerPropertySet), ("GENERIC_MANUFACTURER_PROPERTY_SET_UNACKNOWLEDGED", t_GenericManufacturerPropertySet), ("GENERIC_MANUFACTURER_PROPERTY_STATUS", t_GenericPropertyStatus), ("GENERIC_CLIENT_PROPERTIES_GET", t_GenericPropertiesGet), ("GENERIC_CLIENT_PROPERTIES_STATUS", t_GenericPropertiesStatus)] none])

/-- messages/silvair/emergency_lighting.py:109 `EmergencyLightingInhibitEnter`. -/
def t_EmergencyLightingInhibitEnter : Con :=
  .struct (some "EmergencyLightingInhibitEnter") []

/-- messages/silvair/emergency_lighting.py:111 `EmergencyLightingInhibitExit`. -/
def t_EmergencyLightingInhibitExit : Con :=
  .struct (some "EmergencyLightingInhibitExit") []

/-- messages/silvair/emergency_lighting.py:113 `EmergencyLightingStateGet`. -/
def t_EmergencyLightingStateGet : Con :=
  .struct (some "EmergencyLightingStateGet") []

/-- messages/silvair/emergency_lighting.py:115-117 `EmergencyLightingStateStatus`. -/
def t_EmergencyLightingStateStatus : Con :=
  .struct (some "EmergencyLightingStateStatus") [.renamed none "el_state" (.wrap none (t_Int8ul))]

/-- messages/silvair/emergency_lighting.py:119-121 `EmergencyLightingPropertyGet`. -/
def t_EmergencyLightingPropertyGet : Con :=
  .struct (some "EmergencyLightingPropertyGet") [.renamed none "property_id" (.wrap none (t_Int16ul))]

/-- messages/silvair/emergency_lighting.py:123 `EmergencyLightingPropertySet`. -/
def t_EmergencyLightingPropertySet : Con :=
  .wrap (some "EmergencyLightingPropertySet") (.struct none [.renamed none "property_id" (.wrap none (t_Int16ul)), .switch none [("EL_LIGHTNESS", t_PerceivedLightness), ("EL_LIGHTNESS_RANGE_MIN", t_PerceivedLightness), ("EL_LIGHTNESS_RANGE_MAX", t_PerceivedLightness), ("EL_PROLONG_TIME", t_TimeSecond16)] none])

/-- messages/silvair/emergency_lighting.py:125 `EmergencyLightingPropertyStatus`. -/
def t_EmergencyLightingPropertyStatus : Con :=
  .wrap (some "EmergencyLightingPropertyStatus") (.struct none [.renamed none "property_id" (.wrap none (t_Int16ul)), .switch none [("EL_LIGHTNESS", t_PerceivedLightness), ("EL_LIGHTNESS_RANGE_MIN", t_PerceivedLightness), ("EL_LIGHTNESS_RANGE_MAX", t_PerceivedLightness), ("EL_PROLONG_TIME", t_TimeSecond16)] none])

/-- messages/silvair/emergency_lighting.py:127 `EmergencyLightingLampOperationTimeGet`. -/
def t_EmergencyLightingLampOperationTimeGet : Con :=
  .struct (some "EmergencyLightingLampOperationTimeGet") []

/-- messages/silvair/emergency_lighting.py:129 `EmergencyLightingLampOperationTimeClear`. -/
def t_EmergencyLightingLampOperationTimeClear : Con :=
  .struct (some "EmergencyLightingLampOperationTimeClear") []

/-- messages/silvair/emergency_lighting.py:131-134 `EmergencyLightingLampOperationTimeStatus`. -/
def t_EmergencyLightingLampOperationTimeStatus : Con :=
  .struct (some "EmergencyLightingLampOperationTimeStatus") [.renamed none "el_lamp_total_operation_time" (t_Int32ul), .renamed none "el_lamp_emergency_time" (t_Int32ul)]

/-- messages/silvair/emergency_lighting.py:136 `EmergencyLightingRestEnter`. -/
def t_EmergencyLightingRestEnter : Con :=
  .struct (some "EmergencyLightingRestEnter") []

/-- messages/silvair/emergency_lighting.py:138 `EmergencyLightingRestExit`. -/
def t_EmergencyLightingRestExit : Con :=
  .struct (some "EmergencyLightingRestExit") []

/-- messages/silvair/emergency_lighting.py:140-165 `EmergencyLightingParams`. -/
def t_EmergencyLightingParams : Con :=
  .wrap (some "EmergencyLightingParams") (.struct none [.renamed none "subopcode" (.wrap none (t_Int8ul)), .switch none [("EL_INHIBIT_ENTER", t_EmergencyLightingInhibitEnter), ("EL_INHIBIT_ENTER_UNACKNOWLEDGED", t_EmergencyLightingInhibitEnter), ("EL_INHIBIT_EXIT", t_EmergencyLightingInhibitExit), ("EL_INHIBIT_EXIT_UNACKNOWLEDGED", t_EmergencyLightingInhibitExit), ("EL_STATE_GET", t_EmergencyLightingStateGet), ("EL_STATE_STATUS", t_EmergencyLightingStateStatus), ("EL_PROPERTY_GET", t_EmergencyLightingPropertyGet), ("EL_PROPERTY_SET", t_EmergencyLightingPropertySet), ("EL_PROPERTY_SET_UNACKNOWLEDGED", t_EmergencyLightingPropertySet), ("EL_PROPERTY_STATUS", t_EmergencyLightingPropertyStatus), ("EL_LAMP_OPERATION_TIME_GET", t_EmergencyLightingLampOperationTimeGet), ("EL_LAMP_OPERATION_TIME_CLEAR", t_EmergencyLightingLampOperationTimeClear), ("EL_LAMP_OPERATION_TIME_CLEAR_UNACKNOWLEDGED", t_EmergencyLightingLampOperationTimeClear), ("EL_LAMP_OPERATION_TIME_STATUS", t_EmergencyLightingLampOperationTimeStatus), ("EL_REST_ENTER", t_EmergencyLightingRestEnter), ("EL_REST_ENTER_UNACKNOWLEDGED", t_EmergencyLightingRestEnter), ("EL_REST_EXIT", t_EmergencyLightingRestExit), ("EL_REST_EXIT_UNACKNOWLEDGED", t_EmergencyLightingRestExit)] none])

/-- messages/silvair/emergency_lighting.py:167-175 `EmergencyLightingMessage`. -/
def t_EmergencyLightingMessage : Con :=
  .wrap (some "EmergencyLightingMessage") (.struct none [.renamed none "opcode" (.wrap none (t_Int32ub)), .switch none [("SILVAIR_EL", t_EmergencyLightingParams)] none])

/-- messages/silvair/emergency_lighting_test.py:216 `EmergencyLightingTestFunctionalTestGet`. -/
def t_EmergencyLightingTestFunctionalTestGet : Con :=
  .struct (some "EmergencyLightingTestFunctionalTestGet") []

/-- messages/silvair/emergency_lighting_test.py:218 `EmergencyLightingTestFunctionalTestStart`. -/
def t_EmergencyLightingTestFunctionalTestStart : Con :=
  .struct (some "EmergencyLightingTestFunctionalTestStart") []

/-- messages/silvair/emergency_lighting_test.py:220 `EmergencyLightingTestFunctionalTestStop`. -/
def t_EmergencyLightingTestFunctionalTestStop : Con :=
  .struct (some "EmergencyLightingTestFunctionalTestStop") []

/-- messages/silvair/emergency_lighting_test.py:95-100 `FunctionalExecutionResult`. -/
def t_FunctionalExecutionResult : Con :=
  .wrap (some "FunctionalExecutionResult") (.struct none [.wrap none (.skip (some "Pass")), .renamed none "circuit_fault" (t_Flag), .renamed none "battery_fault" (t_Flag), .renamed none "lamp_fault" (t_Flag)])

/-- messages/silvair/emergency_lighting_test.py:228-231 `EmergencyLightingTestFunctionalTestStatusOptional`. -/
def t_EmergencyLightingTestFunctionalTestStatusOptional : Con :=
  .struct (some "EmergencyLightingTestFunctionalTestStatusOptional") [.renamed none "tai_timestamp" (.wrap none (.struct none [.renamed none "date" (t_DateTime), .renamed none "tai_utc_delta" (.wrap none (t_Int16sl))])), .renamed none "execution_status" (.wrap none (t_Int8ul)), .renamed none "execution_result" (t_FunctionalExecutionResult), .renamed none "relative_timestamp" (t_Int32ul)]

/-- messages/silvair/emergency_lighting_test.py:222-226 `EmergencyLightingTestFunctionalTestStatusMinimal`. -/
def t_EmergencyLightingTestFunctionalTestStatusMinimal : Con :=
  .struct (some "EmergencyLightingTestFunctionalTestStatusMinimal") [.renamed none "tai_timestamp" (.wrap none (.struct none [.renamed none "date" (t_DateTime), .renamed none "tai_utc_delta" (.wrap none (t_Int16sl))])), .renamed none "execution_status" (.wrap none (t_Int8ul)), .renamed none "execution_result" (t_FunctionalExecutionResult)]

/-- messages/silvair/emergency_lighting_test.py:233-236 `EmergencyLightingTestFunctionalTestStatus`. -/
def t_EmergencyLightingTestFunctionalTestStatus : Con :=
  .wrap (some "EmergencyLightingTestFunctionalTestStatus") (.select none [.renamed none "optional" (t_EmergencyLightingTestFunctionalTestStatusOptional), .renamed none "minimal" (t_EmergencyLightingTestFunctionalTestStatusMinimal)])

/-- messages/silvair/emergency_lighting_test.py:238 `EmergencyLightingTestDurationTestGet`. -/
def t_EmergencyLightingTestDurationTestGet : Con :=
  .struct (some "EmergencyLightingTestDurationTestGet") []

/-- messages/silvair/emergency_lighting_test.py:240 `EmergencyLightingTestDurationTestStart`. -/
def t_EmergencyLightingTestDurationTestStart : Con :=
  .struct (some "EmergencyLightingTestDurationTestStart") []

/-- messages/silvair/emergency_lighting_test.py:242 `EmergencyLightingTestDurationTestStop`. -/
def t_EmergencyLightingTestDurationTestStop : Con :=
  .struct (some "EmergencyLightingTestDurationTestStop") []

/-- messages/silvair/emergency_lighting_test.py:102-108 `DurationExecutionResult`. -/
def t_DurationExecutionResult : Con :=
  .wrap (some "DurationExecutionResult") (.struct none [.wrap none (.skip (some "Pass")), .renamed none "battery_duration_fault" (t_Flag), .renamed none "circuit_fault" (t_Flag), .renamed none "battery_fault" (t_Flag), .renamed none "lamp_fault" (t_Flag)])

/-- messages/silvair/emergency_lighting_test.py:251-254 `EmergencyLightingTestDurationTestStatusOptional`. -/
def t_EmergencyLightingTestDurationTestStatusOptional : Con :=
  .struct (some "EmergencyLightingTestDurationTestStatusOptional") [.renamed none "tai_timestamp" (.wrap none (.struct none [.renamed none "date" (t_DateTime), .renamed none "tai_utc_delta" (.wrap none (t_Int16sl))])), .renamed none "execution_status" (.wrap none (t_Int8ul)), .renamed none "execution_result" (t_DurationExecutionResult), .renamed none "duration_result" (t_Int16ul), .renamed none "relative_timestamp" (t_Int32ul)]

/-- messages/silvair/emergency_lighting_test.py:244-249 `EmergencyLightingTestDurationTestStatusMinimal`. -/
def t_EmergencyLightingTestDurationTestStatusMinimal : Con :=
  .struct (some "EmergencyLightingTestDurationTestStatusMinimal") [.renamed none "tai_timestamp" (.wrap none (.struct none [.renamed none "date" (t_DateTime), .renamed none "tai_utc_delta" (.wrap none (t_Int16sl))])), .renamed none "execution_status" (.wrap none (t_Int8ul)), .renamed none "execution_result" (t_DurationExecutionResult), .renamed none "duration_result" (t_Int16ul)]

/-- messages/silvair/emergency_lighting_test.py:256-259 `EmergencyLightingTestDurationTestStatus`. -/
def t_EmergencyLightingTestDurationTestStatus : Con :=
  .wrap (some "EmergencyLightingTestDurationTestStatus") (.select none [.renamed none "optional" (t_EmergencyLightingTestDurationTestStatusOptional), .renamed none "minimal" (t_EmergencyLightingTestDurationTestStatusMinimal)])

/-- messages/silvair/emergency_lighting_test.py:262-264 `EmergencyLightingTestPropertyGet`. -/
def t_EmergencyLightingTestPropertyGet : Con :=
  .struct (some "EmergencyLightingTestPropertyGet") [.renamed none "property_id" (.wrap none (t_Int16ul))]

/-- messages/silvair/emergency_lighting_test.py:266 `EmergencyLightingTestPropertySet`. -/
def t_EmergencyLightingTestPropertySet : Con :=
  .wrap (some "EmergencyLightingTestPropertySet") (.struct none [.renamed none "property_id" (.wrap none (t_Int16ul)), .switch none [("ELT_DURATION_TEST_EXECUTION_TIMEOUT", t_TimeSecond32), ("ELT_FUNCTIONAL_TEST_EXECUTION_TIMEOUT", t_TimeSecond32), ("ELT_DURATION_TEST_RETRY_PERIOD", t_TimeSecond32), ("ELT_FUNCTIONAL_TEST_RETRY_PERIOD", t_TimeSecond32), ("ELT_DURATION_TEST_BACKUP_AUTOMATIC_DELAY", t_TimeSecond32), ("ELT_FUNCTIONAL_TEST_BACKUP_AUTOMATIC_DELAY", t_TimeSecond32), ("ELT_DURATION_TEST_BACKUP_AUTOMATIC_INTERVAL", t_TimeSecond32), ("ELT_FUNCTIONAL_TEST_BACKUP_AUTOMATIC_INTERVAL", t_TimeSecond32)] none])

/-- messages/silvair/emergency_lighting_test.py:268 `EmergencyLightingTestPropertyStatus`. -/
def t_EmergencyLightingTestPropertyStatus : Con :=
  .wrap (some "EmergencyLightingTestPropertyStatus") (.struct none [.renamed none "property_id" (.wrap none (t_Int16ul)), .switch none [("ELT_DURATION_TEST_EXECUTION_TIMEOUT", t_TimeSecond32), ("ELT_FUNCTIONAL_TEST_EXECUTION_TIMEOUT", t_TimeSecond32), ("ELT_DURATION_TEST_RETRY_PERIOD", t_TimeSecond32), ("ELT_FUNCTIONAL_TEST_RETRY_PERIOD", t_TimeSecond32), ("ELT_DURATION_TEST_BACKUP_AUTOMATIC_DELAY", t_TimeSecond32), ("ELT_FUNCTIONAL_TEST_BACKUP_AUTOMATIC_DELAY", t_TimeSecond32), ("ELT_DURATION_TEST_BACKUP_AUTOMATIC_INTERVAL", t_TimeSecond32), ("ELT_FUNCTIONAL_TEST_BACKUP_AUTOMATIC_INTERVAL", t_TimeSecond32)] none])

/-- messages/silvair/emergency_lighting_test.py:271-290 `EmergencyLightingTestParams`. -/
def t_EmergencyLightingTestParams : Con :=
  .wrap (some "EmergencyLightingTestParams") (.struct none [.renamed none "subopcode" (.wrap none (t_Int8ul)), .switch none [("ELT_FUNCTIONAL_TEST_GET", t_EmergencyLightingTestFunctionalTestGet), ("ELT_FUNCTIONAL_TEST_START", t_EmergencyLightingTestFunctionalTestStart), ("ELT_FUNCTIONAL_TEST_STOP", t_EmergencyLightingTestFunctionalTestStop), ("ELT_FUNCTIONAL_TEST_STATUS", t_EmergencyLightingTestFunctionalTestStatus), ("ELT_DURATION_TEST_GET", t_EmergencyLightingTestDurationTestGet), ("ELT_DURATION_TEST_START", t_EmergencyLightingTestDurationTestStart), ("ELT_DURATION_TEST_STOP", t_EmergencyLightingTestDurationTestStop), ("ELT_DURATION_TEST_STATUS", t_EmergencyLightingTestDurationTestStatus), ("ELT_PROPERTY_GET", t_EmergencyLightingTestPropertyGet), ("ELT_PROPERTY_SET", t_EmergencyLightingTestPropertySet), ("ELT_PROPERTY_SET_UNACKNOWLEDGED", t_EmergencyLightingTestPropertySet), ("ELT_PROPERTY_STATUS", t_EmergencyLightingTestPropertyStatus)] none])

/-- messages/silvair/emergency_lighting_test.py:292-300 `EmergencyLightingTestMessage`. -/
def t_EmergencyLightingTestMessage : Con :=
  .wrap (some "EmergencyLightingTestMessage") (.struct none [.renamed none "opcode" (.wrap none (t_Int32ub)), .switch none [("SILVAIR_ELT", t_EmergencyLightingTestParams)] none])

/-- messages/__init__.py:38-62 `OPCODES`: the name of the class of opcodes, the message. -/
def messages : List (Option String × Con) :=
  [(some "ConfigOpcode", t_ConfigMessage),
   (some "DebugOpcode", t_DebugMessage),
   (some "GatewayConfigServerOpcode", t_GatewayConfigMessage),
   (some "GenericOnOffOpcode", t_GenericOnOffMessage),
   (some "GenericBatteryOpcode", t_GenericBatteryMessage),
   (some "GenericLevelOpcode", t_GenericLevelMessage),
   (some "LightLightnessOpcode", t_LightLightnessMessage),
   (some "LightLightnessSetupOpcode", t_LightLightnessSetupMessage),
   (some "LightCTLOpcode", t_LightCTLMessage),
   (some "LightCTLSetupOpcode", t_LightCTLSetupMessage),
   (some "HealthOpcode", t_HealthMessage),
   (some "NetworkDiagnosticServerOpcode", t_NetworkDiagnosticServerMessage),
   (some "NetworkDiagnosticSetupServerOpcode", t_NetworkDiagnosticSetupServerMessage),
   (some "SceneOpcode", t_SceneMessage),
   (some "SensorOpcode", t_SensorMessage),
   (some "SensorSetupOpcode", t_SensorSetupMessage),
   (some "LightExtendedControllerOpcode", t_LightExtendedControllerMessage),
   (some "TimeOpcode", t_TimeMessage),
   (some "DebugV2Opcode", t_DebugV2Message),
   (some "RRuleSchedulerOpcode", t_RRuleSchedulerMessage),
   (some "GenericPropertyOpcode", t_GenericPropertyMessage),
   (some "EmergencyLightingOpcode", t_EmergencyLightingMessage),
   (some "EmergencyLightingTestOpcode", t_EmergencyLightingTestMessage)]

end BM.Schema.Trees
