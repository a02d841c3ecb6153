import Verif.Util
/-!
# Enumerations

Generated by `tools/gen_enums.py` from the source text of `/repo/bluetooth_mesh/messages`: every `IntEnum` class with its
members in definition order.
-/
namespace BM
namespace E

/-- config.py:67-69 `SecureNetworkBeacon`. -/
def SecureNetworkBeacon : EnumDef := ⟨"SecureNetworkBeacon", [
  ("OFF", 0), ("ON", 1)]⟩

/-- config.py:72-75 `GATTProxy`. -/
def GATTProxy : EnumDef := ⟨"GATTProxy", [
  ("DISABLED", 0), ("ENABLED", 1), ("NOT_SUPPORTED", 2)]⟩

/-- config.py:78-81 `Relay`. -/
def Relay : EnumDef := ⟨"Relay", [
  ("DISABLED", 0), ("ENABLED", 1), ("NOT_SUPPORTED", 2)]⟩

/-- config.py:84-357 `GATTNamespaceDescriptor`. -/
def GATTNamespaceDescriptor : EnumDef := ⟨"GATTNamespaceDescriptor", [
  ("AUXILIARY", 264), ("BACK", 257), ("BACKUP", 263), ("BOTTOM", 259), ("EIGHTEENTH", 18), ("EIGHTH", 8),
  ("EIGHTIETH", 80), ("EIGHTY_EIGHTH", 88), ("EIGHTY_FIFTH", 85), ("EIGHTY_FIRST", 81), ("EIGHTY_FOURTH", 84),
  ("EIGHTY_NINTH", 89), ("EIGHTY_SECOND", 82), ("EIGHTY_SEVENTH", 87), ("EIGHTY_SIXTH", 86), ("EIGHTY_THIRD", 83),
  ("ELEVENTH", 11), ("EXTERNAL", 272), ("FIFTEENTH", 15), ("FIFTH", 5), ("FIFTIETH", 50), ("FIFTY_EIGHTH", 58),
  ("FIFTY_FIFTH", 55), ("FIFTY_FIRST", 51), ("FIFTY_FOURTH", 54), ("FIFTY_NINTH", 59), ("FIFTY_SECOND", 52),
  ("FIFTY_SEVENTH", 57), ("FIFTY_SIXTH", 56), ("FIFTY_THIRD", 53), ("FIRST", 1), ("FLASH", 266), ("FORTIETH", 40),
  ("FOURTEENTH", 14), ("FOURTH", 4), ("FORTY_EIGHTH", 48), ("FORTY_FIFTH", 45), ("FORTY_FIRST", 41),
  ("FORTY_FOURTH", 44), ("FORTY_NINTH", 49), ("FORTY_SECOND", 42), ("FORTY_SEVENTH", 47), ("FORTY_SIXTH", 46),
  ("FORTY_THIRD", 43), ("FRONT", 256), ("INSIDE", 267), ("INTERNAL", 271), ("LEFT", 269), ("LOWER", 261),
  ("MAIN", 262), ("NINETEENTH", 19), ("NINTH", 9), ("NINETIETH", 90), ("NINETY_EIGHTH", 98), ("NINETY_FIFTH", 95),
  ("NINETY_FIRST", 91), ("NINETY_FOURTH", 94), ("NINETY_NINTH", 99), ("NINETY_SECOND", 92), ("NINETY_SEVENTH", 97),
  ("NINETY_SIXTH", 96), ("NINETY_THIRD", 93), ("ONE_HUNDRED_AND_EIGHTEENTH", 118), ("ONE_HUNDRED_AND_EIGHTH", 108),
  ("ONE_HUNDRED_AND_EIGHTY_EIGHTH", 188), ("ONE_HUNDRED_AND_EIGHTY_FIFTH", 185),
  ("ONE_HUNDRED_AND_EIGHTY_FIRST", 181), ("ONE_HUNDRED_AND_EIGHTY_FOURTH", 184),
  ("ONE_HUNDRED_AND_EIGHTY_NINTH", 189), ("ONE_HUNDRED_AND_EIGHTY_SECOND", 182),
  ("ONE_HUNDRED_AND_EIGHTY_SEVENTH", 187), ("ONE_HUNDRED_AND_EIGHTY_SIXTH", 186),
  ("ONE_HUNDRED_AND_EIGHTY_THIRD", 183), ("ONE_HUNDRED_AND_ELEVENTH", 111), ("ONE_HUNDRED_AND_FIFTEENTH", 115),
  ("ONE_HUNDRED_AND_FIFTH", 105), ("ONE_HUNDRED_AND_FIFTY_EIGHTH", 158), ("ONE_HUNDRED_AND_FIFTY_FIFTH", 155),
  ("ONE_HUNDRED_AND_FIFTY_FIRST", 151), ("ONE_HUNDRED_AND_FIFTY_FOURTH", 154), ("ONE_HUNDRED_AND_FIFTY_NINTH", 159),
  ("ONE_HUNDRED_AND_FIFTY_SECOND", 152), ("ONE_HUNDRED_AND_FIFTY_SEVENTH", 157), ("ONE_HUNDRED_AND_FIFTY_SIXTH", 156),
  ("ONE_HUNDRED_AND_FIFTY_THIRD", 153), ("ONE_HUNDRED_AND_FIRST", 101), ("ONE_HUNDRED_AND_FOURTEENTH", 114),
  ("ONE_HUNDRED_AND_FOURTH", 104), ("ONE_HUNDRED_AND_FORTY_EIGHTH", 148), ("ONE_HUNDRED_AND_FORTY_FIFTH", 145),
  ("ONE_HUNDRED_AND_FORTY_FIRST", 141), ("ONE_HUNDRED_AND_FORTY_FOURTH", 144), ("ONE_HUNDRED_AND_FORTY_NINTH", 149),
  ("ONE_HUNDRED_AND_FORTY_SECOND", 142), ("ONE_HUNDRED_AND_FORTY_SEVENTH", 147), ("ONE_HUNDRED_AND_FORTY_SIXTH", 146),
  ("ONE_HUNDRED_AND_FORTY_THIRD", 143), ("ONE_HUNDRED_AND_NINETEENTH", 119), ("ONE_HUNDRED_AND_NINTH", 109),
  ("ONE_HUNDRED_AND_NINETY_EIGHTH", 198), ("ONE_HUNDRED_AND_NINETY_FIFTH", 195),
  ("ONE_HUNDRED_AND_NINETY_FIRST", 191), ("ONE_HUNDRED_AND_NINETY_FOURTH", 194),
  ("ONE_HUNDRED_AND_NINETY_NINTH", 199), ("ONE_HUNDRED_AND_NINETY_SECOND", 192),
  ("ONE_HUNDRED_AND_NINETY_SEVENTH", 197), ("ONE_HUNDRED_AND_NINETY_SIXTH", 196),
  ("ONE_HUNDRED_AND_NINETY_THIRD", 193), ("ONE_HUNDRED_AND_SECOND", 102), ("ONE_HUNDRED_AND_SEVENTEENTH", 117),
  ("ONE_HUNDRED_AND_SEVENTH", 107), ("ONE_HUNDRED_AND_SEVENTY_EIGHTH", 178), ("ONE_HUNDRED_AND_SEVENTY_FIFTH", 175),
  ("ONE_HUNDRED_AND_SEVENTY_FIRST", 171), ("ONE_HUNDRED_AND_SEVENTY_FOURTH", 174),
  ("ONE_HUNDRED_AND_SEVENTY_NINTH", 179), ("ONE_HUNDRED_AND_SEVENTY_SECOND", 172),
  ("ONE_HUNDRED_AND_SEVENTY_SEVENTH", 177), ("ONE_HUNDRED_AND_SEVENTY_SIXTH", 176),
  ("ONE_HUNDRED_AND_SEVENTY_THIRD", 173), ("ONE_HUNDRED_AND_SIXTEENTH", 116), ("ONE_HUNDRED_AND_SIXTH", 106),
  ("ONE_HUNDRED_AND_SIXTY_EIGHTH", 168), ("ONE_HUNDRED_AND_SIXTY_FIFTH", 165), ("ONE_HUNDRED_AND_SIXTY_FIRST", 161),
  ("ONE_HUNDRED_AND_SIXTY_FOURTH", 164), ("ONE_HUNDRED_AND_SIXTY_NINTH", 169), ("ONE_HUNDRED_AND_SIXTY_SECOND", 162),
  ("ONE_HUNDRED_AND_SIXTY_SEVENTH", 167), ("ONE_HUNDRED_AND_SIXTY_SIXTH", 166), ("ONE_HUNDRED_AND_SIXTY_THIRD", 163),
  ("ONE_HUNDRED_AND_TENTH", 110), ("ONE_HUNDRED_AND_THIRD", 103), ("ONE_HUNDRED_AND_THIRTEENTH", 113),
  ("ONE_HUNDRED_AND_THIRTY_EIGHTH", 138), ("ONE_HUNDRED_AND_THIRTY_FIFTH", 135),
  ("ONE_HUNDRED_AND_THIRTY_FIRST", 131), ("ONE_HUNDRED_AND_THIRTY_FOURTH", 134),
  ("ONE_HUNDRED_AND_THIRTY_NINTH", 139), ("ONE_HUNDRED_AND_THIRTY_SECOND", 132),
  ("ONE_HUNDRED_AND_THIRTY_SEVENTH", 137), ("ONE_HUNDRED_AND_THIRTY_SIXTH", 136),
  ("ONE_HUNDRED_AND_THIRTY_THIRD", 133), ("ONE_HUNDRED_AND_TWELVETH", 112), ("ONE_HUNDRED_AND_TWENTY_EIGHTH", 128),
  ("ONE_HUNDRED_AND_TWENTY_FIFTH", 125), ("ONE_HUNDRED_AND_TWENTY_FIRST", 121),
  ("ONE_HUNDRED_AND_TWENTY_FOURTH", 124), ("ONE_HUNDRED_AND_TWENTY_NINTH", 129),
  ("ONE_HUNDRED_AND_TWENTY_SECOND", 122), ("ONE_HUNDRED_AND_TWENTY_SEVENTH", 127),
  ("ONE_HUNDRED_AND_TWENTY_SIXTH", 126), ("ONE_HUNDRED_AND_TWENTY_THIRD", 123), ("ONE_HUNDRED_EIGHTIETH", 180),
  ("ONE_HUNDRED_FIFTIETH", 150), ("ONE_HUNDRED_FORTIETH", 140), ("ONE_HUNDRED_NINETIETH", 190),
  ("ONE_HUNDRED_SEVENTIETH", 170), ("ONE_HUNDRED_SIXTIETH", 160), ("ONE_HUNDRED_THIRTIETH", 130),
  ("ONE_HUNDRED_TWENTIETH", 120), ("ONE_HUNDREDTH", 100), ("OUTSIDE", 268), ("RIGHT", 270), ("SECOND", 2),
  ("SEVENTEENTH", 17), ("SEVENTH", 7), ("SEVENTIETH", 70), ("SEVENTY_EIGHTH", 78), ("SEVENTY_FIFTH", 75),
  ("SEVENTY_FIRST", 71), ("SEVENTY_FOURTH", 74), ("SEVENTY_NINTH", 79), ("SEVENTY_SECOND", 72),
  ("SEVENTY_SEVENTH", 77), ("SEVENTY_SIXTH", 76), ("SEVENTY_THIRD", 73), ("SIXTEENTH", 16), ("SIXTH", 6),
  ("SIXTIETH", 60), ("SIXTY_EIGHTH", 68), ("SIXTY_FIFTH", 65), ("SIXTY_FIRST", 61), ("SIXTY_FOURTH", 64),
  ("SIXTY_NINTH", 69), ("SIXTY_SECOND", 62), ("SIXTY_SEVENTH", 67), ("SIXTY_SIXTH", 66), ("SIXTY_THIRD", 63),
  ("SUPPLEMENTARY", 265), ("TENTH", 10), ("THIRD", 3), ("THIRTEENTH", 13), ("THIRTIETH", 30), ("THIRTY_EIGHTH", 38),
  ("THIRTY_FIFTH", 35), ("THIRTY_FIRST", 31), ("THIRTY_FOURTH", 34), ("THIRTY_NINTH", 39), ("THIRTY_SECOND", 32),
  ("THIRTY_SEVENTH", 37), ("THIRTY_SIXTH", 36), ("THIRTY_THIRD", 33), ("TOP", 258), ("TWELVETH", 12),
  ("TWENTIETH", 20), ("TWENTY_EIGHTH", 28), ("TWENTY_FIFTH", 25), ("TWENTY_FIRST", 21), ("TWENTY_FOURTH", 24),
  ("TWENTY_NINTH", 29), ("TWENTY_SECOND", 22), ("TWENTY_SEVENTH", 27), ("TWENTY_SIXTH", 26), ("TWENTY_THIRD", 23),
  ("TWO_HUNDRED_AND_EIGHTEENTH", 218), ("TWO_HUNDRED_AND_EIGHTH", 208), ("TWO_HUNDRED_AND_ELEVENTH", 211),
  ("TWO_HUNDRED_AND_FIFTEENTH", 215), ("TWO_HUNDRED_AND_FIFTH", 205), ("TWO_HUNDRED_AND_FIFTY_FIFTH", 255),
  ("TWO_HUNDRED_AND_FIFTY_FIRST", 251), ("TWO_HUNDRED_AND_FIFTY_FOURTH", 254), ("TWO_HUNDRED_AND_FIFTY_SECOND", 252),
  ("TWO_HUNDRED_AND_FIFTY_THIRD", 253), ("TWO_HUNDRED_AND_FIRST", 201), ("TWO_HUNDRED_AND_FOURTEENTH", 214),
  ("TWO_HUNDRED_AND_FOURTH", 204), ("TWO_HUNDRED_AND_FORTY_EIGHTH", 248), ("TWO_HUNDRED_AND_FORTY_FIFTH", 245),
  ("TWO_HUNDRED_AND_FORTY_FIRST", 241), ("TWO_HUNDRED_AND_FORTY_FOURTH", 244), ("TWO_HUNDRED_AND_FORTY_NINTH", 249),
  ("TWO_HUNDRED_AND_FORTY_SECOND", 242), ("TWO_HUNDRED_AND_FORTY_SEVENTH", 247), ("TWO_HUNDRED_AND_FORTY_SIXTH", 246),
  ("TWO_HUNDRED_AND_FORTY_THIRD", 243), ("TWO_HUNDRED_AND_NINETEENTH", 219), ("TWO_HUNDRED_AND_NINTH", 209),
  ("TWO_HUNDRED_AND_SECOND", 202), ("TWO_HUNDRED_AND_SEVENTEENTH", 217), ("TWO_HUNDRED_AND_SEVENTH", 207),
  ("TWO_HUNDRED_AND_SIXTEENTH", 216), ("TWO_HUNDRED_AND_SIXTH", 206), ("TWO_HUNDRED_AND_TENTH", 210),
  ("TWO_HUNDRED_AND_THIRD", 203), ("TWO_HUNDRED_AND_THIRTEENTH", 213), ("TWO_HUNDRED_AND_THIRTY_EIGHTH", 238),
  ("TWO_HUNDRED_AND_THIRTY_FIFTH", 235), ("TWO_HUNDRED_AND_THIRTY_FIRST", 231),
  ("TWO_HUNDRED_AND_THIRTY_FOURTH", 234), ("TWO_HUNDRED_AND_THIRTY_NINTH", 239),
  ("TWO_HUNDRED_AND_THIRTY_SECOND", 232), ("TWO_HUNDRED_AND_THIRTY_SEVENTH", 237),
  ("TWO_HUNDRED_AND_THIRTY_SIXTH", 236), ("TWO_HUNDRED_AND_THIRTY_THIRD", 233), ("TWO_HUNDRED_AND_TWELVETH", 212),
  ("TWO_HUNDRED_AND_TWENTY_EIGHTH", 228), ("TWO_HUNDRED_AND_TWENTY_FIFTH", 225),
  ("TWO_HUNDRED_AND_TWENTY_FIRST", 221), ("TWO_HUNDRED_AND_TWENTY_FOURTH", 224),
  ("TWO_HUNDRED_AND_TWENTY_NINTH", 229), ("TWO_HUNDRED_AND_TWENTY_SECOND", 222),
  ("TWO_HUNDRED_AND_TWENTY_SEVENTH", 227), ("TWO_HUNDRED_AND_TWENTY_SIXTH", 226),
  ("TWO_HUNDRED_AND_TWENTY_THIRD", 223), ("TWO_HUNDRED_FIFTIETH", 250), ("TWO_HUNDRED_FORTIETH", 240),
  ("TWO_HUNDRED_THIRTIETH", 230), ("TWO_HUNDRED_TWENTIETH", 220), ("TWO_HUNDREDTH", 200), ("UNKNOWN", 0),
  ("UPPER", 260)]⟩

/-- config.py:360-362 `PublishFriendshipCredentialsFlag`. -/
def PublishFriendshipCredentialsFlag : EnumDef := ⟨"PublishFriendshipCredentialsFlag", [
  ("MASTER_SECURITY", 0), ("FRIENDSHIP_SECURITY", 1)]⟩

/-- config.py:365-383 `StatusCode`. -/
def StatusCode : EnumDef := ⟨"StatusCode", [
  ("SUCCESS", 0), ("INVALID_ADDRESS", 1), ("INVALID_MODEL", 2), ("INVALID_APPKEY_INDEX", 3),
  ("INVALID_NETKEY_INDEX", 4), ("INSUFFICIENT_RESOURCES", 5), ("KEY_INDEX_ALREADY_STORED", 6),
  ("INVALID_PUBLISH_PARAMETERS", 7), ("NOT_A_SUBSCRIBE_MODEL", 8), ("STORAGE_FAILURE", 9),
  ("FEATURE_NOT_SUPPORTED", 10), ("CANNOT_UPDATE", 11), ("CANNOT_REMOVE", 12), ("CANNOT_BIND", 13),
  ("TEMPORARILY_UNABLE_TO_CHANGE_STATE", 14), ("CANNOT_SET", 15), ("UNSPECIFIED_ERROR", 16), ("INVALID_BINDING", 17)]⟩

/-- config.py:386-389 `NodeIdentity`. -/
def NodeIdentity : EnumDef := ⟨"NodeIdentity", [
  ("STOPPED", 0), ("RUNNING", 1), ("NOT_SUPPORTED", 2)]⟩

/-- config.py:392-395 `Friend`. -/
def Friend : EnumDef := ⟨"Friend", [
  ("DISABLED", 0), ("ENABLED", 1), ("NOT_SUPPORTED", 2)]⟩

/-- config.py:398-401 `KeyRefreshPhase`. -/
def KeyRefreshPhase : EnumDef := ⟨"KeyRefreshPhase", [
  ("NORMAL", 0), ("FIRST", 1), ("SECOND", 2)]⟩

/-- config.py:404-406 `KeyRefreshTransition`. -/
def KeyRefreshTransition : EnumDef := ⟨"KeyRefreshTransition", [
  ("SECOND", 2), ("THIRD", 3)]⟩

/-- config.py:576-578 `ExtendedModelsItemFormat`. -/
def ExtendedModelsItemFormat : EnumDef := ⟨"ExtendedModelsItemFormat", [
  ("SHORT", 0), ("LONG", 1)]⟩

/-- config.py:735-753 `PublishPeriodStepResolution`. -/
def PublishPeriodStepResolution : EnumDef := ⟨"PublishPeriodStepResolution", [
  ("RESOLUTION_100_MS", 0), ("RESOLUTION_1_S", 1), ("RESOLUTION_10_S", 2), ("RESOLUTION_10_MIN", 3)]⟩

/-- config.py:776-780 `CompositionDataPage`. -/
def CompositionDataPage : EnumDef := ⟨"CompositionDataPage", [
  ("ZERO", 0), ("FIRST", 1), ("SECOND", 2), ("TWO_HUNDRED_AND_FIFTY_FIFTH", 255)]⟩

/-- config.py:1102-1173 `ConfigOpcode`. -/
def ConfigOpcode : EnumDef := ⟨"ConfigOpcode", [
  ("CONFIG_APPKEY_ADD", 0), ("CONFIG_APPKEY_DELETE", 32768), ("CONFIG_APPKEY_GET", 32769),
  ("CONFIG_APPKEY_LIST", 32770), ("CONFIG_APPKEY_STATUS", 32771), ("CONFIG_APPKEY_UPDATE", 1),
  ("CONFIG_BEACON_GET", 32777), ("CONFIG_BEACON_SET", 32778), ("CONFIG_BEACON_STATUS", 32779),
  ("CONFIG_COMPOSITION_DATA_GET", 32776), ("CONFIG_COMPOSITION_DATA_STATUS", 2), ("CONFIG_DEFAULT_TTL_GET", 32780),
  ("CONFIG_DEFAULT_TTL_SET", 32781), ("CONFIG_DEFAULT_TTL_STATUS", 32782), ("CONFIG_FRIEND_GET", 32783),
  ("CONFIG_FRIEND_SET", 32784), ("CONFIG_FRIEND_STATUS", 32785), ("CONFIG_GATT_PROXY_GET", 32786),
  ("CONFIG_GATT_PROXY_SET", 32787), ("CONFIG_GATT_PROXY_STATUS", 32788), ("CONFIG_HEARBEAT_PUBLICATION_GET", 32824),
  ("CONFIG_HEARBEAT_PUBLICATION_SET", 32825), ("CONFIG_HEARBEAT_PUBLICATION_STATUS", 6),
  ("CONFIG_HEARBEAT_SUBSCRIPTION_GET", 32826), ("CONFIG_HEARBEAT_SUBSCRIPTION_SET", 32827),
  ("CONFIG_HEARBEAT_SUBSCRIPTION_STATUS", 32828), ("CONFIG_KEY_REFRESH_PHASE_GET", 32789),
  ("CONFIG_KEY_REFRESH_PHASE_SET", 32790), ("CONFIG_KEY_REFRESH_PHASE_STATUS", 32791),
  ("CONFIG_LOW_POWER_NODE_POLL_TIMEOUT_GET", 32813), ("CONFIG_LOW_POWER_NODE_POLL_TIMEOUT_STATUS", 32814),
  ("CONFIG_MODEL_APP_BIND", 32829), ("CONFIG_MODEL_APP_STATUS", 32830), ("CONFIG_MODEL_APP_UNBIND", 32831),
  ("CONFIG_MODEL_PUBLICATION_GET", 32792), ("CONFIG_MODEL_PUBLICATION_SET", 3),
  ("CONFIG_MODEL_PUBLICATION_STATUS", 32793), ("CONFIG_MODEL_PUBLICATION_VIRTUAL_ADDRESS_SET", 32794),
  ("CONFIG_MODEL_SUBSCRIPTION_ADD", 32795), ("CONFIG_MODEL_SUBSCRIPTION_DELETE", 32796),
  ("CONFIG_MODEL_SUBSCRIPTION_DELETE_ALL", 32797), ("CONFIG_MODEL_SUBSCRIPTION_OVERWRITE", 32798),
  ("CONFIG_MODEL_SUBSCRIPTION_STATUS", 32799), ("CONFIG_MODEL_SUBSCRIPTION_VIRTUAL_ADDRESS_ADD", 32800),
  ("CONFIG_MODEL_SUBSCRIPTION_VIRTUAL_ADDRESS_DELETE", 32801),
  ("CONFIG_MODEL_SUBSCRIPTION_VIRTUAL_ADDRESS_OVERWRITE", 32802), ("CONFIG_NETKEY_ADD", 32832),
  ("CONFIG_NETKEY_DELETE", 32833), ("CONFIG_NETKEY_GET", 32834), ("CONFIG_NETKEY_LIST", 32835),
  ("CONFIG_NETKEY_STATUS", 32836), ("CONFIG_NETKEY_UPDATE", 32837), ("CONFIG_NETWORK_TRANSMIT_GET", 32803),
  ("CONFIG_NETWORK_TRANSMIT_SET", 32804), ("CONFIG_NETWORK_TRANSMIT_STATUS", 32805),
  ("CONFIG_NODE_IDENTITY_GET", 32838), ("CONFIG_NODE_IDENTITY_SET", 32839), ("CONFIG_NODE_IDENTITY_STATUS", 32840),
  ("CONFIG_NODE_RESET", 32841), ("CONFIG_NODE_RESET_STATUS", 32842), ("CONFIG_RELAY_GET", 32806),
  ("CONFIG_RELAY_SET", 32807), ("CONFIG_RELAY_STATUS", 32808), ("CONFIG_SIG_MODEL_APP_GET", 32843),
  ("CONFIG_SIG_MODEL_APP_LIST", 32844), ("CONFIG_SIG_MODEL_SUBSCRIPTION_GET", 32809),
  ("CONFIG_SIG_MODEL_SUBSCRIPTION_LIST", 32810), ("CONFIG_VENDOR_MODEL_APP_GET", 32845),
  ("CONFIG_VENDOR_MODEL_APP_LIST", 32846), ("CONFIG_VENDOR_MODEL_SUBSCRIPTION_GET", 32811),
  ("CONFIG_VENDOR_MODEL_SUBSCRIPTION_LIST", 32812)]⟩

/-- generic/battery.py:35-37 `GenericBatteryOpcode`. -/
def GenericBatteryOpcode : EnumDef := ⟨"GenericBatteryOpcode", [
  ("GENERIC_BATTERY_GET", 33315), ("GENERIC_BATTERY_STATUS", 33316)]⟩

/-- generic/battery.py:40-44 `GenericBatteryFlagsPresence`. -/
def GenericBatteryFlagsPresence : EnumDef := ⟨"GenericBatteryFlagsPresence", [
  ("BATTERY_NOT_PRESENT", 0), ("BATTERY_PRESENT_REMOVABLE", 1), ("BATTERY_PRESENT_NON_REMOVABLE", 2),
  ("BATTERY_PRESENCE_UNKNOWN", 3)]⟩

/-- generic/battery.py:47-51 `GenericBatteryFlagsIndicator`. -/
def GenericBatteryFlagsIndicator : EnumDef := ⟨"GenericBatteryFlagsIndicator", [
  ("BATTERY_CHARGE_CRITICALLY_LOW", 0), ("BATTERY_CHARGE_LOW", 1), ("BATTERY_CHARGE_GOOD", 2),
  ("BATTERY_CHARGE_UNKNOWN", 3)]⟩

/-- generic/battery.py:54-58 `GenericBatteryFlagsCharging`. -/
def GenericBatteryFlagsCharging : EnumDef := ⟨"GenericBatteryFlagsCharging", [
  ("BATTERY_NOT_CHARGEABLE", 0), ("BATTERY_CHARGEABLE_NOT_CHARGING", 1), ("BATTERY_CHARGEABLE_CHARGING", 2),
  ("BATTERY_CHARGING_STATE_UNKNOWN", 3)]⟩

/-- generic/battery.py:61-65 `GenericBatteryFlagsServiceability`. -/
def GenericBatteryFlagsServiceability : EnumDef := ⟨"GenericBatteryFlagsServiceability", [
  ("RFU", 0), ("BATTERY_NOT_REQUIRE_SERVICE", 1), ("BATTERY_REQUIRE_SERVICE", 2),
  ("BATTERY_SERVICEABILITY_UNKNOWN", 3)]⟩

/-- generic/level.py:30-38 `GenericLevelOpcode`. -/
def GenericLevelOpcode : EnumDef := ⟨"GenericLevelOpcode", [
  ("GENERIC_LEVEL_GET", 33285), ("GENERIC_LEVEL_SET", 33286), ("GENERIC_LEVEL_SET_UNACKNOWLEDGED", 33287),
  ("GENERIC_LEVEL_STATUS", 33288), ("GENERIC_DELTA_SET", 33289), ("GENERIC_DELTA_SET_UNACKNOWLEDGED", 33290),
  ("GENERIC_MOVE_SET", 33291), ("GENERIC_MOVE_SET_UNACKNOWLEDGED", 33292)]⟩

/-- generic/onoff.py:30-34 `GenericOnOffOpcode`. -/
def GenericOnOffOpcode : EnumDef := ⟨"GenericOnOffOpcode", [
  ("GENERIC_ONOFF_GET", 33281), ("GENERIC_ONOFF_SET", 33282), ("GENERIC_ONOFF_SET_UNACKNOWLEDGED", 33283),
  ("GENERIC_ONOFF_STATUS", 33284)]⟩

/-- generic/property.py:31-51 `GenericPropertyOpcode`. -/
def GenericPropertyOpcode : EnumDef := ⟨"GenericPropertyOpcode", [
  ("GENERIC_USER_PROPERTIES_GET", 33326), ("GENERIC_USER_PROPERTIES_STATUS", 75),
  ("GENERIC_USER_PROPERTY_GET", 33327), ("GENERIC_USER_PROPERTY_SET", 76),
  ("GENERIC_USER_PROPERTY_SET_UNACKNOWLEDGED", 77), ("GENERIC_USER_PROPERTY_STATUS", 78),
  ("GENERIC_ADMIN_PROPERTIES_GET", 33324), ("GENERIC_ADMIN_PROPERTIES_STATUS", 71),
  ("GENERIC_ADMIN_PROPERTY_GET", 33325), ("GENERIC_ADMIN_PROPERTY_SET", 72),
  ("GENERIC_ADMIN_PROPERTY_SET_UNACKNOWLEDGED", 73), ("GENERIC_ADMIN_PROPERTY_STATUS", 74),
  ("GENERIC_MANUFACTURER_PROPERTIES_GET", 33322), ("GENERIC_MANUFACTURER_PROPERTIES_STATUS", 67),
  ("GENERIC_MANUFACTURER_PROPERTY_GET", 33323), ("GENERIC_MANUFACTURER_PROPERTY_SET", 68),
  ("GENERIC_MANUFACTURER_PROPERTY_SET_UNACKNOWLEDGED", 69), ("GENERIC_MANUFACTURER_PROPERTY_STATUS", 70),
  ("GENERIC_CLIENT_PROPERTIES_GET", 79), ("GENERIC_CLIENT_PROPERTIES_STATUS", 80)]⟩

/-- generic/property.py:54-57 `UserAccess`. -/
def UserAccess : EnumDef := ⟨"UserAccess", [
  ("READ_ONLY", 1), ("WRITE_ONLY", 2), ("READ_WRITE", 3)]⟩

/-- generic/property.py:60-64 `AdminUserAccess`. -/
def AdminUserAccess : EnumDef := ⟨"AdminUserAccess", [
  ("NOT_USER_PROPERTY", 0), ("READ_ONLY", 1), ("WRITE_ONLY", 2), ("READ_WRITE", 3)]⟩

/-- generic/property.py:67-69 `ManufacturerUserAccess`. -/
def ManufacturerUserAccess : EnumDef := ⟨"ManufacturerUserAccess", [
  ("NOT_USER_PROPERTY", 0), ("READ_ONLY", 1)]⟩

/-- health.py:76-91 `HealthOpcode`. -/
def HealthOpcode : EnumDef := ⟨"HealthOpcode", [
  ("HEALTH_ATTENTION_GET", 32772), ("HEALTH_ATTENTION_SET", 32773), ("HEALTH_ATTENTION_SET_UNACKNOWLEDGED", 32774),
  ("HEALTH_ATTENTION_STATUS", 32775), ("HEALTH_CURRENT_STATUS", 4), ("HEALTH_FAULT_CLEAR", 32815),
  ("HEALTH_FAULT_CLEAR_UNACKNOWLEDGED", 32816), ("HEALTH_FAULT_GET", 32817), ("HEALTH_FAULT_STATUS", 5),
  ("HEALTH_FAULT_TEST", 32818), ("HEALTH_FAULT_TEST_UNACKNOWLEDGED", 32819), ("HEALTH_PERIOD_GET", 32820),
  ("HEALTH_PERIOD_SET", 32821), ("HEALTH_PERIOD_SET_UNACKNOWLEDGED", 32822), ("HEALTH_PERIOD_STATUS", 32823)]⟩

/-- light/ctl.py:31-46 `LightCTLOpcode`. -/
def LightCTLOpcode : EnumDef := ⟨"LightCTLOpcode", [
  ("LIGHT_CTL_GET", 33373), ("LIGHT_CTL_SET", 33374), ("LIGHT_CTL_SET_UNACKNOWLEDGED", 33375),
  ("LIGHT_CTL_STATUS", 33376), ("LIGHT_CTL_TEMPERATURE_GET", 33377), ("LIGHT_CTL_TEMPERATURE_RANGE_GET", 33378),
  ("LIGHT_CTL_TEMPERATURE_RANGE_STATUS", 33379), ("LIGHT_CTL_TEMPERATURE_SET", 33380),
  ("LIGHT_CTL_TEMPERATURE_SET_UNACKNOWLEDGED", 33381), ("LIGHT_CTL_TEMPERATURE_STATUS", 33382),
  ("LIGHT_CTL_TEMPERATURE_DEFAULT_GET", 33383), ("LIGHT_CTL_TEMPERATURE_DEFAULT_STATUS", 33384)]⟩

/-- light/ctl.py:49-56 `LightCTLSetupOpcode`. -/
def LightCTLSetupOpcode : EnumDef := ⟨"LightCTLSetupOpcode", [
  ("LIGHT_CTL_SETUP_TEMPERATURE_DEFAULT_SET", 33385),
  ("LIGHT_CTL_SETUP_TEMPERATURE_DEFAULT_SET_UNACKNOWLEDGED", 33386), ("LIGHT_CTL_SETUP_TEMPERATURE_RANGE_SET", 33387),
  ("LIGHT_CTL_SETUP_TEMPERATURE_RANGE_SET_UNACKNOWLEDGED", 33388)]⟩

/-- light/lightness.py:31-48 `LightLightnessOpcode`. -/
def LightLightnessOpcode : EnumDef := ⟨"LightLightnessOpcode", [
  ("LIGHT_LIGHTNESS_GET", 33355), ("LIGHT_LIGHTNESS_SET", 33356), ("LIGHT_LIGHTNESS_SET_UNACKNOWLEDGED", 33357),
  ("LIGHT_LIGHTNESS_STATUS", 33358), ("LIGHT_LIGHTNESS_LINEAR_GET", 33359), ("LIGHT_LIGHTNESS_LINEAR_SET", 33360),
  ("LIGHT_LIGHTNESS_LINEAR_SET_UNACKNOWLEDGED", 33361), ("LIGHT_LIGHTNESS_LINEAR_STATUS", 33362),
  ("LIGHT_LIGHTNESS_LAST_GET", 33363), ("LIGHT_LIGHTNESS_LAST_STATUS", 33364), ("LIGHT_LIGHTNESS_DEFAULT_GET", 33365),
  ("LIGHT_LIGHTNESS_DEFAULT_STATUS", 33366), ("LIGHT_LIGHTNESS_RANGE_GET", 33367),
  ("LIGHT_LIGHTNESS_RANGE_STATUS", 33368)]⟩

/-- light/lightness.py:51-58 `LightLightnessSetupOpcode`. -/
def LightLightnessSetupOpcode : EnumDef := ⟨"LightLightnessSetupOpcode", [
  ("LIGHT_LIGHTNESS_SETUP_DEFAULT_SET", 33369), ("LIGHT_LIGHTNESS_SETUP_DEFAULT_SET_UNACKNOWLEDGED", 33370),
  ("LIGHT_LIGHTNESS_SETUP_RANGE_SET", 33371), ("LIGHT_LIGHTNESS_SETUP_RANGE_SET_UNACKNOWLEDGED", 33372)]⟩

/-- properties.py:59-217 `PropertyID`. -/
def PropertyID : EnumDef := ⟨"PropertyID", [
  ("AVERAGE_AMBIENT_TEMPERATURE_IN_A_PERIOD_OF_DAY", 1), ("AVERAGE_INPUT_CURRENT", 2), ("AVERAGE_INPUT_VOLTAGE", 3),
  ("AVERAGE_OUTPUT_CURRENT", 4), ("AVERAGE_OUTPUT_VOLTAGE", 5), ("CENTER_BEAM_INTENSITY_AT_FULL_POWER", 6),
  ("CHROMATICITY_TOLERANCE", 7), ("COLOR_RENDERING_INDEX_R9", 8), ("COLOR_RENDERING_INDEX_RA", 9),
  ("DEVICE_APPEARANCE", 10), ("DEVICE_COUNTRY_OF_ORIGIN", 11), ("DEVICE_DATE_OF_MANUFACTURE", 12),
  ("DEVICE_ENERGY_USE_SINCE_TURN_ON", 13), ("DEVICE_FIRMWARE_REVISION", 14), ("DEVICE_GLOBAL_TRADE_ITEM_NUMBER", 15),
  ("DEVICE_HARDWARE_REVISION", 16), ("DEVICE_MANUFACTURER_NAME", 17), ("DEVICE_MODEL_NUMBER", 18),
  ("DEVICE_OPERATING_TEMPERATURE_RANGE_SPECIFICATION", 19), ("DEVICE_OPERATING_TEMPERATURE_STATISTICAL_VALUES", 20),
  ("DEVICE_OVER_TEMPERATURE_EVENT_STATISTICS", 21), ("DEVICE_POWER_RANGE_SPECIFICATION", 22),
  ("DEVICE_RUNTIME_SINCE_TURN_ON", 23), ("DEVICE_RUNTIME_WARRANTY", 24), ("DEVICE_SERIAL_NUMBER", 25),
  ("DEVICE_SOFTWARE_REVISION", 26), ("DEVICE_UNDER_TEMPERATURE_EVENT_STATISTICS", 27),
  ("INDOOR_AMBIENT_TEMPERATURE_STATISTICAL_VALUES", 28), ("INITIAL_CIE1931_CHROMATICITY_COORDINATES", 29),
  ("INITIAL_CORRELATED_COLOR_TEMPERATURE", 30), ("INITIAL_LUMINOUS_FLUX", 31), ("INITIAL_PLANCKIAN_DISTANCE", 32),
  ("INPUT_CURRENT_RANGE_SPECIFICATION", 33), ("INPUT_CURRENT_STATISTICS", 34),
  ("INPUT_OVER_CURRENT_EVENT_STATISTICS", 35), ("INPUT_OVER_RIPPLE_VOLTAGE_EVENT_STATISTICS", 36),
  ("INPUT_OVER_VOLTAGE_EVENT_STATISTICS", 37), ("INPUT_UNDER_CURRENT_EVENT_STATISTICS", 38),
  ("INPUT_UNDER_VOLTAGE_EVENT_STATISTICS", 39), ("INPUT_VOLTAGE_RANGE_SPECIFICATION", 40),
  ("INPUT_VOLTAGE_RIPPLE_SPECIFICATION", 41), ("INPUT_VOLTAGE_STATISTICS", 42),
  ("LIGHT_CONTROL_AMBIENT_LUXLEVEL_ON", 43), ("LIGHT_CONTROL_AMBIENT_LUXLEVEL_PROLONG", 44),
  ("LIGHT_CONTROL_AMBIENT_LUXLEVEL_STANDBY", 45), ("LIGHT_CONTROL_LIGHTNESS_ON", 46),
  ("LIGHT_CONTROL_LIGHTNESS_PROLONG", 47), ("LIGHT_CONTROL_LIGHTNESS_STANDBY", 48),
  ("LIGHT_CONTROL_REGULATOR_ACCURACY", 49), ("LIGHT_CONTROL_REGULATOR_KID", 50), ("LIGHT_CONTROL_REGULATOR_KIU", 51),
  ("LIGHT_CONTROL_REGULATOR_KPD", 52), ("LIGHT_CONTROL_REGULATOR_KPU", 53), ("LIGHT_CONTROL_TIME_FADE", 54),
  ("LIGHT_CONTROL_TIME_FADE_ON", 55), ("LIGHT_CONTROL_TIME_FADE_STANDBY_AUTO", 56),
  ("LIGHT_CONTROL_TIME_FADE_STANDBY_MANUAL", 57), ("LIGHT_CONTROL_TIME_OCCUPANCY_DELAY", 58),
  ("LIGHT_CONTROL_TIME_PROLONG", 59), ("LIGHT_CONTROL_TIME_RUN_ON", 60), ("LUMEN_MAINTENANCE_FACTOR", 61),
  ("LUMINOUS_EFFICACY", 62), ("LUMINOUS_ENERGY_SINCE_TURN_ON", 63), ("LUMINOUS_EXPOSURE", 64),
  ("LUMINOUS_FLUX_RANGE", 65), ("MOTION_SENSED", 66), ("MOTION_THRESHOLD", 67), ("OPEN_CIRCUIT_EVENT_STATISTICS", 68),
  ("OUTDOOR_STATISTICAL_VALUES", 69), ("OUTPUT_CURRENT_RANGE", 70), ("OUTPUT_CURRENT_STATISTICS", 71),
  ("OUTPUT_RIPPLE_VOLTAGE_SPECIFICATION", 72), ("OUTPUT_VOLTAGE_RANGE", 73), ("OUTPUT_VOLTAGE_STATISTICS", 74),
  ("OVER_OUTPUT_RIPPLE_VOLTAGE_EVENT_STATISTICS", 75), ("PEOPLE_COUNT", 76), ("PRESENCE_DETECTED", 77),
  ("PRESENT_AMBIENT_LIGHT_LEVEL", 78), ("PRESENT_AMBIENT_TEMPERATURE", 79),
  ("PRESENT_CIE1931_CHROMATICITY_COORDINATES", 80), ("PRESENT_CORRELATED_COLOR_TEMPERATURE", 81),
  ("PRESENT_DEVICE_INPUT_POWER", 82), ("PRESENT_DEVICE_OPERATING_EFFICIENCY", 83),
  ("PRESENT_DEVICE_OPERATING_TEMPERATURE", 84), ("PRESENT_ILLUMINANCE", 85),
  ("PRESENT_INDOOR_AMBIENT_TEMPERATURE", 86), ("PRESENT_INPUT_CURRENT", 87), ("PRESENT_INPUT_RIPPLE_VOLTAGE", 88),
  ("PRESENT_INPUT_VOLTAGE", 89), ("PRESENT_LUMINOUS_FLUX", 90), ("PRESENT_OUTDOOR_AMBIENT_TEMPERATURE", 91),
  ("PRESENT_OUTPUT_CURRENT", 92), ("PRESENT_OUTPUT_VOLTAGE", 93), ("PRESENT_PLANCKIAN_DISTANCE", 94),
  ("PRESENT_RELATIVE_OUTPUT_RIPPLE_VOLTAGE", 95), ("RELATIVE_DEVICE_ENERGY_USE_IN_A_PERIOD_OF_DAY", 96),
  ("RELATIVE_DEVICE_RUNTIME_IN_A_GENERIC_LEVEL_RANGE", 97), ("RELATIVE_EXPOSURE_TIME_IN_AN_ILLUMINANCE_RANGE", 98),
  ("RELATIVE_RUNTIME_IN_A_CORRELATED_COLOR_TEMPERATURE_RANGE", 99),
  ("RELATIVE_RUNTIME_IN_A_DEVICE_OPERATING_TEMPERATURE_RANGE", 100),
  ("RELATIVE_RUNTIME_IN_AN_INPUT_CURRENT_RANGE", 101), ("RELATIVE_RUNTIME_IN_AN_INPUT_VOLTAGE_RANGE", 102),
  ("SHORT_CIRCUIT_EVENT_STATISTICS", 103), ("TIME_SINCE_MOTION_SENSED", 104), ("TIME_SINCE_PRESENCE_DETECTED", 105),
  ("TOTAL_DEVICE_ENERGY_USE", 106), ("TOTAL_DEVICE_OFF_ON_CYCLES", 107), ("TOTAL_DEVICE_POWER_ON_CYCLES", 108),
  ("TOTAL_DEVICE_POWER_ON_TIME", 109), ("TOTAL_DEVICE_RUNTIME", 110), ("TOTAL_LIGHT_EXPOSURE_TIME", 111),
  ("TOTAL_LUMINOUS_ENERGY", 112), ("PRECISE_TOTAL_DEVICE_ENERGY_USE", 114), ("POWER_FACTOR", 115),
  ("ACTIVE_ENERGY_LOAD_SIDE", 128), ("ACTIVE_POWER_LOAD_SIDE", 129), ("APPARENT_POWER", 132),
  ("APPARENT_ENERGY", 131), ("EXTERNAL_SUPPLY_VOLTAGE", 136), ("EXTERNAL_SUPPLY_VOLTAGE_FREQUENCY", 137),
  ("LIGHT_DISTRIBUTION", 140), ("LIGHT_SOURCE_CURRENT", 141), ("LIGHT_SOURCE_ON_TIME_NOT_RESETTABLE", 142),
  ("LIGHT_SOURCE_ON_TIME_RESETTABLE", 143), ("LIGHT_SOURCE_OPEN_CIRCUIT_STATISTICS", 144),
  ("LIGHT_SOURCE_OVERALL_FAILURES_STATISTICS", 145), ("LIGHT_SOURCE_SHORT_CIRCUIT_STATISTICS", 146),
  ("LIGHT_SOURCE_START_COUNTER_RESETTABLE", 147), ("LIGHT_SOURCE_TEMPERATURE", 148),
  ("LIGHT_SOURCE_THERMAL_DERATING_STATISTICS", 149), ("LIGHT_SOURCE_THERMAL_SHUTDOWN_STATISTICS", 150),
  ("LIGHT_SOURCE_TOTAL_POWER_ON_CYCLES", 151), ("LIGHT_SOURCE_VOLTAGE", 152), ("LUMINAIRE_COLOR", 153),
  ("LUMINAIRE_IDENTIFICATION_NUMBER", 154), ("LUMINAIRE_MANUFACTURER_GTIN", 155),
  ("LUMINAIRE_NOMINAL_INPUT_POWER", 156), ("LUMINAIRE_NOMINAL_MAXIMUM_AC_MAINS_VOLTAGE", 157),
  ("LUMINAIRE_NOMINAL_MINIMUM_AC_MAINS_VOLTAGE", 158), ("LUMINAIRE_POWER_AT_MINIMUM_DIM_LEVEL", 159),
  ("LUMINAIRE_TIME_OF_MANUFACTURE", 160), ("NOMINAL_LIGHT_OUTPUT", 164), ("OVERALL_FAILURE_CONDITION", 165),
  ("RATED_MEDIAN_USEFUL_LIFE_OF_LUMINAIRE", 171), ("RATED_MEDIAN_USEFUL_LIGHT_SOURCE_STARTS", 172),
  ("REFERENCE_TEMPERATURE", 173), ("TOTAL_DEVICE_STARTS", 174), ("LUMINAIRE_IDENTIFICATION_STRING", 180),
  ("OUTPUT_POWER_LIMITATION", 181), ("THERMAL_DERATING", 182), ("OUTPUT_CURRENT_PERCENT", 183),
  ("LIGHT_SOURCE_TYPE", 179), ("SENSOR_GAIN", 116), ("PRECISE_PRESENT_AMBIENT_TEMPERATURE", 117),
  ("DESIRED_AMBIENT_TEMPERATURE", 113)]⟩

/-- properties.py:257-263 `LightDistributionField`. -/
def LightDistributionField : EnumDef := ⟨"LightDistributionField", [
  ("TYPE_NOT_SPECIFIED", 0), ("TYPE_I", 1), ("TYPE_II", 2), ("TYPE_III", 3), ("TYPE_IV", 4), ("TYPE_V", 5)]⟩

/-- properties.py:266-276 `LightSourceTypeField`. -/
def LightSourceTypeField : EnumDef := ⟨"LightSourceTypeField", [
  ("TYPE_NOT_SPECIFIED", 0), ("LOW_PRESSURE_FLUORESCENT", 1), ("HIGH_INTENSITY_DISCHARGE", 2),
  ("LOW_VOLTAGE_HALOGEN", 3), ("INCANDESCENT", 4), ("LIGHT_EMITTING_DIODE", 5), ("ORGANIC_LIGHT_EMITTING_DIODE", 6),
  ("OTHER_THAN_LISTED_ABOVE", 253), ("NO_LIGHT_SOURCE", 254), ("MULTIPLE_LIGHT_SOURCE_TYPES", 255)]⟩

/-- scene.py:30-40 `SceneOpcode`. -/
def SceneOpcode : EnumDef := ⟨"SceneOpcode", [
  ("SCENE_GET", 33345), ("SCENE_RECALL", 33346), ("SCENE_RECALL_UNACKNOWLEDGED", 33347), ("SCENE_STATUS", 94),
  ("SCENE_REGISTER_GET", 33348), ("SCENE_REGISTER_STATUS", 33349), ("SCENE_STORE", 33350),
  ("SCENE_STORE_UNACKNOWLEDGED", 33351), ("SCENE_DELETE", 33438), ("SCENE_DELETE_UNACKNOWLEDGED", 33439)]⟩

/-- scene.py:43-46 `SceneStatusCode`. -/
def SceneStatusCode : EnumDef := ⟨"SceneStatusCode", [
  ("SUCCESS", 0), ("SCENE_REGISTER_FULL", 1), ("SCENE_NOT_FOUND", 2)]⟩

/-- sensor.py:58-66 `SensorSampling`. -/
def SensorSampling : EnumDef := ⟨"SensorSampling", [
  ("UNSPECIFIED", 0), ("INSTANTANEOUS", 1), ("ARITHMETIC_MEAN", 2), ("RMS", 3), ("MAXIMUM", 4), ("MINIMUM", 5),
  ("ACCUMULATED", 6), ("COUNT", 7)]⟩

/-- sensor.py:69-72 `SensorSettingAccess`. -/
def SensorSettingAccess : EnumDef := ⟨"SensorSettingAccess", [
  ("READ_ONLY", 1), ("WRITE_ONLY", 2), ("READ_WRITE", 3)]⟩

/-- sensor.py:75-86 `SensorOpcode`. -/
def SensorOpcode : EnumDef := ⟨"SensorOpcode", [
  ("SENSOR_DESCRIPTOR_GET", 33328), ("SENSOR_DESCRIPTOR_STATUS", 81), ("SENSOR_GET", 33329), ("SENSOR_STATUS", 82),
  ("SENSOR_COLUMN_GET", 33330), ("SENSOR_COLUMN_STATUS", 83), ("SENSOR_SERIES_GET", 33331),
  ("SENSOR_SERIES_STATUS", 84)]⟩

/-- sensor.py:89-102 `SensorSetupOpcode`. -/
def SensorSetupOpcode : EnumDef := ⟨"SensorSetupOpcode", [
  ("SENSOR_CADENCE_GET", 33332), ("SENSOR_CADENCE_SET", 85), ("SENSOR_CADENCE_SET_UNACKNOWLEDGED", 86),
  ("SENSOR_CADENCE_STATUS", 87), ("SENSOR_SETTINGS_GET", 33333), ("SENSOR_SETTINGS_STATUS", 88),
  ("SENSOR_SETTING_GET", 33334), ("SENSOR_SETTING_SET", 89), ("SENSOR_SETTING_SET_UNACKNOWLEDGED", 90),
  ("SENSOR_SETTING_STATUS", 91)]⟩

/-- silvair/debug.py:44-45 `DebugOpcode`. -/
def DebugOpcode : EnumDef := ⟨"DebugOpcode", [
  ("SILVAIR_DEBUG", 16070145)]⟩

/-- silvair/debug.py:48-79 `DebugSubOpcode`. -/
def DebugSubOpcode : EnumDef := ⟨"DebugSubOpcode", [
  ("RSSI_THRESHOLD_GET", 0), ("RSSI_THRESHOLD_SET", 1), ("RSSI_THRESHOLD_STATUS", 2), ("RADIO_TEST", 3),
  ("UPTIME_GET", 10), ("UPTIME_STATUS", 11), ("LAST_SW_FAULT_GET", 12), ("LAST_SW_FAULT_CLEAR", 13),
  ("LAST_SW_FAULT_STATUS", 14), ("SYSTEM_STATS_GET", 15), ("SYSTEM_STATS_STATUS", 16), ("LAST_MALLOC_FAULT_GET", 17),
  ("LAST_MALLOC_FAULT_CLEAR", 18), ("LAST_MALLOC_FAULT_STATUS", 19), ("LAST_FDS_FAULT_GET", 20),
  ("LAST_FDS_FAULT_CLEAR", 21), ("LAST_FDS_FAULT_STATUS", 22), ("BYTES_BEFORE_GARBAGE_COLLECTOR_GET", 23),
  ("BYTES_BEFORE_GARBAGE_COLLECTOR_STATUS", 24), ("PROVISIONED_APP_VERSION_GET", 25),
  ("PROVISIONED_APP_VERSION_STATUS", 26), ("FULL_FIRMWARE_VERSION_GET", 27), ("FULL_FIRMWARE_VERSION_STATUS", 28),
  ("IV_INDEX_GET", 29), ("IV_INDEX_STATUS", 30), ("GARBAGE_COLLECTOR_COUNTER_GET", 31),
  ("GARBAGE_COLLECTOR_COUNTER_STATUS", 32), ("ARAP_LIST_SIZE_GET", 33), ("ARAP_LIST_SIZE_STATUS", 34),
  ("ARAP_LIST_CONTENT_GET", 35), ("ARAP_LIST_CONTENT_STATUS", 36)]⟩

/-- silvair/debugV2.py:45-46 `DebugV2Opcode`. -/
def DebugV2Opcode : EnumDef := ⟨"DebugV2Opcode", [
  ("SILVAIR_DEBUG_V2", 15414785)]⟩

/-- silvair/debugV2.py:49-53 `DebugV2SubOpcode`. -/
def DebugV2SubOpcode : EnumDef := ⟨"DebugV2SubOpcode", [
  ("GET", 0), ("SET", 1), ("STATUS", 2), ("CLEAR", 3)]⟩

/-- silvair/debugV2.py:56-104 `DebugV2ParameterTypes`. -/
def DebugV2ParameterTypes : EnumDef := ⟨"DebugV2ParameterTypes", [
  ("GETABLE_PARAMETER_LIST", 0), ("SETABLE_PARAMETER_LIST", 1), ("SETTABLE_PARAMETER_TYPE_LIST", 2),
  ("CLEARABLE_PARAMETER_LIST", 3), ("RSSI_THRESHOLD", 8), ("UPTIME", 9), ("MESH_RPL_LIST_CONTENT", 10),
  ("TIME_SYNC_MSG_LIST", 11), ("FIRST_TIME_SYNC_TIMESTAMP", 12), ("LAST_TIME_SYNC_TIME", 13),
  ("LAST_TIME_RECOVERY_TIME", 14), ("RECALLED_EVENTS_TIME", 15), ("RESET_MONITOR_COUNTERS", 16),
  ("TIME_RECOVERY_COUNTER", 17), ("OCCUPANCY_EVENTS_COUNTER", 18), ("OCCUPANCY_HISTORY", 19),
  ("OCCUPANCY_HISTORY_RESOLUTION", 20), ("RADIO_STATS_PER_CHANNEL", 21), ("QUEUES_MONITOR", 22), ("QUEUES_STATS", 23),
  ("UART_ERRORS", 24), ("UART_MODEL_INSTANCES", 25), ("APP_THREAD_LATENCY", 26), ("IV_INDEX_INFO", 27),
  ("MESH_CACHE_INFO", 28), ("EL_ELT_HISTORY", 29), ("RRULE_SCHEDULE_REGISTER_SIZE", 30), ("RRULE_NEXT_EVENT_TAI", 31),
  ("RRULE_NEXT_EVENT_ENTRIES_ARRAY", 32), ("LAST_CALLS_OF_RRULE_ENTRIES", 33), ("CPU_USAGE_CURRENT_STATS", 34),
  ("CPU_USAGE_HISTOGRAM", 35), ("CPU_USAGE_HISTORY", 36), ("CPU_USAGE_HISTORY_SETUP", 37),
  ("LAST_MEASURED_POWER_OFF_TIME_MS", 39), ("LAST_MEASURED_DALI_BUS_SHORT_TO_POWER_OFF_TIME_MS", 40),
  ("LAST_RESET_FIRST_FAULT_INFO", 41), ("LC_OLC_AMBIENT_LUX_LEVEL", 42), ("APP_THREAD_STARTUP_LATENCY", 43),
  ("APP_THREAD_RUNTIME_LATENCY", 44), ("APP_THREAD_RUNTIME_EXCLUDING_FLASH_OPERATIONS_LATENCY", 45),
  ("DALI_CONNECTED_DRIVERS", 46), ("NOT_KNOWN_PARAMETER", 255)]⟩

/-- silvair/debugV2.py:107-121 `DebugV2DataTypes`. -/
def DebugV2DataTypes : EnumDef := ⟨"DebugV2DataTypes", [
  ("UINT8", 0), ("UINT16", 1), ("UINT32", 2), ("UINT64", 3), ("INT8", 4), ("INT16", 5), ("INT32", 6), ("INT64", 7),
  ("FLOAT", 8), ("DOUBLE", 9), ("ENUM", 10), ("STRING", 11), ("ARRAY", 12), ("INVALID", 255)]⟩

/-- silvair/emergency_lighting.py:30-31 `EmergencyLightingOpcode`. -/
def EmergencyLightingOpcode : EnumDef := ⟨"EmergencyLightingOpcode", [
  ("SILVAIR_EL", 15349249)]⟩

/-- silvair/emergency_lighting.py:34-52 `EmergencyLightingSubOpcode`. -/
def EmergencyLightingSubOpcode : EnumDef := ⟨"EmergencyLightingSubOpcode", [
  ("EL_INHIBIT_ENTER", 0), ("EL_INHIBIT_ENTER_UNACKNOWLEDGED", 1), ("EL_INHIBIT_EXIT", 2),
  ("EL_INHIBIT_EXIT_UNACKNOWLEDGED", 3), ("EL_STATE_GET", 4), ("EL_STATE_STATUS", 5), ("EL_PROPERTY_GET", 6),
  ("EL_PROPERTY_SET", 7), ("EL_PROPERTY_SET_UNACKNOWLEDGED", 8), ("EL_PROPERTY_STATUS", 9),
  ("EL_LAMP_OPERATION_TIME_GET", 10), ("EL_LAMP_OPERATION_TIME_CLEAR", 11),
  ("EL_LAMP_OPERATION_TIME_CLEAR_UNACKNOWLEDGED", 12), ("EL_LAMP_OPERATION_TIME_STATUS", 13), ("EL_REST_ENTER", 14),
  ("EL_REST_ENTER_UNACKNOWLEDGED", 15), ("EL_REST_EXIT", 16), ("EL_REST_EXIT_UNACKNOWLEDGED", 17)]⟩

/-- silvair/emergency_lighting.py:55-72 `ElState`. -/
def ElState : EnumDef := ⟨"ElState", [
  ("TRANSITION_FROM_INHIBIT_TO_NORMAL", 0), ("TRANSITION_FROM_FUNCTIONAL_TEST_TO_NORMAL", 1),
  ("TRANSITION_FROM_DURATION_TEST_TO_NORMAL", 2), ("NORMAL", 3), ("TRANSITION_FROM_REST_TO_EMERGENCY", 4),
  ("EMERGENCY", 5), ("EXTENDED_EMERGENCY", 6), ("TRANSITION_FROM_EMERGENCY_TO_REST", 7), ("REST", 8),
  ("TRANSITION_FROM_NORMAL_TO_INHIBIT", 9), ("INHIBIT", 10), ("TRANSITION_FROM_NORMAL_TO_DURATION_TEST", 11),
  ("DURATION_TEST_IN_PROGRESS", 12), ("TRANSITION_FROM_NORMAL_TO_FUNCTIONAL_TEST", 13),
  ("FUNCTIONAL_TEST_IN_PROGRESS", 14), ("BATTERY_DISCHARGED", 15), ("UNKNOWN", 16)]⟩

/-- silvair/emergency_lighting.py:75-79 `EmergencyLightingProperty`. -/
def EmergencyLightingProperty : EnumDef := ⟨"EmergencyLightingProperty", [
  ("EL_LIGHTNESS", 65408), ("EL_LIGHTNESS_RANGE_MIN", 65409), ("EL_LIGHTNESS_RANGE_MAX", 65410),
  ("EL_PROLONG_TIME", 65411)]⟩

/-- silvair/emergency_lighting_test.py:65-66 `EmergencyLightingTestOpcode`. -/
def EmergencyLightingTestOpcode : EnumDef := ⟨"EmergencyLightingTestOpcode", [
  ("SILVAIR_ELT", 15283713)]⟩

/-- silvair/emergency_lighting_test.py:69-81 `EmergencyLightingTestSubOpcode`. -/
def EmergencyLightingTestSubOpcode : EnumDef := ⟨"EmergencyLightingTestSubOpcode", [
  ("ELT_FUNCTIONAL_TEST_GET", 0), ("ELT_FUNCTIONAL_TEST_START", 1), ("ELT_FUNCTIONAL_TEST_STOP", 2),
  ("ELT_FUNCTIONAL_TEST_STATUS", 3), ("ELT_DURATION_TEST_GET", 4), ("ELT_DURATION_TEST_START", 5),
  ("ELT_DURATION_TEST_STOP", 6), ("ELT_DURATION_TEST_STATUS", 7), ("ELT_PROPERTY_GET", 8), ("ELT_PROPERTY_SET", 9),
  ("ELT_PROPERTY_SET_UNACKNOWLEDGED", 10), ("ELT_PROPERTY_STATUS", 11)]⟩

/-- silvair/emergency_lighting_test.py:84-92 `TestExecutionStatus`. -/
def TestExecutionStatus : EnumDef := ⟨"TestExecutionStatus", [
  ("FINISHED", 0), ("TRIGGERED", 1), ("IN_PROGRESS", 2), ("POSTPONED", 3), ("STOPPED", 4), ("DROPPED", 5),
  ("TIMEOUT", 6), ("UNKNOWN", 7)]⟩

/-- silvair/emergency_lighting_test.py:168-176 `EmergencyLightingTestProperty`. -/
def EmergencyLightingTestProperty : EnumDef := ⟨"EmergencyLightingTestProperty", [
  ("ELT_DURATION_TEST_EXECUTION_TIMEOUT", 65412), ("ELT_FUNCTIONAL_TEST_EXECUTION_TIMEOUT", 65413),
  ("ELT_DURATION_TEST_RETRY_PERIOD", 65414), ("ELT_FUNCTIONAL_TEST_RETRY_PERIOD", 65415),
  ("ELT_DURATION_TEST_BACKUP_AUTOMATIC_DELAY", 65416), ("ELT_FUNCTIONAL_TEST_BACKUP_AUTOMATIC_DELAY", 65417),
  ("ELT_DURATION_TEST_BACKUP_AUTOMATIC_INTERVAL", 65418), ("ELT_FUNCTIONAL_TEST_BACKUP_AUTOMATIC_INTERVAL", 65419)]⟩

/-- silvair/gateway_config_server.py:47-48 `GatewayConfigServerOpcode`. -/
def GatewayConfigServerOpcode : EnumDef := ⟨"GatewayConfigServerOpcode", [
  ("SILVAIR_GATEWAY", 15742465)]⟩

/-- silvair/gateway_config_server.py:51-65 `GatewayConfigServerSubOpcode`. -/
def GatewayConfigServerSubOpcode : EnumDef := ⟨"GatewayConfigServerSubOpcode", [
  ("GATEWAY_CONFIGURATION_GET", 0), ("GATEWAY_CONFIGURATION_SET", 1), ("GATEWAY_PACKETS_GET", 2),
  ("GATEWAY_PACKETS_CLEAR", 3), ("MTU_SIZE_SET", 4), ("ETHERNET_MAC_ADDRESS_SET", 5),
  ("SERVER_ADDRESS_AND_PORT_NUMBER_SET", 6), ("RECONNECT_INTERVAL_SET", 7), ("DNS_IP_ADDRESS_SET", 8),
  ("IP_ADDRESS_SET", 9), ("GATEWAY_IP_ADDRESS_SET", 10), ("NETMASK_SET", 11), ("GATEWAY_CONFIGURATION_STATUS", 12),
  ("GATEWAY_PACKETS_STATUS", 13)]⟩

/-- silvair/gateway_config_server.py:68-74 `ConnState`. -/
def ConnState : EnumDef := ⟨"ConnState", [
  ("ETHERNET_IDLE", 0), ("ETHERNET_CONFIGURING", 1), ("ETHERNET_INITIALIZING", 2), ("ETHERNET_CONNECTING", 3),
  ("ETHERNET_HANDSHAKE", 4), ("ETHERNET_CONNECTED", 5)]⟩

/-- silvair/gateway_config_server.py:77-79 `LinkStatus`. -/
def LinkStatus : EnumDef := ⟨"LinkStatus", [
  ("LINK_DOWN", 0), ("LINK_UP", 1)]⟩

/-- silvair/gateway_config_server.py:82-98 `LastError`. -/
def LastError : EnumDef := ⟨"LastError", [
  ("ERROR_NO_ERROR", 0), ("ERROR_EPERM", 1), ("ERROR_ENODEV", 2), ("ERROR_EADDRINUSE", 3), ("ERROR_EPROTO", 4),
  ("ERROR_RFU1", 5), ("ERROR_RFU2", 6), ("ERROR_RFU3", 7), ("ERROR_RFU4", 8), ("ERROR_RFU5", 9), ("ERROR_RFU6", 10),
  ("ERROR_RFU7", 11), ("ERROR_RFU8", 12), ("ERROR_RFU9", 13), ("ERROR_RFU10", 14), ("ERROR_UNKNOWN", 15)]⟩

/-- silvair/gateway_config_server.py:101-104 `DhcpFlag`. -/
def DhcpFlag : EnumDef := ⟨"DhcpFlag", [
  ("DHCP_DISABLED", 0), ("DHCP_ENABLED_STATIC_DNS", 1), ("DHCP_ENABLED_AUTO_DNS", 2)]⟩

/-- silvair/gateway_config_server.py:107-125 `StatusCode`. -/
def GatewayStatusCode : EnumDef := ⟨"StatusCode", [
  ("STATUS_SUCCESS", 0), ("STATUS_INVALID_ADDRESS", 1), ("STATUS_INVALID_MODEL", 2), ("STATUS_INVALID_APPKEY_IDX", 3),
  ("STATUS_INVALID_NETKEY_IDX", 4), ("STATUS_INSUFF_RESOURCES", 5), ("STATUS_KEY_INDEX_ALREADY_STORED", 6),
  ("STATUS_INVALID_PUBLISH_PARAMS", 7), ("STATUS_NOT_SUBSCRIBE_MODEL", 8), ("STATUS_STORAGE_FAILURE", 9),
  ("STATUS_FEATURE_NOT_SUPPORTED", 10), ("STATUS_CANNOT_UPDATE", 11), ("STATUS_CANNOT_REMOVE", 12),
  ("STATUS_CANNOT_BIND", 13), ("STATUS_TEMP_UNABLE_TO_CHANGE_STATE", 14), ("STATUS_CANNOT_SET", 15),
  ("STATUS_UNSPECIFIED_ERROR", 16), ("STATUS_INVALID_BINDING", 17)]⟩

/-- silvair/light_extended_controller.py:30-31 `LightExtendedControllerOpcode`. -/
def LightExtendedControllerOpcode : EnumDef := ⟨"LightExtendedControllerOpcode", [
  ("SILVAIR_LEC", 16135681)]⟩

/-- silvair/light_extended_controller.py:34-44 `LightExtendedControllerSubOpcode`. -/
def LightExtendedControllerSubOpcode : EnumDef := ⟨"LightExtendedControllerSubOpcode", [
  ("PROPERTY_GET", 0), ("PROPERTY_SET", 1), ("PROPERTY_SET_UNACKNOWLEDGED", 2), ("PROPERTY_STATUS", 3),
  ("BULK_LC_PROPERTY_SET", 4), ("BULK_LC_PROPERTY_STATUS", 5), ("BULK_LEC_PROPERTY_SET", 6),
  ("BULK_LEC_PROPERTY_STATUS", 6), ("SYNC_INTEGRAL_GET", 8), ("SYNC_INTEGRAL_STATUS", 9)]⟩

/-- silvair/light_extended_controller.py:47-49 `LightExtendedControllerProperty`. -/
def LightExtendedControllerProperty : EnumDef := ⟨"LightExtendedControllerProperty", [
  ("AUTO_RESUME_MODE", 65393), ("AUTO_RESUME_TIMER", 65394)]⟩

/-- silvair/network_diagnostic_server.py:38-39 `NetworkDiagnosticServerOpcode`. -/
def NetworkDiagnosticServerOpcode : EnumDef := ⟨"NetworkDiagnosticServerOpcode", [
  ("SILVAIR_NDS", 16528897)]⟩

/-- silvair/network_diagnostic_server.py:42-49 `NetworkDiagnosticServerSubOpcode`. -/
def NetworkDiagnosticServerSubOpcode : EnumDef := ⟨"NetworkDiagnosticServerSubOpcode", [
  ("SUBSCRIPTION_GET", 0), ("SUBSCRIPTION_SET", 1), ("SUBSCRIPTION_SET_UNACKNOWLEDGED", 2),
  ("SUBSCRIPTION_STATUS", 3), ("RADIO_STAT_GET", 4), ("RADIO_STAT_SET", 5), ("RADIO_STAT_STATUS", 6)]⟩

/-- silvair/network_diagnostic_server.py:52-53 `NetworkDiagnosticSetupServerOpcode`. -/
def NetworkDiagnosticSetupServerOpcode : EnumDef := ⟨"NetworkDiagnosticSetupServerOpcode", [
  ("SILVAIR_NDS_SETUP", 16594433)]⟩

/-- silvair/network_diagnostic_server.py:56-59 `NetworkDiagnosticSetupServerSubOpcode`. -/
def NetworkDiagnosticSetupServerSubOpcode : EnumDef := ⟨"NetworkDiagnosticSetupServerSubOpcode", [
  ("PUBLICATION_GET", 0), ("PUBLICATION_SET", 1), ("PUBLICATION_STATUS", 2)]⟩

/-- silvair/rrule_scheduler.py:52-53 `RRuleSchedulerOpcode`. -/
def RRuleSchedulerOpcode : EnumDef := ⟨"RRuleSchedulerOpcode", [
  ("SILVAIR_RRULE_SCHEDULER", 15218177)]⟩

/-- silvair/rrule_scheduler.py:56-70 `RRuleSchedulerSubOpcode`. -/
def RRuleSchedulerSubOpcode : EnumDef := ⟨"RRuleSchedulerSubOpcode", [
  ("RULES_LIST_GET", 0), ("RULES_LIST_STATUS", 1), ("REGISTER_MAX_SIZE_GET", 2), ("REGISTER_MAX_SIZE_STATUS", 3),
  ("SCHEDULER_MODE_GET", 4), ("SCHEDULER_MODE_SET", 5), ("SCHEDULER_MODE_STATUS", 6),
  ("SCHEDULE_REGISTER_ENTRY_GET", 7), ("SCHEDULE_REGISTER_ENTRY_SET", 8), ("SCHEDULE_REGISTER_ENTRY_DELETE", 9),
  ("SCHEDULE_REGISTER_ENTRY_DELETE_ALL", 10), ("SCHEDULE_REGISTER_ENTRY_STATUS", 11),
  ("SCHEDULE_REGISTER_LIST_GET", 12), ("SCHEDULE_REGISTER_LIST_STATUS", 13)]⟩

/-- silvair/rrule_scheduler.py:73-75 `SchedulerModes`. -/
def SchedulerModes : EnumDef := ⟨"SchedulerModes", [
  ("DISABLED", 0), ("ENABLED", 1)]⟩

/-- silvair/rrule_scheduler.py:78-92 `Days`. -/
def Days : EnumDef := ⟨"Days", [
  ("PREVIOUS_SUNDAY", -7), ("PREVIOUS_SATURDAY", -6), ("PREVIOUS_FRIDAY", -5), ("PREVIOUS_THURSDAY", -4),
  ("PREVIOUS_WEDNESDAY", -3), ("PREVIOUS_TUESDAY", -2), ("PREVIOUS_MONDAY", -1), ("NEXT_MONDAY", 1),
  ("NEXT_TUESDAY", 2), ("NEXT_WEDNESDAY", 3), ("NEXT_THURSDAY", 4), ("NEXT_FRIDAY", 5), ("NEXT_SATURDAY", 6),
  ("NEXT_SUNDAY", 7)]⟩

/-- silvair/rrule_scheduler.py:95-102 `StatusCodes`. -/
def StatusCodes : EnumDef := ⟨"StatusCodes", [
  ("SUCCESS", 0), ("INVALID_SLOT", 1), ("INVALID_SLOT_PARAMETERS", 2), ("INVALID_RULE", 3), ("INVALID_RULE_VALUE", 4),
  ("REGISTER_SIZE_EXCEEDED", 5), ("STORAGE_FAILURE", 6)]⟩

/-- silvair/rrule_scheduler.py:105-121 `RuleIDs`. -/
def RuleIDs : EnumDef := ⟨"RuleIDs", [
  ("FREQ", 0), ("UNTIL", 1), ("COUNT", 2), ("INTERVAL", 3), ("BYSECOND", 4), ("BYMINUTE", 5), ("BYHOUR", 6),
  ("BYDAY", 7), ("BYMONTHDAY", 8), ("BYYEARDAY", 9), ("BYWEEKNO", 10), ("BYMONTH", 11), ("BYSETPOS", 12),
  ("DTSTART", 13), ("EXPLICIT_RDATE", 14), ("EXCLUSIONS_RDATE", 15)]⟩

/-- silvair/rrule_scheduler.py:124-131 `Freqs`. -/
def Freqs : EnumDef := ⟨"Freqs", [
  ("SECONDLY", 0), ("MINUTELY", 1), ("HOURLY", 2), ("DAILY", 3), ("WEEKLY", 4), ("MONTHLY", 5), ("YEARLY", 6)]⟩

/-- time.py:68-72 `TimeRole`. -/
def TimeRole : EnumDef := ⟨"TimeRole", [
  ("NONE", 0), ("TIME_AUTHORITY", 1), ("TIME_RELAY", 2), ("TIME_CLIENT", 3)]⟩

/-- time.py:292-304 `TimeOpcode`. -/
def TimeOpcode : EnumDef := ⟨"TimeOpcode", [
  ("TIME_GET", 33335), ("TIME_SET", 92), ("TIME_STATUS", 93), ("TIME_ROLE_GET", 33336), ("TIME_ROLE_SET", 33337),
  ("TIME_ROLE_STATUS", 33338), ("TIME_ZONE_GET", 33339), ("TIME_ZONE_SET", 33340), ("TIME_ZONE_STATUS", 33341),
  ("TAI_UTC_DELTA_GET", 33342), ("TAI_UTC_DELTA_SET", 33343), ("TAI_UTC_DELTA_STATUS", 33344)]⟩

end E
end BM
