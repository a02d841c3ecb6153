import Verif.Spec
/-!
# Assigned numbers

The values the Bluetooth specifications assign to the names of the states of the mesh models (Mesh Profile, section 4; Mesh Model,
sections 2–5), to the locations of elements (GATT namespace descriptors of the Assigned Numbers) and to the mesh device properties,
and the values of the vendor's messages, as tables independent of the enumerations of the package.  (The numbers of the opcodes and
of the sub-opcodes are part of the specification of the messages: SpecAll.lean, SpecSilvair.lean.)
-/
namespace BM
namespace Assigned

/-- Consecutive numbers for a list of names. -/
def numbered (first : Int) : List String → List (String × Int)
  | [] => []
  | s :: ss => (s, first) :: numbered (first + 1) ss

/-- Mesh Profile 4.2.10: Secure Network Beacon. -/
def beacon := numbered 0 ["OFF", "ON"]
/-- Mesh Profile 4.2.8, 4.2.11, 4.2.13: Relay, GATT Proxy and Friend. -/
def feature := numbered 0 ["DISABLED", "ENABLED", "NOT_SUPPORTED"]
/-- Mesh Profile 4.2.12: Node Identity. -/
def nodeIdentity := numbered 0 ["STOPPED", "RUNNING", "NOT_SUPPORTED"]
/-- Mesh Profile 4.2.14: Key Refresh Phase. -/
def keyRefreshPhase := numbered 0 ["NORMAL", "FIRST", "SECOND"]
/-- Mesh Profile 4.2.14: the transitions that can be asked for. -/
def keyRefreshTransition := numbered 2 ["SECOND", "THIRD"]
/-- Mesh Profile 4.2.2.4: Publish Friendship Credentials Flag. -/
def credentials := numbered 0 ["MASTER_SECURITY", "FRIENDSHIP_SECURITY"]
/-- Mesh Profile 4.2.2.2: the step resolution of the publish period. -/
def stepResolution := numbered 0 ["RESOLUTION_100_MS", "RESOLUTION_1_S", "RESOLUTION_10_S", "RESOLUTION_10_MIN"]
/-- Mesh Profile 4.3.5: status codes of the foundation models. -/
def status := numbered 0 ["SUCCESS", "INVALID_ADDRESS", "INVALID_MODEL", "INVALID_APPKEY_INDEX", "INVALID_NETKEY_INDEX",
  "INSUFFICIENT_RESOURCES", "KEY_INDEX_ALREADY_STORED", "INVALID_PUBLISH_PARAMETERS", "NOT_A_SUBSCRIBE_MODEL",
  "STORAGE_FAILURE", "FEATURE_NOT_SUPPORTED", "CANNOT_UPDATE", "CANNOT_REMOVE", "CANNOT_BIND",
  "TEMPORARILY_UNABLE_TO_CHANGE_STATE", "CANNOT_SET", "UNSPECIFIED_ERROR", "INVALID_BINDING"]
/-- Composition data pages. -/
def pages := numbered 0 ["ZERO", "FIRST", "SECOND"] ++ [("TWO_HUNDRED_AND_FIFTY_FIFTH", 255)]
/-- Composition data page 1: the format of the extended model items. -/
def itemFormat := numbered 0 ["SHORT", "LONG"]
/-- Mesh Model 3.1.8: Generic Battery Flags. -/
def batteryPresence := numbered 0 ["BATTERY_NOT_PRESENT", "BATTERY_PRESENT_REMOVABLE", "BATTERY_PRESENT_NON_REMOVABLE",
  "BATTERY_PRESENCE_UNKNOWN"]
@[inherit_doc batteryPresence] def batteryIndicator := numbered 0 ["BATTERY_CHARGE_CRITICALLY_LOW", "BATTERY_CHARGE_LOW",
  "BATTERY_CHARGE_GOOD", "BATTERY_CHARGE_UNKNOWN"]
@[inherit_doc batteryPresence] def batteryCharging := numbered 0 ["BATTERY_NOT_CHARGEABLE", "BATTERY_CHARGEABLE_NOT_CHARGING",
  "BATTERY_CHARGEABLE_CHARGING", "BATTERY_CHARGING_STATE_UNKNOWN"]
@[inherit_doc batteryPresence] def batteryService := numbered 0 ["RFU", "BATTERY_NOT_REQUIRE_SERVICE",
  "BATTERY_REQUIRE_SERVICE", "BATTERY_SERVICEABILITY_UNKNOWN"]
/-- Mesh Model 3.1.9: access to properties (bit 0: read, bit 1: write). -/
def access := numbered 1 ["READ_ONLY", "WRITE_ONLY", "READ_WRITE"]
@[inherit_doc access] def adminAccess := ("NOT_USER_PROPERTY", 0) :: access
@[inherit_doc access] def manufacturerAccess := numbered 0 ["NOT_USER_PROPERTY", "READ_ONLY"]
/-- Mesh Model 4.1.1.4: Sensor Sampling Function. -/
def sampling := numbered 0 ["UNSPECIFIED", "INSTANTANEOUS", "ARITHMETIC_MEAN", "RMS", "MAXIMUM", "MINIMUM", "ACCUMULATED", "COUNT"]
/-- Mesh Model 5.2.2.11: Scene status codes. -/
def sceneStatus := numbered 0 ["SUCCESS", "SCENE_REGISTER_FULL", "SCENE_NOT_FOUND"]
/-- Mesh Model 5.1.2: Time Role. -/
def timeRole := numbered 0 ["NONE", "TIME_AUTHORITY", "TIME_RELAY", "TIME_CLIENT"]
/-- GATT Light Distribution. -/
def lightDistribution := numbered 0 ["TYPE_NOT_SPECIFIED", "TYPE_I", "TYPE_II", "TYPE_III", "TYPE_IV", "TYPE_V"]
/-- GATT Light Source Type. -/
def lightSource := numbered 0 ["TYPE_NOT_SPECIFIED", "LOW_PRESSURE_FLUORESCENT", "HIGH_INTENSITY_DISCHARGE",
  "LOW_VOLTAGE_HALOGEN", "INCANDESCENT", "LIGHT_EMITTING_DIODE", "ORGANIC_LIGHT_EMITTING_DIODE"] ++
  numbered 0xFD ["OTHER_THAN_LISTED_ABOVE", "NO_LIGHT_SOURCE", "MULTIPLE_LIGHT_SOURCE_TYPES"]

/-- Weekdays of the recurrence scheduler: the next ones count up from Monday, the previous ones down. -/
def days := numbered (-7) ["PREVIOUS_SUNDAY", "PREVIOUS_SATURDAY", "PREVIOUS_FRIDAY", "PREVIOUS_THURSDAY", "PREVIOUS_WEDNESDAY",
  "PREVIOUS_TUESDAY", "PREVIOUS_MONDAY"] ++
  numbered 1 ["NEXT_MONDAY", "NEXT_TUESDAY", "NEXT_WEDNESDAY", "NEXT_THURSDAY", "NEXT_FRIDAY", "NEXT_SATURDAY", "NEXT_SUNDAY"]
/-- Frequencies of RFC 5545. -/
def frequency := numbered 0 ["SECONDLY", "MINUTELY", "HOURLY", "DAILY", "WEEKLY", "MONTHLY", "YEARLY"]
/-- Parts of a recurrence rule, in the order of RFC 5545, then the start and the explicit and excluded dates. -/
def rulePart := numbered 0 ["FREQ", "UNTIL", "COUNT", "INTERVAL", "BYSECOND", "BYMINUTE", "BYHOUR", "BYDAY", "BYMONTHDAY",
  "BYYEARDAY", "BYWEEKNO", "BYMONTH", "BYSETPOS", "DTSTART", "EXPLICIT_RDATE", "EXCLUSIONS_RDATE"]
/-- Silvair: the scheduler's mode and status. -/
def schedulerMode := numbered 0 ["DISABLED", "ENABLED"]
@[inherit_doc schedulerMode] def schedulerStatus := numbered 0 ["SUCCESS", "INVALID_SLOT", "INVALID_SLOT_PARAMETERS", "INVALID_RULE",
  "INVALID_RULE_VALUE", "REGISTER_SIZE_EXCEEDED", "STORAGE_FAILURE"]
/-- Silvair: states of emergency lighting and of its tests. -/
def emergency := numbered 0 ["TRANSITION_FROM_INHIBIT_TO_NORMAL", "TRANSITION_FROM_FUNCTIONAL_TEST_TO_NORMAL",
  "TRANSITION_FROM_DURATION_TEST_TO_NORMAL", "NORMAL", "TRANSITION_FROM_REST_TO_EMERGENCY", "EMERGENCY", "EXTENDED_EMERGENCY",
  "TRANSITION_FROM_EMERGENCY_TO_REST", "REST", "TRANSITION_FROM_NORMAL_TO_INHIBIT", "INHIBIT",
  "TRANSITION_FROM_NORMAL_TO_DURATION_TEST", "DURATION_TEST_IN_PROGRESS", "TRANSITION_FROM_NORMAL_TO_FUNCTIONAL_TEST",
  "FUNCTIONAL_TEST_IN_PROGRESS", "BATTERY_DISCHARGED", "UNKNOWN"]
@[inherit_doc emergency] def testStatus := numbered 0 ["FINISHED", "TRIGGERED", "IN_PROGRESS", "POSTPONED", "STOPPED", "DROPPED",
  "TIMEOUT", "UNKNOWN"]
/-- Silvair: properties of emergency lighting, of its tests and of the extended controller. -/
def emergencyProperty := numbered 0xFF80 ["EL_LIGHTNESS", "EL_LIGHTNESS_RANGE_MIN", "EL_LIGHTNESS_RANGE_MAX", "EL_PROLONG_TIME"]
@[inherit_doc emergencyProperty] def testProperty := numbered 0xFF84 ["ELT_DURATION_TEST_EXECUTION_TIMEOUT",
  "ELT_FUNCTIONAL_TEST_EXECUTION_TIMEOUT", "ELT_DURATION_TEST_RETRY_PERIOD", "ELT_FUNCTIONAL_TEST_RETRY_PERIOD",
  "ELT_DURATION_TEST_BACKUP_AUTOMATIC_DELAY", "ELT_FUNCTIONAL_TEST_BACKUP_AUTOMATIC_DELAY",
  "ELT_DURATION_TEST_BACKUP_AUTOMATIC_INTERVAL", "ELT_FUNCTIONAL_TEST_BACKUP_AUTOMATIC_INTERVAL"]
@[inherit_doc emergencyProperty] def controllerProperty := numbered 0xFF71 ["AUTO_RESUME_MODE", "AUTO_RESUME_TIMER"]
/-- Silvair: states of the gateway. -/
def connState := numbered 0 ["ETHERNET_IDLE", "ETHERNET_CONFIGURING", "ETHERNET_INITIALIZING", "ETHERNET_CONNECTING",
  "ETHERNET_HANDSHAKE", "ETHERNET_CONNECTED"]
@[inherit_doc connState] def linkStatus := numbered 0 ["LINK_DOWN", "LINK_UP"]
@[inherit_doc connState] def lastError := numbered 0 ["ERROR_NO_ERROR", "ERROR_EPERM", "ERROR_ENODEV", "ERROR_EADDRINUSE", "ERROR_EPROTO",
  "ERROR_RFU1", "ERROR_RFU2", "ERROR_RFU3", "ERROR_RFU4", "ERROR_RFU5", "ERROR_RFU6", "ERROR_RFU7", "ERROR_RFU8", "ERROR_RFU9",
  "ERROR_RFU10", "ERROR_UNKNOWN"]
@[inherit_doc connState] def dhcp := numbered 0 ["DHCP_DISABLED", "DHCP_ENABLED_STATIC_DNS", "DHCP_ENABLED_AUTO_DNS"]
/-- The gateway reports the status codes of the foundation models under names of its own. -/
def gatewayStatus := numbered 0 ["STATUS_SUCCESS", "STATUS_INVALID_ADDRESS", "STATUS_INVALID_MODEL", "STATUS_INVALID_APPKEY_IDX",
  "STATUS_INVALID_NETKEY_IDX", "STATUS_INSUFF_RESOURCES", "STATUS_KEY_INDEX_ALREADY_STORED", "STATUS_INVALID_PUBLISH_PARAMS",
  "STATUS_NOT_SUBSCRIBE_MODEL", "STATUS_STORAGE_FAILURE", "STATUS_FEATURE_NOT_SUPPORTED", "STATUS_CANNOT_UPDATE",
  "STATUS_CANNOT_REMOVE", "STATUS_CANNOT_BIND", "STATUS_TEMP_UNABLE_TO_CHANGE_STATE", "STATUS_CANNOT_SET",
  "STATUS_UNSPECIFIED_ERROR", "STATUS_INVALID_BINDING"]
/-- Silvair: the types of debug parameters and of their data. -/
def debugParameter := numbered 0 ["GETABLE_PARAMETER_LIST", "SETABLE_PARAMETER_LIST", "SETTABLE_PARAMETER_TYPE_LIST",
  "CLEARABLE_PARAMETER_LIST"] ++
  numbered 8 ["RSSI_THRESHOLD", "UPTIME", "MESH_RPL_LIST_CONTENT", "TIME_SYNC_MSG_LIST", "FIRST_TIME_SYNC_TIMESTAMP",
  "LAST_TIME_SYNC_TIME", "LAST_TIME_RECOVERY_TIME", "RECALLED_EVENTS_TIME", "RESET_MONITOR_COUNTERS", "TIME_RECOVERY_COUNTER",
  "OCCUPANCY_EVENTS_COUNTER", "OCCUPANCY_HISTORY", "OCCUPANCY_HISTORY_RESOLUTION", "RADIO_STATS_PER_CHANNEL", "QUEUES_MONITOR",
  "QUEUES_STATS", "UART_ERRORS", "UART_MODEL_INSTANCES", "APP_THREAD_LATENCY", "IV_INDEX_INFO", "MESH_CACHE_INFO",
  "EL_ELT_HISTORY", "RRULE_SCHEDULE_REGISTER_SIZE", "RRULE_NEXT_EVENT_TAI", "RRULE_NEXT_EVENT_ENTRIES_ARRAY",
  "LAST_CALLS_OF_RRULE_ENTRIES", "CPU_USAGE_CURRENT_STATS", "CPU_USAGE_HISTOGRAM", "CPU_USAGE_HISTORY",
  "CPU_USAGE_HISTORY_SETUP"] ++
  numbered 39 ["LAST_MEASURED_POWER_OFF_TIME_MS", "LAST_MEASURED_DALI_BUS_SHORT_TO_POWER_OFF_TIME_MS", "LAST_RESET_FIRST_FAULT_INFO",
  "LC_OLC_AMBIENT_LUX_LEVEL", "APP_THREAD_STARTUP_LATENCY", "APP_THREAD_RUNTIME_LATENCY",
  "APP_THREAD_RUNTIME_EXCLUDING_FLASH_OPERATIONS_LATENCY", "DALI_CONNECTED_DRIVERS"] ++ [("NOT_KNOWN_PARAMETER", 255)]
@[inherit_doc debugParameter] def debugType := numbered 0 ["UINT8", "UINT16", "UINT32", "UINT64", "INT8", "INT16", "INT32", "INT64", "FLOAT",
  "DOUBLE", "ENUM", "STRING", "ARRAY"] ++ [("INVALID", 255)]

/-- GATT namespace descriptors: unknown, first to two hundred and fifty-fifth, then positions. -/
def location := numbered 0 [
  "UNKNOWN", "FIRST", "SECOND", "THIRD", "FOURTH", "FIFTH", "SIXTH", "SEVENTH", "EIGHTH", "NINTH", "TENTH",
  "ELEVENTH", "TWELVETH", "THIRTEENTH", "FOURTEENTH", "FIFTEENTH", "SIXTEENTH", "SEVENTEENTH", "EIGHTEENTH",
  "NINETEENTH", "TWENTIETH", "TWENTY_FIRST", "TWENTY_SECOND", "TWENTY_THIRD", "TWENTY_FOURTH", "TWENTY_FIFTH",
  "TWENTY_SIXTH", "TWENTY_SEVENTH", "TWENTY_EIGHTH", "TWENTY_NINTH", "THIRTIETH", "THIRTY_FIRST", "THIRTY_SECOND",
  "THIRTY_THIRD", "THIRTY_FOURTH", "THIRTY_FIFTH", "THIRTY_SIXTH", "THIRTY_SEVENTH", "THIRTY_EIGHTH", "THIRTY_NINTH",
  "FORTIETH", "FORTY_FIRST", "FORTY_SECOND", "FORTY_THIRD", "FORTY_FOURTH", "FORTY_FIFTH", "FORTY_SIXTH",
  "FORTY_SEVENTH", "FORTY_EIGHTH", "FORTY_NINTH", "FIFTIETH", "FIFTY_FIRST", "FIFTY_SECOND", "FIFTY_THIRD",
  "FIFTY_FOURTH", "FIFTY_FIFTH", "FIFTY_SIXTH", "FIFTY_SEVENTH", "FIFTY_EIGHTH", "FIFTY_NINTH", "SIXTIETH",
  "SIXTY_FIRST", "SIXTY_SECOND", "SIXTY_THIRD", "SIXTY_FOURTH", "SIXTY_FIFTH", "SIXTY_SIXTH", "SIXTY_SEVENTH",
  "SIXTY_EIGHTH", "SIXTY_NINTH", "SEVENTIETH", "SEVENTY_FIRST", "SEVENTY_SECOND", "SEVENTY_THIRD", "SEVENTY_FOURTH",
  "SEVENTY_FIFTH", "SEVENTY_SIXTH", "SEVENTY_SEVENTH", "SEVENTY_EIGHTH", "SEVENTY_NINTH", "EIGHTIETH",
  "EIGHTY_FIRST", "EIGHTY_SECOND", "EIGHTY_THIRD", "EIGHTY_FOURTH", "EIGHTY_FIFTH", "EIGHTY_SIXTH", "EIGHTY_SEVENTH",
  "EIGHTY_EIGHTH", "EIGHTY_NINTH", "NINETIETH", "NINETY_FIRST", "NINETY_SECOND", "NINETY_THIRD", "NINETY_FOURTH",
  "NINETY_FIFTH", "NINETY_SIXTH", "NINETY_SEVENTH", "NINETY_EIGHTH", "NINETY_NINTH", "ONE_HUNDREDTH",
  "ONE_HUNDRED_AND_FIRST", "ONE_HUNDRED_AND_SECOND", "ONE_HUNDRED_AND_THIRD", "ONE_HUNDRED_AND_FOURTH",
  "ONE_HUNDRED_AND_FIFTH", "ONE_HUNDRED_AND_SIXTH", "ONE_HUNDRED_AND_SEVENTH", "ONE_HUNDRED_AND_EIGHTH",
  "ONE_HUNDRED_AND_NINTH", "ONE_HUNDRED_AND_TENTH", "ONE_HUNDRED_AND_ELEVENTH", "ONE_HUNDRED_AND_TWELVETH",
  "ONE_HUNDRED_AND_THIRTEENTH", "ONE_HUNDRED_AND_FOURTEENTH", "ONE_HUNDRED_AND_FIFTEENTH",
  "ONE_HUNDRED_AND_SIXTEENTH", "ONE_HUNDRED_AND_SEVENTEENTH", "ONE_HUNDRED_AND_EIGHTEENTH",
  "ONE_HUNDRED_AND_NINETEENTH", "ONE_HUNDRED_TWENTIETH", "ONE_HUNDRED_AND_TWENTY_FIRST",
  "ONE_HUNDRED_AND_TWENTY_SECOND", "ONE_HUNDRED_AND_TWENTY_THIRD", "ONE_HUNDRED_AND_TWENTY_FOURTH",
  "ONE_HUNDRED_AND_TWENTY_FIFTH", "ONE_HUNDRED_AND_TWENTY_SIXTH", "ONE_HUNDRED_AND_TWENTY_SEVENTH",
  "ONE_HUNDRED_AND_TWENTY_EIGHTH", "ONE_HUNDRED_AND_TWENTY_NINTH", "ONE_HUNDRED_THIRTIETH",
  "ONE_HUNDRED_AND_THIRTY_FIRST", "ONE_HUNDRED_AND_THIRTY_SECOND", "ONE_HUNDRED_AND_THIRTY_THIRD",
  "ONE_HUNDRED_AND_THIRTY_FOURTH", "ONE_HUNDRED_AND_THIRTY_FIFTH", "ONE_HUNDRED_AND_THIRTY_SIXTH",
  "ONE_HUNDRED_AND_THIRTY_SEVENTH", "ONE_HUNDRED_AND_THIRTY_EIGHTH", "ONE_HUNDRED_AND_THIRTY_NINTH",
  "ONE_HUNDRED_FORTIETH", "ONE_HUNDRED_AND_FORTY_FIRST", "ONE_HUNDRED_AND_FORTY_SECOND",
  "ONE_HUNDRED_AND_FORTY_THIRD", "ONE_HUNDRED_AND_FORTY_FOURTH", "ONE_HUNDRED_AND_FORTY_FIFTH",
  "ONE_HUNDRED_AND_FORTY_SIXTH", "ONE_HUNDRED_AND_FORTY_SEVENTH", "ONE_HUNDRED_AND_FORTY_EIGHTH",
  "ONE_HUNDRED_AND_FORTY_NINTH", "ONE_HUNDRED_FIFTIETH", "ONE_HUNDRED_AND_FIFTY_FIRST",
  "ONE_HUNDRED_AND_FIFTY_SECOND", "ONE_HUNDRED_AND_FIFTY_THIRD", "ONE_HUNDRED_AND_FIFTY_FOURTH",
  "ONE_HUNDRED_AND_FIFTY_FIFTH", "ONE_HUNDRED_AND_FIFTY_SIXTH", "ONE_HUNDRED_AND_FIFTY_SEVENTH",
  "ONE_HUNDRED_AND_FIFTY_EIGHTH", "ONE_HUNDRED_AND_FIFTY_NINTH", "ONE_HUNDRED_SIXTIETH",
  "ONE_HUNDRED_AND_SIXTY_FIRST", "ONE_HUNDRED_AND_SIXTY_SECOND", "ONE_HUNDRED_AND_SIXTY_THIRD",
  "ONE_HUNDRED_AND_SIXTY_FOURTH", "ONE_HUNDRED_AND_SIXTY_FIFTH", "ONE_HUNDRED_AND_SIXTY_SIXTH",
  "ONE_HUNDRED_AND_SIXTY_SEVENTH", "ONE_HUNDRED_AND_SIXTY_EIGHTH", "ONE_HUNDRED_AND_SIXTY_NINTH",
  "ONE_HUNDRED_SEVENTIETH", "ONE_HUNDRED_AND_SEVENTY_FIRST", "ONE_HUNDRED_AND_SEVENTY_SECOND",
  "ONE_HUNDRED_AND_SEVENTY_THIRD", "ONE_HUNDRED_AND_SEVENTY_FOURTH", "ONE_HUNDRED_AND_SEVENTY_FIFTH",
  "ONE_HUNDRED_AND_SEVENTY_SIXTH", "ONE_HUNDRED_AND_SEVENTY_SEVENTH", "ONE_HUNDRED_AND_SEVENTY_EIGHTH",
  "ONE_HUNDRED_AND_SEVENTY_NINTH", "ONE_HUNDRED_EIGHTIETH", "ONE_HUNDRED_AND_EIGHTY_FIRST",
  "ONE_HUNDRED_AND_EIGHTY_SECOND", "ONE_HUNDRED_AND_EIGHTY_THIRD", "ONE_HUNDRED_AND_EIGHTY_FOURTH",
  "ONE_HUNDRED_AND_EIGHTY_FIFTH", "ONE_HUNDRED_AND_EIGHTY_SIXTH", "ONE_HUNDRED_AND_EIGHTY_SEVENTH",
  "ONE_HUNDRED_AND_EIGHTY_EIGHTH", "ONE_HUNDRED_AND_EIGHTY_NINTH", "ONE_HUNDRED_NINETIETH",
  "ONE_HUNDRED_AND_NINETY_FIRST", "ONE_HUNDRED_AND_NINETY_SECOND", "ONE_HUNDRED_AND_NINETY_THIRD",
  "ONE_HUNDRED_AND_NINETY_FOURTH", "ONE_HUNDRED_AND_NINETY_FIFTH", "ONE_HUNDRED_AND_NINETY_SIXTH",
  "ONE_HUNDRED_AND_NINETY_SEVENTH", "ONE_HUNDRED_AND_NINETY_EIGHTH", "ONE_HUNDRED_AND_NINETY_NINTH", "TWO_HUNDREDTH",
  "TWO_HUNDRED_AND_FIRST", "TWO_HUNDRED_AND_SECOND", "TWO_HUNDRED_AND_THIRD", "TWO_HUNDRED_AND_FOURTH",
  "TWO_HUNDRED_AND_FIFTH", "TWO_HUNDRED_AND_SIXTH", "TWO_HUNDRED_AND_SEVENTH", "TWO_HUNDRED_AND_EIGHTH",
  "TWO_HUNDRED_AND_NINTH", "TWO_HUNDRED_AND_TENTH", "TWO_HUNDRED_AND_ELEVENTH", "TWO_HUNDRED_AND_TWELVETH",
  "TWO_HUNDRED_AND_THIRTEENTH", "TWO_HUNDRED_AND_FOURTEENTH", "TWO_HUNDRED_AND_FIFTEENTH",
  "TWO_HUNDRED_AND_SIXTEENTH", "TWO_HUNDRED_AND_SEVENTEENTH", "TWO_HUNDRED_AND_EIGHTEENTH",
  "TWO_HUNDRED_AND_NINETEENTH", "TWO_HUNDRED_TWENTIETH", "TWO_HUNDRED_AND_TWENTY_FIRST",
  "TWO_HUNDRED_AND_TWENTY_SECOND", "TWO_HUNDRED_AND_TWENTY_THIRD", "TWO_HUNDRED_AND_TWENTY_FOURTH",
  "TWO_HUNDRED_AND_TWENTY_FIFTH", "TWO_HUNDRED_AND_TWENTY_SIXTH", "TWO_HUNDRED_AND_TWENTY_SEVENTH",
  "TWO_HUNDRED_AND_TWENTY_EIGHTH", "TWO_HUNDRED_AND_TWENTY_NINTH", "TWO_HUNDRED_THIRTIETH",
  "TWO_HUNDRED_AND_THIRTY_FIRST", "TWO_HUNDRED_AND_THIRTY_SECOND", "TWO_HUNDRED_AND_THIRTY_THIRD",
  "TWO_HUNDRED_AND_THIRTY_FOURTH", "TWO_HUNDRED_AND_THIRTY_FIFTH", "TWO_HUNDRED_AND_THIRTY_SIXTH",
  "TWO_HUNDRED_AND_THIRTY_SEVENTH", "TWO_HUNDRED_AND_THIRTY_EIGHTH", "TWO_HUNDRED_AND_THIRTY_NINTH",
  "TWO_HUNDRED_FORTIETH", "TWO_HUNDRED_AND_FORTY_FIRST", "TWO_HUNDRED_AND_FORTY_SECOND",
  "TWO_HUNDRED_AND_FORTY_THIRD", "TWO_HUNDRED_AND_FORTY_FOURTH", "TWO_HUNDRED_AND_FORTY_FIFTH",
  "TWO_HUNDRED_AND_FORTY_SIXTH", "TWO_HUNDRED_AND_FORTY_SEVENTH", "TWO_HUNDRED_AND_FORTY_EIGHTH",
  "TWO_HUNDRED_AND_FORTY_NINTH", "TWO_HUNDRED_FIFTIETH", "TWO_HUNDRED_AND_FIFTY_FIRST",
  "TWO_HUNDRED_AND_FIFTY_SECOND", "TWO_HUNDRED_AND_FIFTY_THIRD", "TWO_HUNDRED_AND_FIFTY_FOURTH",
  "TWO_HUNDRED_AND_FIFTY_FIFTH"] ++
  numbered 0x0100 [
  "FRONT", "BACK", "TOP", "BOTTOM", "UPPER", "LOWER", "MAIN", "BACKUP", "AUXILIARY", "SUPPLEMENTARY", "FLASH",
  "INSIDE", "OUTSIDE", "LEFT", "RIGHT", "INTERNAL", "EXTERNAL"]

/-- Mesh Device Properties: the property identifiers. -/
def property :=
  numbered 0x0001 [
    "AVERAGE_AMBIENT_TEMPERATURE_IN_A_PERIOD_OF_DAY", "AVERAGE_INPUT_CURRENT", "AVERAGE_INPUT_VOLTAGE",
    "AVERAGE_OUTPUT_CURRENT", "AVERAGE_OUTPUT_VOLTAGE", "CENTER_BEAM_INTENSITY_AT_FULL_POWER",
    "CHROMATICITY_TOLERANCE", "COLOR_RENDERING_INDEX_R9", "COLOR_RENDERING_INDEX_RA", "DEVICE_APPEARANCE",
    "DEVICE_COUNTRY_OF_ORIGIN", "DEVICE_DATE_OF_MANUFACTURE", "DEVICE_ENERGY_USE_SINCE_TURN_ON",
    "DEVICE_FIRMWARE_REVISION", "DEVICE_GLOBAL_TRADE_ITEM_NUMBER", "DEVICE_HARDWARE_REVISION",
    "DEVICE_MANUFACTURER_NAME", "DEVICE_MODEL_NUMBER", "DEVICE_OPERATING_TEMPERATURE_RANGE_SPECIFICATION",
    "DEVICE_OPERATING_TEMPERATURE_STATISTICAL_VALUES", "DEVICE_OVER_TEMPERATURE_EVENT_STATISTICS",
    "DEVICE_POWER_RANGE_SPECIFICATION", "DEVICE_RUNTIME_SINCE_TURN_ON", "DEVICE_RUNTIME_WARRANTY",
    "DEVICE_SERIAL_NUMBER", "DEVICE_SOFTWARE_REVISION", "DEVICE_UNDER_TEMPERATURE_EVENT_STATISTICS",
    "INDOOR_AMBIENT_TEMPERATURE_STATISTICAL_VALUES", "INITIAL_CIE1931_CHROMATICITY_COORDINATES",
    "INITIAL_CORRELATED_COLOR_TEMPERATURE", "INITIAL_LUMINOUS_FLUX", "INITIAL_PLANCKIAN_DISTANCE",
    "INPUT_CURRENT_RANGE_SPECIFICATION", "INPUT_CURRENT_STATISTICS", "INPUT_OVER_CURRENT_EVENT_STATISTICS",
    "INPUT_OVER_RIPPLE_VOLTAGE_EVENT_STATISTICS", "INPUT_OVER_VOLTAGE_EVENT_STATISTICS",
    "INPUT_UNDER_CURRENT_EVENT_STATISTICS", "INPUT_UNDER_VOLTAGE_EVENT_STATISTICS",
    "INPUT_VOLTAGE_RANGE_SPECIFICATION", "INPUT_VOLTAGE_RIPPLE_SPECIFICATION", "INPUT_VOLTAGE_STATISTICS",
    "LIGHT_CONTROL_AMBIENT_LUXLEVEL_ON", "LIGHT_CONTROL_AMBIENT_LUXLEVEL_PROLONG",
    "LIGHT_CONTROL_AMBIENT_LUXLEVEL_STANDBY", "LIGHT_CONTROL_LIGHTNESS_ON", "LIGHT_CONTROL_LIGHTNESS_PROLONG",
    "LIGHT_CONTROL_LIGHTNESS_STANDBY", "LIGHT_CONTROL_REGULATOR_ACCURACY", "LIGHT_CONTROL_REGULATOR_KID",
    "LIGHT_CONTROL_REGULATOR_KIU", "LIGHT_CONTROL_REGULATOR_KPD", "LIGHT_CONTROL_REGULATOR_KPU",
    "LIGHT_CONTROL_TIME_FADE", "LIGHT_CONTROL_TIME_FADE_ON", "LIGHT_CONTROL_TIME_FADE_STANDBY_AUTO",
    "LIGHT_CONTROL_TIME_FADE_STANDBY_MANUAL", "LIGHT_CONTROL_TIME_OCCUPANCY_DELAY", "LIGHT_CONTROL_TIME_PROLONG",
    "LIGHT_CONTROL_TIME_RUN_ON", "LUMEN_MAINTENANCE_FACTOR", "LUMINOUS_EFFICACY", "LUMINOUS_ENERGY_SINCE_TURN_ON",
    "LUMINOUS_EXPOSURE", "LUMINOUS_FLUX_RANGE", "MOTION_SENSED", "MOTION_THRESHOLD", "OPEN_CIRCUIT_EVENT_STATISTICS",
    "OUTDOOR_STATISTICAL_VALUES", "OUTPUT_CURRENT_RANGE", "OUTPUT_CURRENT_STATISTICS",
    "OUTPUT_RIPPLE_VOLTAGE_SPECIFICATION", "OUTPUT_VOLTAGE_RANGE", "OUTPUT_VOLTAGE_STATISTICS",
    "OVER_OUTPUT_RIPPLE_VOLTAGE_EVENT_STATISTICS", "PEOPLE_COUNT", "PRESENCE_DETECTED",
    "PRESENT_AMBIENT_LIGHT_LEVEL", "PRESENT_AMBIENT_TEMPERATURE", "PRESENT_CIE1931_CHROMATICITY_COORDINATES",
    "PRESENT_CORRELATED_COLOR_TEMPERATURE", "PRESENT_DEVICE_INPUT_POWER", "PRESENT_DEVICE_OPERATING_EFFICIENCY",
    "PRESENT_DEVICE_OPERATING_TEMPERATURE", "PRESENT_ILLUMINANCE", "PRESENT_INDOOR_AMBIENT_TEMPERATURE",
    "PRESENT_INPUT_CURRENT", "PRESENT_INPUT_RIPPLE_VOLTAGE", "PRESENT_INPUT_VOLTAGE", "PRESENT_LUMINOUS_FLUX",
    "PRESENT_OUTDOOR_AMBIENT_TEMPERATURE", "PRESENT_OUTPUT_CURRENT", "PRESENT_OUTPUT_VOLTAGE",
    "PRESENT_PLANCKIAN_DISTANCE", "PRESENT_RELATIVE_OUTPUT_RIPPLE_VOLTAGE",
    "RELATIVE_DEVICE_ENERGY_USE_IN_A_PERIOD_OF_DAY", "RELATIVE_DEVICE_RUNTIME_IN_A_GENERIC_LEVEL_RANGE",
    "RELATIVE_EXPOSURE_TIME_IN_AN_ILLUMINANCE_RANGE", "RELATIVE_RUNTIME_IN_A_CORRELATED_COLOR_TEMPERATURE_RANGE",
    "RELATIVE_RUNTIME_IN_A_DEVICE_OPERATING_TEMPERATURE_RANGE", "RELATIVE_RUNTIME_IN_AN_INPUT_CURRENT_RANGE",
    "RELATIVE_RUNTIME_IN_AN_INPUT_VOLTAGE_RANGE", "SHORT_CIRCUIT_EVENT_STATISTICS", "TIME_SINCE_MOTION_SENSED",
    "TIME_SINCE_PRESENCE_DETECTED", "TOTAL_DEVICE_ENERGY_USE", "TOTAL_DEVICE_OFF_ON_CYCLES",
    "TOTAL_DEVICE_POWER_ON_CYCLES", "TOTAL_DEVICE_POWER_ON_TIME", "TOTAL_DEVICE_RUNTIME",
    "TOTAL_LIGHT_EXPOSURE_TIME", "TOTAL_LUMINOUS_ENERGY", "DESIRED_AMBIENT_TEMPERATURE",
    "PRECISE_TOTAL_DEVICE_ENERGY_USE", "POWER_FACTOR", "SENSOR_GAIN", "PRECISE_PRESENT_AMBIENT_TEMPERATURE"] ++
  numbered 0x0080 [
    "ACTIVE_ENERGY_LOAD_SIDE", "ACTIVE_POWER_LOAD_SIDE"] ++
  numbered 0x0083 [
    "APPARENT_ENERGY", "APPARENT_POWER"] ++
  numbered 0x0088 [
    "EXTERNAL_SUPPLY_VOLTAGE", "EXTERNAL_SUPPLY_VOLTAGE_FREQUENCY"] ++
  numbered 0x008C [
    "LIGHT_DISTRIBUTION", "LIGHT_SOURCE_CURRENT", "LIGHT_SOURCE_ON_TIME_NOT_RESETTABLE",
    "LIGHT_SOURCE_ON_TIME_RESETTABLE", "LIGHT_SOURCE_OPEN_CIRCUIT_STATISTICS",
    "LIGHT_SOURCE_OVERALL_FAILURES_STATISTICS", "LIGHT_SOURCE_SHORT_CIRCUIT_STATISTICS",
    "LIGHT_SOURCE_START_COUNTER_RESETTABLE", "LIGHT_SOURCE_TEMPERATURE", "LIGHT_SOURCE_THERMAL_DERATING_STATISTICS",
    "LIGHT_SOURCE_THERMAL_SHUTDOWN_STATISTICS", "LIGHT_SOURCE_TOTAL_POWER_ON_CYCLES", "LIGHT_SOURCE_VOLTAGE",
    "LUMINAIRE_COLOR", "LUMINAIRE_IDENTIFICATION_NUMBER", "LUMINAIRE_MANUFACTURER_GTIN",
    "LUMINAIRE_NOMINAL_INPUT_POWER", "LUMINAIRE_NOMINAL_MAXIMUM_AC_MAINS_VOLTAGE",
    "LUMINAIRE_NOMINAL_MINIMUM_AC_MAINS_VOLTAGE", "LUMINAIRE_POWER_AT_MINIMUM_DIM_LEVEL",
    "LUMINAIRE_TIME_OF_MANUFACTURE"] ++
  numbered 0x00A4 [
    "NOMINAL_LIGHT_OUTPUT", "OVERALL_FAILURE_CONDITION"] ++
  numbered 0x00AB [
    "RATED_MEDIAN_USEFUL_LIFE_OF_LUMINAIRE", "RATED_MEDIAN_USEFUL_LIGHT_SOURCE_STARTS", "REFERENCE_TEMPERATURE",
    "TOTAL_DEVICE_STARTS"] ++
  numbered 0x00B3 [
    "LIGHT_SOURCE_TYPE", "LUMINAIRE_IDENTIFICATION_STRING", "OUTPUT_POWER_LIMITATION", "THERMAL_DERATING",
    "OUTPUT_CURRENT_PERCENT"]

end Assigned
end BM
