import Verif.Property
import Verif.Enums
/-!
# Model of `properties.py`: property structures and `PropertyDict`

Generated by `tools/gen_propdict.py` from the source text.
-/
namespace BM
namespace Property

/-- properties.py:294-296 `TimeMiliseconds24`. -/
abbrev timeMiliseconds24 : List (Item UInt8) := [
  field "seconds" (defaultCount (bytesIntLE 3) 3 3 (.f (rnd (1 / 1000))) true)]
/-- properties.py:298-300 `TimeHour24`. -/
abbrev timeHour24 : List (Item UInt8) := [
  field "hours" (defaultCount (bytesIntLE 3) 3 0 (.f 1) true)]
/-- properties.py:302-304 `TimeSecond16`. -/
abbrev timeSecond16 : List (Item UInt8) := [
  field "seconds" (defaultCount (uintLE 2) 2 0 (.f 1) true)]
/-- properties.py:306-308 `TimeSecond32`. -/
abbrev timeSecond32 : List (Item UInt8) := [
  field "seconds" (defaultCount (uintLE 4) 4 0 (.f 1) true)]
/-- properties.py:310-312 `TimeExponential8`. -/
abbrev timeExponential8 [Platform] : List (Item UInt8) := [
  field "seconds" (timeExp)]
/-- properties.py:314-316 `TimeDecihour8`. -/
abbrev timeDecihour8 : List (Item UInt8) := [
  field "hour" (defaultCount (uintLE 1) 1 1 (.f (rnd (1 / 10))) true)]
/-- properties.py:318-320 `DateUTC`. -/
abbrev dateUTC : List (Item UInt8) := [
  field "date" (dateC)]
/-- properties.py:324-326 `ElectricCurrent`. -/
abbrev electricCurrent : List (Item UInt8) := [
  field "current" (defaultCount (uintLE 2) 2 2 (.f (rnd (1 / 100))) true)]
/-- properties.py:328-331 `AverageCurrent`. -/
abbrev averageCurrent [Platform] : List (Item UInt8) := [
  field "electric_current_value" (defaultCount (uintLE 2) 2 2 (.f (rnd (1 / 100))) true),
  field "sensing_duration" (struct timeExponential8)]
/-- properties.py:333-336 `ElectricCurrentRange`. -/
abbrev electricCurrentRange : List (Item UInt8) := [
  field "minimum_electric_current_value" (defaultCount (uintLE 2) 2 2 (.f (rnd (1 / 100))) true),
  field "maximum_electric_current_value" (defaultCount (uintLE 2) 2 2 (.f (rnd (1 / 100))) true)]
/-- properties.py:338-342 `ElectricCurrentSpecification`. -/
abbrev electricCurrentSpecification : List (Item UInt8) := [
  field "minimum_electric_current_value" (defaultCount (uintLE 2) 2 2 (.f (rnd (1 / 100))) true),
  field "typical_electric_current_value" (defaultCount (uintLE 2) 2 2 (.f (rnd (1 / 100))) true),
  field "maximum_electric_current_value" (defaultCount (uintLE 2) 2 2 (.f (rnd (1 / 100))) true)]
/-- properties.py:344-349 `ElectricCurrentStatistics`. -/
abbrev electricCurrentStatistics [Platform] : List (Item UInt8) := [
  field "average_electric_current_value" (defaultCount (uintLE 2) 2 2 (.f (rnd (1 / 100))) true),
  field "standard_deviation_electric_current_value" (defaultCount (uintLE 2) 2 2 (.f (rnd (1 / 100))) true),
  embedded electricCurrentRange,
  field "sensing_duration" (struct timeExponential8)]
/-- properties.py:351-355 `RelativeValueInACurrentRange`. -/
abbrev relativeValueInACurrentRange : List (Item UInt8) := [
  field "relative_value" (defaultCount (uintLE 1) 1 1 (.f (rnd (1 / 2))) true),
  field "minimum_current" (defaultCount (uintLE 2) 2 2 (.f (rnd (1 / 100))) true),
  field "maximum_current" (defaultCount (uintLE 2) 2 2 (.f (rnd (1 / 100))) true)]
/-- properties.py:359-361 `Voltage`. -/
abbrev voltage : List (Item UInt8) := [
  field "voltage" (defaultCount (uintLE 2) 2 0 (.f (fdiv 1 64)) true)]
/-- properties.py:363-366 `AverageVoltage`. -/
abbrev averageVoltage [Platform] : List (Item UInt8) := [
  field "voltage_value" (defaultCount (uintLE 2) 2 0 (.f (fdiv 1 64)) true),
  field "sensing_duration" (struct timeExponential8)]
/-- properties.py:368-372 `VoltageRange`. -/
abbrev voltageRange : List (Item UInt8) := [
  field "minimum_voltage_value" (defaultCount (uintLE 2) 2 0 (.f (fdiv 1 64)) true),
  field "typical_voltage_value" (defaultCount (uintLE 2) 2 0 (.f (fdiv 1 64)) true),
  field "maximum_voltage_value" (defaultCount (uintLE 2) 2 0 (.f (fdiv 1 64)) true)]
/-- properties.py:374-380 `VoltageStatistics`. -/
abbrev voltageStatistics [Platform] : List (Item UInt8) := [
  field "average_voltage_value" (defaultCount (uintLE 2) 2 0 (.f (fdiv 1 64)) true),
  field "standard_deviation_voltage_value" (defaultCount (uintLE 2) 2 0 (.f (fdiv 1 64)) true),
  field "minimum_voltage_value" (defaultCount (uintLE 2) 2 0 (.f (fdiv 1 64)) true),
  field "maximum_voltage_value" (defaultCount (uintLE 2) 2 0 (.f (fdiv 1 64)) true),
  field "sensing_duration" (struct timeExponential8)]
/-- properties.py:382-386 `RelativeValueInAVoltageRange`. -/
abbrev relativeValueInAVoltageRange : List (Item UInt8) := [
  field "relative_value" (defaultCount (uintLE 1) 1 1 (.f (rnd (1 / 2))) false),
  field "minimum_voltage" (defaultCount (uintLE 2) 2 0 (.f (fdiv 1 64)) true),
  field "maximum_voltage" (defaultCount (uintLE 2) 2 0 (.f (fdiv 1 64)) true)]
/-- properties.py:388-390 `HighVoltage`. -/
abbrev highVoltage : List (Item UInt8) := [
  field "high_voltage" (defaultCount (bytesIntLE 3) 3 0 (.f (fdiv 1 64)) false)]
/-- properties.py:392-394 `VoltageFrequency`. -/
abbrev voltageFrequency : List (Item UInt8) := [
  field "voltage_frequency" (uintLE 2)]
/-- properties.py:397-399 `Energy`. -/
abbrev energy : List (Item UInt8) := [
  field "energy" (defaultCount (bytesIntLE 3) 3 0 (.f 1) true)]
/-- properties.py:401-403 `PreciseEnergy`. -/
abbrev preciseEnergy : List (Item UInt8) := [
  field "energy" (defaultCount (uintLE 4) 4 3 (.f (rnd (1 / 1000))) false)]
/-- properties.py:406-410 `EnergyInAPeriodOfDay`. -/
abbrev energyInAPeriodOfDay : List (Item UInt8) := [
  field "energy_value" (defaultCount (bytesIntLE 3) 3 0 (.f 1) true),
  field "start_time" (struct timeDecihour8),
  field "end_time" (struct timeDecihour8)]
/-- properties.py:412-414 `ApparentEnergy32`. -/
abbrev apparentEnergy32 : List (Item UInt8) := [
  field "energy" (defaultCount (uintLE 4) 4 3 (.f (rnd (1 / 1000))) false)]
/-- properties.py:416-418 `Energy32`. -/
abbrev energy32 : List (Item UInt8) := [
  field "energy" (defaultCount (uintLE 4) 4 3 (.f (rnd (1 / 1000))) false)]
/-- properties.py:422-424 `Power`. -/
abbrev power : List (Item UInt8) := [
  field "power" (defaultCount (bytesIntLE 3) 3 1 (.f (rnd (1 / 10))) false)]
/-- properties.py:426-430 `PowerSpecification`. -/
abbrev powerSpecification : List (Item UInt8) := [
  field "minimum_power_value" (defaultCount (bytesIntLE 3) 3 1 (.f (rnd (1 / 10))) true),
  field "typical_power_value" (defaultCount (bytesIntLE 3) 3 1 (.f (rnd (1 / 10))) true),
  field "maximum_power_value" (defaultCount (bytesIntLE 3) 3 1 (.f (rnd (1 / 10))) true)]
/-- properties.py:432-434 `ApparentPower`. -/
abbrev apparentPower : List (Item UInt8) := [
  field "power" (defaultCount (bytesIntLE 3) 3 1 (.f (rnd (1 / 10))) true)]
/-- properties.py:438-440 `Temperature`. -/
abbrev temperature : List (Item UInt8) := [
  field "temperature" (defaultCount (sintLE 2) 2 2 (.f (rnd (1 / 100))) true)]
/-- properties.py:442-444 `Temperature8`. -/
abbrev temperature8 : List (Item UInt8) := [
  field "temperature" (defaultCount (sintLE 1) 1 1 (.f (rnd (1 / 2))) true)]
/-- properties.py:446-449 `TemperatureRange`. -/
abbrev temperatureRange : List (Item UInt8) := [
  field "minimum_temperature" (defaultCount (sintLE 1) 1 1 (.f (rnd (1 / 2))) true),
  field "maximum_temperature" (defaultCount (sintLE 1) 1 1 (.f (rnd (1 / 2))) true)]
/-- properties.py:451-456 `Temperature8Statistics`. -/
abbrev temperature8Statistics [Platform] : List (Item UInt8) := [
  field "average_temperature" (defaultCount (sintLE 1) 1 1 (.f (rnd (1 / 2))) true),
  field "standard_deviation_temperature" (defaultCount (sintLE 1) 1 1 (.f (rnd (1 / 2))) true),
  embedded temperatureRange,
  field "sensing_duration" (struct timeExponential8)]
/-- properties.py:458-462 `Temperature8InAPeriodOfDay`. -/
abbrev temperature8InAPeriodOfDay : List (Item UInt8) := [
  field "temperature" (defaultCount (sintLE 1) 1 1 (.f (rnd (1 / 2))) true),
  field "start_time" (struct timeDecihour8),
  field "end_time" (struct timeDecihour8)]
/-- properties.py:464-470 `TemperatureStatistics`. -/
abbrev temperatureStatistics [Platform] : List (Item UInt8) := [
  field "average_temperature" (defaultCount (sintLE 2) 2 2 (.f (rnd (1 / 100))) true),
  field "standard_deviation_temperature" (defaultCount (sintLE 2) 2 2 (.f (rnd (1 / 100))) true),
  field "minimum_temperature" (defaultCount (sintLE 2) 2 2 (.f (rnd (1 / 100))) true),
  field "maximum_temperature" (defaultCount (sintLE 2) 2 2 (.f (rnd (1 / 100))) true),
  field "sensing_duration" (struct timeExponential8)]
/-- properties.py:472-474 `HighTemperature`. -/
abbrev highTemperature : List (Item UInt8) := [
  field "temperature" (defaultCount (sintLE 2) 2 1 (.f (rnd (1 / 2))) false)]
/-- properties.py:476-480 `RelativeValueInATemperatureRange`. -/
abbrev relativeValueInATemperatureRange : List (Item UInt8) := [
  field "relative_value" (defaultCount (uintLE 1) 1 1 (.f (rnd (1 / 2))) false),
  field "minimum_temperature" (defaultCount (sintLE 2) 2 2 (.f (rnd (1 / 100))) true),
  field "maximum_temperature" (defaultCount (sintLE 2) 2 2 (.f (rnd (1 / 100))) true)]
/-- properties.py:484-486 `LuminousFlux`. -/
abbrev luminousFlux : List (Item UInt8) := [
  field "luminous_flux" (defaultCount (uintLE 2) 2 0 (.f 1) true)]
/-- properties.py:488-491 `LuminousFluxRange`. -/
abbrev luminousFluxRange : List (Item UInt8) := [
  field "minimum_luminous_flux" (defaultCount (uintLE 2) 2 0 (.f 1) true),
  field "maximum_luminous_flux" (defaultCount (uintLE 2) 2 0 (.f 1) true)]
/-- properties.py:493-495 `LuminousEnergy`. -/
abbrev luminousEnergy : List (Item UInt8) := [
  field "luminous_energy" (defaultCount (bytesIntLE 3) 3 1 (.i 1000) true)]
/-- properties.py:497-499 `LuminousExposure`. -/
abbrev luminousExposure : List (Item UInt8) := [
  field "luminous_exposure" (defaultCount (bytesIntLE 3) 3 1 (.i 1000) true)]
/-- properties.py:501-503 `LuminousIntensity`. -/
abbrev luminousIntensity : List (Item UInt8) := [
  field "luminous_intensity" (defaultCount (uintLE 2) 2 0 (.f 1) true)]
/-- properties.py:505-507 `LuminousEfficacy`. -/
abbrev luminousEfficacy : List (Item UInt8) := [
  field "luminous_efficacy" (defaultCount (uintLE 2) 2 1 (.f (rnd (1 / 10))) true)]
/-- properties.py:509-511 `Illuminance`. -/
abbrev illuminance : List (Item UInt8) := [
  field "illuminance" (defaultCount (bytesIntLE 3) 3 2 (.f (rnd (1 / 100))) false)]
/-- properties.py:513-517 `RelativeValueInAnIlluminanceRange`. -/
abbrev relativeValueInAnIlluminanceRange : List (Item UInt8) := [
  field "relative_value" (defaultCount (uintLE 1) 1 1 (.f (rnd (1 / 2))) false),
  field "minimum_illuminance" (defaultCount (bytesIntLE 3) 3 2 (.f (rnd (1 / 100))) false),
  field "maximum_illuminance" (defaultCount (bytesIntLE 3) 3 2 (.f (rnd (1 / 100))) false)]
/-- properties.py:519-521 `PerceivedLightness`. -/
abbrev perceivedLightness : List (Item UInt8) := [
  field "perceived_lightness" (uintLE 2)]
/-- properties.py:523-525 `LightDistribution`. -/
abbrev lightDistribution : List (Item UInt8) := [
  field "light_distribution" (enumAdapter (uintLE 1) E.LightDistributionField)]
/-- properties.py:527-529 `LightOutput`. -/
abbrev lightOutput : List (Item UInt8) := [
  field "light_output" (defaultCount (bytesIntLE 3) 3 1 (.i 1) false)]
/-- properties.py:531-533 `LightSourceType`. -/
abbrev lightSourceType : List (Item UInt8) := [
  field "light_source_type" (enumAdapter (uintLE 1) E.LightSourceTypeField)]
/-- properties.py:536-538 `Percentage8`. -/
abbrev percentage8 : List (Item UInt8) := [
  field "percentage" (defaultCount (uintLE 1) 1 1 (.f (rnd (1 / 2))) true)]
/-- properties.py:540-542 `Count16`. -/
abbrev count16 : List (Item UInt8) := [
  field "count" (defaultCount (uintLE 2) 2 0 (.f 1) true)]
/-- properties.py:544-546 `Count24`. -/
abbrev count24 : List (Item UInt8) := [
  field "count" (defaultCount (bytesIntLE 3) 3 0 (.f 1) true)]
/-- properties.py:548-550 `Coefficient`. -/
abbrev coefficient : List (Item UInt8) := [
  field "coefficient" (defaultCount (uintLE 4) 4 0 (.f 1) true)]
/-- properties.py:554-556 `ChromaticityTolerance`. -/
abbrev chromaticityTolerance : List (Item UInt8) := [
  field "chromaticity_tolerance" (defaultCount (sintLE 1) 1 4 (.f (rnd (1 / 10000))) false)]
/-- properties.py:558-560 `ChromaticDistanceFromPlanckian`. -/
abbrev chromaticDistanceFromPlanckian : List (Item UInt8) := [
  field "distance_from_planckian" (defaultCount (sintLE 2) 2 5 (.f (rnd (1 / 100000))) false)]
/-- properties.py:562-564 `CorrelatedColorTemperature`. -/
abbrev correlatedColorTemperature : List (Item UInt8) := [
  field "correlated_color_temperature" (defaultCount (uintLE 2) 2 1 (.i 1) true)]
/-- properties.py:566-569 `ChromaticityCoordinates`. -/
abbrev chromaticityCoordinates : List (Item UInt8) := [
  field "chromaticity_x_coordinate" (defaultCount (uintLE 2) 2 0 (.f (fdiv 1 65535)) false),
  field "chromaticity_y_coordinate" (defaultCount (uintLE 2) 2 0 (.f (fdiv 1 65535)) false)]
/-- properties.py:571-573 `ColorRenderingIndex`. -/
abbrev colorRenderingIndex : List (Item UInt8) := [
  field "color_rendering_index" (defaultCount (sintLE 1) 1 0 (.f 1) false)]
/-- properties.py:577-579 `CosineOfTheAngle`. -/
abbrev cosineOfTheAngle : List (Item UInt8) := [
  field "cosine_of_the_angle" (sintLE 1)]
/-- properties.py:581-583 `GlobalTradeItemNumber`. -/
abbrev globalTradeItemNumber : List (Item UInt8) := [
  field "global_trade_item_number" (bytesIntLE 6)]
/-- properties.py:585-592 `Appearance`. -/
abbrev appearance : List (Item UInt8) := [
  embeddedBitStruct "_" 2 true [field "category" (ubits 10), field "sub_category" (ubits 6)]]
/-- properties.py:594-596 `CountryCode`. -/
abbrev countryCode : List (Item UInt8) := [
  field "country_code" (defaultCount (uintLE 2) 2 0 (.f 1) true)]
/-- properties.py:598-600 `Presence`. -/
abbrev presence : List (Item UInt8) := [
  field "presence_detected" (flag)]
/-- properties.py:602-607 `EventStatistics`. -/
abbrev eventStatistics [Platform] : List (Item UInt8) := [
  field "number_of_events" (struct count16),
  field "average_event_duration" (struct timeSecond16),
  field "time_elapsed_since_last_event" (struct timeExponential8),
  field "sensing_duration" (struct timeExponential8)]
/-- properties.py:609-613 `RelativeRuntimeInAGenericLevelRange`. -/
abbrev relativeRuntimeInAGenericLevelRange : List (Item UInt8) := [
  field "relative_value" (defaultCount (uintLE 1) 1 1 (.f (rnd (1 / 2))) false),
  field "minimum_generic_level" (defaultCount (uintLE 2) 2 0 (.f 1) false),
  field "maximum_generic_level" (defaultCount (uintLE 2) 2 0 (.f 1) false)]

/-- properties.py:615-771 `PropertyDict`. -/
def propertyDict [Platform] : List (Int × Con UInt8) := [
  (0x0001, struct temperature8InAPeriodOfDay), -- AVERAGE_AMBIENT_TEMPERATURE_IN_A_PERIOD_OF_DAY
  (0x0002, struct averageCurrent), -- AVERAGE_INPUT_CURRENT
  (0x0003, struct averageVoltage), -- AVERAGE_INPUT_VOLTAGE
  (0x0004, struct averageCurrent), -- AVERAGE_OUTPUT_CURRENT
  (0x0005, struct averageVoltage), -- AVERAGE_OUTPUT_VOLTAGE
  (0x0006, struct luminousIntensity), -- CENTER_BEAM_INTENSITY_AT_FULL_POWER
  (0x0007, struct chromaticityTolerance), -- CHROMATICITY_TOLERANCE
  (0x0008, struct colorRenderingIndex), -- COLOR_RENDERING_INDEX_R9
  (0x0009, struct colorRenderingIndex), -- COLOR_RENDERING_INDEX_RA
  (0x000A, struct appearance), -- DEVICE_APPEARANCE
  (0x000B, struct countryCode), -- DEVICE_COUNTRY_OF_ORIGIN
  (0x000C, struct dateUTC), -- DEVICE_DATE_OF_MANUFACTURE
  (0x000D, struct energy), -- DEVICE_ENERGY_USE_SINCE_TURN_ON
  (0x000E, fixedString 8), -- DEVICE_FIRMWARE_REVISION
  (0x000F, struct globalTradeItemNumber), -- DEVICE_GLOBAL_TRADE_ITEM_NUMBER
  (0x0010, fixedString 16), -- DEVICE_HARDWARE_REVISION
  (0x0011, fixedString 36), -- DEVICE_MANUFACTURER_NAME
  (0x0012, fixedString 24), -- DEVICE_MODEL_NUMBER
  (0x0013, struct temperatureRange), -- DEVICE_OPERATING_TEMPERATURE_RANGE_SPECIFICATION
  (0x0014, struct temperatureStatistics), -- DEVICE_OPERATING_TEMPERATURE_STATISTICAL_VALUES
  (0x0015, struct eventStatistics), -- DEVICE_OVER_TEMPERATURE_EVENT_STATISTICS
  (0x0016, struct powerSpecification), -- DEVICE_POWER_RANGE_SPECIFICATION
  (0x0017, struct timeHour24), -- DEVICE_RUNTIME_SINCE_TURN_ON
  (0x0018, struct timeHour24), -- DEVICE_RUNTIME_WARRANTY
  (0x0019, fixedString 16), -- DEVICE_SERIAL_NUMBER
  (0x001A, fixedString 8), -- DEVICE_SOFTWARE_REVISION
  (0x001B, struct eventStatistics), -- DEVICE_UNDER_TEMPERATURE_EVENT_STATISTICS
  (0x001C, struct temperature8Statistics), -- INDOOR_AMBIENT_TEMPERATURE_STATISTICAL_VALUES
  (0x001D, struct chromaticityCoordinates), -- INITIAL_CIE1931_CHROMATICITY_COORDINATES
  (0x001E, struct correlatedColorTemperature), -- INITIAL_CORRELATED_COLOR_TEMPERATURE
  (0x001F, struct luminousFlux), -- INITIAL_LUMINOUS_FLUX
  (0x0020, struct chromaticDistanceFromPlanckian), -- INITIAL_PLANCKIAN_DISTANCE
  (0x0021, struct electricCurrentSpecification), -- INPUT_CURRENT_RANGE_SPECIFICATION
  (0x0022, struct electricCurrentStatistics), -- INPUT_CURRENT_STATISTICS
  (0x0023, struct eventStatistics), -- INPUT_OVER_CURRENT_EVENT_STATISTICS
  (0x0024, struct eventStatistics), -- INPUT_OVER_RIPPLE_VOLTAGE_EVENT_STATISTICS
  (0x0025, struct eventStatistics), -- INPUT_OVER_VOLTAGE_EVENT_STATISTICS
  (0x0026, struct eventStatistics), -- INPUT_UNDER_CURRENT_EVENT_STATISTICS
  (0x0027, struct eventStatistics), -- INPUT_UNDER_VOLTAGE_EVENT_STATISTICS
  (0x0028, struct voltageRange), -- INPUT_VOLTAGE_RANGE_SPECIFICATION
  (0x0029, struct percentage8), -- INPUT_VOLTAGE_RIPPLE_SPECIFICATION
  (0x002A, struct voltageStatistics), -- INPUT_VOLTAGE_STATISTICS
  (0x002B, struct illuminance), -- LIGHT_CONTROL_AMBIENT_LUXLEVEL_ON
  (0x002C, struct illuminance), -- LIGHT_CONTROL_AMBIENT_LUXLEVEL_PROLONG
  (0x002D, struct illuminance), -- LIGHT_CONTROL_AMBIENT_LUXLEVEL_STANDBY
  (0x002E, struct perceivedLightness), -- LIGHT_CONTROL_LIGHTNESS_ON
  (0x002F, struct perceivedLightness), -- LIGHT_CONTROL_LIGHTNESS_PROLONG
  (0x0030, struct perceivedLightness), -- LIGHT_CONTROL_LIGHTNESS_STANDBY
  (0x0031, struct percentage8), -- LIGHT_CONTROL_REGULATOR_ACCURACY
  (0x0032, struct coefficient), -- LIGHT_CONTROL_REGULATOR_KID
  (0x0033, struct coefficient), -- LIGHT_CONTROL_REGULATOR_KIU
  (0x0034, struct coefficient), -- LIGHT_CONTROL_REGULATOR_KPD
  (0x0035, struct coefficient), -- LIGHT_CONTROL_REGULATOR_KPU
  (0x0036, struct timeMiliseconds24), -- LIGHT_CONTROL_TIME_FADE
  (0x0037, struct timeMiliseconds24), -- LIGHT_CONTROL_TIME_FADE_ON
  (0x0038, struct timeMiliseconds24), -- LIGHT_CONTROL_TIME_FADE_STANDBY_AUTO
  (0x0039, struct timeMiliseconds24), -- LIGHT_CONTROL_TIME_FADE_STANDBY_MANUAL
  (0x003A, struct timeMiliseconds24), -- LIGHT_CONTROL_TIME_OCCUPANCY_DELAY
  (0x003B, struct timeMiliseconds24), -- LIGHT_CONTROL_TIME_PROLONG
  (0x003C, struct timeMiliseconds24), -- LIGHT_CONTROL_TIME_RUN_ON
  (0x003D, struct percentage8), -- LUMEN_MAINTENANCE_FACTOR
  (0x003E, struct luminousEfficacy), -- LUMINOUS_EFFICACY
  (0x003F, struct luminousEnergy), -- LUMINOUS_ENERGY_SINCE_TURN_ON
  (0x0040, struct luminousExposure), -- LUMINOUS_EXPOSURE
  (0x0041, struct luminousFluxRange), -- LUMINOUS_FLUX_RANGE
  (0x0042, struct percentage8), -- MOTION_SENSED
  (0x0043, struct percentage8), -- MOTION_THRESHOLD
  (0x0044, struct eventStatistics), -- OPEN_CIRCUIT_EVENT_STATISTICS
  (0x0045, struct temperature8Statistics), -- OUTDOOR_STATISTICAL_VALUES
  (0x0046, struct electricCurrentRange), -- OUTPUT_CURRENT_RANGE
  (0x0047, struct electricCurrentStatistics), -- OUTPUT_CURRENT_STATISTICS
  (0x0048, struct percentage8), -- OUTPUT_RIPPLE_VOLTAGE_SPECIFICATION
  (0x0049, struct voltageRange), -- OUTPUT_VOLTAGE_RANGE
  (0x004A, struct voltageStatistics), -- OUTPUT_VOLTAGE_STATISTICS
  (0x004B, struct eventStatistics), -- OVER_OUTPUT_RIPPLE_VOLTAGE_EVENT_STATISTICS
  (0x004C, struct count16), -- PEOPLE_COUNT
  (0x004D, struct presence), -- PRESENCE_DETECTED
  (0x004E, struct illuminance), -- PRESENT_AMBIENT_LIGHT_LEVEL
  (0x004F, struct temperature8), -- PRESENT_AMBIENT_TEMPERATURE
  (0x0050, struct chromaticityCoordinates), -- PRESENT_CIE1931_CHROMATICITY_COORDINATES
  (0x0051, struct correlatedColorTemperature), -- PRESENT_CORRELATED_COLOR_TEMPERATURE
  (0x0052, struct power), -- PRESENT_DEVICE_INPUT_POWER
  (0x0053, struct percentage8), -- PRESENT_DEVICE_OPERATING_EFFICIENCY
  (0x0054, struct temperature), -- PRESENT_DEVICE_OPERATING_TEMPERATURE
  (0x0055, struct illuminance), -- PRESENT_ILLUMINANCE
  (0x0056, struct temperature8), -- PRESENT_INDOOR_AMBIENT_TEMPERATURE
  (0x0057, struct electricCurrent), -- PRESENT_INPUT_CURRENT
  (0x0058, struct percentage8), -- PRESENT_INPUT_RIPPLE_VOLTAGE
  (0x0059, struct voltage), -- PRESENT_INPUT_VOLTAGE
  (0x005A, struct luminousFlux), -- PRESENT_LUMINOUS_FLUX
  (0x005B, struct temperature8), -- PRESENT_OUTDOOR_AMBIENT_TEMPERATURE
  (0x005C, struct electricCurrent), -- PRESENT_OUTPUT_CURRENT
  (0x005D, struct voltage), -- PRESENT_OUTPUT_VOLTAGE
  (0x005E, struct chromaticDistanceFromPlanckian), -- PRESENT_PLANCKIAN_DISTANCE
  (0x005F, struct percentage8), -- PRESENT_RELATIVE_OUTPUT_RIPPLE_VOLTAGE
  (0x0060, struct energyInAPeriodOfDay), -- RELATIVE_DEVICE_ENERGY_USE_IN_A_PERIOD_OF_DAY
  (0x0061, struct relativeRuntimeInAGenericLevelRange), -- RELATIVE_DEVICE_RUNTIME_IN_A_GENERIC_LEVEL_RANGE
  (0x0062, struct relativeValueInAnIlluminanceRange), -- RELATIVE_EXPOSURE_TIME_IN_AN_ILLUMINANCE_RANGE
  (0x0063, struct luminousEnergy), -- RELATIVE_RUNTIME_IN_A_CORRELATED_COLOR_TEMPERATURE_RANGE
  (0x0064, struct relativeValueInATemperatureRange), -- RELATIVE_RUNTIME_IN_A_DEVICE_OPERATING_TEMPERATURE_RANGE
  (0x0065, struct relativeValueInACurrentRange), -- RELATIVE_RUNTIME_IN_AN_INPUT_CURRENT_RANGE
  (0x0066, struct relativeValueInAVoltageRange), -- RELATIVE_RUNTIME_IN_AN_INPUT_VOLTAGE_RANGE
  (0x0067, struct eventStatistics), -- SHORT_CIRCUIT_EVENT_STATISTICS
  (0x0068, struct timeSecond16), -- TIME_SINCE_MOTION_SENSED
  (0x0069, struct timeSecond16), -- TIME_SINCE_PRESENCE_DETECTED
  (0x006A, struct energy), -- TOTAL_DEVICE_ENERGY_USE
  (0x006B, struct count24), -- TOTAL_DEVICE_OFF_ON_CYCLES
  (0x006C, struct count24), -- TOTAL_DEVICE_POWER_ON_CYCLES
  (0x006D, struct timeHour24), -- TOTAL_DEVICE_POWER_ON_TIME
  (0x006E, struct timeHour24), -- TOTAL_DEVICE_RUNTIME
  (0x006F, struct timeHour24), -- TOTAL_LIGHT_EXPOSURE_TIME
  (0x0070, struct luminousEnergy), -- TOTAL_LUMINOUS_ENERGY
  (0x0072, struct preciseEnergy), -- PRECISE_TOTAL_DEVICE_ENERGY_USE
  (0x0073, struct cosineOfTheAngle), -- POWER_FACTOR
  (0x0088, struct highVoltage), -- EXTERNAL_SUPPLY_VOLTAGE
  (0x0089, struct voltageFrequency), -- EXTERNAL_SUPPLY_VOLTAGE_FREQUENCY
  (0x008C, struct lightDistribution), -- LIGHT_DISTRIBUTION
  (0x008D, struct averageCurrent), -- LIGHT_SOURCE_CURRENT
  (0x008E, struct timeSecond32), -- LIGHT_SOURCE_ON_TIME_NOT_RESETTABLE
  (0x008F, struct timeSecond32), -- LIGHT_SOURCE_ON_TIME_RESETTABLE
  (0x0090, struct eventStatistics), -- LIGHT_SOURCE_OPEN_CIRCUIT_STATISTICS
  (0x0091, struct eventStatistics), -- LIGHT_SOURCE_OVERALL_FAILURES_STATISTICS
  (0x0092, struct eventStatistics), -- LIGHT_SOURCE_SHORT_CIRCUIT_STATISTICS
  (0x0093, struct count24), -- LIGHT_SOURCE_START_COUNTER_RESETTABLE
  (0x0094, struct highTemperature), -- LIGHT_SOURCE_TEMPERATURE
  (0x0095, struct eventStatistics), -- LIGHT_SOURCE_THERMAL_DERATING_STATISTICS
  (0x0096, struct eventStatistics), -- LIGHT_SOURCE_THERMAL_SHUTDOWN_STATISTICS
  (0x0097, struct count24), -- LIGHT_SOURCE_TOTAL_POWER_ON_CYCLES
  (0x0098, struct averageVoltage), -- LIGHT_SOURCE_VOLTAGE
  (0x0099, fixedString 24), -- LUMINAIRE_COLOR
  (0x009A, fixedString 24), -- LUMINAIRE_IDENTIFICATION_NUMBER
  (0x009C, struct power), -- LUMINAIRE_NOMINAL_INPUT_POWER
  (0x009D, struct voltage), -- LUMINAIRE_NOMINAL_MAXIMUM_AC_MAINS_VOLTAGE
  (0x009E, struct voltage), -- LUMINAIRE_NOMINAL_MINIMUM_AC_MAINS_VOLTAGE
  (0x009F, struct power), -- LUMINAIRE_POWER_AT_MINIMUM_DIM_LEVEL
  (0x00A0, struct dateUTC), -- LUMINAIRE_TIME_OF_MANUFACTURE
  (0x00A4, struct lightOutput), -- NOMINAL_LIGHT_OUTPUT
  (0x00A5, struct eventStatistics), -- OVERALL_FAILURE_CONDITION
  (0x00AB, struct timeHour24), -- RATED_MEDIAN_USEFUL_LIFE_OF_LUMINAIRE
  (0x00AC, struct count24), -- RATED_MEDIAN_USEFUL_LIGHT_SOURCE_STARTS
  (0x00AD, struct highTemperature), -- REFERENCE_TEMPERATURE
  (0x00AE, struct count24), -- TOTAL_DEVICE_STARTS
  (0x00B4, fixedString 64), -- LUMINAIRE_IDENTIFICATION_STRING
  (0x00B5, struct eventStatistics), -- OUTPUT_POWER_LIMITATION
  (0x00B6, struct eventStatistics), -- THERMAL_DERATING
  (0x00B7, struct percentage8), -- OUTPUT_CURRENT_PERCENT
  (0x009B, struct globalTradeItemNumber), -- LUMINAIRE_MANUFACTURER_GTIN
  (0x0083, struct apparentEnergy32), -- APPARENT_ENERGY
  (0x0084, struct apparentPower), -- APPARENT_POWER
  (0x0080, struct energy32), -- ACTIVE_ENERGY_LOAD_SIDE
  (0x0081, struct power), -- ACTIVE_POWER_LOAD_SIDE
  (0x00B3, struct lightSourceType), -- LIGHT_SOURCE_TYPE
  (0x0071, struct temperature8), -- DESIRED_AMBIENT_TEMPERATURE
  (0x0074, struct coefficient), -- SENSOR_GAIN
  (0x0075, struct temperature)] -- PRECISE_PRESENT_AMBIENT_TEMPERATURE

end Property
end BM
