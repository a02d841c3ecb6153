import Verif.SpecGenerics
import Verif.Property
/-!
# Wire formats of device properties

The formats of the characteristics used as mesh device properties (GATT Specification Supplement; Mesh Device Properties), with
the field names of this package: one table row per property identifier.
-/
namespace BM
namespace F

/-- `u` is a string, or the UTF-8 bytes of one. -/
def StrMeans (u : Val) (s : String) : Prop := u = .str s ∨ u = .bytes (utf8 s)

/-- A UTF-8 string in `n` bytes, padded with zeros; the zeros are not part of the string. -/
def fixedString (n : Nat) : Fmt UInt8 := fun u b v =>
  ∃ s, StrMeans u s ∧ (utf8 s).length ≤ n ∧ b = utf8 s ++ List.replicate (n - (utf8 s).length) 0 ∧ v = .str (rstripNul s)

/-- `u` names the day `n` days after 1970-01-01: a date, its day number, a year-month-day dictionary, or `None` for day 0. -/
def DateMeans (u : Val) (n : Nat) : Prop :=
  u = .date n ∨ asInt u = some (n : Int) ∨ (u = .none ∧ n = 0) ∨
  ∃ d y m dd, u = .dict d ∧ dget d "year" = some y ∧ dget d "month" = some m ∧ dget d "day" = some dd ∧ Property.pyDate y m dd = .ok (n : Int)

/-- A date in three bytes, counted in days since 1970-01-01, up to 9999-12-31. -/
def date : Fmt UInt8 := fun u b v =>
  ∃ n : Nat, DateMeans u n ∧ (n : Int) ≤ 2932896 ∧ b.length = 3 ∧ leNat b = n ∧ v = .date n

/-- The value of byte `n` of an exponential time: `1.1 ^ (n - 64)` seconds, rounded to four decimals; 0 for byte 0. -/
def ExpValue [Platform] (n : Nat) (v : Val) : Prop :=
  (n = 0 ∧ v = .int 0) ∨ (n ≠ 0 ∧ ∃ x, Platform.mpow (rnd (11 / 10)) ((n : Int) - 64) = .ok x ∧ v = .flt (roundN x 4))

/-- A time in exponential steps: byte 0 for zero (or anything empty), else 64 plus the nearest integer to the logarithm to
base 1.1. -/
def timeExp [Platform] : Fmt UInt8 := fun u b v =>
  ∃ n : Nat, n < 256 ∧ b = [UInt8.ofNat n] ∧ ExpValue n v ∧
    ((truthy u = false ∧ n = 0) ∨
     (truthy u = true ∧ ∃ q l, asNum u = some q ∧ Platform.mlog q (rnd (11 / 10)) = .ok l ∧ rhe l + 64 = (n : Int)))

end F

namespace Spec
open F

/-- An unsigned count of `res`; all ones stands for "unknown". -/
abbrev cnt (n : Nat) (res : Rat) : Fmt UInt8 := count (uint n) (some ((256 ^ n : Nat) - 1)) res
/-- An unsigned count of `res` without "unknown". -/
abbrev cntAll (n : Nat) (res : Rat) : Fmt UInt8 := count (uint n) none res
/-- Whole numbers of `res` (reported as integers). -/
abbrev cntInt (n : Nat) (res : Rat) : Fmt UInt8 := count (uint n) (some ((256 ^ n : Nat) - 1)) res true
abbrev cntIntAll (n : Nat) (res : Rat) : Fmt UInt8 := count (uint n) none res true
/-- A signed count of `res`.  The first form reserves the count `256 ^ n - 1` for "unknown", which no signed field can hold: "unknown"
cannot be written. -/
abbrev scnt (n : Nat) (res : Rat) : Fmt UInt8 := count (sint n) (some ((256 ^ n : Nat) - 1)) res
abbrev scntAll (n : Nat) (res : Rat) : Fmt UInt8 := count (sint n) none res

/-- A device property: identifier, key of the value, format of the value, and the objects outside the format that are encoded
nevertheless. -/
structure PropSpec where
  id : Nat
  name : String
  fmt : Fmt UInt8
  odd : Val → Prop := fun _ => False

abbrev prop (id : Nat) (name : String) (fmt : Fmt UInt8) : PropSpec := { id, name, fmt }

/-- Numbers of days that no date reaches (no Python `date` object denotes such a day). -/
def OddDay (u : Val) : Prop := ∃ n, (asInt u = some n ∨ u = .date n) ∧ Property.lastDay < n
/-- Dictionaries whose `date` is a number of days that no date reaches. -/
def OddDate (u : Val) : Prop := ∃ d w, u = .dict d ∧ dget d "date" = some w ∧ OddDay w

section
variable [Platform]

abbrev seconds : Fmt UInt8 := record [fld "seconds" timeExp]
abbrev sensing : RI UInt8 := fld "sensing_duration" seconds
abbrev hour : Fmt UInt8 := record [fld "hour" (cnt 1 (1 / 10))]
abbrev amps (k : String) : RI UInt8 := fld k (cnt 2 (1 / 100))
abbrev volts (k : String) : RI UInt8 := fld k (cnt 2 (1 / 64))
abbrev deg8 (k : String) : RI UInt8 := fld k (scnt 1 (1 / 2))
abbrev deg16 (k : String) : RI UInt8 := fld k (scnt 2 (1 / 100))
abbrev watts (k : String) : RI UInt8 := fld k (cnt 3 (1 / 10))
abbrev lux (k : String) : RI UInt8 := fld k (cntAll 3 (1 / 100))
abbrev percentAll : RI UInt8 := fld "relative_value" (cntAll 1 (1 / 2))

abbrev currentRange : List (RI UInt8) := [amps "minimum_electric_current_value", amps "maximum_electric_current_value"]
abbrev temperatureRange : List (RI UInt8) := [deg8 "minimum_temperature", deg8 "maximum_temperature"]
abbrev events : Fmt UInt8 := record [
  fld "number_of_events" (record [fld "count" (cnt 2 1)]), fld "average_event_duration" (record [fld "seconds" (cnt 2 1)]),
  fld "time_elapsed_since_last_event" seconds, sensing]
abbrev hours : Fmt UInt8 := record [fld "hours" (cnt 3 1)]
abbrev percentage : Fmt UInt8 := record [fld "percentage" (cnt 1 (1 / 2))]
abbrev illuminance : Fmt UInt8 := record [lux "illuminance"]
abbrev lightness : Fmt UInt8 := record [fld "perceived_lightness" (uint 2)]
abbrev coefficient : Fmt UInt8 := record [fld "coefficient" (cnt 4 1)]
abbrev millis : Fmt UInt8 := record [fld "seconds" (cnt 3 (1 / 1000))]
abbrev energy : Fmt UInt8 := record [fld "energy" (cnt 3 1)]
abbrev energy32 : Fmt UInt8 := record [fld "energy" (cntAll 4 (1 / 1000))]
abbrev power : Fmt UInt8 := record [fld "power" (cntAll 3 (1 / 10))]
abbrev count24 : Fmt UInt8 := record [fld "count" (cnt 3 1)]
abbrev voltage : Fmt UInt8 := record [volts "voltage"]
abbrev current : Fmt UInt8 := record [amps "current"]
abbrev temperature8 : Fmt UInt8 := record [deg8 "temperature"]
abbrev temperature : Fmt UInt8 := record [deg16 "temperature"]
abbrev highTemperature : Fmt UInt8 := record [fld "temperature" (scntAll 2 (1 / 2))]
abbrev averageCurrent : Fmt UInt8 := record [amps "electric_current_value", sensing]
abbrev averageVoltage : Fmt UInt8 := record [volts "voltage_value", sensing]
abbrev currentStatistics : Fmt UInt8 := record [
  amps "average_electric_current_value", amps "standard_deviation_electric_current_value", embed currentRange, sensing]
abbrev voltageRange : Fmt UInt8 := record [
  volts "minimum_voltage_value", volts "typical_voltage_value", volts "maximum_voltage_value"]
abbrev voltageStatistics : Fmt UInt8 := record [
  volts "average_voltage_value", volts "standard_deviation_voltage_value", volts "minimum_voltage_value",
  volts "maximum_voltage_value", sensing]
abbrev temperature8Statistics : Fmt UInt8 := record [
  deg8 "average_temperature", deg8 "standard_deviation_temperature", embed temperatureRange, sensing]
abbrev chromaticity : Fmt UInt8 := record [
  fld "chromaticity_x_coordinate" (cntAll 2 (rnd (1 / 65535))), fld "chromaticity_y_coordinate" (cntAll 2 (rnd (1 / 65535)))]
abbrev colorTemperature : Fmt UInt8 := record [fld "correlated_color_temperature" (cntInt 2 1)]
abbrev luminousFlux : Fmt UInt8 := record [fld "luminous_flux" (cnt 2 1)]
abbrev luminousEnergy : Fmt UInt8 := record [fld "luminous_energy" (cntInt 3 1000)]
abbrev planckian : Fmt UInt8 := record [fld "distance_from_planckian" (scntAll 2 (1 / 100000))]
abbrev colorRendering : Fmt UInt8 := record [fld "color_rendering_index" (scntAll 1 1)]
abbrev dateUTC : Fmt UInt8 := record [fld "date" F.date]
abbrev gtin : Fmt UInt8 := record [fld "global_trade_item_number" (uint 6)]
abbrev seconds16 : Fmt UInt8 := record [fld "seconds" (cnt 2 1)]
abbrev seconds32 : Fmt UInt8 := record [fld "seconds" (cnt 4 1)]

/-- The properties that hold a date. -/
def dateProperties : List PropSpec := [
  ⟨0x0C, "device_date_of_manufacture", dateUTC, OddDate⟩, ⟨0xA0, "luminaire_time_of_manufacture", dateUTC, OddDate⟩]

/-- The property that holds a truth value, for which there are many bytes. -/
def flagProperties : List PropSpec := [prop 0x4D "presence_detected" (record [fld "presence_detected" byteFlag])]

/-- All other device properties. -/
def otherProperties : List PropSpec := [
  prop 0x01 "average_ambient_temperature_in_a_period_of_day" (record [deg8 "temperature", fld "start_time" hour, fld "end_time" hour]),
  prop 0x02 "average_input_current" averageCurrent, prop 0x03 "average_input_voltage" averageVoltage,
  prop 0x04 "average_output_current" averageCurrent, prop 0x05 "average_output_voltage" averageVoltage,
  prop 0x06 "center_beam_intensity_at_full_power" (record [fld "luminous_intensity" (cnt 2 1)]),
  prop 0x07 "chromaticity_tolerance" (record [fld "chromaticity_tolerance" (scntAll 1 (1 / 10000))]),
  prop 0x08 "color_rendering_index_r9" colorRendering, prop 0x09 "color_rendering_index_ra" colorRendering,
  prop 0x0A "device_appearance" (record [bitGroup "_" 2 true [fld "category" (bitsU 10), fld "sub_category" (bitsU 6)]]),
  prop 0x0B "device_country_of_origin" (record [fld "country_code" (cnt 2 1)]),
  prop 0x0D "device_energy_use_since_turn_on" energy,
  prop 0x0E "device_firmware_revision" (fixedString 8), prop 0x0F "device_global_trade_item_number" gtin,
  prop 0x10 "device_hardware_revision" (fixedString 16), prop 0x11 "device_manufacturer_name" (fixedString 36),
  prop 0x12 "device_model_number" (fixedString 24),
  prop 0x13 "device_operating_temperature_range_specification" (record temperatureRange),
  prop 0x14 "device_operating_temperature_statistical_values" (record [
    deg16 "average_temperature", deg16 "standard_deviation_temperature", deg16 "minimum_temperature", deg16 "maximum_temperature", sensing]),
  prop 0x15 "device_over_temperature_event_statistics" events,
  prop 0x16 "device_power_range_specification" (record [
    watts "minimum_power_value", watts "typical_power_value", watts "maximum_power_value"]),
  prop 0x17 "device_runtime_since_turn_on" hours, prop 0x18 "device_runtime_warranty" hours,
  prop 0x19 "device_serial_number" (fixedString 16), prop 0x1A "device_software_revision" (fixedString 8),
  prop 0x1B "device_under_temperature_event_statistics" events,
  prop 0x1C "indoor_ambient_temperature_statistical_values" temperature8Statistics,
  prop 0x1D "initial_cie1931_chromaticity_coordinates" chromaticity,
  prop 0x1E "initial_correlated_color_temperature" colorTemperature, prop 0x1F "initial_luminous_flux" luminousFlux,
  prop 0x20 "initial_planckian_distance" planckian,
  prop 0x21 "input_current_range_specification" (record [
    amps "minimum_electric_current_value", amps "typical_electric_current_value", amps "maximum_electric_current_value"]),
  prop 0x22 "input_current_statistics" currentStatistics,
  prop 0x23 "input_over_current_event_statistics" events, prop 0x24 "input_over_ripple_voltage_event_statistics" events,
  prop 0x25 "input_over_voltage_event_statistics" events, prop 0x26 "input_under_current_event_statistics" events,
  prop 0x27 "input_under_voltage_event_statistics" events,
  prop 0x28 "input_voltage_range_specification" voltageRange, prop 0x29 "input_voltage_ripple_specification" percentage,
  prop 0x2A "input_voltage_statistics" voltageStatistics,
  prop 0x2B "light_control_ambient_luxlevel_on" illuminance, prop 0x2C "light_control_ambient_luxlevel_prolong" illuminance,
  prop 0x2D "light_control_ambient_luxlevel_standby" illuminance,
  prop 0x2E "light_control_lightness_on" lightness, prop 0x2F "light_control_lightness_prolong" lightness,
  prop 0x30 "light_control_lightness_standby" lightness,
  prop 0x31 "light_control_regulator_accuracy" percentage,
  prop 0x32 "light_control_regulator_kid" coefficient, prop 0x33 "light_control_regulator_kiu" coefficient,
  prop 0x34 "light_control_regulator_kpd" coefficient, prop 0x35 "light_control_regulator_kpu" coefficient,
  prop 0x36 "light_control_time_fade" millis, prop 0x37 "light_control_time_fade_on" millis,
  prop 0x38 "light_control_time_fade_standby_auto" millis, prop 0x39 "light_control_time_fade_standby_manual" millis,
  prop 0x3A "light_control_time_occupancy_delay" millis, prop 0x3B "light_control_time_prolong" millis,
  prop 0x3C "light_control_time_run_on" millis,
  prop 0x3D "lumen_maintenance_factor" percentage,
  prop 0x3E "luminous_efficacy" (record [fld "luminous_efficacy" (cnt 2 (1 / 10))]),
  prop 0x3F "luminous_energy_since_turn_on" luminousEnergy,
  prop 0x40 "luminous_exposure" (record [fld "luminous_exposure" (cntInt 3 1000)]),
  prop 0x41 "luminous_flux_range" (record [fld "minimum_luminous_flux" (cnt 2 1), fld "maximum_luminous_flux" (cnt 2 1)]),
  prop 0x42 "motion_sensed" percentage, prop 0x43 "motion_threshold" percentage,
  prop 0x44 "open_circuit_event_statistics" events, prop 0x45 "outdoor_statistical_values" temperature8Statistics,
  prop 0x46 "output_current_range" (record currentRange), prop 0x47 "output_current_statistics" currentStatistics,
  prop 0x48 "output_ripple_voltage_specification" percentage, prop 0x49 "output_voltage_range" voltageRange,
  prop 0x4A "output_voltage_statistics" voltageStatistics, prop 0x4B "over_output_ripple_voltage_event_statistics" events,
  prop 0x4C "people_count" (record [fld "count" (cnt 2 1)]),
  prop 0x4E "present_ambient_light_level" illuminance, prop 0x4F "present_ambient_temperature" temperature8,
  prop 0x50 "present_cie1931_chromaticity_coordinates" chromaticity,
  prop 0x51 "present_correlated_color_temperature" colorTemperature,
  prop 0x52 "present_device_input_power" power, prop 0x53 "present_device_operating_efficiency" percentage,
  prop 0x54 "present_device_operating_temperature" temperature, prop 0x55 "present_illuminance" illuminance,
  prop 0x56 "present_indoor_ambient_temperature" temperature8, prop 0x57 "present_input_current" current,
  prop 0x58 "present_input_ripple_voltage" percentage, prop 0x59 "present_input_voltage" voltage,
  prop 0x5A "present_luminous_flux" luminousFlux, prop 0x5B "present_outdoor_ambient_temperature" temperature8,
  prop 0x5C "present_output_current" current, prop 0x5D "present_output_voltage" voltage,
  prop 0x5E "present_planckian_distance" planckian, prop 0x5F "present_relative_output_ripple_voltage" percentage,
  prop 0x60 "relative_device_energy_use_in_a_period_of_day" (record [
    fld "energy_value" (cnt 3 1), fld "start_time" hour, fld "end_time" hour]),
  prop 0x61 "relative_device_runtime_in_a_generic_level_range" (record [
    percentAll, fld "minimum_generic_level" (cntAll 2 1), fld "maximum_generic_level" (cntAll 2 1)]),
  prop 0x62 "relative_exposure_time_in_an_illuminance_range" (record [percentAll, lux "minimum_illuminance", lux "maximum_illuminance"]),
  -- this package gives the next property the format of a luminous energy
  prop 0x63 "relative_runtime_in_a_correlated_color_temperature_range" luminousEnergy,
  prop 0x64 "relative_runtime_in_a_device_operating_temperature_range" (record [
    percentAll, deg16 "minimum_temperature", deg16 "maximum_temperature"]),
  prop 0x65 "relative_runtime_in_an_input_current_range" (record [
    fld "relative_value" (cnt 1 (1 / 2)), amps "minimum_current", amps "maximum_current"]),
  prop 0x66 "relative_runtime_in_an_input_voltage_range" (record [percentAll, volts "minimum_voltage", volts "maximum_voltage"]),
  prop 0x67 "short_circuit_event_statistics" events,
  prop 0x68 "time_since_motion_sensed" seconds16, prop 0x69 "time_since_presence_detected" seconds16,
  prop 0x6A "total_device_energy_use" energy, prop 0x6B "total_device_off_on_cycles" count24,
  prop 0x6C "total_device_power_on_cycles" count24, prop 0x6D "total_device_power_on_time" hours,
  prop 0x6E "total_device_runtime" hours, prop 0x6F "total_light_exposure_time" hours,
  prop 0x70 "total_luminous_energy" luminousEnergy, prop 0x71 "desired_ambient_temperature" temperature8,
  prop 0x72 "precise_total_device_energy_use" energy32, prop 0x73 "power_factor" (record [fld "cosine_of_the_angle" (sint 1)]),
  prop 0x74 "sensor_gain" coefficient, prop 0x75 "precise_present_ambient_temperature" temperature,
  prop 0x80 "active_energy_load_side" energy32, prop 0x81 "active_power_load_side" power,
  prop 0x83 "apparent_energy" energy32, prop 0x84 "apparent_power" (record [watts "power"]),
  prop 0x88 "external_supply_voltage" (record [fld "high_voltage" (cntAll 3 (1 / 64))]),
  prop 0x89 "external_supply_voltage_frequency" (record [fld "voltage_frequency" (uint 2)]),
  prop 0x8C "light_distribution" (record [fld "light_distribution" (enum8 E.LightDistributionField)]),
  prop 0x8D "light_source_current" averageCurrent,
  prop 0x8E "light_source_on_time_not_resettable" seconds32, prop 0x8F "light_source_on_time_resettable" seconds32,
  prop 0x90 "light_source_open_circuit_statistics" events, prop 0x91 "light_source_overall_failures_statistics" events,
  prop 0x92 "light_source_short_circuit_statistics" events, prop 0x93 "light_source_start_counter_resettable" count24,
  prop 0x94 "light_source_temperature" highTemperature,
  prop 0x95 "light_source_thermal_derating_statistics" events, prop 0x96 "light_source_thermal_shutdown_statistics" events,
  prop 0x97 "light_source_total_power_on_cycles" count24, prop 0x98 "light_source_voltage" averageVoltage,
  prop 0x99 "luminaire_color" (fixedString 24), prop 0x9A "luminaire_identification_number" (fixedString 24),
  prop 0x9B "luminaire_manufacturer_gtin" gtin, prop 0x9C "luminaire_nominal_input_power" power,
  prop 0x9D "luminaire_nominal_maximum_ac_mains_voltage" voltage, prop 0x9E "luminaire_nominal_minimum_ac_mains_voltage" voltage,
  prop 0x9F "luminaire_power_at_minimum_dim_level" power,
  prop 0xA4 "nominal_light_output" (record [fld "light_output" (cntIntAll 3 1)]),
  prop 0xA5 "overall_failure_condition" events, prop 0xAB "rated_median_useful_life_of_luminaire" hours,
  prop 0xAC "rated_median_useful_light_source_starts" count24, prop 0xAD "reference_temperature" highTemperature,
  prop 0xAE "total_device_starts" count24, prop 0xB3 "light_source_type" (record [fld "light_source_type" (enum8 E.LightSourceTypeField)]),
  prop 0xB4 "luminaire_identification_string" (fixedString 64), prop 0xB5 "output_power_limitation" events,
  prop 0xB6 "thermal_derating" events, prop 0xB7 "output_current_percent" percentage]

/-- The properties whose received values re-encode to the same bytes. -/
def exactProperties : List PropSpec := dateProperties ++ otherProperties

def properties : List PropSpec := exactProperties ++ flagProperties

end
end Spec
end BM
