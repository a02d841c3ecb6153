/-!
# The names of the fields of the package

Generated by `tools/gen_fieldnames.py` from the source text: the names written as `"name" / construct` in bluetooth_mesh/messages.
-/
namespace BM

/-- The names, with one place where each of them occurs. -/
def fieldChars : List (List Char) := [
  ['G', 'A', 'T', 'T', '_', 'p', 'r', 'o', 'x', 'y'],  -- GATT_proxy (config.py:815)
  ['_', 'r', 'f', 'u'],  -- _rfu (debug.py:113)
  ['a', 'c', 'c', 'e', 's', 's'],  -- access (property.py:107)
  ['a', 'd', 'd', 'i', 't', 'i', 'o', 'n', 'a', 'l', '_', 'd', 'a', 't', 'a'],  -- additional_data (config.py:618)
  ['a', 'd', 'd', 'i', 't', 'i', 'o', 'n', 'a', 'l', '_', 'd', 'a', 't', 'a', '_', 'l', 'e', 'n'],  -- additional_data_len (config.py:617)
  ['a', 'd', 'd', 'r', 'e', 's', 's'],  -- address (config.py:873)
  ['a', 'd', 'd', 'r', 'e', 's', 's', 'e', 's'],  -- addresses (config.py:910)
  ['a', 'p', 'p', ' ', 'k', 'e', 'y', ' ', 'i', 'n', 'd', 'i', 'c', 'e', 's'],  -- app key indices (config.py:1008)
  ['a', 'p', 'p', '_', 'k', 'e', 'y'],  -- app_key (config.py:949)
  ['a', 'p', 'p', '_', 'k', 'e', 'y', '_', 'i', 'n', 'd', 'e', 'x'],  -- app_key_index (config.py:841)
  ['a', 'p', 'p', '_', 'k', 'e', 'y', '_', 'i', 'n', 'd', 'i', 'c', 'e', 's'],  -- app_key_indices (config.py:1019)
  ['a', 'r', 'r', 'a', 'y', '_', 'o', 'f', '_', 's', 'l', 'o', 't', 's'],  -- array_of_slots (rrule_scheduler.py:184)
  ['a', 't', 't', 'e', 'n', 't', 'i', 'o', 'n'],  -- attention (health.py:45)
  ['a', 'v', 'e', 'r', 'a', 'g', 'e', '_', 'e', 'l', 'e', 'c', 't', 'r', 'i', 'c', '_', 'c', 'u', 'r', 'r', 'e', 'n', 't', '_', 'v', 'a', 'l', 'u', 'e'],  -- average_electric_current_value (properties.py:345)
  ['a', 'v', 'e', 'r', 'a', 'g', 'e', '_', 'e', 'v', 'e', 'n', 't', '_', 'd', 'u', 'r', 'a', 't', 'i', 'o', 'n'],  -- average_event_duration (properties.py:604)
  ['a', 'v', 'e', 'r', 'a', 'g', 'e', '_', 't', 'e', 'm', 'p', 'e', 'r', 'a', 't', 'u', 'r', 'e'],  -- average_temperature (properties.py:452)
  ['a', 'v', 'e', 'r', 'a', 'g', 'e', '_', 'v', 'o', 'l', 't', 'a', 'g', 'e', '_', 'v', 'a', 'l', 'u', 'e'],  -- average_voltage_value (properties.py:375)
  ['b', 'a', 'n', 'd', 'w', 'i', 'd', 't', 'h'],  -- bandwidth (gateway_config_server.py:208)
  ['b', 'a', 't', 't', 'e', 'r', 'y', '_', 'c', 'h', 'a', 'r', 'g', 'i', 'n', 'g', '_', 'f', 'l', 'a', 'g', 's'],  -- battery_charging_flags (battery.py:72)
  ['b', 'a', 't', 't', 'e', 'r', 'y', '_', 'i', 'n', 'd', 'i', 'c', 'a', 't', 'o', 'r', '_', 'f', 'l', 'a', 'g', 's'],  -- battery_indicator_flags (battery.py:74)
  ['b', 'a', 't', 't', 'e', 'r', 'y', '_', 'l', 'e', 'v', 'e', 'l'],  -- battery_level (battery.py:83)
  ['b', 'a', 't', 't', 'e', 'r', 'y', '_', 'p', 'r', 'e', 's', 'e', 'n', 'c', 'e', '_', 'f', 'l', 'a', 'g', 's'],  -- battery_presence_flags (battery.py:76)
  ['b', 'a', 't', 't', 'e', 'r', 'y', '_', 's', 'e', 'r', 'v', 'i', 'c', 'e', 'a', 'b', 'i', 'l', 'i', 't', 'y', '_', 'f', 'l', 'a', 'g', 's'],  -- battery_serviceability_flags (battery.py:70)
  ['b', 'e', 'a', 'c', 'o', 'n'],  -- beacon (config.py:770)
  ['b', 'y', 't', 'e', 's', '_', 'l', 'e', 'f', 't'],  -- bytes_left (debug.py:135)
  ['c', 'a', 'p', 'a', 'c', 'i', 't', 'y'],  -- capacity (debug.py:163)
  ['c', 'a', 't', 'e', 'g', 'o', 'r', 'y'],  -- category (properties.py:588)
  ['c', 'h', 'i', 'p', '_', 'r', 'e', 'v', 'i', 's', 'i', 'o', 'n', '_', 'i', 'd'],  -- chip_revision_id (gateway_config_server.py:192)
  ['c', 'h', 'r', 'o', 'm', 'a', 't', 'i', 'c', 'i', 't', 'y', '_', 't', 'o', 'l', 'e', 'r', 'a', 'n', 'c', 'e'],  -- chromaticity_tolerance (properties.py:555)
  ['c', 'h', 'r', 'o', 'm', 'a', 't', 'i', 'c', 'i', 't', 'y', '_', 'x', '_', 'c', 'o', 'o', 'r', 'd', 'i', 'n', 'a', 't', 'e'],  -- chromaticity_x_coordinate (properties.py:567)
  ['c', 'h', 'r', 'o', 'm', 'a', 't', 'i', 'c', 'i', 't', 'y', '_', 'y', '_', 'c', 'o', 'o', 'r', 'd', 'i', 'n', 'a', 't', 'e'],  -- chromaticity_y_coordinate (properties.py:568)
  ['c', 'i', 'd'],  -- cid (config.py:557)
  ['c', 'o', 'e', 'f', 'f', 'i', 'c', 'i', 'e', 'n', 't'],  -- coefficient (properties.py:549)
  ['c', 'o', 'l', 'o', 'r', '_', 'r', 'e', 'n', 'd', 'e', 'r', 'i', 'n', 'g', '_', 'i', 'n', 'd', 'e', 'x'],  -- color_rendering_index (properties.py:572)
  ['c', 'o', 'm', 'p', 'a', 'n', 'y', '_', 'i', 'd'],  -- company_id (health.py:31)
  ['c', 'o', 'n', 'n', '_', 's', 't', 'a', 't', 'e'],  -- conn_state (gateway_config_server.py:199)
  ['c', 'o', 'n', 'n', 'e', 'c', 't', 'i', 'o', 'n', '_', 's', 't', 'a', 't', 'e'],  -- connection_state (gateway_config_server.py:209)
  ['c', 'o', 'r', 'r', 'e', 'l', 'a', 't', 'e', 'd', '_', 'c', 'o', 'l', 'o', 'r', '_', 't', 'e', 'm', 'p', 'e', 'r', 'a', 't', 'u', 'r', 'e'],  -- correlated_color_temperature (properties.py:563)
  ['c', 'o', 'r', 'r', 'e', 's', 'p', 'o', 'n', 'd', 'i', 'n', 'g', '_', 'i', 'd'],  -- corresponding_id (config.py:585)
  ['c', 'o', 'r', 'r', 'e', 's', 'p', 'o', 'n', 'd', 'i', 'n', 'g', '_', 'p', 'r', 'e', 's', 'e', 'n', 't'],  -- corresponding_present (config.py:584)
  ['c', 'o', 's', 'i', 'n', 'e', '_', 'o', 'f', '_', 't', 'h', 'e', '_', 'a', 'n', 'g', 'l', 'e'],  -- cosine_of_the_angle (properties.py:578)
  ['c', 'o', 'u', 'n', 't'],  -- count (config.py:1057)
  ['c', 'o', 'u', 'n', 't', 'e', 'r'],  -- counter (debug.py:159)
  ['c', 'o', 'u', 'n', 't', 'r', 'y', '_', 'c', 'o', 'd', 'e'],  -- country_code (properties.py:595)
  ['c', 'r', 'e', 'd', 'e', 'n', 't', 'i', 'a', 'l', '_', 'f', 'l', 'a', 'g'],  -- credential_flag (config.py:840)
  ['c', 'r', 'p', 'l'],  -- crpl (config.py:560)
  ['c', 't', 'l', '_', 'd', 'e', 'l', 't', 'a', '_', 'u', 'v'],  -- ctl_delta_uv (ctl.py:119)
  ['c', 't', 'l', '_', 'l', 'i', 'g', 'h', 't', 'n', 'e', 's', 's'],  -- ctl_lightness (ctl.py:63)
  ['c', 't', 'l', '_', 't', 'e', 'm', 'p', 'e', 'r', 'a', 't', 'u', 'r', 'e'],  -- ctl_temperature (ctl.py:118)
  ['c', 'u', 'r', 'r', 'e', 'n', 't'],  -- current (properties.py:325)
  ['c', 'u', 'r', 'r', 'e', 'n', 't', '_', 'p', 'a', 'g', 'e'],  -- current_page (debug.py:192)
  ['c', 'u', 'r', 'r', 'e', 'n', 't', '_', 's', 'c', 'e', 'n', 'e'],  -- current_scene (scene.py:71)
  ['d', 'a', 't', 'a'],  -- data (config.py:801)
  ['d', 'a', 't', 'a', '_', 't', 'y', 'p', 'e'],  -- data_type (debugV2.py:126)
  ['d', 'a', 't', 'e'],  -- date (properties.py:319)
  ['d', 'a', 'y'],  -- day (properties.py:234)
  ['d', 'e', 'l', 'a', 'y'],  -- delay (generics.py:72)
  ['d', 'e', 'l', 't', 'a', '_', 'l', 'e', 'v', 'e', 'l'],  -- delta_level (level.py:60)
  ['d', 'e', 's', 't', 'i', 'n', 'a', 't', 'i', 'o', 'n'],  -- destination (config.py:1056)
  ['d', 'i', 's', 't', 'a', 'n', 'c', 'e', '_', 'f', 'r', 'o', 'm', '_', 'p', 'l', 'a', 'n', 'c', 'k', 'i', 'a', 'n'],  -- distance_from_planckian (properties.py:559)
  ['d', 'n', 's', '_', 'i', 'p', '_', 'a', 'd', 'd', 'r', 'e', 's', 's'],  -- dns_ip_address (gateway_config_server.py:149)
  ['e', 'l', '_', 'l', 'a', 'm', 'p', '_', 'e', 'm', 'e', 'r', 'g', 'e', 'n', 'c', 'y', '_', 't', 'i', 'm', 'e'],  -- el_lamp_emergency_time (emergency_lighting.py:133)
  ['e', 'l', '_', 'l', 'a', 'm', 'p', '_', 't', 'o', 't', 'a', 'l', '_', 'o', 'p', 'e', 'r', 'a', 't', 'i', 'o', 'n', '_', 't', 'i', 'm', 'e'],  -- el_lamp_total_operation_time (emergency_lighting.py:132)
  ['e', 'l', '_', 's', 't', 'a', 't', 'e'],  -- el_state (emergency_lighting.py:116)
  ['e', 'l', 'e', 'c', 't', 'r', 'i', 'c', '_', 'c', 'u', 'r', 'r', 'e', 'n', 't', '_', 'v', 'a', 'l', 'u', 'e'],  -- electric_current_value (properties.py:329)
  ['e', 'l', 'e', 'm', 'e', 'n', 't'],  -- element (config.py:603)
  ['e', 'l', 'e', 'm', 'e', 'n', 't', '_', 'a', 'd', 'd', 'r', 'e', 's', 's'],  -- element_address (config.py:1001)
  ['e', 'l', 'e', 'm', 'e', 'n', 't', '_', 'o', 'f', 'f', 's', 'e', 't'],  -- element_offset (config.py:567)
  ['e', 'l', 'e', 'm', 'e', 'n', 't', '_', 'o', 'f', 'f', 's', 'e', 't', '_', 'l', 'i', 's', 't'],  -- element_offset_list (config.py:616)
  ['e', 'l', 'e', 'm', 'e', 'n', 't', 's'],  -- elements (config.py:562)
  ['e', 'n', 'd', '_', 't', 'i', 'm', 'e'],  -- end_time (properties.py:409)
  ['e', 'n', 'e', 'r', 'g', 'y'],  -- energy (properties.py:398)
  ['e', 'n', 'e', 'r', 'g', 'y', '_', 'v', 'a', 'l', 'u', 'e'],  -- energy_value (properties.py:407)
  ['e', 'n', 't', 'r', 'y', '_', 'i', 'd'],  -- entry_id (rrule_scheduler.py:209)
  ['e', 'n', 't', 'r', 'y', '_', 'i', 'd', 's'],  -- entry_ids (rrule_scheduler.py:239)
  ['e', 'x', 't', 'e', 'n', 'd', 'e', 'd', '_', 'i', 't', 'e', 'm', 's', '_', 'c', 'o', 'u', 'n', 't'],  -- extended_items_count (config.py:582)
  ['e', 'x', 't', 'e', 'n', 'd', 'e', 'd', '_', 'm', 'o', 'd', 'e', 'l', 's', '_', 'i', 't', 'e', 'm', 's'],  -- extended_models_items (config.py:586)
  ['f', 'a', 's', 't', '_', 'c', 'a', 'd', 'e', 'n', 'c', 'e', '_', 'p', 'e', 'r', 'i', 'o', 'd', '_', 'd', 'i', 'v', 'i', 's', 'o', 'r'],  -- fast_cadence_period_divisor (sensor.py:309)
  ['f', 'a', 's', 't', '_', 'p', 'e', 'r', 'i', 'o', 'd', '_', 'd', 'i', 'v', 'i', 's', 'o', 'r'],  -- fast_period_divisor (health.py:41)
  ['f', 'a', 'u', 'l', 't'],  -- fault (debug.py:105)
  ['f', 'a', 'u', 'l', 't', '_', 'a', 'r', 'r', 'a', 'y'],  -- fault_array (health.py:37)
  ['f', 'e', 'a', 't', 'u', 'r', 'e', 's'],  -- features (config.py:1060)
  ['f', 'i', 'r', 's', 't'],  -- first (config.py:718)
  ['f', 'l', 'a', 'g', 's'],  -- flags (battery.py:86)
  ['f', 'o', 'r', 'm', 'a', 't'],  -- format (config.py:583)
  ['f', 'r', 'i', 'e', 'n', 'd'],  -- friend (config.py:1029)
  ['g', 'a', 't', 'e', 'w', 'a', 'y', '_', 'i', 'p', '_', 'a', 'd', 'd', 'r', 'e', 's', 's'],  -- gateway_ip_address (gateway_config_server.py:157)
  ['g', 'l', 'o', 'b', 'a', 'l', '_', 't', 'r', 'a', 'd', 'e', '_', 'i', 't', 'e', 'm', '_', 'n', 'u', 'm', 'b', 'e', 'r'],  -- global_trade_item_number (properties.py:582)
  ['h', 'i', 'g', 'h', '_', 'v', 'o', 'l', 't', 'a', 'g', 'e'],  -- high_voltage (properties.py:389)
  ['h', 'i', 'g', 'h', '_', 'w', 'a', 't', 'e', 'r', '_', 'm', 'a', 'r', 'k'],  -- high_water_mark (debug.py:112)
  ['h', 'o', 'u', 'r'],  -- hour (properties.py:315)
  ['h', 'o', 'u', 'r', 's'],  -- hours (properties.py:299)
  ['i', 'd', 'e', 'n', 't', 'i', 't', 'y'],  -- identity (config.py:979)
  ['i', 'l', 'l', 'u', 'm', 'i', 'n', 'a', 'n', 'c', 'e'],  -- illuminance (properties.py:510)
  ['i', 'n', 't', 'e', 'r', 'v', 'a', 'l'],  -- interval (config.py:634)
  ['i', 'n', 't', 'e', 'r', 'v', 'a', 'l', '_', 's', 't', 'e', 'p', 's'],  -- interval_steps (config.py:627)
  ['i', 'p', '_', 'a', 'd', 'd', 'r', 'e', 's', 's'],  -- ip_address (gateway_config_server.py:153)
  ['i', 'v', 'i'],  -- ivi (debug.py:186)
  ['i', 'v', 'i', 'n', 'd', 'e', 'x'],  -- ivindex (debug.py:153)
  ['l', 'a', 'b', 'e', 'l'],  -- label (config.py:882)
  ['l', 'a', 's', 't'],  -- last (config.py:725)
  ['l', 'a', 's', 't', '_', 'e', 'r', 'r', 'o', 'r'],  -- last_error (gateway_config_server.py:201)
  ['l', 'a', 's', 't', '_', 'p', 'a', 'g', 'e'],  -- last_page (debug.py:193)
  ['l', 'e', 'n', 'g', 't', 'h'],  -- length (sensor.py:254)
  ['l', 'e', 'v', 'e', 'l'],  -- level (level.py:45)
  ['l', 'i', 'g', 'h', 't', '_', 'd', 'i', 's', 't', 'r', 'i', 'b', 'u', 't', 'i', 'o', 'n'],  -- light_distribution (properties.py:524)
  ['l', 'i', 'g', 'h', 't', '_', 'o', 'u', 't', 'p', 'u', 't'],  -- light_output (properties.py:528)
  ['l', 'i', 'g', 'h', 't', '_', 's', 'o', 'u', 'r', 'c', 'e', '_', 't', 'y', 'p', 'e'],  -- light_source_type (properties.py:532)
  ['l', 'i', 'g', 'h', 't', 'n', 'e', 's', 's'],  -- lightness (lightness.py:65)
  ['l', 'i', 'n', 'k', '_', 's', 't', 'a', 't', 'u', 's'],  -- link_status (gateway_config_server.py:200)
  ['l', 'o', 'c', 'a', 't', 'i', 'o', 'n'],  -- location (config.py:549)
  ['l', 'p', 'n', '_', 'a', 'd', 'd', 'r', 'e', 's', 's'],  -- lpn_address (config.py:1086)
  ['l', 'u', 'm', 'i', 'n', 'o', 'u', 's', '_', 'e', 'f', 'f', 'i', 'c', 'a', 'c', 'y'],  -- luminous_efficacy (properties.py:506)
  ['l', 'u', 'm', 'i', 'n', 'o', 'u', 's', '_', 'e', 'n', 'e', 'r', 'g', 'y'],  -- luminous_energy (properties.py:494)
  ['l', 'u', 'm', 'i', 'n', 'o', 'u', 's', '_', 'e', 'x', 'p', 'o', 's', 'u', 'r', 'e'],  -- luminous_exposure (properties.py:498)
  ['l', 'u', 'm', 'i', 'n', 'o', 'u', 's', '_', 'f', 'l', 'u', 'x'],  -- luminous_flux (properties.py:485)
  ['l', 'u', 'm', 'i', 'n', 'o', 'u', 's', '_', 'i', 'n', 't', 'e', 'n', 's', 'i', 't', 'y'],  -- luminous_intensity (properties.py:502)
  ['m', 'a', 'c', '_', 'a', 'd', 'd', 'r', 'e', 's', 's'],  -- mac_address (gateway_config_server.py:135)
  ['m', 'a', 'x', '_', 'h', 'o', 'p', 's'],  -- max_hops (config.py:1082)
  ['m', 'a', 'x', '_', 'r', 'e', 'c', 'o', 'r', 'd', '_', 'c', 'o', 'u', 'n', 't'],  -- max_record_count (network_diagnostic_server.py:102)
  ['m', 'a', 'x', 'i', 'm', 'u', 'm', '_', 'c', 'u', 'r', 'r', 'e', 'n', 't'],  -- maximum_current (properties.py:354)
  ['m', 'a', 'x', 'i', 'm', 'u', 'm', '_', 'e', 'l', 'e', 'c', 't', 'r', 'i', 'c', '_', 'c', 'u', 'r', 'r', 'e', 'n', 't', '_', 'v', 'a', 'l', 'u', 'e'],  -- maximum_electric_current_value (properties.py:335)
  ['m', 'a', 'x', 'i', 'm', 'u', 'm', '_', 'g', 'e', 'n', 'e', 'r', 'i', 'c', '_', 'l', 'e', 'v', 'e', 'l'],  -- maximum_generic_level (properties.py:612)
  ['m', 'a', 'x', 'i', 'm', 'u', 'm', '_', 'i', 'l', 'l', 'u', 'm', 'i', 'n', 'a', 'n', 'c', 'e'],  -- maximum_illuminance (properties.py:516)
  ['m', 'a', 'x', 'i', 'm', 'u', 'm', '_', 'l', 'u', 'm', 'i', 'n', 'o', 'u', 's', '_', 'f', 'l', 'u', 'x'],  -- maximum_luminous_flux (properties.py:490)
  ['m', 'a', 'x', 'i', 'm', 'u', 'm', '_', 'p', 'o', 'w', 'e', 'r', '_', 'v', 'a', 'l', 'u', 'e'],  -- maximum_power_value (properties.py:429)
  ['m', 'a', 'x', 'i', 'm', 'u', 'm', '_', 't', 'e', 'm', 'p', 'e', 'r', 'a', 't', 'u', 'r', 'e'],  -- maximum_temperature (properties.py:448)
  ['m', 'a', 'x', 'i', 'm', 'u', 'm', '_', 'v', 'o', 'l', 't', 'a', 'g', 'e'],  -- maximum_voltage (properties.py:385)
  ['m', 'a', 'x', 'i', 'm', 'u', 'm', '_', 'v', 'o', 'l', 't', 'a', 'g', 'e', '_', 'v', 'a', 'l', 'u', 'e'],  -- maximum_voltage_value (properties.py:371)
  ['m', 'e', 's', 'h', '_', 'p', 'r', 'o', 'f', 'i', 'l', 'e', '_', 'i', 'd', 'e', 'n', 't', 'i', 'f', 'i', 'e', 'r'],  -- mesh_profile_identifier (config.py:613)
  ['m', 'i', 'c', 'r', 'o', 's', 'e', 'c', 'o', 'n', 'd'],  -- microsecond (time.py:180)
  ['m', 'i', 'n', '_', 'h', 'o', 'p', 's'],  -- min_hops (config.py:1081)
  ['m', 'i', 'n', 'i', 'm', 'u', 'm', '_', 'c', 'u', 'r', 'r', 'e', 'n', 't'],  -- minimum_current (properties.py:353)
  ['m', 'i', 'n', 'i', 'm', 'u', 'm', '_', 'e', 'l', 'e', 'c', 't', 'r', 'i', 'c', '_', 'c', 'u', 'r', 'r', 'e', 'n', 't', '_', 'v', 'a', 'l', 'u', 'e'],  -- minimum_electric_current_value (properties.py:334)
  ['m', 'i', 'n', 'i', 'm', 'u', 'm', '_', 'g', 'e', 'n', 'e', 'r', 'i', 'c', '_', 'l', 'e', 'v', 'e', 'l'],  -- minimum_generic_level (properties.py:611)
  ['m', 'i', 'n', 'i', 'm', 'u', 'm', '_', 'i', 'l', 'l', 'u', 'm', 'i', 'n', 'a', 'n', 'c', 'e'],  -- minimum_illuminance (properties.py:515)
  ['m', 'i', 'n', 'i', 'm', 'u', 'm', '_', 'l', 'u', 'm', 'i', 'n', 'o', 'u', 's', '_', 'f', 'l', 'u', 'x'],  -- minimum_luminous_flux (properties.py:489)
  ['m', 'i', 'n', 'i', 'm', 'u', 'm', '_', 'p', 'o', 'w', 'e', 'r', '_', 'v', 'a', 'l', 'u', 'e'],  -- minimum_power_value (properties.py:427)
  ['m', 'i', 'n', 'i', 'm', 'u', 'm', '_', 't', 'e', 'm', 'p', 'e', 'r', 'a', 't', 'u', 'r', 'e'],  -- minimum_temperature (properties.py:447)
  ['m', 'i', 'n', 'i', 'm', 'u', 'm', '_', 'v', 'o', 'l', 't', 'a', 'g', 'e'],  -- minimum_voltage (properties.py:384)
  ['m', 'i', 'n', 'i', 'm', 'u', 'm', '_', 'v', 'o', 'l', 't', 'a', 'g', 'e', '_', 'v', 'a', 'l', 'u', 'e'],  -- minimum_voltage_value (properties.py:369)
  ['m', 'i', 'n', 'u', 't', 'e'],  -- minute (rrule_scheduler.py:144)
  ['m', 'o', 'd', 'e', 'l'],  -- model (config.py:1002)
  ['m', 'o', 'd', 'e', 'l', '_', 'i', 'd'],  -- model_id (config.py:429)
  ['m', 'o', 'd', 'e', 'l', '_', 'i', 't', 'e', 'm', '_', 'i', 'n', 'd', 'e', 'x'],  -- model_item_index (config.py:566)
  ['m', 'o', 'n', 't', 'h'],  -- month (properties.py:233)
  ['m', 't', 'u', '_', 's', 'i', 'z', 'e'],  -- mtu_size (gateway_config_server.py:131)
  ['n', 'a', 'm', 'e'],  -- name (debug.py:111)
  ['n', 'e', 't', '_', 'k', 'e', 'y'],  -- net_key (config.py:927)
  ['n', 'e', 't', '_', 'k', 'e', 'y', '_', 'i', 'n', 'd', 'e', 'x'],  -- net_key_index (network_diagnostic_server.py:77)
  ['n', 'e', 't', '_', 'k', 'e', 'y', '_', 'i', 'n', 'd', 'i', 'c', 'e', 's'],  -- net_key_indices (config.py:944)
  ['n', 'e', 't', 'm', 'a', 's', 'k'],  -- netmask (gateway_config_server.py:161)
  ['n', 'o', 'd', 'e', 's'],  -- nodes (debug.py:194)
  ['n', 'u', 'm', '_', 'e', 'l', 'e', 'm', 'e', 'n', 't', '_', 'o', 'f', 'f', 's', 'e', 't', 's'],  -- num_element_offsets (config.py:615)
  ['n', 'u', 'm', 'b', 'e', 'r', '_', 'o', 'f', '_', 'e', 'v', 'e', 'n', 't', 's'],  -- number_of_events (properties.py:603)
  ['n', 'u', 'm', 'b', 'e', 'r', '_', 'o', 'f', '_', 's', 't', 'e', 'p', 's'],  -- number_of_steps (config.py:764)
  ['n', 'u', 'm', 'b', 'e', 'r', '_', 's'],  -- number_s (config.py:596)
  ['n', 'u', 'm', 'b', 'e', 'r', '_', 'v'],  -- number_v (config.py:597)
  ['o', 'n', 'o', 'f', 'f'],  -- onoff (onoff.py:41)
  ['o', 'p', 'c', 'o', 'd', 'e'],  -- opcode (battery.py:90)
  ['p', 'a', 'c', 'k', 'e', 't', '_', 'c', 'o', 'u', 'n', 't', 'e', 'r'],  -- packet_counter (debug.py:90)
  ['p', 'a', 'g', 'e'],  -- page (config.py:786)
  ['p', 'a', 'g', 'e', '_', 'n', 'u', 'm', 'b', 'e', 'r'],  -- page_number (debugV2.py:151)
  ['p', 'a', 'r', 'a', 'm', 'e', 't', 'e', 'r'],  -- parameter (debugV2.py:127)
  ['p', 'a', 'r', 'a', 'm', 'e', 't', 'e', 'r', '_', 't', 'y', 'p', 'e'],  -- parameter_type (debugV2.py:150)
  ['p', 'a', 'r', 'a', 'm', 's'],  -- params (battery.py:91)
  ['p', 'a', 'y', 'l', 'o', 'a', 'd'],  -- payload (debug.py:199)
  ['p', 'e', 'r', 'c', 'e', 'i', 'v', 'e', 'd', '_', 'l', 'i', 'g', 'h', 't', 'n', 'e', 's', 's'],  -- perceived_lightness (properties.py:520)
  ['p', 'e', 'r', 'c', 'e', 'n', 't', 'a', 'g', 'e'],  -- percentage (properties.py:537)
  ['p', 'e', 'r', 'i', 'o', 'd'],  -- period (config.py:1058)
  ['p', 'e', 'r', 'i', 'o', 'd', '_', 'l', 'o', 'g'],  -- period_log (config.py:1074)
  ['p', 'h', 'a', 's', 'e'],  -- phase (config.py:1046)
  ['p', 'i', 'd'],  -- pid (config.py:558)
  ['p', 'o', 'l', 'l', '_', 't', 'i', 'm', 'e', 'o', 'u', 't'],  -- poll_timeout (config.py:1091)
  ['p', 'o', 'w', 'e', 'r'],  -- power (properties.py:423)
  ['p', 'r', 'e', 's', 'e', 'n', 'c', 'e', '_', 'd', 'e', 't', 'e', 'c', 't', 'e', 'd'],  -- presence_detected (properties.py:599)
  ['p', 'r', 'e', 's', 'e', 'n', 't', '_', 'c', 't', 'l', '_', 'd', 'e', 'l', 't', 'a', '_', 'u', 'v'],  -- present_ctl_delta_uv (ctl.py:102)
  ['p', 'r', 'e', 's', 'e', 'n', 't', '_', 'c', 't', 'l', '_', 'l', 'i', 'g', 'h', 't', 'n', 'e', 's', 's'],  -- present_ctl_lightness (ctl.py:84)
  ['p', 'r', 'e', 's', 'e', 'n', 't', '_', 'c', 't', 'l', '_', 't', 'e', 'm', 'p', 'e', 'r', 'a', 't', 'u', 'r', 'e'],  -- present_ctl_temperature (ctl.py:101)
  ['p', 'r', 'e', 's', 'e', 'n', 't', '_', 'l', 'e', 'v', 'e', 'l'],  -- present_level (level.py:90)
  ['p', 'r', 'e', 's', 'e', 'n', 't', '_', 'l', 'i', 'g', 'h', 't', 'n', 'e', 's', 's'],  -- present_lightness (lightness.py:69)
  ['p', 'r', 'e', 's', 'e', 'n', 't', '_', 'o', 'n', 'o', 'f', 'f'],  -- present_onoff (onoff.py:58)
  ['p', 'r', 'o', 'p', 'e', 'r', 't', 'y', '_', 'i', 'd'],  -- property_id (emergency_lighting.py:120)
  ['p', 'r', 'o', 'p', 'e', 'r', 't', 'y', '_', 'i', 'd', 's'],  -- property_ids (property.py:75)
  ['p', 'u', 'b', 'l', 'i', 's', 'h', '_', 'a', 'd', 'd', 'r', 'e', 's', 's'],  -- publish_address (config.py:836)
  ['p', 'u', 'b', 'l', 'i', 's', 'h', '_', 'p', 'e', 'r', 'i', 'o', 'd'],  -- publish_period (config.py:845)
  ['r', 'a', 'n', 'g', 'e', '_', 'm', 'a', 'x'],  -- range_max (ctl.py:135)
  ['r', 'a', 'n', 'g', 'e', '_', 'm', 'i', 'n'],  -- range_min (ctl.py:134)
  ['r', 'e', 'c', 'o', 'n', 'n', 'e', 'c', 't', '_', 'i', 'n', 't', 'e', 'r', 'v', 'a', 'l'],  -- reconnect_interval (gateway_config_server.py:145)
  ['r', 'e', 'c', 'o', 'r', 'd'],  -- record (network_diagnostic_server.py:103)
  ['r', 'e', 'c', 'o', 'r', 'd', '_', 'l', 'i', 's', 't'],  -- record_list (config.py:622)
  ['r', 'e', 'g', 'i', 's', 't', 'e', 'r', '_', 'm', 'a', 'x', '_', 's', 'i', 'z', 'e'],  -- register_max_size (rrule_scheduler.py:197)
  ['r', 'e', 'l', 'a', 't', 'i', 'v', 'e', '_', 'v', 'a', 'l', 'u', 'e'],  -- relative_value (properties.py:352)
  ['r', 'e', 'l', 'a', 'y'],  -- relay (config.py:823)
  ['r', 'e', 'm', 'a', 'i', 'n', 'i', 'n', 'g', '_', 't', 'i', 'm', 'e'],  -- remaining_time (ctl.py:109)
  ['r', 'e', 's', 'o', 'l', 'u', 't', 'i', 'o', 'n'],  -- resolution (generics.py:66)
  ['r', 'e', 't', 'r', 'a', 'n', 's', 'm', 'i', 't'],  -- retransmit (config.py:824)
  ['r', 'f', 'u'],  -- rfu (config.py:839)
  ['r', 's', 's', 'i', '_', 't', 'h', 'r', 'e', 's', 'h', 'o', 'l', 'd'],  -- rssi_threshold (debug.py:86)
  ['r', 'u', 'l', 'e'],  -- rule (rrule_scheduler.py:160)
  ['r', 'u', 'l', 'e', '_', 'i', 'd'],  -- rule_id (rrule_scheduler.py:159)
  ['r', 'u', 'l', 'e', '_', 'i', 'd', 's'],  -- rule_ids (rrule_scheduler.py:191)
  ['r', 'u', 'l', 'e', 's'],  -- rules (rrule_scheduler.py:185)
  ['s', 'c', 'e', 'n', 'e', '_', 'n', 'u', 'm', 'b', 'e', 'r'],  -- scene_number (scene.py:53)
  ['s', 'c', 'e', 'n', 'e', 's'],  -- scenes (scene.py:91)
  ['s', 'c', 'h', 'e', 'd', 'u', 'l', 'e', 'r', '_', 'm', 'o', 'd', 'e'],  -- scheduler_mode (rrule_scheduler.py:203)
  ['s', 'c', 'h', 'e', 'd', 'u', 'l', 'e', 'r', '_', 'r', 'e', 'g', 'i', 's', 't', 'e', 'r', '_', 'e', 'n', 't', 'r', 'y'],  -- scheduler_register_entry (rrule_scheduler.py:214)
  ['s', 'e', 'c', 'o', 'n', 'd'],  -- second (config.py:719)
  ['s', 'e', 'c', 'o', 'n', 'd', 's'],  -- seconds (properties.py:295)
  ['s', 'e', 'n', 's', 'i', 'n', 'g', '_', 'd', 'u', 'r', 'a', 't', 'i', 'o', 'n'],  -- sensing_duration (properties.py:330)
  ['s', 'e', 'n', 's', 'o', 'r', '_', 'm', 'e', 'a', 's', 'u', 'r', 'e', 'm', 'e', 'n', 't', '_', 'p', 'e', 'r', 'i', 'o', 'd'],  -- sensor_measurement_period (sensor.py:239)
  ['s', 'e', 'n', 's', 'o', 'r', '_', 'p', 'r', 'o', 'p', 'e', 'r', 't', 'y', '_', 'i', 'd'],  -- sensor_property_id (sensor.py:125)
  ['s', 'e', 'n', 's', 'o', 'r', '_', 's', 'a', 'm', 'p', 'l', 'i', 'n', 'g', '_', 'f', 'u', 'n', 'c', 'i', 'o', 'n'],  -- sensor_sampling_funcion (sensor.py:238)
  ['s', 'e', 'n', 's', 'o', 'r', '_', 's', 'e', 't', 't', 'i', 'n', 'g', '_', 'a', 'c', 'c', 'e', 's', 's'],  -- sensor_setting_access (sensor.py:207)
  ['s', 'e', 'n', 's', 'o', 'r', '_', 's', 'e', 't', 't', 'i', 'n', 'g', '_', 'p', 'r', 'o', 'p', 'e', 'r', 't', 'y', '_', 'i', 'd'],  -- sensor_setting_property_id (sensor.py:130)
  ['s', 'e', 'n', 's', 'o', 'r', '_', 's', 'e', 't', 't', 'i', 'n', 'g', '_', 'p', 'r', 'o', 'p', 'e', 'r', 't', 'y', '_', 'i', 'd', 's'],  -- sensor_setting_property_ids (sensor.py:228)
  ['s', 'e', 'n', 's', 'o', 'r', '_', 'u', 'p', 'd', 'a', 't', 'e', '_', 'i', 'n', 't', 'e', 'r', 'v', 'a', 'l'],  -- sensor_update_interval (sensor.py:240)
  ['s', 'e', 'q', 'u', 'e', 'n', 'c', 'e'],  -- sequence (debug.py:185)
  ['s', 'e', 'r', 'v', 'e', 'r', '_', 'a', 'd', 'd', 'r', 'e', 's', 's'],  -- server_address (gateway_config_server.py:141)
  ['s', 'e', 'r', 'v', 'e', 'r', '_', 'a', 'd', 'd', 'r', 'e', 's', 's', '_', 'l', 'e', 'n', 'g', 't', 'h'],  -- server_address_length (gateway_config_server.py:140)
  ['s', 'e', 'r', 'v', 'e', 'r', '_', 'p', 'o', 'r', 't', '_', 'n', 'u', 'm', 'b', 'e', 'r'],  -- server_port_number (gateway_config_server.py:139)
  ['s', 'i', 'g', '_', 'm', 'o', 'd', 'e', 'l', 's'],  -- sig_models (config.py:552)
  ['s', 'i', 'g', '_', 'n', 'u', 'm', 'b', 'e', 'r'],  -- sig_number (config.py:550)
  ['s', 'i', 'z', 'e'],  -- size (debug.py:164)
  ['s', 'l', 'o', 't', '_', 'i', 'd'],  -- slot_id (rrule_scheduler.py:136)
  ['s', 'l', 'o', 't', '_', 'p', 'a', 'r', 'a', 'm', 'e', 't', 'e', 'r'],  -- slot_parameter (rrule_scheduler.py:138)
  ['s', 'o', 'u', 'r', 'c', 'e'],  -- source (config.py:1072)
  ['s', 't', 'a', 'n', 'd', 'a', 'r', 'd', '_', 'd', 'e', 'v', 'i', 'a', 't', 'i', 'o', 'n', '_', 'e', 'l', 'e', 'c', 't', 'r', 'i', 'c', '_', 'c', 'u', 'r', 'r', 'e', 'n', 't', '_', 'v', 'a', 'l', 'u', 'e'],  -- standard_deviation_electric_current_value (properties.py:346)
  ['s', 't', 'a', 'n', 'd', 'a', 'r', 'd', '_', 'd', 'e', 'v', 'i', 'a', 't', 'i', 'o', 'n', '_', 't', 'e', 'm', 'p', 'e', 'r', 'a', 't', 'u', 'r', 'e'],  -- standard_deviation_temperature (properties.py:453)
  ['s', 't', 'a', 'n', 'd', 'a', 'r', 'd', '_', 'd', 'e', 'v', 'i', 'a', 't', 'i', 'o', 'n', '_', 'v', 'o', 'l', 't', 'a', 'g', 'e', '_', 'v', 'a', 'l', 'u', 'e'],  -- standard_deviation_voltage_value (properties.py:376)
  ['s', 't', 'a', 'r', 't', '_', 't', 'i', 'm', 'e'],  -- start_time (properties.py:408)
  ['s', 't', 'a', 't', 's'],  -- stats (debug.py:117)
  ['s', 't', 'a', 't', 'u', 's'],  -- status (config.py:1006)
  ['s', 't', 'a', 't', 'u', 's', '_', 'c', 'o', 'd', 'e'],  -- status_code (gateway_config_server.py:195)
  ['s', 't', 'a', 't', 'u', 's', '_', 't', 'r', 'i', 'g', 'g', 'e', 'r', '_', 'd', 'e', 'l', 't', 'a', '_', 'd', 'o', 'w', 'n'],  -- status_trigger_delta_down (sensor.py:319)
  ['s', 't', 'a', 't', 'u', 's', '_', 't', 'r', 'i', 'g', 'g', 'e', 'r', '_', 'd', 'e', 'l', 't', 'a', '_', 'u', 'p'],  -- status_trigger_delta_up (sensor.py:320)
  ['s', 't', 'a', 't', 'u', 's', '_', 't', 'r', 'i', 'g', 'g', 'e', 'r', '_', 't', 'y', 'p', 'e'],  -- status_trigger_type (sensor.py:308)
  ['s', 't', 'e', 'p', '_', 'r', 'e', 's', 'o', 'l', 'u', 't', 'i', 'o', 'n'],  -- step_resolution (config.py:763)
  ['s', 't', 'e', 'p', 's'],  -- steps (generics.py:67)
  ['s', 'u', 'b', '_', 'c', 'a', 't', 'e', 'g', 'o', 'r', 'y'],  -- sub_category (properties.py:589)
  ['s', 'u', 'b', 'o', 'p', 'c', 'o', 'd', 'e'],  -- subopcode (debug.py:198)
  ['s', 'u', 'b', 's', 'e', 'c', 'o', 'n', 'd'],  -- subsecond (time.py:118)
  ['s', 'y', 'n', 'c', '_', 'i', 'n', 't', 'e', 'g', 'r', 'a', 'l'],  -- sync_integral (light_extended_controller.py:86)
  ['t', 'a', 'i', '_', 'o', 'f', '_', 'd', 'e', 'l', 't', 'a', '_', 'c', 'h', 'a', 'n', 'g', 'e'],  -- tai_of_delta_change (time.py:274)
  ['t', 'a', 'i', '_', 'o', 'f', '_', 'z', 'o', 'n', 'e', '_', 'c', 'h', 'a', 'n', 'g', 'e'],  -- tai_of_zone_change (time.py:261)
  ['t', 'a', 'i', '_', 's', 'e', 'c', 'o', 'n', 'd', 's'],  -- tai_seconds (time.py:112)
  ['t', 'a', 'i', '_', 'u', 't', 'c', '_', 'd', 'e', 'l', 't', 'a'],  -- tai_utc_delta (time.py:121)
  ['t', 'a', 'r', 'g', 'e', 't', '_', 'c', 't', 'l', '_', 'd', 'e', 'l', 't', 'a', '_', 'u', 'v'],  -- target_ctl_delta_uv (ctl.py:108)
  ['t', 'a', 'r', 'g', 'e', 't', '_', 'c', 't', 'l', '_', 'l', 'i', 'g', 'h', 't', 'n', 'e', 's', 's'],  -- target_ctl_lightness (ctl.py:90)
  ['t', 'a', 'r', 'g', 'e', 't', '_', 'c', 't', 'l', '_', 't', 'e', 'm', 'p', 'e', 'r', 'a', 't', 'u', 'r', 'e'],  -- target_ctl_temperature (ctl.py:107)
  ['t', 'a', 'r', 'g', 'e', 't', '_', 'l', 'e', 'v', 'e', 'l'],  -- target_level (level.py:95)
  ['t', 'a', 'r', 'g', 'e', 't', '_', 'l', 'i', 'g', 'h', 't', 'n', 'e', 's', 's'],  -- target_lightness (lightness.py:74)
  ['t', 'a', 'r', 'g', 'e', 't', '_', 'o', 'n', 'o', 'f', 'f'],  -- target_onoff (onoff.py:63)
  ['t', 'a', 'r', 'g', 'e', 't', '_', 's', 'c', 'e', 'n', 'e'],  -- target_scene (scene.py:77)
  ['t', 'e', 'm', 'p', 'e', 'r', 'a', 't', 'u', 'r', 'e'],  -- temperature (properties.py:439)
  ['t', 'e', 's', 't', '_', 'i', 'd'],  -- test_id (health.py:30)
  ['t', 'i', 'd'],  -- tid (ctl.py:120)
  ['t', 'i', 'm', 'e'],  -- time (debug.py:104)
  ['t', 'i', 'm', 'e', '_', 'a', 'u', 't', 'h', 'o', 'r', 'i', 't', 'y'],  -- time_authority (time.py:122)
  ['t', 'i', 'm', 'e', '_', 'e', 'l', 'a', 'p', 's', 'e', 'd', '_', 's', 'i', 'n', 'c', 'e', '_', 'l', 'a', 's', 't', '_', 'e', 'v', 'e', 'n', 't'],  -- time_elapsed_since_last_event (properties.py:605)
  ['t', 'i', 'm', 'e', '_', 'r', 'o', 'l', 'e'],  -- time_role (time.py:248)
  ['t', 'i', 'm', 'e', '_', 't', 'o', '_', 'c', 'h', 'a', 'r', 'g', 'e'],  -- time_to_charge (battery.py:85)
  ['t', 'i', 'm', 'e', '_', 't', 'o', '_', 'd', 'i', 's', 'c', 'h', 'a', 'r', 'g', 'e'],  -- time_to_discharge (battery.py:84)
  ['t', 'i', 'm', 'e', '_', 'z', 'o', 'n', 'e', '_', 'o', 'f', 'f', 's', 'e', 't'],  -- time_zone_offset (time.py:125)
  ['t', 'i', 'm', 'e', '_', 'z', 'o', 'n', 'e', '_', 'o', 'f', 'f', 's', 'e', 't', '_', 'c', 'u', 'r', 'r', 'e', 'n', 't'],  -- time_zone_offset_current (time.py:265)
  ['t', 'i', 'm', 'e', '_', 'z', 'o', 'n', 'e', '_', 'o', 'f', 'f', 's', 'e', 't', '_', 'n', 'e', 'w'],  -- time_zone_offset_new (time.py:260)
  ['t', 'o', 't', 'a', 'l', '_', 'e', 't', 'h', '_', 'r', 'x', '_', 'e', 'r', 'r', 'o', 'r', 's'],  -- total_eth_rx_errors (gateway_config_server.py:206)
  ['t', 'o', 't', 'a', 'l', '_', 'e', 't', 'h', '_', 't', 'x', '_', 'e', 'r', 'r', 'o', 'r', 's'],  -- total_eth_tx_errors (gateway_config_server.py:207)
  ['t', 'r', 'a', 'n', 's', 'i', 't', 'i', 'o', 'n'],  -- transition (config.py:1040)
  ['t', 'r', 'a', 'n', 's', 'i', 't', 'i', 'o', 'n', '_', 't', 'i', 'm', 'e'],  -- transition_time (generics.py:71)
  ['t', 't', 'l'],  -- ttl (config.py:1059)
  ['t', 'y', 'p', 'i', 'c', 'a', 'l', '_', 'e', 'l', 'e', 'c', 't', 'r', 'i', 'c', '_', 'c', 'u', 'r', 'r', 'e', 'n', 't', '_', 'v', 'a', 'l', 'u', 'e'],  -- typical_electric_current_value (properties.py:340)
  ['t', 'y', 'p', 'i', 'c', 'a', 'l', '_', 'p', 'o', 'w', 'e', 'r', '_', 'v', 'a', 'l', 'u', 'e'],  -- typical_power_value (properties.py:428)
  ['t', 'y', 'p', 'i', 'c', 'a', 'l', '_', 'v', 'o', 'l', 't', 'a', 'g', 'e', '_', 'v', 'a', 'l', 'u', 'e'],  -- typical_voltage_value (properties.py:370)
  ['u', 'n', 'c', 'e', 'r', 't', 'a', 'i', 'n', 't', 'y'],  -- uncertainty (time.py:119)
  ['u', 'p', 't', 'i', 'm', 'e'],  -- uptime (debug.py:96)
  ['v', 'e', 'n', 'd', 'o', 'r', '_', 'i', 'd'],  -- vendor_id (config.py:433)
  ['v', 'e', 'n', 'd', 'o', 'r', '_', 'm', 'o', 'd', 'e', 'l', 's'],  -- vendor_models (config.py:553)
  ['v', 'e', 'n', 'd', 'o', 'r', '_', 'n', 'u', 'm', 'b', 'e', 'r'],  -- vendor_number (config.py:551)
  ['v', 'e', 'r', 's', 'i', 'o', 'n'],  -- version (config.py:614)
  ['v', 'e', 'r', 's', 'i', 'o', 'n', '_', 'x'],  -- version_x (config.py:607)
  ['v', 'e', 'r', 's', 'i', 'o', 'n', '_', 'y'],  -- version_y (config.py:608)
  ['v', 'e', 'r', 's', 'i', 'o', 'n', '_', 'z'],  -- version_z (config.py:609)
  ['v', 'i', 'd'],  -- vid (config.py:559)
  ['v', 'o', 'l', 't', 'a', 'g', 'e'],  -- voltage (properties.py:360)
  ['v', 'o', 'l', 't', 'a', 'g', 'e', '_', 'f', 'r', 'e', 'q', 'u', 'e', 'n', 'c', 'y'],  -- voltage_frequency (properties.py:393)
  ['v', 'o', 'l', 't', 'a', 'g', 'e', '_', 'v', 'a', 'l', 'u', 'e'],  -- voltage_value (properties.py:364)
  ['y', 'e', 'a', 'r']]  -- year (properties.py:232)

/-- The names. -/
def fieldNames : List String := fieldChars.map String.ofList

end BM
