{"claims": [
 {"property": "C01", "status": "proved", "theorems": ["BM.Props.C01_roundtrip", "BM.Props.C01_parse_inverse", "BM.Props.C01_reject_7F", "BM.Props.C01_reject_truncated", "BM.Props.C01_prefix_free", "BM.Props.C01_ill_formed", "BM.Props.C01_written", "BM.Props.C01_accepted"], "note": ""},
 {"property": "C02", "status": "proved", "theorems": ["BM.Props.C02_numbers", "BM.Props.C02_names", "BM.Props.C02_well_formed", "BM.Props.C02_table"], "note": ""},
 {"property": "C03", "status": "proved", "theorems": ["BM.Props.C03_passthrough", "BM.Props.C03_build", "BM.Props.C03_only_unknown"], "note": ""},
 {"property": "C04", "status": "proved", "theorems": ["BM.Props.C04_parse", "BM.Props.C04_build", "BM.Props.C04_keys", "BM.Props.C04_spellings", "BM.Props.C04_unknown_name", "BM.Props.C04_unknown_sub"], "note": ""},
 {"property": "C05", "status": "proved", "theorems": ["BM.Props.C05_encode_decode"], "note": ""},
 {"property": "C06", "status": "proved", "theorems": ["BM.Props.C06_reencode"], "note": ""},
 {"property": "C07", "status": "proved", "theorems": ["BM.Props.C07_lossless"], "note": ""},
 {"property": "C08", "status": "proved", "theorems": ["BM.Props.C08_build_sound", "BM.Props.C08_payload_required"], "note": ""},
 {"property": "C09", "status": "proved", "theorems": ["BM.Props.C09_address_type", "BM.Props.C09_unassigned", "BM.Props.C09_unicast", "BM.Props.C09_group", "BM.Props.C09_virtual", "BM.Props.C09_not_virtual", "BM.Props.C09_subscription", "BM.Props.C09_status_subscription", "BM.Props.C09_unicast_unassigned", "BM.Props.C09_unicast_unassigned_group"], "note": ""},
 {"property": "C10", "status": "proved", "theorems": ["BM.Props.C10_ttl", "BM.Props.C10_fast_period", "BM.Props.C10_scene_number", "BM.Props.C10_int12", "BM.Props.C10_range"], "note": ""},
 {"property": "C11", "status": "proved", "theorems": ["BM.Props.C11_single_build", "BM.Props.C11_single_parse", "BM.Props.C11_pair_build", "BM.Props.C11_pair_parse"], "note": ""},
 {"property": "C12", "status": "proved", "theorems": ["BM.Props.C12_roundtrip", "BM.Props.C12_empties", "BM.Props.C12_sound"], "note": ""},
 {"property": "C13", "status": "proved", "theorems": ["BM.Props.C13_decode", "BM.Props.C13_build", "BM.Props.C13_bytes"], "note": ""},
 {"property": "C14", "status": "proved", "theorems": ["BM.Props.C14_decode", "BM.Props.C14_encode", "BM.Props.C14_accept", "BM.Props.C14_reject", "BM.Props.C14_again", "BM.Props.C14_again_strict"], "note": ""},
 {"property": "C15", "status": "proved", "theorems": ["BM.Props.C15_decode", "BM.Props.C15_again", "BM.Props.C15_encode", "BM.Props.C15_range"], "note": ""},
 {"property": "C16", "status": "proved", "theorems": ["BM.Props.C16_long", "BM.Props.C16_short", "BM.Props.C16_neither", "BM.Props.C16_silent", "BM.Props.C16_parse", "BM.Props.C16_sensor_get"], "note": ""},
 {"property": "C17", "status": "proved", "theorems": ["BM.Props.C17_unsigned", "BM.Props.C17_signed", "BM.Props.C17_request", "BM.Props.C17_properties", "BM.Props.C17_presence"], "note": ""},
 {"property": "C18", "status": "proved", "theorems": ["BM.Props.C18_decode", "BM.Props.C18_encode", "BM.Props.C18_too_large", "BM.Props.C18_special", "BM.Props.C18_roundtrip"], "note": ""},
 {"property": "C19", "status": "proved", "theorems": ["BM.Props.C19_roundtrip", "BM.Props.C19_bytes"], "note": ""},
 {"property": "C20", "status": "proved", "theorems": ["BM.Props.C20_formatA", "BM.Props.C20_formatB", "BM.Props.C20_reject", "BM.Props.C20_corrupt", "BM.Props.C20_received"], "note": ""},
 {"property": "C21", "status": "proved", "theorems": ["BM.Props.C21_maximal", "BM.Props.C21_exactly", "BM.Props.C21_succeeds", "BM.Props.C21_fixed", "BM.Props.C21_property_ids", "BM.Props.C21_subscription_list"], "note": ""},
 {"property": "C22", "status": "proved", "theorems": ["BM.Props.C22_complete", "BM.Props.C22_sub_complete", "BM.Props.C22_disjoint", "BM.Props.C22_parse", "BM.Props.C22_build"], "note": ""},
 {"property": "C23", "status": "proved", "theorems": ["BM.Props.C23_roundtrip", "BM.Props.C23_unknown", "BM.Props.C23_read", "BM.Props.C23_again", "BM.Props.C23_incomplete", "BM.Props.C23_lost"], "note": ""},
 {"property": "C24", "status": "proved", "theorems": ["BM.Props.C24_parse_functional", "BM.Props.C24_parse_duration", "BM.Props.C24_roundtrip", "BM.Props.C24_again", "BM.Props.C24_end"], "note": ""},
 {"property": "C25", "status": "proved", "theorems": ["BM.Props.C25_mac", "BM.Props.C25_mac_case", "BM.Props.C25_mac_only", "BM.Props.C25_ip", "BM.Props.C25_ip_only", "BM.Props.C25_ip_messages", "BM.Props.C25_configuration"], "note": ""},
 {"property": "C26", "status": "proved", "theorems": ["BM.Props.C26_members", "BM.Props.C26_parse_only", "BM.Props.C26_build_only"], "note": ""},
 {"property": "C27", "status": "proved", "theorems": ["BM.Props.C27_page0", "BM.Props.C27_page1", "BM.Props.C27_page2"], "note": ""},
 {"property": "C28", "status": "proved", "theorems": ["BM.Props.C28_parse", "BM.Props.C28_build", "BM.Props.C28_entry_set", "BM.Props.C28_entry_status", "BM.Props.C28_dates", "BM.Props.C28_rules_any_order", "BM.Props.C28_entries_any_order", "BM.Props.C28_rules_end", "BM.Props.C28_named_rule", "BM.Props.C28_named_subopcode"], "note": ""},
 {"property": "C29", "status": "proved", "theorems": ["BM.Props.C29_build_size", "BM.Props.C29_parse_size"], "note": ""},
 {"property": "C30", "status": "proved", "theorems": ["BM.Props.C30_roundtrip", "BM.Props.C30_dict", "BM.Props.C30_opcodes", "BM.Props.C30_fields", "BM.Props.C30_date", "BM.Props.C30_datetime"], "note": ""},
 {"property": "C31", "status": "proved", "theorems": ["BM.Props.C31_trailing", "BM.Props.C31_terminates"], "note": ""},
 {"property": "C32", "status": "proved", "theorems": ["BM.Props.C32_unknown", "BM.Props.C32_known", "BM.Props.C32_zero", "BM.Props.C32_counterexample"], "note": ""},
 {"property": "C33", "status": "proved", "theorems": ["BM.Props.C33_parse", "BM.Props.C33_parse_unknown", "BM.Props.C33_build", "BM.Props.C33_build_unknown"], "note": ""},
 {"property": "C34", "status": "proved", "theorems": ["BM.Props.C34_bytes", "BM.Props.C34_lossless", "BM.Props.C34_stable", "BM.Props.C34_keys", "BM.Props.C34_proxy"], "note": ""},
 {"property": "C35", "status": "proved", "theorems": ["BM.Props.C35_width", "BM.Props.C35_too_wide", "BM.Props.C35_values", "BM.Props.C35_logarithm"], "note": ""},
 {"property": "C36", "status": "proved", "theorems": ["BM.Props.C36_ordinals", "BM.Props.C36_distinct"], "note": ""},
 {"property": "C37", "status": "proved", "theorems": ["BM.Props.C37_types", "BM.Props.C37_names", "BM.Props.C37_switch", "BM.Props.C37_sample", "BM.Props.C37_anonymous", "BM.Props.C37_twice", "BM.Props.C37_clash"], "note": ""},
 {"property": "C38", "status": "proved", "theorems": ["BM.Props.C38_same", "BM.Props.C38_build", "BM.Props.C38_names", "BM.Props.C38_access", "BM.Props.C38_assign", "BM.Props.C38_replace", "BM.Props.C38_rekey", "BM.Props.C38_property", "BM.Props.C38_property_names", "BM.Props.C38_setting"], "note": ""},
 {"property": "C39", "status": "proved", "theorems": ["BM.Props.C39_parse", "BM.Props.C39_build", "BM.Props.C39_refused"], "note": ""},
 {"property": "C40", "status": "proved", "theorems": ["BM.Props.C40_epoch", "BM.Props.C40_valid", "BM.Props.C40_next", "BM.Props.C40_last", "BM.Props.C40_count", "BM.Props.C40_instant", "BM.Props.C40_refused"], "note": ""},
 {"property": "C41", "status": "proved", "theorems": ["BM.Props.C41_numbers", "BM.Props.C41_read", "BM.Props.C41_write"], "note": ""},
 {"property": "C42", "status": "proved", "theorems": ["BM.Props.C42_twice", "BM.Props.C42_unchanged", "BM.Props.C42_named", "BM.Props.C42_unknown", "BM.Props.C42_lists"], "note": ""},
 {"property": "C43", "status": "proved", "theorems": ["BM.Props.C43_relay", "BM.Props.C43_times", "BM.Props.C43_hops"], "note": ""},
 {"property": "C44", "status": "proved", "theorems": ["BM.Props.C44_value", "BM.Props.C44_readings", "BM.Props.C44_status", "BM.Props.C44_unchanged", "BM.Props.C44_property"], "note": ""},
 {"property": "C45", "status": "proved", "theorems": ["BM.Props.C45_params", "BM.Props.C45_message", "BM.Props.C45_message_fails", "BM.Props.C45_list_size", "BM.Props.C45_entries"], "note": ""},
 {"property": "C46", "status": "proved", "theorems": ["BM.Props.C46_formats", "BM.Props.C46_objects", "BM.Props.C46_opcode", "BM.Props.C46_accepted", "BM.Props.C46_accepted_sized"], "note": ""},
 {"property": "C47", "status": "proved", "theorems": ["BM.Props.C47_sent", "BM.Props.C47_far_date", "BM.Props.C47_spill", "BM.Props.C47_named_rules", "BM.Props.C47_features"], "note": ""},
 {"property": "C48", "status": "proved", "theorems": ["BM.Props.C48_parse", "BM.Props.C48_occurs", "BM.Props.C48_plain_occurs", "BM.Props.C48_guard"], "note": ""},
 {"property": "C49", "status": "proved", "theorems": ["BM.Props.C49_time", "BM.Props.C49_functional", "BM.Props.C49_duration"], "note": ""},
 {"property": "C50", "status": "proved", "theorems": ["BM.Props.C50_accepts", "BM.Props.C50_rejects"], "note": ""}
]}
