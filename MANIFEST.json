{
 "claims": [
  {
   "property": "C01",
   "status": "proved",
   "theorems": [
    "Ur20.C01_split_merge",
    "Ur20.C01_merge_split"
   ],
   "note": "Both directions, all 16-bit addresses."
  },
  {
   "property": "C02",
   "status": "proved",
   "theorems": [
    "Ur20.C02_offsets"
   ],
   "note": "All register lists; an odd trailing word yields no entry because the length is len/2."
  },
  {
   "property": "C03",
   "status": "proved",
   "theorems": [
    "Ur20.C03_module_list"
   ],
   "note": "Complete outcome characterisation, including that no other outcome exists."
  },
  {
   "property": "C04",
   "status": "proved",
   "theorems": [
    "Ur20.C04_injective",
    "Ur20.C04_surjective",
    "Ur20.C04_ids",
    "Ur20.C04_unknown"
   ],
   "note": "Unique ids, and the ids of an independent table; every other id is unknown."
  },
  {
   "property": "C05",
   "status": "proved",
   "theorems": [
    "Ur20.C05_parse_iff",
    "Ur20.C05_parse_error",
    "Ur20.C05_spelling"
   ],
   "note": "For every upper-casing function that behaves like ASCII on ASCII letters."
  },
  {
   "property": "C06",
   "status": "partial",
   "theorems": [
    "Ur20.C06_category_partial",
    "Ur20.C06_category_error",
    "Ur20.C06_spelling_partial",
    "Ur20.C06_statement_false"
   ],
   "note": "False of the code for the category PF (the full statement is C06_statement, refuted by C06_statement_false); proved for every other category."
  },
  {
   "property": "C07",
   "status": "partial",
   "theorems": [
    "Ur20.C07_input_partial",
    "Ur20.C07_output",
    "Ur20.C07_statement_false"
   ],
   "note": "False of the code for UR20_PF_O_1DI_SIL, which has channel count 0 but decodes one value; proved for every other module and for all output data."
  },
  {
   "property": "C08",
   "status": "proved",
   "theorems": [
    "Ur20.C08_windows",
    "Ur20.C08_outcome",
    "Ur20.C08_counts"
   ],
   "note": "Up to 64 modules as stated; the outcome for all other lists (panic with overflow checks, wrapped addresses without) is exact."
  },
  {
   "property": "C09",
   "status": "proved",
   "theorems": [
    "Ur20.C09_register_count",
    "Ur20.C09_supported"
   ],
   "note": ""
  },
  {
   "property": "C10",
   "status": "proved",
   "theorems": [
    "Ur20.C10_accepted"
   ],
   "note": ""
  },
  {
   "property": "C11",
   "status": "proved",
   "theorems": [
    "Ur20.C11_fields",
    "Ur20.C11_codes_injective"
   ],
   "note": ""
  },
  {
   "property": "C12",
   "status": "partial",
   "theorems": [
    "Ur20.C12_surplus_partial",
    "Ur20.C12_statement_false",
    "Ur20.C12_parameterless_reject",
    "Ur20.C12_thermocouple_never",
    "Ur20.C12_thermocouple_outcome"
   ],
   "note": "False of the code for three types (full statement C12_statement, refuted): the thermocouple module panics on seven or more surplus valid words, the two types without parameters reject any surplus word. Proved for all other types and for up to six surplus words of the thermocouple module; the outcome of the excluded cases is exact."
  },
  {
   "property": "C13",
   "status": "proved",
   "theorems": [
    "Ur20.C13_lengths",
    "Ur20.C13_first_error",
    "Ur20.C13_success"
   ],
   "note": ""
  },
  {
   "property": "C14",
   "status": "proved",
   "theorems": [
    "Ur20.C14_readers"
   ],
   "note": ""
  },
  {
   "property": "C15",
   "status": "proved",
   "theorems": [
    "Ur20.C15_digital_input"
   ],
   "note": ""
  },
  {
   "property": "C16",
   "status": "proved",
   "theorems": [
    "Ur20.C16_accepts",
    "Ur20.C16_bits"
   ],
   "note": ""
  },
  {
   "property": "C17",
   "status": "proved",
   "theorems": [
    "Ur20.C17_decode_encode",
    "Ur20.C17_encode_decode"
   ],
   "note": ""
  },
  {
   "property": "C18",
   "status": "proved",
   "theorems": [
    "Ur20.C18_safety"
   ],
   "note": ""
  },
  {
   "property": "C19",
   "status": "proved",
   "theorems": [
    "Ur20.C19_round_trip",
    "Ur20.C19_layout"
   ],
   "note": ""
  },
  {
   "property": "C20",
   "status": "proved",
   "theorems": [
    "Ur20.C20_errors"
   ],
   "note": ""
  },
  {
   "property": "C21",
   "status": "proved",
   "theorems": [
    "Ur20.C21_input",
    "Ur20.C21_output",
    "Ur20.C21_counters"
   ],
   "note": ""
  },
  {
   "property": "C22",
   "status": "proved",
   "theorems": [
    "Ur20.C22_registers"
   ],
   "note": ""
  },
  {
   "property": "C23",
   "status": "proved",
   "theorems": [
    "Ur20.C23_handshake"
   ],
   "note": ""
  },
  {
   "property": "C24",
   "status": "proved",
   "theorems": [
    "Ur20.C24_stop_and_wait"
   ],
   "note": ""
  },
  {
   "property": "C25",
   "status": "proved",
   "theorems": [
    "Ur20.C25_exactly_once",
    "Ur20.C25_prefix",
    "Ur20.C25_written"
   ],
   "note": "All schedules of writes, reads, split cycles and device steps."
  },
  {
   "property": "C26",
   "status": "proved",
   "theorems": [
    "Ur20.C26_rounds",
    "Ur20.C26_everything_delivered"
   ],
   "note": ""
  },
  {
   "property": "C27",
   "status": "proved",
   "theorems": [
    "Ur20.C27_segments",
    "Ur20.C27_write",
    "Ur20.C27_encodable",
    "Ur20.C99_accepted"
   ],
   "note": ""
  },
  {
   "property": "C28",
   "status": "proved",
   "theorems": [
    "Ur20.C28_exactly_once"
   ],
   "note": ""
  },
  {
   "property": "C29",
   "status": "proved",
   "theorems": [
    "Ur20.C29_acknowledge"
   ],
   "note": ""
  },
  {
   "property": "C30",
   "status": "proved",
   "theorems": [
    "Ur20.C30_read",
    "Ur20.C30_reads",
    "Ur20.C98_received"
   ],
   "note": ""
  },
  {
   "property": "C31",
   "status": "proved",
   "theorems": [
    "Ur20.C31_addresses"
   ],
   "note": ""
  },
  {
   "property": "C32",
   "status": "proved",
   "theorems": [
    "Ur20.C32_last_wins",
    "Ur20.C32_commute"
   ],
   "note": ""
  },
  {
   "property": "C33",
   "status": "proved",
   "theorems": [
    "Ur20.C33_writes_reach_image",
    "Ur20.C33_set_output"
   ],
   "note": ""
  },
  {
   "property": "C34",
   "status": "proved",
   "theorems": [
    "Ur20.C34_consumed",
    "Ur20.C34_only_images",
    "Ur20.C34_applied_once"
   ],
   "note": ""
  },
  {
   "property": "C35",
   "status": "proved",
   "theorems": [
    "Ur20.C35_idle_digital"
   ],
   "note": ""
  },
  {
   "property": "C36",
   "status": "partial",
   "theorems": [
    "Ur20.C36_idle_analog_partial",
    "Ur20.C36_count_partial",
    "Ur20.C36_statement_false"
   ],
   "note": "False of the code: in format S7 the truncation when encoding loses one for some raw values (see C54). Proved: format S5 and multiples of 27 are returned unchanged, and every other value by at most one nearer to zero; in format S7 exactly a set of 9710 values (in the ranges that start above zero) or 3036 values (in the others) is changed."
  },
  {
   "property": "C37",
   "status": "proved",
   "theorems": [
    "Ur20.C37_no_partial_effect"
   ],
   "note": ""
  },
  {
   "property": "C38",
   "status": "partial",
   "theorems": [
    "Ur20.C38_partial",
    "Ur20.C38_statement_false",
    "Ur20.C38_segment_lost"
   ],
   "note": "False of the code: a cycle that fails while the new image is encoded has already consumed the pending writes. Proved for cycles that fail while one of the given images is decoded. Exactly what a failed cycle changes is C78."
  },
  {
   "property": "C39",
   "status": "partial",
   "theorems": [
    "Ur20.C39_partial",
    "Ur20.C39_statement_false"
   ],
   "note": "False of the code for UR20_PF_O_1DI_SIL (see C07); proved for the outputs of all modules and the inputs of all others."
  },
  {
   "property": "C40",
   "status": "proved",
   "theorems": [
    "Ur20.C40_inputs",
    "Ur20.C40_latest_only"
   ],
   "note": ""
  },
  {
   "property": "C41",
   "status": "proved",
   "theorems": [
    "Ur20.C41_layout",
    "Ur20.C41_no_gaps",
    "Ur20.C41_misplaced",
    "Ur20.C41_length",
    "Ur20.C41_own_bytes"
   ],
   "note": ""
  },
  {
   "property": "C42",
   "status": "proved",
   "theorems": [
    "Ur20.C42_independent"
   ],
   "note": ""
  },
  {
   "property": "C43",
   "status": "partial",
   "theorems": [
    "Ur20.C43_no_panic_partial",
    "Ur20.C43_statement_false"
   ],
   "note": "False of the code: with overflow checks an output offset below 0x8000 makes a cycle panic. Proved when every output offset is at least 0x8000. Exactly when a cycle panics is C77."
  },
  {
   "property": "C44",
   "status": "proved",
   "theorems": [
    "Ur20.C44_decode_input",
    "Ur20.C44_decode_output",
    "Ur20.C44_encode"
   ],
   "note": ""
  },
  {
   "property": "C45",
   "status": "partial",
   "theorems": [
    "Ur20.C45_decode_partial",
    "Ur20.C45_encode_partial",
    "Ur20.C45_inputs_partial",
    "Ur20.C45_outputs_partial",
    "Ur20.C45_returned_partial",
    "Ur20.C45_decode_statement_false",
    "Ur20.C45_encode_statement_false",
    "Ur20.C45_inputs_statement_false",
    "Ur20.C45_outputs_statement_false",
    "Ur20.C45_returned_statement_false"
   ],
   "note": "False of the code: a module of several bytes at bit 8 loses its last byte when decoded, and only its first byte is encoded. The full statements are refuted, for the process data functions and for what inputs(), outputs() and the returned image of a coupler show; proved is exactly which bytes do arrive and what is shown then."
  },
  {
   "property": "C46",
   "status": "proved",
   "theorems": [
    "Ur20.C46_decode"
   ],
   "note": ""
  },
  {
   "property": "C47",
   "status": "proved",
   "theorems": [
    "Ur20.C47_round_trip"
   ],
   "note": ""
  },
  {
   "property": "C48",
   "status": "partial",
   "theorems": [
    "Ur20.C48_cycle_partial",
    "Ur20.C48_statement_false"
   ],
   "note": "False of the code for presets above 0x7FFFFF microseconds, which are decoded but not encoded; proved for all other images, with the exact resulting words."
  },
  {
   "property": "C49",
   "status": "proved",
   "theorems": [
    "Ur20.C49_none",
    "Ur20.C49_accuracy",
    "Ur20.C49_zero"
   ],
   "note": ""
  },
  {
   "property": "C50",
   "status": "proved",
   "theorems": [
    "Ur20.C50_inputs",
    "Ur20.C50_outputs"
   ],
   "note": ""
  },
  {
   "property": "C51",
   "status": "proved",
   "theorems": [
    "Ur20.C51_inputs",
    "Ur20.C51_outputs"
   ],
   "note": ""
  },
  {
   "property": "C52",
   "status": "proved",
   "theorems": [
    "Ur20.C52_encode",
    "Ur20.C52_monotone"
   ],
   "note": ""
  },
  {
   "property": "C53",
   "status": "proved",
   "theorems": [
    "Ur20.C53_s5_exact"
   ],
   "note": ""
  },
  {
   "property": "C54",
   "status": "partial",
   "theorems": [
    "Ur20.C54_step_partial",
    "Ur20.C54_multiples_partial",
    "Ur20.C54_count_partial",
    "Ur20.C54_statement_false"
   ],
   "note": "False of the code: in format S7 the truncation when encoding loses one for some raw values, for example 45 in the range 0 to 20 mA. Proved: the value changes by at most one, towards zero, and not at all for multiples of 27; of the 65536 values exactly 9710 change in the ranges that start above zero and exactly 3036 in the others."
  },
  {
   "property": "C55",
   "status": "proved",
   "theorems": [
    "Ur20.C55_drift",
    "Ur20.C55_cycles"
   ],
   "note": ""
  },
  {
   "property": "C56",
   "status": "proved",
   "theorems": [
    "Ur20.C56_rtd"
   ],
   "note": ""
  },
  {
   "property": "C57",
   "status": "proved",
   "theorems": [
    "Ur20.C57_thermocouple"
   ],
   "note": ""
  },
  {
   "property": "C58",
   "status": "partial",
   "theorems": [
    "Ur20.C58_outputs_partial",
    "Ur20.C58_statement_false"
   ],
   "note": "False of the code for couplers with several serial modules, which share the memory of the last segment number; proved for couplers with exactly one. What several serial modules show is stated exactly in C80."
  },
  {
   "property": "C59",
   "status": "proved",
   "theorems": [
    "Ur20.C59_inputs"
   ],
   "note": ""
  },
  {
   "property": "C60",
   "status": "proved",
   "theorems": [
    "Ur20.C60_set_output_bytes"
   ],
   "note": ""
  },
  {
   "property": "C61",
   "status": "proved",
   "theorems": [
    "Ur20.C61_input_only",
    "Ur20.C61_set_output"
   ],
   "note": ""
  },
  {
   "property": "C62",
   "status": "proved",
   "theorems": [
    "Ur20.C62_transmit",
    "Ur20.C62_receive"
   ],
   "note": ""
  },
  {
   "property": "C63",
   "status": "proved",
   "theorems": [
    "Ur20.C63_own_calls",
    "Ur20.C63_independent"
   ],
   "note": ""
  },
  {
   "property": "C64",
   "status": "proved",
   "theorems": [
    "Ur20.C64_substitute",
    "Ur20.C64_substitute_diag"
   ],
   "note": ""
  },
  {
   "property": "C65",
   "status": "partial",
   "theorems": [
    "Ur20.C65_module_type_partial",
    "Ur20.C65_statement_false"
   ],
   "note": "False of the code for UR20_4AI_UI_16, which reports UR20_4AI_UI_12; proved for every other type."
  },
  {
   "property": "C66",
   "status": "proved",
   "theorems": [
    "Ur20.C66_accepts",
    "Ur20.C66_pending",
    "Ur20.C66_pending_anywhere"
   ],
   "note": ""
  },
  {
   "property": "C67",
   "status": "proved",
   "theorems": [
    "Ur20.C67_analog_write"
   ],
   "note": ""
  },
  {
   "property": "C68",
   "status": "proved",
   "theorems": [
    "Ur20.C68_success"
   ],
   "note": ""
  },
  {
   "property": "C69",
   "status": "proved",
   "theorems": [
    "Ur20.C69_needed",
    "Ur20.C69_success_iff"
   ],
   "note": ""
  },
  {
   "property": "C70",
   "status": "proved",
   "theorems": [
    "Ur20.C70_inputs"
   ],
   "note": ""
  },
  {
   "property": "C71",
   "status": "proved",
   "theorems": [
    "Ur20.C71_outputs"
   ],
   "note": ""
  },
  {
   "property": "C72",
   "status": "proved",
   "theorems": [
    "Ur20.C72_image",
    "Ur20.C72_overwritten"
   ],
   "note": "C72_overwritten: without the requirement that no later module uses the bytes of the module it is false."
  },
  {
   "property": "C73",
   "status": "proved",
   "theorems": [
    "Ur20.C73_read_back"
   ],
   "note": ""
  },
  {
   "property": "C74",
   "status": "proved",
   "theorems": [
    "Ur20.C74_inputs",
    "Ur20.C74_outputs"
   ],
   "note": ""
  },
  {
   "property": "C75",
   "status": "proved",
   "theorems": [
    "Ur20.C75_outputs",
    "Ur20.C75_no_outputs",
    "Ur20.C75_serial"
   ],
   "note": ""
  },
  {
   "property": "C76",
   "status": "proved",
   "theorems": [
    "Ur20.C76_default",
    "Ur20.C76_exists",
    "Ur20.C76_inputs_disabled",
    "Ur20.C76_outputs_disabled"
   ],
   "note": ""
  },
  {
   "property": "C77",
   "status": "proved",
   "theorems": [
    "Ur20.C77_panics"
   ],
   "note": ""
  },
  {
   "property": "C78",
   "status": "proved",
   "theorems": [
    "Ur20.C78_undecodable",
    "Ur20.C78_no_trace",
    "Ur20.C78_consumed"
   ],
   "note": ""
  },
  {
   "property": "C79",
   "status": "proved",
   "theorems": [
    "Ur20.C79_decoded_only",
    "Ur20.C79_serial"
   ],
   "note": ""
  },
  {
   "property": "C80",
   "status": "proved",
   "theorems": [
    "Ur20.C80_outputs",
    "Ur20.C80_inputs"
   ],
   "note": ""
  },
  {
   "property": "C81",
   "status": "proved",
   "theorems": [
    "Ur20.C81_inputs",
    "Ur20.C81_outputs"
   ],
   "note": ""
  },
  {
   "property": "C82",
   "status": "proved",
   "theorems": [
    "Ur20.C82_error",
    "Ur20.C82_kinds"
   ],
   "note": ""
  },
  {
   "property": "C83",
   "status": "partial",
   "theorems": [
    "Ur20.C83_order_partial",
    "Ur20.C83_harmless_partial",
    "Ur20.C83_receive_partial",
    "Ur20.C83_recovers_partial",
    "Ur20.C83_statement_false"
   ],
   "note": "The full statement (C83_statement) is false of the code: the segment carried by a lost image is gone (C83_statement_false). Proved: nothing is duplicated or reordered, nothing is lost unless a lost image carries a new segment, the receive direction is not affected, and the transmission goes on. Exactly which bytes are lost is C141 and C142. An application that keeps the last returned image and sends it again loses nothing (C129, C148)."
  },
  {
   "property": "C84",
   "status": "proved",
   "theorems": [
    "Ur20.C84_crash",
    "Ur20.C84_after_crash"
   ],
   "note": ""
  },
  {
   "property": "C85",
   "status": "proved",
   "theorems": [
    "Ur20.C85_closed_loop",
    "Ur20.C85_zeros"
   ],
   "note": ""
  },
  {
   "property": "C86",
   "status": "proved",
   "theorems": [
    "Ur20.C86_holds_last",
    "Ur20.C86_analog",
    "Ur20.C86_rests"
   ],
   "note": ""
  },
  {
   "property": "C87",
   "status": "proved",
   "theorems": [
    "Ur20.C87_display",
    "Ur20.C87_io",
    "Ur20.C87_description"
   ],
   "note": ""
  },
  {
   "property": "C88",
   "status": "proved",
   "theorems": [
    "Ur20.C88_read_to_end",
    "Ur20.C88_read_to_end_ends",
    "Ur20.C88_read_exact",
    "Ur20.C88_write_all",
    "Ur20.C88_plain"
   ],
   "note": ""
  },
  {
   "property": "C89",
   "status": "partial",
   "theorems": [
    "Ur20.C89_order_partial",
    "Ur20.C89_undecodable_partial",
    "Ur20.C89_receive_partial",
    "Ur20.C89_statement_false"
   ],
   "note": "the full statement C89_statement is false of the code: a cycle that fails to encode a value of any module takes a segment of a serial module from its queue (C89_statement_false). Exactly which bytes are lost is C141, for several modules C142, with late and lost images C152 to C155."
  },
  {
   "property": "C90",
   "status": "proved",
   "theorems": [
    "Ur20.C90_recovers",
    "Ur20.C90_after_crash"
   ],
   "note": ""
  },
  {
   "property": "C91",
   "status": "proved",
   "theorems": [
    "Ur20.C91_acknowledged",
    "Ur20.C91_received"
   ],
   "note": ""
  },
  {
   "property": "C92",
   "status": "proved",
   "theorems": [
    "Ur20.C92_order",
    "Ur20.C92_exactly_once",
    "Ur20.C92_receive",
    "Ur20.C92_delivered"
   ],
   "note": ""
  },
  {
   "property": "C93",
   "status": "proved",
   "theorems": [
    "Ur20.C93_order",
    "Ur20.C93_since_restart"
   ],
   "note": ""
  },
  {
   "property": "C94",
   "status": "proved",
   "theorems": [
    "Ur20.C94_encode",
    "Ur20.C94_equal",
    "Ur20.C94_decode",
    "Ur20.C94_proper",
    "Ur20.C94_hertz",
    "Ur20.C94_patterns"
   ],
   "note": ""
  },
  {
   "property": "C95",
   "status": "proved",
   "theorems": [
    "Ur20.C95_order",
    "Ur20.C95_exactly_once",
    "Ur20.C95_receive_order",
    "Ur20.C95_receive",
    "Ur20.C95_since_restart",
    "Ur20.C95_delivered"
   ],
   "note": ""
  },
  {
   "property": "C96",
   "status": "proved",
   "theorems": [
    "Ur20.C96_codes",
    "Ur20.C96_configures",
    "Ur20.C96_range"
   ],
   "note": ""
  },
  {
   "property": "C97",
   "status": "proved",
   "theorems": [
    "Ur20.C97_refines",
    "Ur20.C97_deterministic",
    "Ur20.C97_index_loops"
   ],
   "note": ""
  },
  {
   "property": "C98",
   "status": "proved",
   "theorems": [
    "Ur20.C98_received",
    "Ur20.C98_sent",
    "Ur20.C98_repeated",
    "Ur20.C98_cycle",
    "Ur20.C98_panics",
    "Ur20.C98_read",
    "Ur20.C98_write"
   ],
   "note": ""
  },
  {
   "property": "C99",
   "status": "proved",
   "theorems": [
    "Ur20.C99_received",
    "Ur20.C99_sent",
    "Ur20.C99_sent_once",
    "Ur20.C99_accepted"
   ],
   "note": ""
  },
  {
   "property": "C100",
   "status": "proved",
   "theorems": [
    "Ur20.C100_interleaving"
   ],
   "note": ""
  },
  {
   "property": "C101",
   "status": "proved",
   "theorems": [
    "Ur20.C101_noninterference"
   ],
   "note": "What `outputs()` shows of a serial module is excluded in the property itself: C58_statement_false shows that it depends on other serial modules."
  },
  {
   "property": "C102",
   "status": "proved",
   "theorems": [
    "Ur20.C102_pending",
    "Ur20.C102_received",
    "Ur20.C102_prompt"
   ],
   "note": ""
  },
  {
   "property": "C103",
   "status": "proved",
   "theorems": [
    "Ur20.C103_setup",
    "Ur20.C103_rejected"
   ],
   "note": ""
  },
  {
   "property": "C104",
   "status": "partial",
   "theorems": [
    "Ur20.C104_panics_partial",
    "Ur20.C104_wrong_number",
    "Ur20.C104_settings",
    "Ur20.C104_statement_false"
   ],
   "note": "the full statement C104_statement is false of the code: an analog output module with fewer than four channel parameter sets panics when it decodes its process output data (C104_statement_false). Proved: this is the only panic, all other modules with a wrong number of sets report errors, and modules with the right number behave as created ones."
  },
  {
   "property": "C105",
   "status": "proved",
   "theorems": [
    "Ur20.C105_module",
    "Ur20.C105_settings"
   ],
   "note": ""
  },
  {
   "property": "C106",
   "status": "proved",
   "theorems": [
    "Ur20.C106_channels",
    "Ur20.C106_category"
   ],
   "note": "All 63 types, by the parts of their names."
  },
  {
   "property": "C107",
   "status": "proved",
   "theorems": [
    "Ur20.C107_settles",
    "Ur20.C107_cycles",
    "Ur20.C107_s5"
   ],
   "note": "Sharpens C55. Rounding is done with natural numbers (proved equal to the rounding of the model) and the kernel evaluates a chain of fixed points that covers all registers of the three kinds of ranges; induction over the cycles. Both bounds are reached (example)."
  },
  {
   "property": "C108",
   "status": "proved",
   "theorems": [
    "Ur20.C108_elsewhere",
    "Ur20.C108_alone"
   ],
   "note": "Composition: what is proved of a module alone holds for it in every coupler, and the other way round. `outputs()` of a serial module is excluded in the property itself (C58_statement_false)."
  },
  {
   "property": "C109",
   "status": "proved",
   "theorems": [
    "Ur20.C109_never",
    "Ur20.C109_runs",
    "Ur20.C109_last"
   ],
   "note": ""
  },
  {
   "property": "C110",
   "status": "proved",
   "theorems": [
    "Ur20.C110_success",
    "Ur20.C110_error",
    "Ur20.C110_image",
    "Ur20.C110_memory"
   ],
   "note": ""
  },
  {
   "property": "C111",
   "status": "partial",
   "theorems": [
    "Ur20.C111_returned_partial",
    "Ur20.C111_returned_analog_partial",
    "Ur20.C111_read_back_partial",
    "Ur20.C111_read_back_analog_partial",
    "Ur20.C111_statement_false"
   ],
   "note": "The full statement C111_statement is false of the code for applications that read the output image back from the device: next uses up the pending values although the image is lost (C111_statement_false). Proved without restriction for applications that use the last returned image, and exactly what arrives otherwise."
  },
  {
   "property": "C112",
   "status": "proved",
   "theorems": [
    "Ur20.C112_restarts",
    "Ur20.C112_analog"
   ],
   "note": ""
  },
  {
   "property": "C113",
   "status": "proved",
   "theorems": [
    "Ur20.C113_written",
    "Ur20.C113_counter",
    "Ur20.C113_safety"
   ],
   "note": ""
  },
  {
   "property": "C114",
   "status": "proved",
   "theorems": [
    "Ur20.C114_digital",
    "Ur20.C114_analog"
   ],
   "note": ""
  },
  {
   "property": "C115",
   "status": "proved",
   "theorems": [
    "Ur20.C115_order",
    "Ur20.C115_exactly_once",
    "Ur20.C115_arrives",
    "Ur20.C115_both",
    "Ur20.C115_since_restart"
   ],
   "note": "C115_order allows failing cycles, lost images and crashes of the first application. If the second application crashes its buffer is lost with it, and C115_since_restart says what it gets since. C115_both: both directions of the cable at once."
  },
  {
   "property": "C116",
   "status": "proved",
   "theorems": [
    "Ur20.C116_visible",
    "Ur20.C116_order"
   ],
   "note": ""
  },
  {
   "property": "C117",
   "status": "proved",
   "theorems": [
    "Ur20.C117_settable",
    "Ur20.C117_possible"
   ],
   "note": ""
  },
  {
   "property": "C118",
   "status": "proved",
   "theorems": [
    "Ur20.C118_write_back",
    "Ur20.C118_restore"
   ],
   "note": ""
  },
  {
   "property": "C119",
   "status": "proved",
   "theorems": [
    "Ur20.C119_cycle",
    "Ur20.C119_builds",
    "Ur20.C119_tested",
    "Ur20.C119_parameters"
   ],
   "note": "The cases in which a cycle panics with overflow checks are those of C77."
  },
  {
   "property": "C120",
   "status": "proved",
   "theorems": [
    "Ur20.C120_packed",
    "Ur20.C120_inputs",
    "Ur20.C120_runs"
   ],
   "note": "The arrangement is defined in Spec/Packing.lean, it is not one the library computes: the offsets come from the coupler. 64 is the number of modules a station can have."
  },
  {
   "property": "C121",
   "status": "proved",
   "theorems": [
    "Ur20.C121_compare",
    "Ur20.C121_zero",
    "Ur20.C121_nearest",
    "Ur20.C121_durations"
   ],
   "note": "The accuracy for all durations is C49."
  },
  {
   "property": "C122",
   "status": "proved",
   "theorems": [
    "Ur20.C122_extended"
   ],
   "note": "Unlike C101 and C108 it needs nothing about the places of the modules."
  },
  {
   "property": "C123",
   "status": "partial",
   "theorems": [
    "Ur20.C123_transmit_partial",
    "Ur20.C123_loss_partial",
    "Ur20.C123_recovers_partial",
    "Ur20.C123_receive_order",
    "Ur20.C123_receive_partial",
    "Ur20.C123_statement_false",
    "Ur20.C123_receive_false"
   ],
   "note": "The full statement (C123_statement) is false of the code: after a power failure in the middle of a cycle the device can take over a segment twice (C123_statement_false), and a segment that has the number of the last one shown before the failure is acknowledged but not stored (C123_receive_false). Proved: what holds if the power fails between cycles, and for the receive direction if the numbers are new. Exactly what is lost in between: C143 (transmit) and C146 (receive). What holds of the transmit direction wherever the power fails: C147."
  },
  {
   "property": "C124",
   "status": "proved",
   "theorems": [
    "Ur20.C124_order",
    "Ur20.C124_loss",
    "Ur20.C124_delivered",
    "Ur20.C124_receive_order",
    "Ur20.C124_receive"
   ],
   "note": "C123 shows that the conditions are needed."
  },
  {
   "property": "C125",
   "status": "proved",
   "theorems": [
    "Ur20.C125_power",
    "Ur20.C125_start",
    "Ur20.C125_analog"
   ],
   "note": ""
  },
  {
   "property": "C126",
   "status": "proved",
   "theorems": [
    "Ur20.C126_isolated"
   ],
   "note": "C101 and C108 for histories with failing cycles."
  },
  {
   "property": "C127",
   "status": "proved",
   "theorems": [
    "Ur20.C127_rate",
    "Ur20.C127_writes"
   ],
   "note": ""
  },
  {
   "property": "C128",
   "status": "proved",
   "theorems": [
    "Ur20.C128_duplex"
   ],
   "note": "C91 and C127 in the same cycles."
  },
  {
   "property": "C129",
   "status": "proved",
   "theorems": [
    "Ur20.C129_sent",
    "Ur20.C129_received",
    "Ur20.C129_early",
    "Ur20.C129_progress",
    "Ur20.C129_written",
    "Ur20.C129_coupler_sent",
    "Ur20.C129_coupler_received",
    "Ur20.C129_coupler_progress",
    "Ur20.C129_read",
    "Ur20.C129_coupler_read",
    "Ur20.C129_coupler_early"
   ],
   "note": "For one processor and for a whole coupler. An application that starts with an image of zeros can lose its first segment (example)."
  },
  {
   "property": "C130",
   "status": "proved",
   "theorems": [
    "Ur20.C130_values",
    "Ur20.C130_analog",
    "Ur20.C130_order",
    "Ur20.C130_arrives",
    "Ur20.C130_again"
   ],
   "note": "Every image is recorded with the calls made before its cycle. Cycles that fail because an image cannot be decoded are included; cycles that fail to encode use up pending values (see C38)."
  },
  {
   "property": "C131",
   "status": "proved",
   "theorems": [
    "Ur20.C131_contiguous",
    "Ur20.C131_exactly_once",
    "Ur20.C131_both",
    "Ur20.C131_progress"
   ],
   "note": "What a device presents before the end of the initialisation can be lost (example), as in C95 and C115."
  },
  {
   "property": "C132",
   "status": "proved",
   "theorems": [
    "Ur20.C132_digital",
    "Ur20.C132_analog",
    "Ur20.C132_order",
    "Ur20.C132_arrives"
   ],
   "note": "Combines C130 and C114. The cycles of the second application are taken to succeed; cycles of the first one may fail because of undecodable images."
  },
  {
   "property": "C133",
   "status": "proved",
   "theorems": [
    "Ur20.C133_sent",
    "Ur20.C133_received",
    "Ur20.C133_early",
    "Ur20.C133_read",
    "Ur20.C133_progress",
    "Ur20.C133_restarts",
    "Ur20.C133_coupler_sent",
    "Ur20.C133_coupler_received",
    "Ur20.C133_coupler_early",
    "Ur20.C133_coupler_read",
    "Ur20.C133_coupler_progress",
    "Ur20.C133_coupler_restarts"
   ],
   "note": "Generalises C129, where the image at the start carries no data. Bytes written in a run and not taken over before the restart may be lost; this is inherent, as the queue is in memory only."
  },
  {
   "property": "C134",
   "status": "proved",
   "theorems": [
    "Ur20.C134_source_is_model",
    "Ur20.C134_deterministic"
   ],
   "note": "The translated source is lean/Verif/Source, generated by tools/rust2lean.py from /repo/src and committed. Every other property of the coupler thus holds of the translated text. Coupler::reader and Coupler::writer return references and are modelled in the specification as access to the processor of the module."
  },
  {
   "property": "C135",
   "status": "proved",
   "theorems": [
    "Ur20.C135_methods",
    "Ur20.C135_parameters",
    "Ur20.C135_defaults",
    "Ur20.C135_hertz"
   ],
   "note": ""
  },
  {
   "property": "C136",
   "status": "proved",
   "theorems": [
    "Ur20.C136_discovery",
    "Ur20.C136_names",
    "Ur20.C136_conversions",
    "Ur20.C136_addresses"
   ],
   "note": ""
  },
  {
   "property": "C137",
   "status": "proved",
   "theorems": [
    "Ur20.C137_setup",
    "Ur20.C137_panics",
    "Ur20.C137_inputs",
    "Ur20.C137_loop",
    "Ur20.C137_holds_last",
    "Ur20.C137_received",
    "Ur20.C137_sent",
    "Ur20.C137_sent_once"
   ],
   "note": "The statements are about the functions of lean/Verif/Source, the mechanical translation of the source (see C134); the functions of the hand-written model do not occur in them, only specifications."
  },
  {
   "property": "C138",
   "status": "proved",
   "theorems": [
    "Ur20.C138_set_output",
    "Ur20.C138_write",
    "Ur20.C138_read",
    "Ur20.C138_success",
    "Ur20.C138_error",
    "Ur20.C138_image",
    "Ur20.C138_inputs",
    "Ur20.C138_outputs",
    "Ur20.C138_serial",
    "Ur20.C138_undecodable"
   ],
   "note": "The statements are about the functions of lean/Verif/Source, the mechanical translation of the source (see C134); the functions of the hand-written model do not occur in them, only specifications."
  },
  {
   "property": "C139",
   "status": "proved",
   "theorems": [
    "Ur20.C139_order",
    "Ur20.C139_exactly_once",
    "Ur20.C139_receive_order",
    "Ur20.C139_receive",
    "Ur20.C139_since_restart",
    "Ur20.C139_delivered"
   ],
   "note": "The statements are about the functions of lean/Verif/Source, the mechanical translation of the source (see C134), run with the devices and schedules of C95; the functions of the hand-written model do not occur in them."
  },
  {
   "property": "C140",
   "status": "proved",
   "theorems": [
    "Ur20.C140_programs",
    "Ur20.C140_separate"
   ],
   "note": "Both theorems are about the functions of lean/Verif/Source, the mechanical translation of the source (see C134). Together with C140 every theorem about the model that speaks of answers only is a theorem about the translated source."
  },
  {
   "property": "C141",
   "status": "proved",
   "theorems": [
    "Ur20.C141_processor",
    "Ur20.C141_bound",
    "Ur20.C141_coupler"
   ],
   "note": "Exact version of the partial claims C83 and C89: it says which segments are missing."
  },
  {
   "property": "C142",
   "status": "proved",
   "theorems": [
    "Ur20.C142_exact",
    "Ur20.C142_source"
   ],
   "note": "C141 for the network of C95 and for the translated source of C139."
  },
  {
   "property": "C143",
   "status": "proved",
   "theorems": [
    "Ur20.C143_exact"
   ],
   "note": "The exact counterpart of C123 and C124 for the transmit direction. C123 shows that a failure in the middle of a cycle can make the device take over a segment twice, which is why failures are between cycles here."
  },
  {
   "property": "C144",
   "status": "proved",
   "theorems": [
    "Ur20.C144_exact",
    "Ur20.C144_source"
   ],
   "note": "The receive direction of C142."
  },
  {
   "property": "C145",
   "status": "proved",
   "theorems": [
    "Ur20.C145_exact",
    "Ur20.C145_delivered",
    "Ur20.C145_receive_order",
    "Ur20.C145_receive"
   ],
   "note": "C124 and C143 for the translated source."
  },
  {
   "property": "C146",
   "status": "proved",
   "theorems": [
    "Ur20.C146_exact",
    "Ur20.C146_since_restart",
    "Ur20.C146_source",
    "Ur20.C146_source_since_restart"
   ],
   "note": "The exact counterpart of the receive direction of C123 and C124."
  },
  {
   "property": "C147",
   "status": "proved",
   "theorems": [
    "Ur20.C147_repeats",
    "Ur20.C147_count",
    "Ur20.C147_closed",
    "Ur20.C147_recovers",
    "Ur20.C147_delivered",
    "Ur20.C147_source",
    "Ur20.C147_source_delivered"
   ],
   "note": "What remains of the transmit direction of C123 if the power may fail in the middle of a cycle."
  },
  {
   "property": "C148",
   "status": "proved",
   "theorems": [
    "Ur20.C148_sent",
    "Ur20.C148_received",
    "Ur20.C148_early",
    "Ur20.C148_read",
    "Ur20.C148_progress",
    "Ur20.C148_restarts"
   ],
   "note": "C129 and C133 for any number of devices; that the cycles of the rounds succeed is proved here instead of assumed."
  },
  {
   "property": "C149",
   "status": "proved",
   "theorems": [
    "Ur20.C149_sent",
    "Ur20.C149_received",
    "Ur20.C149_early",
    "Ur20.C149_read",
    "Ur20.C149_progress",
    "Ur20.C149_restarts"
   ],
   "note": "C148 for the translation of the source in Verif/Source."
  },
  {
   "property": "C150",
   "status": "proved",
   "theorems": [
    "Ur20.C150_values",
    "Ur20.C150_analog",
    "Ur20.C150_order",
    "Ur20.C150_progress",
    "Ur20.C150_source_values",
    "Ur20.C150_source_analog",
    "Ur20.C150_source_order",
    "Ur20.C150_source_progress"
   ],
   "note": "The theorems with _source are about the translation of the source in Verif/Source."
  },
  {
   "property": "C151",
   "status": "proved",
   "theorems": [
    "Ur20.C151_sent",
    "Ur20.C151_received",
    "Ur20.C151_early",
    "Ur20.C151_progress",
    "Ur20.C151_read",
    "Ur20.C151_restarts",
    "Ur20.C151_source_sent",
    "Ur20.C151_source_received",
    "Ur20.C151_source_early",
    "Ur20.C151_source_progress",
    "Ur20.C151_source_read",
    "Ur20.C151_source_restarts"
   ],
   "note": "C92 for any number of devices with late and lost images and restarts; the theorems with _source are about the translation of the source in Verif/Source."
  },
  {
   "property": "C152",
   "status": "proved",
   "theorems": [
    "Ur20.C152_sent",
    "Ur20.C152_bound",
    "Ur20.C152_received",
    "Ur20.C152_early",
    "Ur20.C152_read",
    "Ur20.C152_progress",
    "Ur20.C152_coupler_sent",
    "Ur20.C152_coupler_received",
    "Ur20.C152_coupler_early",
    "Ur20.C152_coupler_progress",
    "Ur20.C152_net_sent",
    "Ur20.C152_net_received",
    "Ur20.C152_net_early",
    "Ur20.C152_net_progress"
   ],
   "note": "C129 and C148 with failing cycles of any kind; the exact loss that C141 and C142 state for images that are not late."
  },
  {
   "property": "C153",
   "status": "proved",
   "theorems": [
    "Ur20.C153_sent",
    "Ur20.C153_received",
    "Ur20.C153_early",
    "Ur20.C153_progress"
   ],
   "note": "C152 for the translated source, by the equivalence of C140."
  },
  {
   "property": "C154",
   "status": "proved",
   "theorems": [
    "Ur20.C154_sent",
    "Ur20.C154_bound",
    "Ur20.C154_received",
    "Ur20.C154_early",
    "Ur20.C154_read",
    "Ur20.C154_progress",
    "Ur20.C154_restarts",
    "Ur20.C154_coupler_sent",
    "Ur20.C154_coupler_received",
    "Ur20.C154_coupler_early",
    "Ur20.C154_coupler_progress",
    "Ur20.C154_coupler_restarts",
    "Ur20.C154_net_sent",
    "Ur20.C154_net_received",
    "Ur20.C154_net_early",
    "Ur20.C154_net_progress",
    "Ur20.C154_net_restarts",
    "Ur20.C154_source_sent",
    "Ur20.C154_source_received",
    "Ur20.C154_source_early",
    "Ur20.C154_source_progress",
    "Ur20.C154_source_restarts"
   ],
   "note": "The system of C152 from any state a restart leaves behind (C133); C154_source_* for the translated source."
  },
  {
   "property": "C155",
   "status": "proved",
   "theorems": [
    "Ur20.C155_sent",
    "Ur20.C155_received",
    "Ur20.C155_early",
    "Ur20.C155_progress",
    "Ur20.C155_restarts",
    "Ur20.C155_source_sent",
    "Ur20.C155_source_received",
    "Ur20.C155_source_early",
    "Ur20.C155_source_progress",
    "Ur20.C155_source_restarts"
   ],
   "note": "C151 and C154 together. A cycle that decodes its images, whether it fails or not, is shown to behave as if the bytes that are set had been written just before it; C155_source_* for the translated source."
  },
  {
   "property": "C156",
   "status": "proved",
   "theorems": [
    "Ur20.C156_values",
    "Ur20.C156_analog",
    "Ur20.C156_order",
    "Ur20.C156_progress",
    "Ur20.C156_source_values",
    "Ur20.C156_source_analog",
    "Ur20.C156_source_order",
    "Ur20.C156_source_progress"
   ],
   "note": "C150 with failing cycles. Without overflow checks the output images that cannot be decoded have at most 63488 registers (SmallImages); longer ones cannot come from a station. C156_source_* for the translated source."
  },
  {
   "property": "C157",
   "status": "proved",
   "theorems": [
    "Ur20.C157_inputs",
    "Ur20.C157_outputs",
    "Ur20.C157_cycle",
    "Ur20.C157_latest",
    "Ur20.C157_order",
    "Ur20.C157_used",
    "Ur20.C157_source_shown",
    "Ur20.C157_source_cycle",
    "Ur20.C157_source_latest",
    "Ur20.C157_source_order",
    "Ur20.C157_source_used"
   ],
   "note": "C70, C71, C78 and C81 over whole schedules. Without overflow checks the output images that cannot be decoded have at most 63488 registers (SmallImages). C157_source_* for the translated source."
  },
  {
   "property": "C158",
   "status": "proved",
   "theorems": [
    "Ur20.C158_values",
    "Ur20.C158_next",
    "Ur20.C158_analog",
    "Ur20.C158_source_values",
    "Ur20.C158_source_next",
    "Ur20.C158_source_analog"
   ],
   "note": "C73 over whole schedules, from C156 and C157. Without overflow checks the output images that cannot be decoded have at most 63488 registers (SmallImages). C158_source_* for the translated source."
  },
  {
   "property": "C159",
   "status": "proved",
   "theorems": [
    "Ur20.C159_digital",
    "Ur20.C159_analog",
    "Ur20.C159_order",
    "Ur20.C159_arrives",
    "Ur20.C159_source_digital",
    "Ur20.C159_source_analog",
    "Ur20.C159_source_order",
    "Ur20.C159_source_arrives"
   ],
   "note": "C132 with the failing cycles of C156 and C157 and restarts of the second application. Without overflow checks the output images of the first application that cannot be decoded have at most 63488 registers (Sound, SmallImages). C159_source_* for the translated source (Spec/LateWireSource.lean)."
  }
 ]
}