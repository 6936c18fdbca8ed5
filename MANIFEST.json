{
 "claims": [
  {
   "property": "C01",
   "status": "proved",
   "theorems": [
    "Mbus.C01_pack_parse_roundtrip"
   ],
   "note": ""
  },
  {
   "property": "C02",
   "status": "proved",
   "theorems": [
    "Mbus.C02_parse_pack_roundtrip"
   ],
   "note": ""
  },
  {
   "property": "C03",
   "status": "proved",
   "theorems": [
    "Mbus.C03_parse_accepts_iff",
    "Mbus.C03_parse_delivers"
   ],
   "note": ""
  },
  {
   "property": "C04",
   "status": "proved",
   "theorems": [
    "Mbus.C04_need_more_lower_bound",
    "Mbus.C04_need_more_exact"
   ],
   "note": ""
  },
  {
   "property": "C05",
   "status": "proved",
   "theorems": [
    "Mbus.C05_prefix_not_rejected"
   ],
   "note": ""
  },
  {
   "property": "C06",
   "status": "proved",
   "theorems": [
    "Mbus.C06_single_byte_corruption"
   ],
   "note": ""
  },
  {
   "property": "C07",
   "status": "partial",
   "theorems": [
    "Mbus.C07_verify_iff_wellformed_partial",
    "Mbus.C07_ack_violation"
   ],
   "note": "The English property is false for ACK frames (verify accepts every ACK-type frame whose start byte is NOT 0xE5; C07_ack_violation). Proved for every other frame type."
  },
  {
   "property": "C08",
   "status": "proved",
   "theorems": [
    "Mbus.C08_pack_bounds",
    "Mbus.C08_pack_oversized_payload"
   ],
   "note": "C08_pack_oversized_payload records what happens for data_size > 252."
  },
  {
   "property": "C09",
   "status": "proved",
   "theorems": [
    "Mbus.C09_parse_safe",
    "Mbus.C09_parse_stale_independent"
   ],
   "note": ""
  },
  {
   "property": "C10",
   "status": "proved",
   "theorems": [
    "Mbus.C10_calc_then_verify",
    "Mbus.C10_calc_idempotent"
   ],
   "note": ""
  },
  {
   "property": "C11",
   "status": "proved",
   "theorems": [
    "Mbus.C11_encode_decode",
    "Mbus.C11_decode_encode"
   ],
   "note": ""
  },
  {
   "property": "C12",
   "status": "proved",
   "theorems": [
    "Mbus.C12_int_decode",
    "Mbus.C12_long_decode",
    "Mbus.C12_long_long_decode",
    "Mbus.C12_size_zero"
   ],
   "note": ""
  },
  {
   "property": "C13",
   "status": "proved",
   "theorems": [
    "Mbus.C13_bcd_decode",
    "Mbus.C13_bcd_decode_negative",
    "Mbus.C13_any_digits"
   ],
   "note": ""
  },
  {
   "property": "C14",
   "status": "partial",
   "theorems": [
    "Mbus.C14_roundtrip_violation",
    "Mbus.C14_bcd_reversed_roundtrip_partial",
    "Mbus.C14_bcd_one_byte_partial",
    "Mbus.C14_bcd_negative_partial",
    "Mbus.C14_bcd_negative_digit_partial",
    "Mbus.C14_negative_violation"
   ],
   "note": "False as stated (byte order, C14_roundtrip_violation; the sign overwrites a digit, C14_negative_violation); what the encoder does write is proved exactly."
  },
  {
   "property": "C15",
   "status": "proved",
   "theorems": [
    "Mbus.C15_bcd_hex",
    "Mbus.C15_hex_text",
    "Mbus.C15_bcd_hex_injective"
   ],
   "note": ""
  },
  {
   "property": "C16",
   "status": "proved",
   "theorems": [
    "Mbus.C16_encode_decode",
    "Mbus.C16_decode_encode"
   ],
   "note": ""
  },
  {
   "property": "C17",
   "status": "proved",
   "theorems": [
    "Mbus.C17_letters",
    "Mbus.C17_other",
    "Mbus.C17_agrees_with_encode"
   ],
   "note": ""
  },
  {
   "property": "C18",
   "status": "proved",
   "theorems": [
    "Mbus.C18_type_G",
    "Mbus.C18_type_F",
    "Mbus.C18_type_I",
    "Mbus.C18_other_size",
    "Mbus.C18_ranges"
   ],
   "note": ""
  },
  {
   "property": "C19",
   "status": "proved",
   "theorems": [
    "Mbus.C19_date",
    "Mbus.C19_date_time"
   ],
   "note": ""
  },
  {
   "property": "C20",
   "status": "proved",
   "theorems": [
    "Mbus.C20_str_decode",
    "Mbus.C20_str_decode_twice"
   ],
   "note": ""
  },
  {
   "property": "C21",
   "status": "proved",
   "theorems": [
    "Mbus.C21_bin_decode",
    "Mbus.C21_bin_decode_lossless"
   ],
   "note": ""
  },
  {
   "property": "C22",
   "status": "proved",
   "theorems": [
    "Mbus.C22_xml_bounds",
    "Mbus.C22_xml_complete"
   ],
   "note": ""
  },
  {
   "property": "C23",
   "status": "proved",
   "theorems": [
    "Mbus.C23_unescape_escape",
    "Mbus.C23_no_markup",
    "Mbus.C23_injective",
    "Mbus.C23_output_unescapes"
   ],
   "note": ""
  },
  {
   "property": "C24",
   "status": "proved",
   "theorems": [
    "Mbus.C24_bounds",
    "Mbus.C24_inverse",
    "Mbus.C24_inverts_dumps"
   ],
   "note": ""
  },
  {
   "property": "C25",
   "status": "partial",
   "theorems": [
    "Mbus.C25_invalid_pair_violation",
    "Mbus.C25_stops_partial"
   ],
   "note": "False as stated: '5G', '-1', '+5' are converted (C25_invalid_pair_violation). Proved: every other invalid pair stops the conversion."
  },
  {
   "property": "C26",
   "status": "proved",
   "theorems": [
    "Mbus.C26_terminates",
    "Mbus.C26_count"
   ],
   "note": ""
  },
  {
   "property": "C27",
   "status": "partial",
   "theorems": [
    "Mbus.C27_safe_partial",
    "Mbus.C27_read_violation",
    "Mbus.C27_text_violation",
    "Mbus.C27_special_violation"
   ],
   "note": "False as stated: three kinds of out-of-bounds access, each with a witness (C27_*_violation). Proved: no fault up to 142 payload bytes, no read fault up to 250, and these three are the only faults for any payload."
  },
  {
   "property": "C28",
   "status": "partial",
   "theorems": [
    "Mbus.C28_payload_only_partial",
    "Mbus.C28_violation"
   ],
   "note": "Proved for payloads up to 250 bytes including faults, and for all sizes up to undefined behaviour; with 251 bytes a stale byte decides whether the parse is undefined (C28_violation)."
  },
  {
   "property": "C29",
   "status": "proved",
   "theorems": [
    "Mbus.C29_tiles",
    "Mbus.C29_accepts"
   ],
   "note": ""
  },
  {
   "property": "C30",
   "status": "partial",
   "theorems": [
    "Mbus.C30_pack_emits",
    "Mbus.C30_variable_partial",
    "Mbus.C30_fixed",
    "Mbus.C30_error",
    "Mbus.C30_violation"
   ],
   "note": "False as stated (C30_violation). C30_pack_emits gives the exact packed bytes for every parsed telegram; identity proved for fixed data, one-byte errors and variable data without fillers, manufacturer blocks and plain-text units."
  },
  {
   "property": "C31",
   "status": "proved",
   "theorems": [
    "Mbus.C31_more_iff",
    "Mbus.C31_special_last"
   ],
   "note": ""
  },
  {
   "property": "C32",
   "status": "proved",
   "theorems": [
    "Mbus.C32_bounds"
   ],
   "note": ""
  },
  {
   "property": "C33",
   "status": "partial",
   "theorems": [
    "Mbus.C33_tariff_device",
    "Mbus.C33_storage_partial",
    "Mbus.C33_storage_violation"
   ],
   "note": "Tariff and device proved in full. Storage number: exact iff at most 8 DIFEs and below 2^31; otherwise the int shift is undefined (C33_storage_violation)."
  },
  {
   "property": "C34",
   "status": "proved",
   "theorems": [
    "Mbus.C34_fixed_iff",
    "Mbus.C34_fixed_roundtrip"
   ],
   "note": ""
  },
  {
   "property": "C35",
   "status": "proved",
   "theorems": [
    "Mbus.C35_refuse",
    "Mbus.C35_error",
    "Mbus.C35_dispatch"
   ],
   "note": ""
  },
  {
   "property": "C36",
   "status": "partial",
   "theorems": [
    "Mbus.C36_width",
    "Mbus.C36_lvar_partial",
    "Mbus.C36_lvar_violation"
   ],
   "note": "Width table proved in full; LVAR 0xC1-0xC9 and 0xD1-0xD9 take twice the bytes of EN 13757-3 (C36_lvar_violation)."
  },
  {
   "property": "C37",
   "status": "partial",
   "theorems": [
    "Mbus.C37_scale_partial",
    "Mbus.C37_extension_bit",
    "Mbus.C37_unknown",
    "Mbus.C37_unique",
    "Mbus.C37_scale_violation",
    "Mbus.C37_unit_violation"
   ],
   "note": "False as stated for the VIF-extension code 0x79 of table FD (scale) and for 0x208/0x209/0x230/0x231 (unit): C37_scale_violation, C37_unit_violation. Every other entry proved against the specification table."
  },
  {
   "property": "C38",
   "status": "partial",
   "theorems": [
    "Mbus.C38_agree_partial",
    "Mbus.C38_time",
    "Mbus.C38_violation"
   ],
   "note": "Text and normalised unit disagree for codes 0D,0E,15-1C,2F,30 (C38_violation); agreement proved for every other plain code."
  },
  {
   "property": "C39",
   "status": "proved",
   "theorems": [
    "Mbus.C39_multiplicative",
    "Mbus.C39_additive",
    "Mbus.C39_thousand",
    "Mbus.C39_other",
    "Mbus.C39_no_extension",
    "Mbus.C39_unknown",
    "Mbus.C39_missing",
    "Mbus.C39_extension",
    "Mbus.C39_custom"
   ],
   "note": ""
  },
  {
   "property": "C40",
   "status": "proved",
   "theorems": [
    "Mbus.C40_tcp_recv_delivers",
    "Mbus.C40_tcp_recv_outcome"
   ],
   "note": ""
  },
  {
   "property": "C41",
   "status": "proved",
   "theorems": [
    "Mbus.C41_serial_recv_delivers",
    "Mbus.C41_serial_recv_outcome",
    "Mbus.C41_serial_silent_timeout",
    "Mbus.C41_serial_third_empty_invalid"
   ],
   "note": ""
  },
  {
   "property": "C42",
   "status": "proved",
   "theorems": [
    "Mbus.C42_recv_bounded"
   ],
   "note": ""
  },
  {
   "property": "C43",
   "status": "proved",
   "theorems": [
    "Mbus.C43_log_passive",
    "Mbus.C43_fcb_alternates"
   ],
   "note": ""
  },
  {
   "property": "C44",
   "status": "proved",
   "theorems": [
    "Mbus.C44_retries_bounded",
    "Mbus.C44_ending",
    "Mbus.C44_exhausted_fails"
   ],
   "note": ""
  },
  {
   "property": "C45",
   "status": "partial",
   "theorems": [
    "Mbus.C45_max_frames_partial",
    "Mbus.C45_no_limit_violation"
   ],
   "note": "False for max_frames = 0, documented as no limit: at most one telegram is read (C45_no_limit_violation). Proved for positive limits."
  },
  {
   "property": "C46",
   "status": "partial",
   "theorems": [
    "Mbus.C46_records_freed_partial",
    "Mbus.C46_single_telegram_partial",
    "Mbus.C46_double_free_violation",
    "Mbus.C46_leak_violation"
   ],
   "note": "False for a meter that announces more records and then sends an error or fixed telegram (C46_double_free_violation: double free) and for telegrams with a broken record (C46_leak_violation). Proved for orderly meters and for single-telegram requests on any bus."
  },
  {
   "property": "C47",
   "status": "partial",
   "theorems": [
    "Mbus.C47_classification",
    "Mbus.C47_single_acknowledged",
    "Mbus.C47_purge_result",
    "Mbus.C47_wire",
    "Mbus.C47_echo_like_garbage_violation"
   ],
   "note": "Classification for every handle behaviour, wire-level classification for every chunking. False as stated for garbage: with the default purge mode a damaged telegram whose direction bit says 'master' is taken for an echo and a second receive follows, so the outcome is NOTHING (violation theorem). That SINGLE implies a successful receive of an acknowledge needs purge mode other than S2M."
  },
  {
   "property": "C48",
   "status": "proved",
   "theorems": [
    "Mbus.C48_scan_finds_all"
   ],
   "note": ""
  },
  {
   "property": "C49",
   "status": "partial",
   "theorems": [
    "Mbus.C49_passive",
    "Mbus.C49_terminates",
    "Mbus.C49_refines",
    "Mbus.C49_bound",
    "Mbus.C49_only_after_collision",
    "Mbus.C49_after_collision",
    "Mbus.C49_complete",
    "Mbus.C49_probes",
    "Mbus.C49_once_partial",
    "Mbus.C49_limits",
    "Mbus.C49_repeated_mask_violation"
   ],
   "note": "Termination for every bus on both transports (up to the C27 memory errors when an address is read), refinement, bound, recursion only after a collision and always after one, completeness while no probe fails. 'Never the same mask twice' is false when the last mask character is fixed and an earlier one is a wildcard: a collided mask is probed again at position 15 (violation theorem); proved otherwise."
  },
  {
   "property": "C50",
   "status": "partial",
   "theorems": [
    "Mbus.C50_select_pack_partial",
    "Mbus.C50_select_reported_address_partial",
    "Mbus.C50_hex_digit_violation"
   ],
   "note": "False for identification numbers with a nibble A..E (the packer subtracts '0'): C50_hex_digit_violation. Proved for decimal digits and the wildcard F."
  },
  {
   "property": "C51",
   "status": "proved",
   "theorems": [
    "Mbus.C51_secondary_address_format",
    "Mbus.C51_secondary_address_exists",
    "Mbus.C51_secondary_address_injective"
   ],
   "note": ""
  },
  {
   "property": "C52",
   "status": "proved",
   "theorems": [
    "Mbus.C52_address_validation"
   ],
   "note": ""
  },
  {
   "property": "C53",
   "status": "proved",
   "theorems": [
    "Mbus.C53_options_stay_legal",
    "Mbus.C53_option_effect"
   ],
   "note": ""
  },
  {
   "property": "C54",
   "status": "partial",
   "theorems": [
    "Mbus.C54_request",
    "Mbus.C54_ping",
    "Mbus.C54_baudrate",
    "Mbus.C54_application_reset",
    "Mbus.C54_user_data",
    "Mbus.C54_select_partial",
    "Mbus.C54_receiver_accepts",
    "Mbus.C54_not_a_terminal",
    "Mbus.C54_select_violation"
   ],
   "note": "Proved in full for five commands; mbus_send_select_frame always sends one legal selection telegram or refuses, its content is proved for decimal/F identification digits (C50_hex_digit_violation for the rest). C54_select_violation: with identification digits A..E the selection telegram names another identification number."
  },
  {
   "property": "C55",
   "status": "partial",
   "theorems": [
    "Mbus.C55_set_primary_partial",
    "Mbus.C55_reserved_address_violation"
   ],
   "note": "False for the reserved addresses 251 and 252, which are transmitted although the documented range is 0..250 (C55_reserved_address_violation)."
  },
  {
   "property": "C56",
   "status": "partial",
   "theorems": [
    "Mbus.C56_variable_partial",
    "Mbus.C56_frame_partial",
    "Mbus.C56_plain_partial",
    "Mbus.C56_overflow_violation",
    "Mbus.C56_truncate_violation"
   ],
   "note": "False: a single 252-byte telegram makes mbus_frame_xml write behind its buffer (C56_overflow_violation: 1024 bytes are reserved per record but a record's XML can have about 1850), and texts whose escaped form exceeds 767 bytes are cut (C56_truncate_violation). Proved complete when the escaped unit and value of each record have together at most 671 characters, for any number of records and telegrams."
  },
  {
   "property": "C57",
   "status": "partial",
   "theorems": [
    "Mbus.C57_partial",
    "Mbus.C57_error_violation",
    "Mbus.C57_violation"
   ],
   "note": "False: a fixed-data or error telegram after a telegram with records makes mbus_frame_xml print the freed records (C57_violation; general form C57_error_violation). Proved for all chains without such later telegrams."
  },
  {
   "property": "C58",
   "status": "partial",
   "theorems": [
    "Mbus.C58_overflow_violation",
    "Mbus.C58_partial"
   ],
   "note": "Proved under the restrictions of C56 (escaped texts fit, storage numbers fit an int). C58_overflow_violation: a telegram of 33 proper records whose document is written outside the buffer (C113 says exactly when this happens)."
  },
  {
   "property": "C59",
   "status": "proved",
   "theorems": [
    "Mbus.C59_second_receive",
    "Mbus.C59_echo"
   ],
   "note": ""
  },
  {
   "property": "C60",
   "status": "proved",
   "theorems": [
    "Mbus.C60_read_slave",
    "Mbus.C60_wire"
   ],
   "note": ""
  },
  {
   "property": "C61",
   "status": "proved",
   "theorems": [
    "Mbus.C61_append",
    "Mbus.C61_append_null",
    "Mbus.C61_free",
    "Mbus.C61_frame_free",
    "Mbus.C61_built",
    "Mbus.C61_history"
   ],
   "note": "Heap model: append, list release, frame chain release, all append histories with arbitrary malloc addresses, and mbus_frame_data_free. Recursion depth (stack) is not modelled."
  },
  {
   "property": "C62",
   "status": "proved",
   "theorems": [
    "Mbus.C62_slave_register"
   ],
   "note": "Entries as byte ranges of the register."
  },
  {
   "property": "C63",
   "status": "proved",
   "theorems": [
    "Mbus.C63_error_string"
   ],
   "note": "All histories of set/reset calls. The message must not be the error string itself (overlapping snprintf)."
  },
  {
   "property": "C64",
   "status": "partial",
   "theorems": [
    "Mbus.C64_fixed",
    "Mbus.C64_medium_error",
    "Mbus.C64_prefix",
    "Mbus.C64_vif",
    "Mbus.C64_vib",
    "Mbus.C64_product",
    "Mbus.C64_record_unit_partial",
    "Mbus.C64_record_unit_violation"
   ],
   "note": "Proved for every lookup; record_unit truncates a 127+ character text for VIF 0x7C/0xFC custom units with multiplier (C64_*violation), everything else partial theorem."
  },
  {
   "property": "C65",
   "status": "proved",
   "theorems": [
    "Mbus.C65_prefix",
    "Mbus.C65_prefix_fd",
    "Mbus.C65_prefix_unambiguous"
   ],
   "note": ""
  },
  {
   "property": "C66",
   "status": "partial",
   "theorems": [
    "Mbus.C66_ieee_partial",
    "Mbus.C66_ieee_value",
    "Mbus.C66_portable_partial",
    "Mbus.C66_portable_violation",
    "Mbus.C66_host_violation"
   ],
   "note": "Proved for the configuration with IEEE floats on little-endian hosts; the portable variant is wrong for subnormal numbers, infinities and NaNs, and the memcpy variant on big-endian hosts (C66_*_violation)."
  },
  {
   "property": "C67",
   "status": "proved",
   "theorems": [
    "Mbus.C67_safe"
   ],
   "note": ""
  },
  {
   "property": "C68",
   "status": "proved",
   "theorems": [
    "Mbus.C68_text",
    "Mbus.C68_integer",
    "Mbus.C68_bcd",
    "Mbus.C68_real",
    "Mbus.C68_string"
   ],
   "note": ""
  },
  {
   "property": "C69",
   "status": "proved",
   "theorems": [
    "Mbus.C69_accepts",
    "Mbus.C69_labels",
    "Mbus.C69_number",
    "Mbus.C69_not_finite",
    "Mbus.C69_reserved",
    "Mbus.C69_words"
   ],
   "note": "Storage numbers for which the library's own computation is undefined (C33) are excluded by StorageOk. double arithmetic is modelled by exact rationals."
  },
  {
   "property": "C70",
   "status": "partial",
   "theorems": [
    "Mbus.C70_no_leak_partial",
    "Mbus.C70_leak_violation"
   ],
   "note": "False: an ordinary text record with VIF 0x7B or 0x7D loses its allocated text (C70_leak_violation); these are the only cases."
  },
  {
   "property": "C71",
   "status": "partial",
   "theorems": [
    "Mbus.C71_size_partial",
    "Mbus.C71_size_violation"
   ],
   "note": "False for non-empty raw blocks: size is 3n, the text has 3n-1 characters (C71_size_violation). Proved for every other text."
  },
  {
   "property": "C72",
   "status": "proved",
   "theorems": [
    "Mbus.C72_fixed"
   ],
   "note": ""
  },
  {
   "property": "C73",
   "status": "proved",
   "theorems": [
    "Mbus.C73_lossy_readout"
   ],
   "note": ""
  },
  {
   "property": "C74",
   "status": "partial",
   "theorems": [
    "Mbus.C74_scan_mask_partial",
    "Mbus.C74_fixed_id_violation",
    "Mbus.C74_exact",
    "Mbus.C74_full_address"
   ],
   "note": "Proved for masks that leave at least one digit of the identification number open. A mask that fixes the whole identification number finds nothing (violation theorem), because manufacturer digits are enumerated in decimal nibble by nibble although they are compared as bytes. C74_exact: for every mask and every set of meters, exactly which meters are reported; C74_full_address: a complete address reports its meter if it is the only one."
  },
  {
   "property": "C75",
   "status": "proved",
   "theorems": [
    "Mbus.C75_probe",
    "Mbus.C75_outcomes",
    "Mbus.C75_mask_length"
   ],
   "note": ""
  },
  {
   "property": "C76",
   "status": "partial",
   "theorems": [
    "Mbus.C76_violation",
    "Mbus.C76_wellFormed_partial"
   ],
   "note": "Proved under the restrictions of C56. C76_violation: a telegram of 33 proper records whose document is cut and so not well formed."
  },
  {
   "property": "C77",
   "status": "proved",
   "theorems": [
    "Mbus.C77_fixed",
    "Mbus.C77_error",
    "Mbus.C77_frame"
   ],
   "note": ""
  },
  {
   "property": "C78",
   "status": "partial",
   "theorems": [
    "Mbus.C78_returned_partial",
    "Mbus.C78_buffer_violation",
    "Mbus.C78_violation",
    "Mbus.C78_records_violation"
   ],
   "note": "False: a refused later telegram loses the text buffer, a defect inside a telegram loses the records read before it (violation theorems). Proved for every call that returns a document."
  },
  {
   "property": "C79",
   "status": "partial",
   "theorems": [
    "Mbus.C79_plain_partial",
    "Mbus.C79_partial",
    "Mbus.C79_other_types",
    "Mbus.C79_overflow_violation"
   ],
   "note": "C79_partial: complete document for every list of delivered records whose normalised texts are at most 671 (745 without tariff) escaped characters; C79_plain_partial: when that holds; C79_overflow_violation: a 250-byte telegram whose normalised XML is written behind the 8192-byte buffer; C79_other_types: dispatch on fixed/error data."
  },
  {
   "property": "C80",
   "status": "proved",
   "theorems": [
    "Mbus.C80_single",
    "Mbus.C80_single_other"
   ],
   "note": ""
  },
  {
   "property": "C81",
   "status": "partial",
   "theorems": [
    "Mbus.C81_raw_partial",
    "Mbus.C81_order_violation"
   ],
   "note": "False: the library prints the last byte first (C81_order_violation), unlike the XML recorded in test/test-frames (52 of the 162 recorded files differ from what the code prints, only in this). Proved: no byte is lost, the order is exactly reversed, and it equals the transmission order only for palindromes."
  },
  {
   "property": "C82",
   "status": "partial",
   "theorems": [
    "Mbus.C82_fixed_medium",
    "Mbus.C82_fixed_unit_partial",
    "Mbus.C82_fixed_unit_violation",
    "Mbus.C82_medium",
    "Mbus.C82_medium_distinct",
    "Mbus.C82_error",
    "Mbus.C82_error_distinct",
    "Mbus.C82_function"
   ],
   "note": "False for fixed units 0x0D and 0x0E (labels exchanged against the documented table, C82_fixed_unit_violation); everything else proved."
  },
  {
   "property": "C83",
   "status": "partial",
   "theorems": [
    "Mbus.C83_descriptors_partial",
    "Mbus.C83_stale_violation",
    "Mbus.C83_uninitialised_violation",
    "Mbus.C83_reconnect_violation"
   ],
   "note": "False in three ways: after a refused TCP connection the number of the closed socket is kept and mbus_disconnect closes whatever has this number (C83_stale_violation); before the first attempt the field is uninitialised (C83_uninitialised_violation); connecting twice loses a descriptor (C83_reconnect_violation). Proved for all histories that avoid these."
  },
  {
   "property": "C84",
   "status": "proved",
   "theorems": [
    "Mbus.C84_handle_memory"
   ],
   "note": ""
  },
  {
   "property": "C85",
   "status": "proved",
   "theorems": [
    "Mbus.C85_baudrate",
    "Mbus.C85_connect"
   ],
   "note": ""
  },
  {
   "property": "C86",
   "status": "partial",
   "theorems": [
    "Mbus.C86_timeout_partial",
    "Mbus.C86_timeout_violation",
    "Mbus.C86_port"
   ],
   "note": "Proved for finite values below 2^31 with the arithmetic of binary64; larger values, infinity and NaN make the conversion to int undefined (C86_timeout_violation)."
  },
  {
   "property": "C87",
   "status": "proved",
   "theorems": [
    "Mbus.C87_scan",
    "Mbus.C87_refused",
    "Mbus.C87_passive",
    "Mbus.C87_transports"
   ],
   "note": "Proved for every handle on which a failing receive does not fake an acknowledge; C87_transports shows that both transports are such."
  },
  {
   "property": "C88",
   "status": "proved",
   "theorems": [
    "Mbus.C88_scan_wire",
    "Mbus.C88_lines"
   ],
   "note": "Proved over the byte-level transports with meters that answer in arbitrary chunks."
  },
  {
   "property": "C89",
   "status": "partial",
   "theorems": [
    "Mbus.C89_set_address",
    "Mbus.C89_wire",
    "Mbus.C89_numeral",
    "Mbus.C89_negative",
    "Mbus.C89_refused",
    "Mbus.C89_malformed_violation"
   ],
   "note": "Proved as stated for the telegrams; \"texts that are not an address are refused\" is false: atoi takes any text as a number (C89_malformed_violation)."
  },
  {
   "property": "C90",
   "status": "partial",
   "theorems": [
    "Mbus.C90_baud_partial",
    "Mbus.C90_reset_partial",
    "Mbus.C90_baud_wire",
    "Mbus.C90_reset_wire",
    "Mbus.C90_junk_violation",
    "Mbus.C90_pointer_violation"
   ],
   "note": "False as stated: the reply object is not initialised, so a noise byte can be reported as success (C90_junk_violation) and any other reply makes mbus_frame_print follow an uninitialised pointer (C90_pointer_violation). The partial theorems assume the stack content is benign; the wire theorems hold without that."
  },
  {
   "property": "C91",
   "status": "partial",
   "theorems": [
    "Mbus.C91_wire_exact",
    "Mbus.C91_cut_violation",
    "Mbus.C91_request",
    "Mbus.C91_wire_partial"
   ],
   "note": "The log theorem C91_request holds for every handle; the completeness on the wire inherits the restrictions of C56 (bounded texts, storage numbers), hence partial. C91_wire_exact: the exact outcome for texts of any length (document, beginning of it, or a write outside the buffer, by C113); C91_cut_violation: a telegram for which the tool prints a document without its end and reports success."
  },
  {
   "property": "C92",
   "status": "partial",
   "theorems": [
    "Mbus.C92_cut_violation",
    "Mbus.C92_wire_exact",
    "Mbus.C92_multi",
    "Mbus.C92_wire_partial"
   ],
   "note": "The log theorem C92_multi holds for every sound handle; the completeness on the wire inherits the restrictions of C56 (bounded texts, storage numbers), hence partial. C92_wire_exact: the exact outcome for texts of any length. C92_cut_violation: a bus on which the tool prints only the first 8191 characters of the document and reports success (C92_wire_exact says exactly when)."
  },
  {
   "property": "C93",
   "status": "partial",
   "theorems": [
    "Mbus.C93_raw_send",
    "Mbus.C93_wire",
    "Mbus.C93_primary_unused",
    "Mbus.C93_not_hex_violation"
   ],
   "note": "Refusal of non-hexadecimal text is false (C93_not_hex_violation: a character that is not a hexadecimal digit is skipped with C25, and the rest is sent). Everything else is proved; a file longer than 4096 characters is cut off (part of the model)."
  },
  {
   "property": "C94",
   "status": "partial",
   "theorems": [
    "Mbus.C94_fixed_id_violation",
    "Mbus.C94_scan",
    "Mbus.C94_wire_partial",
    "Mbus.C94_all_wire",
    "Mbus.C94_wire_exact"
   ],
   "note": "Exactness on the wire is proved for masks on the identification number with a wildcard; for a mask that fixes the whole identification number it is false (inherits C74_fixed_id_violation). C94_wire_exact: for every mask and every set of meters, exactly which lines are printed (by C74_exact). C94_fixed_id_violation: a mask that fixes the identification number: the selected meter is not listed."
  },
  {
   "property": "C95",
   "status": "partial",
   "theorems": [
    "Mbus.C95_select_partial",
    "Mbus.C95_wire",
    "Mbus.C95_two_meters_violation",
    "Mbus.C95_null_violation",
    "Mbus.C95_pointer_violation"
   ],
   "note": "Table of all runs proved when the uninitialised frame does not look like an acknowledge; exact on the wire for none or one matching meter. False for two meters acknowledging one after the other (exit 0), for answers without an address (NULL printed with %s) and for non-acknowledge answers (uninitialised next pointer followed): violation theorems."
  },
  {
   "property": "C96",
   "status": "partial",
   "theorems": [
    "Mbus.C96_frame_print_partial",
    "Mbus.C96_long_violation",
    "Mbus.C96_type_violation",
    "Mbus.C96_none"
   ],
   "note": "Exact text proved for telegrams of at most 256 bytes on the wire; false for longer ones (buffer of 256 bytes in mbus_frame_print, error of mbus_frame_pack not noticed): C96_long_violation."
  },
  {
   "property": "C97",
   "status": "partial",
   "theorems": [
    "Mbus.C97_variable_print",
    "Mbus.C97_functions_partial",
    "Mbus.C97_function_violation",
    "Mbus.C97_fixed_print",
    "Mbus.C97_frame_data_print"
   ],
   "note": "Exact text proved for all accepted data with the names the code uses (dumpFunctions, dumpUnits); with the correct names for instantaneous and error-state values only: maximum/minimum values are called error state (C97_function_violation)."
  },
  {
   "property": "C98",
   "status": "partial",
   "theorems": [
    "Mbus.C98_hex_normalized_exact",
    "Mbus.C98_binary_normalized_exact",
    "Mbus.C98_hex_partial",
    "Mbus.C98_binary_partial",
    "Mbus.C98_outcome",
    "Mbus.C98_binary_violation",
    "Mbus.C98_hex_exact",
    "Mbus.C98_binary_exact"
   ],
   "note": "Proved end to end for records whose texts fit (C56); outcome table for every file. mbus_parse is false: it ignores the error of mbus_frame_data_parse and prints a document of the records before the fault with status 0 (C98_binary_violation). C98_hex_exact, C98_binary_exact: the exact outcome for texts of any length. C98_hex_normalized_exact, C98_binary_normalized_exact: the same with the option -n."
  },
  {
   "property": "C99",
   "status": "proved",
   "theorems": [
    "Mbus.C99_history",
    "Mbus.C99_history_safe",
    "Mbus.C99_accepted",
    "Mbus.C99_master"
   ],
   "note": "Programs are values of `Call` run one after the other on the model of the handle (Model/Calls.lean); the proof lifts a per-call invariant to histories by induction on the program."
  },
  {
   "property": "C100",
   "status": "partial",
   "theorems": [
    "Mbus.C100_transparent",
    "Mbus.C100_send_events",
    "Mbus.C100_send_events_all",
    "Mbus.C100_recv_events_partial",
    "Mbus.C100_serial_recv_complete",
    "Mbus.C100_recv_events_violation",
    "Mbus.C100_dump_line",
    "Mbus.C100_dump_readable"
   ],
   "note": "Violation: over TCP the bytes read before a timeout are consumed but never reported (mbus-tcp.c:219-231 returns before the callback). Everything else is proved: `C100_recv_events_partial` is the sound part (no invention, no duplication, order), `C100_serial_recv_complete` the completeness for serial lines without read errors. Programs that end with undefined behaviour are covered by C99."
  },
  {
   "property": "C101",
   "status": "partial",
   "theorems": [
    "Mbus.C101_variable_partial",
    "Mbus.C101_granting",
    "Mbus.C101_fixed",
    "Mbus.C101_leak_violation",
    "Mbus.C101_incomplete_violation"
   ],
   "note": "Blocks and contents in an explicit heap with an arbitrary list of allocation answers. Violations: text of a record with VIF 0x7B/0x7D is lost; record without unit after a failed strdup."
  },
  {
   "property": "C102",
   "status": "partial",
   "theorems": [
    "Mbus.C102_partial",
    "Mbus.C102_clean_partial",
    "Mbus.C102_exact",
    "Mbus.C102_overflow_violation"
   ],
   "note": "Partial like C79: the Terse restriction keeps each record within 1024 bytes. C102_exact: the same without any bound on the lengths of the texts, with the outcome (complete, cut, overflow) determined by those lengths; C102_overflow_violation: the overflow happens."
  },
  {
   "property": "C103",
   "status": "proved",
   "theorems": [
    "Mbus.C103_commands_release",
    "Mbus.C103_granted",
    "Mbus.C103_refused"
   ],
   "note": "Heap with an arbitrary list of allocator answers; frames are blocks."
  },
  {
   "property": "C104",
   "status": "partial",
   "theorems": [
    "Mbus.C104_probe_releases",
    "Mbus.C104_probe_same",
    "Mbus.C104_scan_leaves_masks_partial",
    "Mbus.C104_scan_same",
    "Mbus.C104_scan_refused",
    "Mbus.C104_scan_releases_partial",
    "Mbus.C104_write_violation",
    "Mbus.C104_memory_violation"
   ],
   "note": "Violations: a failing write, or a refused selection frame, leaks the copy of the mask. What holds: nothing but mask copies is ever left, and nothing at all if writes succeed and allocations are granted."
  },
  {
   "property": "C105",
   "status": "partial",
   "theorems": [
    "Mbus.C105_request_memory_partial",
    "Mbus.C105_chain_released_partial",
    "Mbus.C105_same",
    "Mbus.C105_truncated_violation",
    "Mbus.C105_request_refused",
    "Mbus.C105_next_refused",
    "Mbus.C105_leak_violation"
   ],
   "note": "For orderly meters (C46); others double free already with plentiful memory (C46_double_free_violation). Violations: leaked records after a parse error; -2 (refused record) treated as success."
  },
  {
   "property": "C106",
   "status": "partial",
   "theorems": [
    "Mbus.C106_nearest",
    "Mbus.C106_ties",
    "Mbus.C106_signs",
    "Mbus.C106_special",
    "Mbus.C106_accuracy",
    "Mbus.C106_whole_partial",
    "Mbus.C106_whole_violation",
    "Mbus.C106_range",
    "Mbus.C106_fixed_range",
    "Mbus.C106_fixed_accuracy"
   ],
   "note": "Doubles are binary64, round to nearest even, exponent unbounded (C106_range: never matters); pow(10,k) is assumed to return the nearest double. Violation: 2^53+1 is delivered as 2^53."
  },
  {
   "property": "C107",
   "status": "partial",
   "theorems": [
    "Mbus.C107_text_partial",
    "Mbus.C107_fixed_partial",
    "Mbus.C107_digits_violation",
    "Mbus.C107_small_violation"
   ],
   "note": "Proved without VIFE correction for scales 10^-6..10^9 and values that are whole numbers of at most 53 bits or fractions up to 1500000000 (all counters of at most 32 bits are such); counterexamples outside."
  },
  {
   "property": "C108",
   "status": "proved",
   "theorems": [
    "Mbus.C108_named",
    "Mbus.C108_unnamed",
    "Mbus.C108_unambiguous",
    "Mbus.C108_makers"
   ],
   "note": "The catalogue (Spec/Products.lean) lists one entry per product, independent of the order of the code."
  },
  {
   "property": "C109",
   "status": "partial",
   "theorems": [
    "Mbus.C109_frame_partial",
    "Mbus.C109_cut_violation",
    "Mbus.C109_granted",
    "Mbus.C109_leak_violation",
    "Mbus.C109_variable_partial",
    "Mbus.C109_buffer",
    "Mbus.C109_frame_exact",
    "Mbus.C109_overflow_violation"
   ],
   "note": "C109_frame_partial: NULL with an unchanged heap or exactly one new block with a closed document of the first records of each telegram (restriction on record texts as in C56). False in full: C109_cut_violation (a refused record makes mbus_data_variable_parse return -2, which mbus_frame_xml does not treat as an error: the remaining records of the telegram are missing without notice), C109_leak_violation (with a malformed later telegram the text buffer and records leak, as in C78). C109_granted: with every allocation granted the heap model agrees with the model of C56-C58, C76-C78 for every chain. C109_frame_exact: mbus_frame_xml on the heap for records of any length, with the outcome determined by the lengths of the texts; C109_overflow_violation: the overflow happens with every allocation granted."
  },
  {
   "property": "C110",
   "status": "partial",
   "theorems": [
    "Mbus.C110_line_partial",
    "Mbus.C110_codes",
    "Mbus.C110_others_partial",
    "Mbus.C110_connect_violation",
    "Mbus.C110_uninitialised_violation"
   ],
   "note": "C110_line_partial: by induction over histories. C110_codes: the return codes. C110_others_partial: other devices are left alone, if the descriptor field of the new handle is negative. False in full: C110_connect_violation (the result of tcsetattr is not looked at when connecting, success is reported with the line unset), C110_uninitialised_violation (a rate set before the first connection goes to whatever descriptor the uninitialised field names)."
  },
  {
   "property": "C111",
   "status": "partial",
   "theorems": [
    "Mbus.C111_label_partial",
    "Mbus.C111_unambiguous",
    "Mbus.C111_all_named",
    "Mbus.C111_quantity_partial",
    "Mbus.C111_custom",
    "Mbus.C111_prefix",
    "Mbus.C111_label_violation",
    "Mbus.C111_quantity_violation",
    "Mbus.C111_correction_violation"
   ],
   "note": "C111_label_partial, C111_unambiguous, C111_all_named, C111_quantity_partial, C111_custom, C111_prefix. False in full: C111_label_violation (codes 0x79 and 0x7E are labelled Unknown), C111_quantity_violation (quantity of 0xFD 0x30 is Reserved), C111_correction_violation (the label ignores a correcting VIFE: 5 kWh and 5 * 1000 kWh are shown alike)."
  },
  {
   "property": "C112",
   "status": "proved",
   "theorems": [
    "Mbus.C112_stateless",
    "Mbus.C112_lifetime",
    "Mbus.C112_needed"
   ],
   "note": "C112_stateless, C112_lifetime (the table invalidatedBy is the documentation a caller needs), C112_needed (the table cannot be shortened; XML functions and the address aside)."
  },
  {
   "property": "C113",
   "status": "proved",
   "theorems": [
    "Mbus.C113_normalized_wellFormed",
    "Mbus.C113_variable",
    "Mbus.C113_frame",
    "Mbus.C113_wellFormed",
    "Mbus.C113_normalized",
    "Mbus.C113_complete",
    "Mbus.C113_start",
    "Mbus.C113_frame_complete",
    "Mbus.C113_limits",
    "Mbus.C113_uncut",
    "Mbus.C113_readout",
    "Mbus.C113_cut"
   ],
   "note": "C113_variable, C113_frame, C113_normalized give the exact outcome for all lengths (no restriction as in C56/C79 beyond the storage number of C33); C113_complete, C113_frame_complete, C113_limits: when it is complete; C113_uncut, C113_readout: the texts are those of C56 if shorter than 762. C113_cut: a telegram whose document is cut without notice. C113_wellFormed: well-formed (with its final line feed) exactly if complete. C113_normalized_wellFormed: the normalised text is well-formed exactly if complete."
  },
  {
   "property": "C114",
   "status": "proved",
   "theorems": [
    "Mbus.C114_text",
    "Mbus.C114_unique",
    "Mbus.C114_order",
    "Mbus.C114_late",
    "Mbus.C114_late_content",
    "Mbus.C114_record",
    "Mbus.C114_xml"
   ],
   "note": "C114_text, C114_record, C114_xml (end to end with C113, without hypotheses on the texts of time stamps), C114_unique, C114_order; C114_late, C114_late_content: after year 9999. gmtime and strftime of the C library are part of the model (by repeated subtraction of years and months); the specification is the POSIX formula for seconds since the Epoch."
  },
  {
   "property": "C115",
   "status": "partial",
   "theorems": [
    "Mbus.C115_serial_request",
    "Mbus.C115_tcp_request",
    "Mbus.C115_serial_scan",
    "Mbus.C115_tcp_scan",
    "Mbus.C115_serial_select",
    "Mbus.C115_tcp_select",
    "Mbus.C115_set_address",
    "Mbus.C115_switch_baudrate",
    "Mbus.C115_tcp_optional",
    "Mbus.C115_tcp_scan_secondary",
    "Mbus.C115_serial_scan_secondary_partial",
    "Mbus.C115_serial_scan_secondary_only",
    "Mbus.C115_scan_secondary_violation",
    "Mbus.C115_serial_multi",
    "Mbus.C115_tcp_multi",
    "Mbus.C115_number",
    "Mbus.C115_no_number"
   ],
   "note": "Each theorem is an equivalence between acceptance with a certain result and the documented form. mbus-serial-scan-secondary: C115_serial_scan_secondary_partial (documented lines are accepted), C115_serial_scan_secondary_only (what is accepted), C115_scan_secondary_violation (anything in place of -b)."
  },
  {
   "property": "C116",
   "status": "partial",
   "theorems": [
    "Mbus.C116_serial_request",
    "Mbus.C116_tcp_request",
    "Mbus.C116_serial_multi",
    "Mbus.C116_tcp_multi",
    "Mbus.C116_serial_scan",
    "Mbus.C116_tcp_scan",
    "Mbus.C116_switch_baudrate",
    "Mbus.C116_reset",
    "Mbus.C116_set_address",
    "Mbus.C116_raw_send",
    "Mbus.C116_serial_scan_secondary_partial",
    "Mbus.C116_tcp_scan_secondary",
    "Mbus.C116_serial_select",
    "Mbus.C116_tcp_select",
    "Mbus.C116_leak_violation",
    "Mbus.C116_status_violation"
   ],
   "note": "One theorem per tool, in terms of Spec.Usable, Spec.report; the tool with option -d is that of C118. C116_leak_violation, C116_status_violation. What a failing program holds when it ends is not stated (the operating system reclaims it)."
  },
  {
   "property": "C117",
   "status": "partial",
   "theorems": [
    "Mbus.C117_serial_scan",
    "Mbus.C117_tcp_scan",
    "Mbus.C117_set_address",
    "Mbus.C117_switch_baudrate",
    "Mbus.C117_reset",
    "Mbus.C117_raw_send",
    "Mbus.C117_serial_select_partial",
    "Mbus.C117_tcp_select",
    "Mbus.C117_tcp_scan_secondary",
    "Mbus.C117_serial_scan_secondary_partial",
    "Mbus.C117_serial_request",
    "Mbus.C117_tcp_request",
    "Mbus.C117_serial_multi",
    "Mbus.C117_tcp_multi",
    "Mbus.C117_raw_send_no_file",
    "Mbus.C117_decimal",
    "Mbus.C117_searched_violation",
    "Mbus.C117_cut_violation"
   ],
   "note": "End to end: composes C115, C116 and the theorems on connected tools (C87-C95, C118); the text includes the output of option -d. C117_raw_send_no_file: a file that cannot be opened is noticed only after the meter was selected. C117_searched_violation, C117_cut_violation."
  },
  {
   "property": "C118",
   "status": "proved",
   "theorems": [
    "Mbus.C118_scan_same",
    "Mbus.C118_request_same",
    "Mbus.C118_multi_same",
    "Mbus.C118_set_address_same",
    "Mbus.C118_scan_secondary_same",
    "Mbus.C118_scan_wire",
    "Mbus.C118_request_wire",
    "Mbus.C118_multi_wire"
   ],
   "note": "C118_*_same: both versions of each tool related over an arbitrary link (Spec.Alike, Spec.Verbose). C118_*_wire: the exact text; C117 states it for the programs. The dumps of every telegram on standard error (C100) are not part of it. The other tools print nothing more on standard output with -d."
  },
  {
   "property": "C119",
   "status": "partial",
   "theorems": [
    "Mbus.C119_read_back",
    "Mbus.C119_parse",
    "Mbus.C119_parse_error_str",
    "Mbus.C119_wrong_iff",
    "Mbus.C119_wrong_unique",
    "Mbus.C119_verify",
    "Mbus.C119_data_parse",
    "Mbus.C119_secondary_address",
    "Mbus.C119_select",
    "Mbus.C119_tcp_recv",
    "Mbus.C119_serial_recv_partial",
    "Mbus.C119_serial_violation",
    "Mbus.C119_serial_timeout_violation",
    "Mbus.C119_tcp_send",
    "Mbus.C119_tcp_connect",
    "Mbus.C119_frame_xml"
   ],
   "note": "Spec.Wrong, Spec.Faulty, Spec.Broken, Spec.NotParsed: which defect has which message. Each theorem also says that the function with its message has the result of the function without it (Model/Frame etc.). C119_serial_recv_partial, C119_serial_violation, C119_serial_timeout_violation: the serial line."
  },
  {
   "property": "C120",
   "status": "partial",
   "theorems": [
    "Mbus.C120_usage",
    "Mbus.C120_no_file",
    "Mbus.C120_hex",
    "Mbus.C120_hex_document",
    "Mbus.C120_error_violation",
    "Mbus.C120_binary_partial",
    "Mbus.C120_checksum_violation",
    "Mbus.C120_start_violation",
    "Mbus.C120_binary_document"
   ],
   "note": "Whole programs; composes C98, C119 and C96/C118 (dump). C120_binary_partial: files that are telegrams. C120_checksum_violation, C120_start_violation, C120_error_violation. Diagnostics the library writes on standard error during normalisation are not included."
  },
  {
   "property": "C121",
   "status": "proved",
   "theorems": [
    "Mbus.C121_punctual",
    "Mbus.C121_late_violation",
    "Mbus.C121_purge_resync",
    "Mbus.C121_secondary"
   ],
   "note": "Client loops over mbus_read_slave on a bus whose answers may be late. C121_late_violation: for every address list the replies are shifted by one. C121_punctual, C121_purge_resync and C121_secondary are the parts that hold."
  },
  {
   "property": "C122",
   "status": "proved",
   "theorems": [
    "Mbus.C122_request",
    "Mbus.C122_ping",
    "Mbus.C122_baud",
    "Mbus.C122_reset",
    "Mbus.C122_data",
    "Mbus.C122_set_address",
    "Mbus.C122_select",
    "Mbus.C122_read",
    "Mbus.C122_sendrecv",
    "Mbus.C122_probe",
    "Mbus.C122_scan",
    "Mbus.C122_same",
    "Mbus.C122_scan_silent",
    "Mbus.C122_probe_silent",
    "Mbus.C122_read_silent",
    "Mbus.C122_command_silent",
    "Mbus.C122_stale_violation",
    "Mbus.C122_tcp_quote",
    "Mbus.C122_broken_violation",
    "Mbus.C122_scan_only_stderr"
   ],
   "note": "The session functions again with their stderr lines and error_str; C122_same relates them to Model/Session. C122_stale_violation, C122_broken_violation: diagnostics that mislead; C122_scan_only_stderr: a failure only stderr shows. Not modelled: lines printed by the serial transport itself, lines for NULL arguments and failed allocations."
  },
  {
   "property": "C123",
   "status": "proved",
   "theorems": [
    "Mbus.C123_request",
    "Mbus.C123_multi",
    "Mbus.C123_scan",
    "Mbus.C123_primary_scan",
    "Mbus.C123_select",
    "Mbus.C123_baud",
    "Mbus.C123_reset",
    "Mbus.C123_set_address",
    "Mbus.C123_success",
    "Mbus.C123_distinct"
   ],
   "note": "Spec/Crash: a meter's persistent state and how telegrams change it, independent of the model. Kill points are the prefixes of the log of calls; a telegram cut off in the middle of a write is not understood by any meter (checksum), so these are all. Identification numbers with the digits A..E are excluded in the statement because the selection telegram then names other meters (C50_hex_digit_violation)."
  },
  {
   "property": "C124",
   "status": "proved",
   "theorems": [
    "Mbus.C124_independent",
    "Mbus.C124_defined",
    "Mbus.C124_transmits",
    "Mbus.C124_order",
    "Mbus.C124_lines",
    "Mbus.C124_stderr_violation"
   ],
   "note": "Model/Process runs the functions with diagnostics (Model/Diag) over handles that share error_str; Spec/Process is one handle without it. Schedules are at the granularity of calls: the library has no locks and makes no claim for concurrent threads (two probes in parallel share the static buffer of mbus_frame_get_secondary_address). C124_stderr_violation: the diagnostics are not independent."
  },
  {
   "property": "C125",
   "status": "proved",
   "theorems": [
    "Mbus.C125_scan",
    "Mbus.C125_scan_all",
    "Mbus.C125_tool",
    "Mbus.C125_data_lost_violation"
   ],
   "note": "Spec/Lossy: the bus answers a selection like a faithful bus or not at all. C125_scan and C125_scan_all are the analogues of C74_exact and C48, C125_tool of C94. C125_data_lost_violation proves the last sentence of the statement. Answers that arrive damaged count as collisions (C75) and are not covered."
  },
  {
   "property": "C126",
   "status": "proved",
   "theorems": [
    "Mbus.C126_receive",
    "Mbus.C126_lookahead",
    "Mbus.C126_receive_settles",
    "Mbus.C126_interrupted_violation",
    "Mbus.C126_purge_violation",
    "Mbus.C126_select_violation",
    "Mbus.C126_program",
    "Mbus.C126_silent",
    "Mbus.C126_silent_probe",
    "Mbus.C126_silent_scan",
    "Mbus.C126_silent_sendrecv"
   ],
   "note": "Model/Reads: the receive functions with a count of their reads (C126_receive: nothing else changes). C126_program by a potential: reads + 7*pending - 7*arrived - 12*sent. C126_silent is exact. The three _violation theorems prove the last sentence of the statement: endless lines are approximated by their beginnings (Spec/Reads `Settles`), which C126_lookahead justifies."
  },
  {
   "property": "C127",
   "status": "proved",
   "theorems": [
    "Mbus.C127_apart",
    "Mbus.C127_swapped",
    "Mbus.C127_race_always",
    "Mbus.C127_race"
   ],
   "note": "Model/Threads spells the functions of Model/Statics out as sequences of single byte loads and stores (exec_call: alone they do the same); Spec/Threads interleaves them. C127_apart covers every schedule; freedom from data races justifies the sequentially consistent interleaving (C11 5.1.2.4). C127_race and C127_swapped prove the last two sentences. mbus_vib_unit_lookup is excepted in C127_swapped because it may return a constant. Not modelled: error_str and parse_debug."
  },
  {
   "property": "C128",
   "status": "proved",
   "theorems": [
    "Mbus.C128_shifted",
    "Mbus.C128_ghosts",
    "Mbus.C128_set_address",
    "Mbus.C128_secondary_finds_nothing"
   ],
   "note": "The statement contains the false part (a scan reports the meters that are there) as what happens instead; the positive case d = 0 is included in C128_shifted (and C88, C89, C94 for prompt buses). One meter per address for the primary scan; retries only for a delay of one transmission."
  },
  {
   "property": "C129",
   "status": "proved",
   "theorems": [
    "Mbus.C129_c_locale",
    "Mbus.C129_xml",
    "Mbus.C129_data",
    "Mbus.C129_normalized",
    "Mbus.C129_value",
    "Mbus.C129_other_values",
    "Mbus.C129_comma",
    "Mbus.C129_frame",
    "Mbus.C129_variable",
    "Mbus.C129_normalized_frame",
    "Mbus.C129_fixed_error"
   ],
   "note": "The statement contains the false part (a value is a decimal numeral in every locale). iscntrl and the decimal point are parameters; other functions that look at the locale (isspace in mbus_hex2bin, strtod is not used) are taken in the C locale."
  },
  {
   "property": "C130",
   "status": "proved",
   "theorems": [
    "Mbus.C130_same_model",
    "Mbus.C130_long_decode",
    "Mbus.C130_long_decode_same",
    "Mbus.C130_portable_float",
    "Mbus.C130_storage_tariff",
    "Mbus.C130_record",
    "Mbus.C130_fixed_record",
    "Mbus.C130_secondary_address",
    "Mbus.C130_number",
    "Mbus.C130_port_baud",
    "Mbus.C130_int",
    "Mbus.C130_int_violation"
   ],
   "note": "The statement contains the false part (the same numbers everywhere). int has 32 and long long 64 bits; size_t and time_t are not varied."
  },
  {
   "property": "C131",
   "status": "proved",
   "theorems": [
    "Mbus.C131_document",
    "Mbus.C131_readouts",
    "Mbus.C131_integers",
    "Mbus.C131_fixed",
    "Mbus.C131_error",
    "Mbus.C131_normalised"
   ],
   "note": "The statement is restricted to readouts whose records fit (the restriction of C56 and C79), where the document is complete; without it C56 and C79 are false."
  },
  {
   "property": "C132",
   "status": "proved",
   "theorems": [
    "Mbus.C132_order",
    "Mbus.C132_coding",
    "Mbus.C132_fixed"
   ],
   "note": "The statement leaves out code 0x279 and the fixed units of C38 where table and documentation disagree."
  },
  {
   "property": "C133",
   "status": "proved",
   "theorems": [
    "Mbus.C133_frame",
    "Mbus.C133_normalized",
    "Mbus.C133_fixed",
    "Mbus.C133_error",
    "Mbus.C133_dumps",
    "Mbus.C133_values",
    "Mbus.C133_raw",
    "Mbus.C133_parse",
    "Mbus.C133_serial_request",
    "Mbus.C133_tcp_request",
    "Mbus.C133_serial_multi",
    "Mbus.C133_tcp_multi"
   ],
   "note": "The statement says where control characters do pass (C133_raw, C133_values). Documents: under the conditions of C113 (storage numbers that fit an int). For the parse tools: telegrams of variable data under the hypotheses of the C98 theorems; for the request tools under those of the C117 theorems (Props/TameMain.lean). Bytes from 0x80 on are not restricted."
  },
  {
   "property": "C134",
   "status": "proved",
   "theorems": [
    "Mbus.C134_ascii",
    "Mbus.C134_only_ascii",
    "Mbus.C134_medium",
    "Mbus.C134_error",
    "Mbus.C134_fixed",
    "Mbus.C134_unit",
    "Mbus.C134_names",
    "Mbus.C134_normalized",
    "Mbus.C134_wrong_reading",
    "Mbus.C134_document",
    "Mbus.C134_neither"
   ],
   "note": "The statement lists the exceptions (C134_medium, C134_error, C134_fixed, C134_normalized, C134_wrong_reading) and the failing telegram (C134_neither). The source files' own encoding is read from /repo: they are UTF-8. C134_unit leaves out custom VIFs (0x7C, 0xFC), whose text is the meter's."
  },
  {
   "property": "C135",
   "status": "proved",
   "theorems": [
    "Mbus.C135_dates",
    "Mbus.C135_times",
    "Mbus.C135_mixed",
    "Mbus.C135_bytes",
    "Mbus.C135_invalid",
    "Mbus.C135_summer",
    "Mbus.C135_summer_instance"
   ],
   "note": "The order is that of the decoded fields (C18), whether or not there is such a day in the calendar. C135_summer is about 4-byte times; C135_summer_instance is a pair of records in which the later has the smaller text."
  },
  {
   "property": "C136",
   "status": "proved",
   "theorems": [
    "Mbus.C136_c_locale",
    "Mbus.C136_hex",
    "Mbus.C136_codes",
    "Mbus.C136_others",
    "Mbus.C136_turkish",
    "Mbus.C136_c",
    "Mbus.C136_turkish_utf8",
    "Mbus.C136_witness"
   ],
   "note": "The statement includes the exception (C136_turkish, C136_witness). The locale is a parameter of the model (Model/Ctype.lean); C136_c_locale proves that in the C locale it is the model the other properties are about. Negative arguments of isalpha and toupper (bytes from 128 on) are taken as glibc takes them."
  }
 ]
}