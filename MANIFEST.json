{
 "claims": [
  {
   "property": "C01",
   "status": "proved",
   "theorems": [
    "Elgas.C01_unescape_escape"
   ],
   "note": ""
  },
  {
   "property": "C02",
   "status": "proved",
   "theorems": [
    "Elgas.C02_escaped_shape",
    "Elgas.C02_escape_rejects",
    "Elgas.C02_stream_of_frames"
   ],
   "note": ""
  },
  {
   "property": "C03",
   "status": "proved",
   "theorems": [
    "Elgas.C03_unescape_raises_iff",
    "Elgas.C03_unescape_units",
    "Elgas.C03_unescape_line_total",
    "Elgas.C03_escape_length"
   ],
   "note": ""
  },
  {
   "property": "C04",
   "status": "proved",
   "theorems": [
    "Elgas.C04_lrc",
    "Elgas.C04_checksum",
    "Elgas.C04_drc",
    "Elgas.C04_range"
   ],
   "note": ""
  },
  {
   "property": "C05",
   "status": "proved",
   "theorems": [
    "Elgas.C05_single_byte_corruption",
    "Elgas.C05_single_byte_corruption_factory"
   ],
   "note": ""
  },
  {
   "property": "C06",
   "status": "proved",
   "theorems": [
    "Elgas.C06_adjacent",
    "Elgas.C06_exchange",
    "Elgas.C06_exchange_8",
    "Elgas.C06_exchange_adjacent"
   ],
   "note": ""
  },
  {
   "property": "C07",
   "status": "proved",
   "theorems": [
    "Elgas.C07_crc_is_modbus_swapped",
    "Elgas.C07_crc_range"
   ],
   "note": ""
  },
  {
   "property": "C08",
   "status": "proved",
   "theorems": [
    "Elgas.C08_crc_detects_bursts",
    "Elgas.C08_crc_detects_two_bytes",
    "Elgas.C08_three_bytes_can_collide"
   ],
   "note": ""
  },
  {
   "property": "C09",
   "status": "proved",
   "theorems": [
    "Elgas.C09_response_roundtrip",
    "Elgas.C09_factory_roundtrip"
   ],
   "note": ""
  },
  {
   "property": "C10",
   "status": "proved",
   "theorems": [
    "Elgas.C10_service_byte",
    "Elgas.C10_service_decoded",
    "Elgas.C10_request_layout",
    "Elgas.C10_response_layout",
    "Elgas.C10_length_field"
   ],
   "note": ""
  },
  {
   "property": "C11",
   "status": "proved",
   "theorems": [
    "Elgas.C11_request_from_bytes",
    "Elgas.C11_request_roundtrip_iff",
    "Elgas.C11_request_roundtrip_fails"
   ],
   "note": "The plain round trip a user expects is refuted (C11_request_roundtrip_fails); proved is the exact result and the exact condition for equality."
  },
  {
   "property": "C12",
   "status": "proved",
   "theorems": [
    "Elgas.C12_accepted_is_serialised",
    "Elgas.C12_unique",
    "Elgas.C12_iff",
    "Elgas.C12_min_length",
    "Elgas.C12_short_frame_accepted",
    "Elgas.C12_short_lengths"
   ],
   "note": "The claim without the length condition is refuted (C12_short_frame_accepted); 16 bytes is the exact border (C12_iff)."
  },
  {
   "property": "C13",
   "status": "proved",
   "theorems": [
    "Elgas.C13_from_bytes_total",
    "Elgas.C13_factory_total"
   ],
   "note": ""
  },
  {
   "property": "C14",
   "status": "proved",
   "theorems": [
    "Elgas.C14_request_range",
    "Elgas.C14_response_range",
    "Elgas.C14_request_error",
    "Elgas.C14_response_error"
   ],
   "note": ""
  },
  {
   "property": "C15",
   "status": "proved",
   "theorems": [
    "Elgas.C15_to_bcd",
    "Elgas.C15_roundtrip",
    "Elgas.C15_negative",
    "Elgas.C15_from_bcd",
    "Elgas.C15_injective"
   ],
   "note": ""
  },
  {
   "property": "C16",
   "status": "proved",
   "theorems": [
    "Elgas.C16_roundtrip"
   ],
   "note": ""
  },
  {
   "property": "C17",
   "status": "proved",
   "theorems": [
    "Elgas.C17_decode_iff",
    "Elgas.C17_decode_errors",
    "Elgas.C17_reencode"
   ],
   "note": ""
  },
  {
   "property": "C18",
   "status": "proved",
   "theorems": [
    "Elgas.C18_before_2000",
    "Elgas.C18_from_2100",
    "Elgas.C18_shifted_body"
   ],
   "note": ""
  },
  {
   "property": "C19",
   "status": "proved",
   "theorems": [
    "Elgas.C19_cut_at_last_nul",
    "Elgas.C19_shape",
    "Elgas.C19_result_clean",
    "Elgas.C19_idempotent"
   ],
   "note": ""
  },
  {
   "property": "C20",
   "status": "proved",
   "theorems": [
    "Elgas.C20_dotted_decimal",
    "Elgas.C20_injective"
   ],
   "note": ""
  },
  {
   "property": "C21",
   "status": "proved",
   "theorems": [
    "Elgas.C21_read_values",
    "Elgas.C21_read_time",
    "Elgas.C21_read_parameters",
    "Elgas.C21_read_archive",
    "Elgas.C21_read_archive_by_time",
    "Elgas.C21_write_time",
    "Elgas.C21_read_values_error",
    "Elgas.C21_read_parameters_error",
    "Elgas.C21_read_archive_error",
    "Elgas.C21_read_archive_by_time_error",
    "Elgas.C21_write_time_error",
    "Elgas.C21_read_parameters_decoded",
    "Elgas.C21_read_archive_decoded",
    "Elgas.C21_read_archive_by_time_decoded",
    "Elgas.C21_write_time_decoded"
   ],
   "note": ""
  },
  {
   "property": "C22",
   "status": "proved",
   "theorems": [
    "Elgas.C22_block",
    "Elgas.C22_unencodable",
    "Elgas.C22_ten_bytes_iff",
    "Elgas.C22_alphabet",
    "Elgas.C22_injective"
   ],
   "note": ""
  },
  {
   "property": "C23",
   "status": "proved",
   "theorems": [
    "Elgas.C23_lossless",
    "Elgas.C23_accepts_iff",
    "Elgas.C23_errors"
   ],
   "note": ""
  },
  {
   "property": "C24",
   "status": "proved",
   "theorems": [
    "Elgas.C24_read_time"
   ],
   "note": ""
  },
  {
   "property": "C25",
   "status": "proved",
   "theorems": [
    "Elgas.C25_read_parameters"
   ],
   "note": ""
  },
  {
   "property": "C26",
   "status": "proved",
   "theorems": [
    "Elgas.C26_archive",
    "Elgas.C26_record_id",
    "Elgas.C26_record_id_fails",
    "Elgas.C26_accepts"
   ],
   "note": ""
  },
  {
   "property": "C27",
   "status": "proved",
   "theorems": [
    "Elgas.C27_protocol",
    "Elgas.C27_reply",
    "Elgas.C27_fields",
    "Elgas.C27_outcome",
    "Elgas.C27_trailing",
    "Elgas.C27_leading_zeros"
   ],
   "note": ""
  },
  {
   "property": "C28",
   "status": "proved",
   "theorems": [
    "Elgas.C28_sync_only"
   ],
   "note": ""
  },
  {
   "property": "C29",
   "status": "proved",
   "theorems": [
    "Elgas.C29_decrypt_encrypt",
    "Elgas.C29_roundtrip"
   ],
   "note": ""
  },
  {
   "property": "C30",
   "status": "proved",
   "theorems": [
    "Elgas.C30_encrypt_shape",
    "Elgas.C30_encrypt_outcome",
    "Elgas.C30_deterministic_without_padding"
   ],
   "note": ""
  },
  {
   "property": "C31",
   "status": "proved",
   "theorems": [
    "Elgas.C31_decrypt_iff",
    "Elgas.C31_decrypt_errors",
    "Elgas.C31_length_tampering",
    "Elgas.C31_body_tampering"
   ],
   "note": ""
  },
  {
   "property": "C32",
   "status": "proved",
   "theorems": [
    "Elgas.C32_plaintext",
    "Elgas.C32_encrypted"
   ],
   "note": ""
  },
  {
   "property": "C33",
   "status": "proved",
   "theorems": [
    "Elgas.C33_plaintext_accepted"
   ],
   "note": ""
  },
  {
   "property": "C34",
   "status": "proved",
   "theorems": [
    "Elgas.C34_accepts_iff",
    "Elgas.C34_refuses",
    "Elgas.C34_idle_accepts"
   ],
   "note": ""
  },
  {
   "property": "C35",
   "status": "proved",
   "theorems": [
    "Elgas.C35_alternating",
    "Elgas.C35_at_most_one_outstanding",
    "Elgas.C35_sending_a_response_resets"
   ],
   "note": ""
  },
  {
   "property": "C36",
   "status": "proved",
   "theorems": [
    "Elgas.C36_refused_unchanged",
    "Elgas.C36_failed_send_leaves_awaiting",
    "Elgas.C36_stuck_until_response",
    "Elgas.C36_failing_send_exists"
   ],
   "note": ""
  },
  {
   "property": "C37",
   "status": "proved",
   "theorems": [
    "Elgas.C37_incomplete",
    "Elgas.C37_chunking"
   ],
   "note": ""
  },
  {
   "property": "C38",
   "status": "proved",
   "theorems": [
    "Elgas.C38_poll_effect",
    "Elgas.C38_poll_idempotent"
   ],
   "note": ""
  },
  {
   "property": "C39",
   "status": "proved",
   "theorems": [
    "Elgas.C39_blocked_forever",
    "Elgas.C39_no_more_requests",
    "Elgas.C39_damaged_frame_blocks"
   ],
   "note": ""
  },
  {
   "property": "C40",
   "status": "proved",
   "theorems": [
    "Elgas.C40_error_raised",
    "Elgas.C40_poisoned"
   ],
   "note": ""
  },
  {
   "property": "C41",
   "status": "proved",
   "theorems": [
    "Elgas.C41_combined_bits_not_reported",
    "Elgas.C41_write_reported_as_success"
   ],
   "note": ""
  },
  {
   "property": "C42",
   "status": "proved",
   "theorems": [
    "Elgas.C42_receive",
    "Elgas.C42_stray_end_blocks"
   ],
   "note": ""
  },
  {
   "property": "C43",
   "status": "proved",
   "theorems": [
    "Elgas.C43_rest_discarded",
    "Elgas.C43_second_response_lost"
   ],
   "note": ""
  },
  {
   "property": "C44",
   "status": "proved",
   "theorems": [
    "Elgas.C44_returns_iff",
    "Elgas.C44_wrong_service_raises",
    "Elgas.C44_answers",
    "Elgas.C44_wrong_service_error"
   ],
   "note": ""
  },
  {
   "property": "C45",
   "status": "proved",
   "theorems": [
    "Elgas.C45_exchange",
    "Elgas.C45_encrypted_answer"
   ],
   "note": ""
  },
  {
   "property": "C46",
   "status": "proved",
   "theorems": [
    "Elgas.C46_constructor",
    "Elgas.C46_send_succeeds",
    "Elgas.C46_send_exactly",
    "Elgas.C46_send_raises"
   ],
   "note": ""
  },
  {
   "property": "C47",
   "status": "proved",
   "theorems": [
    "Elgas.C47_recv_cases",
    "Elgas.C47_returns_line",
    "Elgas.C47_segmentation_irrelevant"
   ],
   "note": ""
  },
  {
   "property": "C48",
   "status": "proved",
   "theorems": [
    "Elgas.C48_recv_spins",
    "Elgas.C48_silent_peer",
    "Elgas.C48_needs_input"
   ],
   "note": ""
  },
  {
   "property": "C49",
   "status": "proved",
   "theorems": [
    "Elgas.C49_disconnected",
    "Elgas.C49_connected",
    "Elgas.C49_exceptions",
    "Elgas.C49_one_handle",
    "Elgas.C49_reconnect"
   ],
   "note": ""
  },
  {
   "property": "C50",
   "status": "proved",
   "theorems": [
    "Elgas.C50_leak",
    "Elgas.C50_closes"
   ],
   "note": ""
  },
  {
   "property": "C51",
   "status": "proved",
   "theorems": [
    "Elgas.C51_bounds",
    "Elgas.C51_expired_iff",
    "Elgas.C51_stays_expired",
    "Elgas.C51_time_left",
    "Elgas.C51_clock_jump",
    "Elgas.C51_none_and_zero",
    "Elgas.C51_restart_defects",
    "Elgas.C51_restart"
   ],
   "note": ""
  },
  {
   "property": "C52",
   "status": "proved",
   "theorems": [
    "Elgas.C52_exchange_iff",
    "Elgas.C52_read_instantaneous_values",
    "Elgas.C52_read_time",
    "Elgas.C52_write_time",
    "Elgas.C52_read_archive",
    "Elgas.C52_read_archive_by_time",
    "Elgas.C52_answered"
   ],
   "note": ""
  },
  {
   "property": "C53",
   "status": "proved",
   "theorems": [
    "Elgas.C53_continues",
    "Elgas.C53_pages_iff",
    "Elgas.C53_read_parameters",
    "Elgas.C53_requests",
    "Elgas.C53_complete"
   ],
   "note": ""
  },
  {
   "property": "C54",
   "status": "proved",
   "theorems": [
    "Elgas.C54_needs_end",
    "Elgas.C54_endless",
    "Elgas.C54_overflow"
   ],
   "note": ""
  },
  {
   "property": "C55",
   "status": "proved",
   "theorems": [
    "Elgas.C55_exchange",
    "Elgas.C55_call",
    "Elgas.C55_refused",
    "Elgas.C55_stuck",
    "Elgas.C55_ready_or_stuck",
    "Elgas.C55_history",
    "Elgas.C55_constructor"
   ],
   "note": ""
  },
  {
   "property": "C56",
   "status": "proved",
   "theorems": [
    "Elgas.C56_iteration",
    "Elgas.C56_split",
    "Elgas.C56_data_argument"
   ],
   "note": ""
  },
  {
   "property": "C57",
   "status": "proved",
   "theorems": [
    "Elgas.C57_terminates",
    "Elgas.C57_result",
    "Elgas.C57_bad_input",
    "Elgas.C57_exceptions",
    "Elgas.C57_every_input",
    "Elgas.C57_count"
   ],
   "note": ""
  },
  {
   "property": "C58",
   "status": "proved",
   "theorems": [
    "Elgas.C58_type_numbers",
    "Elgas.C58_type_byte",
    "Elgas.C58_dispatch",
    "Elgas.C58_difference_base_counter",
    "Elgas.C58_missing_arguments",
    "Elgas.C58_schemas"
   ],
   "note": ""
  },
  {
   "property": "C59",
   "status": "proved",
   "theorems": [
    "Elgas.C59_values",
    "Elgas.C59_attribute"
   ],
   "note": ""
  },
  {
   "property": "C60",
   "status": "proved",
   "theorems": [
    "Elgas.C60_outcome",
    "Elgas.C60_errors",
    "Elgas.C60_none_iff"
   ],
   "note": ""
  },
  {
   "property": "C61",
   "status": "proved",
   "theorems": [
    "Elgas.C61_roundtrip",
    "Elgas.C61_identical",
    "Elgas.C61_flow_rate_without_decimals"
   ],
   "note": ""
  },
  {
   "property": "C62",
   "status": "proved",
   "theorems": [
    "Elgas.C62_censored",
    "Elgas.C62_to_secret_byte"
   ],
   "note": ""
  },
  {
   "property": "C63",
   "status": "proved",
   "theorems": [
    "Elgas.C63_crc_outcome",
    "Elgas.C63_crc_embedded",
    "Elgas.C63_crc_depends_on_padding"
   ],
   "note": ""
  },
  {
   "property": "C64",
   "status": "proved",
   "theorems": [
    "Elgas.C64_pop_many"
   ],
   "note": ""
  },
  {
   "property": "C65",
   "status": "proved",
   "theorems": [
    "Elgas.C65_on_the_wire",
    "Elgas.C65_no_mixture"
   ],
   "note": ""
  },
  {
   "property": "C66",
   "status": "proved",
   "theorems": [
    "Elgas.C66_recv_until",
    "Elgas.C66_empty_terminator",
    "Elgas.C66_recv_bytes"
   ],
   "note": ""
  },
  {
   "property": "C67",
   "status": "proved",
   "theorems": [
    "Elgas.C67_nothing_lost",
    "Elgas.C67_exchange",
    "Elgas.C67_exchanges"
   ],
   "note": ""
  },
  {
   "property": "C68",
   "status": "proved",
   "theorems": [
    "Elgas.C68_dump",
    "Elgas.C68_load_object",
    "Elgas.C68_plain_object",
    "Elgas.C68_load",
    "Elgas.C68_roundtrip",
    "Elgas.C68_restores_unique",
    "Elgas.C68_restore"
   ],
   "note": ""
  },
  {
   "property": "C69",
   "status": "proved",
   "theorems": [
    "Elgas.C69_body",
    "Elgas.C69_wire",
    "Elgas.C69_not_on_the_wire"
   ],
   "note": ""
  },
  {
   "property": "C70",
   "status": "proved",
   "theorems": [
    "Elgas.C70_addresses_ignored",
    "Elgas.C70_stale_accepted",
    "Elgas.C70_replay_accepted"
   ],
   "note": ""
  },
  {
   "property": "C71",
   "status": "proved",
   "theorems": [
    "Elgas.C71_prefix",
    "Elgas.C71_repeated"
   ],
   "note": ""
  },
  {
   "property": "C72",
   "status": "proved",
   "theorems": [
    "Elgas.C72_state",
    "Elgas.C72_answer"
   ],
   "note": ""
  },
  {
   "property": "C73",
   "status": "proved",
   "theorems": [
    "Elgas.C73_noise",
    "Elgas.C73_first_byte",
    "Elgas.C73_echo"
   ],
   "note": ""
  },
  {
   "property": "C74",
   "status": "proved",
   "theorems": [
    "Elgas.C74_poll_exceptions",
    "Elgas.C74_send_exceptions",
    "Elgas.C74_client_exceptions",
    "Elgas.C74_poll_attained",
    "Elgas.C74_send_attained",
    "Elgas.C74_parse_attained"
   ],
   "note": ""
  },
  {
   "property": "C75",
   "status": "proved",
   "theorems": [
    "Elgas.C75_objects",
    "Elgas.C75_requests",
    "Elgas.C75_client",
    "Elgas.C75_plain_connection"
   ],
   "note": ""
  },
  {
   "property": "C76",
   "status": "proved",
   "theorems": [
    "Elgas.C76_plain_password",
    "Elgas.C76_unencrypted",
    "Elgas.C76_sent",
    "Elgas.C76_history"
   ],
   "note": ""
  },
  {
   "property": "C77",
   "status": "proved",
   "theorems": [
    "Elgas.C77_encrypted_log"
   ],
   "note": ""
  },
  {
   "property": "C78",
   "status": "proved",
   "theorems": [
    "Elgas.C78_read_time",
    "Elgas.C78_write_time",
    "Elgas.C78_read_values",
    "Elgas.C78_read_parameters",
    "Elgas.C78_pages",
    "Elgas.C78_send",
    "Elgas.C78_response",
    "Elgas.C78_no_response",
    "Elgas.C78_traffic"
   ],
   "note": ""
  },
  {
   "property": "C79",
   "status": "proved",
   "theorems": [
    "Elgas.C79_session",
    "Elgas.C79_understood",
    "Elgas.C79_unchanged",
    "Elgas.C79_wrong_password",
    "Elgas.C79_served"
   ],
   "note": ""
  },
  {
   "property": "C80",
   "status": "proved",
   "theorems": [
    "Elgas.C80_poll",
    "Elgas.C80_forever",
    "Elgas.C80_exchange",
    "Elgas.C80_call"
   ],
   "note": ""
  },
  {
   "property": "C81",
   "status": "proved",
   "theorems": [
    "Elgas.C81_request",
    "Elgas.C81_meaning"
   ],
   "note": ""
  },
  {
   "property": "C82",
   "status": "proved",
   "theorems": [
    "Elgas.C82_session",
    "Elgas.C82_wrong_password",
    "Elgas.C82_served"
   ],
   "note": ""
  },
  {
   "property": "C83",
   "status": "proved",
   "theorems": [
    "Elgas.C83_session",
    "Elgas.C83_sessions",
    "Elgas.C83_served"
   ],
   "note": ""
  },
  {
   "property": "C84",
   "status": "proved",
   "theorems": [
    "Elgas.C84_raises",
    "Elgas.C84_unconnected"
   ],
   "note": ""
  },
  {
   "property": "C85",
   "status": "proved",
   "theorems": [
    "Elgas.C85_spoiled",
    "Elgas.C85_fresh_or_spoiled",
    "Elgas.C85_history"
   ],
   "note": ""
  },
  {
   "property": "C86",
   "status": "proved",
   "theorems": [
    "Elgas.C86_several",
    "Elgas.C86_unasked",
    "Elgas.C86_stale"
   ],
   "note": ""
  },
  {
   "property": "C87",
   "status": "proved",
   "theorems": [
    "Elgas.C87_life_cycle",
    "Elgas.C87_one_handle",
    "Elgas.C87_unconnected"
   ],
   "note": ""
  },
  {
   "property": "C88",
   "status": "proved",
   "theorems": [
    "Elgas.C88_one_by_one",
    "Elgas.C88_own_answer",
    "Elgas.C88_accepted",
    "Elgas.C88_progress"
   ],
   "note": ""
  },
  {
   "property": "C89",
   "status": "proved",
   "theorems": [
    "Elgas.C89_undisturbed",
    "Elgas.C89_own_answer",
    "Elgas.C89_two_outstanding",
    "Elgas.C89_foreign_answer",
    "Elgas.C89_stale_answer"
   ],
   "note": ""
  },
  {
   "property": "C90",
   "status": "proved",
   "theorems": [
    "Elgas.C90_unused",
    "Elgas.C90_unused_client",
    "Elgas.C90_password_id",
    "Elgas.C90_constructor",
    "Elgas.C90_continued",
    "Elgas.C90_on_the_wire",
    "Elgas.C90_key_ignored",
    "Elgas.C90_session",
    "Elgas.C90_password_length",
    "Elgas.C90_served"
   ],
   "note": ""
  },
  {
   "property": "C91",
   "status": "proved",
   "theorems": [
    "Elgas.C91_pages",
    "Elgas.C91_sent",
    "Elgas.C91_received",
    "Elgas.C91_received_all",
    "Elgas.C91_life_cycle",
    "Elgas.C91_unlogged",
    "Elgas.C91_encrypted_log",
    "Elgas.C91_read_time",
    "Elgas.C91_write_time",
    "Elgas.C91_read_values",
    "Elgas.C91_read_parameters"
   ],
   "note": ""
  },
  {
   "property": "C92",
   "status": "proved",
   "theorems": [
    "Elgas.C92_connections",
    "Elgas.C92_clients",
    "Elgas.C92_shared_state",
    "Elgas.C92_shared_answer",
    "Elgas.C92_crossed",
    "Elgas.C92_shared_transport",
    "Elgas.C92_shared_transport_served"
   ],
   "note": ""
  },
  {
   "property": "C93",
   "status": "proved",
   "theorems": [
    "Elgas.C93_single",
    "Elgas.C93_rounded",
    "Elgas.C93_not_finite",
    "Elgas.C93_large",
    "Elgas.C93_error",
    "Elgas.C93_zero",
    "Elgas.C93_monotone",
    "Elgas.C93_idempotent",
    "Elgas.C93_finite",
    "Elgas.C93_parsed",
    "Elgas.C93_attribute"
   ],
   "note": ""
  },
  {
   "property": "C94",
   "status": "proved",
   "theorems": [
    "Elgas.C94_device",
    "Elgas.C94_answered",
    "Elgas.C94_accepted",
    "Elgas.C94_refused",
    "Elgas.C94_order",
    "Elgas.C94_alone"
   ],
   "note": ""
  },
  {
   "property": "C95",
   "status": "proved",
   "theorems": [
    "Elgas.C95_int",
    "Elgas.C95_str",
    "Elgas.C95_bytes",
    "Elgas.C95_bytearray",
    "Elgas.C95_time",
    "Elgas.C95_transport",
    "Elgas.C95_sent",
    "Elgas.C95_received",
    "Elgas.C95_lives",
    "Elgas.C95_address"
   ],
   "note": ""
  },
  {
   "property": "C96",
   "status": "proved",
   "theorems": [
    "Elgas.C96_text",
    "Elgas.C96_ascii",
    "Elgas.C96_configuration",
    "Elgas.C96_restore",
    "Elgas.C96_errors"
   ],
   "note": ""
  },
  {
   "property": "C97",
   "status": "proved",
   "theorems": [
    "Elgas.C97_without_effect",
    "Elgas.C97_never_encrypts",
    "Elgas.C97_keeps_key",
    "Elgas.C97_password",
    "Elgas.C97_timeout",
    "Elgas.C97_context",
    "Elgas.C97_addresses",
    "Elgas.C97_address_out_of_range",
    "Elgas.C97_reset",
    "Elgas.C97_buffer_only",
    "Elgas.C97_state_only",
    "Elgas.C97_shown",
    "Elgas.C97_shown_connection"
   ],
   "note": ""
  },
  {
   "property": "C98",
   "status": "proved",
   "theorems": [
    "Elgas.C98_lines",
    "Elgas.C98_crash",
    "Elgas.C98_resume"
   ],
   "note": ""
  },
  {
   "property": "C99",
   "status": "proved",
   "theorems": [
    "Elgas.C99_same_client",
    "Elgas.C99_says",
    "Elgas.C99_library",
    "Elgas.C99_runtime",
    "Elgas.C99_communication",
    "Elgas.C99_password_shown",
    "Elgas.C99_construct",
    "Elgas.C99_construct_only",
    "Elgas.C99_frame",
    "Elgas.C99_decrypt",
    "Elgas.C99_helpers",
    "Elgas.C99_same_functions"
   ],
   "note": ""
  },
  {
   "property": "C100",
   "status": "proved",
   "theorems": [
    "Elgas.C100_password",
    "Elgas.C100_unused"
   ],
   "note": ""
  },
  {
   "property": "C101",
   "status": "proved",
   "theorems": [
    "Elgas.C101_same_type",
    "Elgas.C101_types",
    "Elgas.C101_again",
    "Elgas.C101_symmetric",
    "Elgas.C101_transitive",
    "Elgas.C101_list_again",
    "Elgas.C101_lists",
    "Elgas.C101_restored"
   ],
   "note": ""
  },
  {
   "property": "C102",
   "status": "proved",
   "theorems": [
    "Elgas.C102_load",
    "Elgas.C102_refused",
    "Elgas.C102_base_counter",
    "Elgas.C102_attributes",
    "Elgas.C102_own_entry",
    "Elgas.C102_order",
    "Elgas.C102_roundtrip",
    "Elgas.C102_again",
    "Elgas.C102_json",
    "Elgas.C102_parsed",
    "Elgas.C102_base_counter_like",
    "Elgas.C102_null"
   ],
   "note": ""
  },
  {
   "property": "C103",
   "status": "proved",
   "theorems": [
    "Elgas.C103_timing",
    "Elgas.C103_changed",
    "Elgas.C103_recv_stops",
    "Elgas.C103_no_time"
   ],
   "note": ""
  },
  {
   "property": "C104",
   "status": "proved",
   "theorems": [
    "Elgas.C104_interrupted",
    "Elgas.C104_uninterrupted",
    "Elgas.C104_call",
    "Elgas.C104_claimed",
    "Elgas.C104_leftover",
    "Elgas.C104_moment",
    "Elgas.C104_reset"
   ],
   "note": ""
  },
  {
   "property": "C105",
   "status": "proved",
   "theorems": [
    "Elgas.C105_same_call",
    "Elgas.C105_fault",
    "Elgas.C105_no_time",
    "Elgas.C105_cases",
    "Elgas.C105_hung",
    "Elgas.C105_same_program",
    "Elgas.C105_made",
    "Elgas.C105_accepts",
    "Elgas.C105_too_long",
    "Elgas.C105_password",
    "Elgas.C105_odd_key_id",
    "Elgas.C105_offset"
   ],
   "note": ""
  },
  {
   "property": "C106",
   "status": "proved",
   "theorems": [
    "Elgas.C106_connect",
    "Elgas.C106_connect_moment",
    "Elgas.C106_disconnect",
    "Elgas.C106_disconnect_moment",
    "Elgas.C106_uninterrupted",
    "Elgas.C106_lost",
    "Elgas.C106_still_held",
    "Elgas.C106_recover",
    "Elgas.C106_sessions"
   ],
   "note": ""
  },
  {
   "property": "C107",
   "status": "proved",
   "theorems": [
    "Elgas.C107_order",
    "Elgas.C107_equal",
    "Elgas.C107_lines",
    "Elgas.C107_call",
    "Elgas.C107_chronological",
    "Elgas.C107_archives",
    "Elgas.C107_pages",
    "Elgas.C107_sorted"
   ],
   "note": ""
  },
  {
   "property": "C108",
   "status": "proved",
   "theorems": [
    "Elgas.C108_only_last",
    "Elgas.C108_nothing_more",
    "Elgas.C108_arrives",
    "Elgas.C108_glued",
    "Elgas.C108_requests"
   ],
   "note": ""
  },
  {
   "property": "C109",
   "status": "proved",
   "theorems": [
    "Elgas.C109_created",
    "Elgas.C109_reads",
    "Elgas.C109_no_bytes",
    "Elgas.C109_run",
    "Elgas.C109_typed",
    "Elgas.C109_sends",
    "Elgas.C109_never_sends",
    "Elgas.C109_float",
    "Elgas.C109_never_opens"
   ],
   "note": ""
  },
  {
   "property": "C110",
   "status": "proved",
   "theorems": [
    "Elgas.C110_secret",
    "Elgas.C110_plain",
    "Elgas.C110_frame",
    "Elgas.C110_connection",
    "Elgas.C110_client",
    "Elgas.C110_log_send",
    "Elgas.C110_log_event",
    "Elgas.C110_archives"
   ],
   "note": ""
  },
  {
   "property": "C111",
   "status": "proved",
   "theorems": [
    "Elgas.C111_sbox",
    "Elgas.C111_aes",
    "Elgas.C111_encrypt",
    "Elgas.C111_decrypt"
   ],
   "note": ""
  },
  {
   "property": "C112",
   "status": "proved",
   "theorems": [
    "Elgas.C112_key_revealed",
    "Elgas.C112_forgeries"
   ],
   "note": ""
  },
  {
   "property": "C113",
   "status": "proved",
   "theorems": [
    "Elgas.C113_same",
    "Elgas.C113_raised",
    "Elgas.C113_not_lost"
   ],
   "note": ""
  },
  {
   "property": "C114",
   "status": "proved",
   "theorems": [
    "Elgas.C114_one_program",
    "Elgas.C114_own_answer",
    "Elgas.C114_not_in_the_way",
    "Elgas.C114_order_only"
   ],
   "note": ""
  },
  {
   "property": "C115",
   "status": "proved",
   "theorems": [
    "Elgas.C115_one_program",
    "Elgas.C115_program",
    "Elgas.C115_not_in_the_way",
    "Elgas.C115_no_deadlock"
   ],
   "note": ""
  },
  {
   "property": "C116",
   "status": "proved",
   "theorems": [
    "Elgas.C116_grammar",
    "Elgas.C116_one_meaning",
    "Elgas.C116_other",
    "Elgas.C116_dumps",
    "Elgas.C116_configuration",
    "Elgas.C116_layout",
    "Elgas.C116_relaid"
   ],
   "note": ""
  },
  {
   "property": "C117",
   "status": "proved",
   "theorems": [
    "Elgas.C117_retried",
    "Elgas.C117_finished",
    "Elgas.C117_can_finish"
   ],
   "note": ""
  },
  {
   "property": "C118",
   "status": "proved",
   "theorems": [
    "Elgas.C118_session",
    "Elgas.C118_unchanged",
    "Elgas.C118_clock",
    "Elgas.C118_set",
    "Elgas.C118_forward",
    "Elgas.C118_torn"
   ],
   "note": ""
  }
 ]
}