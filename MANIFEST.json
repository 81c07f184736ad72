{
 "claims": [
  {
   "property": "C01",
   "status": "proved",
   "theorems": [
    "Props.C01_remaining_length_roundtrip"
   ],
   "note": ""
  },
  {
   "property": "C02",
   "status": "proved",
   "theorems": [
    "Props.C02_v4_too_long",
    "Props.C02_v5_too_long"
   ],
   "note": ""
  },
  {
   "property": "C03",
   "status": "proved",
   "theorems": [
    "Props.C03_check_ok_iff",
    "Props.C03_check_malformed_iff",
    "Props.C03_check_limit_iff",
    "Props.C03_check_insufficient_iff",
    "Props.C03_check_outcomes"
   ],
   "note": ""
  },
  {
   "property": "C04",
   "status": "proved",
   "theorems": [
    "Props.C04_insufficient_sound"
   ],
   "note": ""
  },
  {
   "property": "C05",
   "status": "proved",
   "theorems": [
    "Props.C05_verdict_stable"
   ],
   "note": ""
  },
  {
   "property": "C06",
   "status": "proved",
   "theorems": [
    "Props.C06_v4_limit_first",
    "Props.C06_v4_limit_enforced",
    "Props.C06_v5_limit_first",
    "Props.C06_v5_limit_enforced"
   ],
   "note": ""
  },
  {
   "property": "C07",
   "status": "proved",
   "theorems": [
    "Props.C07_v4_read_total"
   ],
   "note": ""
  },
  {
   "property": "C08",
   "status": "proved",
   "theorems": [
    "Props.C08_v5_read_total"
   ],
   "note": ""
  },
  {
   "property": "C09",
   "status": "proved",
   "theorems": [
    "Props.C09_v4_one_frame"
   ],
   "note": ""
  },
  {
   "property": "C10",
   "status": "proved",
   "theorems": [
    "Props.C10_v5_one_frame"
   ],
   "note": ""
  },
  {
   "property": "C11",
   "status": "proved",
   "theorems": [
    "Props.C11_v4_insufficient"
   ],
   "note": ""
  },
  {
   "property": "C12",
   "status": "proved",
   "theorems": [
    "Props.C12_v5_insufficient",
    "Props.C12_v5_unchanged_iff",
    "Props.C12_v5_consumed_but_insufficient"
   ],
   "note": "deviation of the code that the theorems state exactly: `v5::read` can return InsufficientBytes(1) *after* consuming a complete frame"
  },
  {
   "property": "C13",
   "status": "proved",
   "theorems": [
    "Props.C13_v4_chunking",
    "Props.C13_v4_outcome_exists_unique"
   ],
   "note": ""
  },
  {
   "property": "C14",
   "status": "proved",
   "theorems": [
    "Props.C14_v5_chunking",
    "Props.C14_v5_outcome_exists_unique",
    "Props.C14_v5_naive_client_depends_on_chunks"
   ],
   "note": "deviation of the code that the theorems state exactly: `v5::read` can return InsufficientBytes(1) *after* consuming a complete frame"
  },
  {
   "property": "C15",
   "status": "proved",
   "theorems": [
    "Props.C15_v4_sequence",
    "Props.C15_v4_sequence_one_buffer",
    "Props.C15_v4_connect_not_first"
   ],
   "note": "deviation of the code that the theorems state exactly: `Connect::write` (v4, v5) writes its flags at an absolute buffer index: corrupts a non-empty buffer"
  },
  {
   "property": "C16",
   "status": "proved",
   "theorems": [
    "Props.C16_v5_sequence",
    "Props.C16_v5_sequence_one_buffer"
   ],
   "note": ""
  },
  {
   "property": "C17",
   "status": "proved",
   "theorems": [
    "Props.C17_v4_publish_roundtrip"
   ],
   "note": ""
  },
  {
   "property": "C18",
   "status": "proved",
   "theorems": [
    "Props.C18_v4_connect_roundtrip"
   ],
   "note": ""
  },
  {
   "property": "C19",
   "status": "proved",
   "theorems": [
    "Props.C19_v4_connack_roundtrip"
   ],
   "note": ""
  },
  {
   "property": "C20",
   "status": "proved",
   "theorems": [
    "Props.C20_v4_acks_roundtrip"
   ],
   "note": ""
  },
  {
   "property": "C21",
   "status": "proved",
   "theorems": [
    "Props.C21_v4_subscribe_roundtrip",
    "Props.C21_v4_unsubscribe_roundtrip",
    "Props.C21_v4_empty_subscribe_unreadable"
   ],
   "note": ""
  },
  {
   "property": "C22",
   "status": "proved",
   "theorems": [
    "Props.C22_v4_suback_roundtrip"
   ],
   "note": ""
  },
  {
   "property": "C23",
   "status": "proved",
   "theorems": [
    "Props.C23_v4_empty_packets_roundtrip",
    "Props.C23_v5_ping_roundtrip"
   ],
   "note": ""
  },
  {
   "property": "C24",
   "status": "proved",
   "theorems": [
    "Props.C24_v4_wire_format",
    "Props.C24_v4_connect_wire_format"
   ],
   "note": ""
  },
  {
   "property": "C25",
   "status": "proved",
   "theorems": [
    "Props.C25_v4_write_count",
    "Props.C25_v4_connect_count",
    "Props.C25_v5_write_count",
    "Props.C25_v5_connect_count"
   ],
   "note": "deviation of the code that the theorems state exactly: `Connect::write` returns the remaining length, not the bytes written"
  },
  {
   "property": "C26",
   "status": "proved",
   "theorems": [
    "Props.C26_v4_append_only",
    "Props.C26_v4_connect_write",
    "Props.C26_v4_connect_exact",
    "Props.C26_v4_connect_overwrites",
    "Props.C26_v5_append_only",
    "Props.C26_v5_connect_write",
    "Props.C26_v5_connect_exact",
    "Props.C26_v5_connect_overwrites"
   ],
   "note": "deviation of the code that the theorems state exactly: `Connect::write` (v4, v5) writes its flags at an absolute buffer index: corrupts a non-empty buffer"
  },
  {
   "property": "C27",
   "status": "proved",
   "theorems": [
    "Props.C27_v4_failed_write_leaves_bytes",
    "Props.C27_v4_torn_publish",
    "Props.C27_v5_failed_write_leaves_bytes",
    "Props.C27_v5_torn_publish"
   ],
   "note": "deviation of the code that the theorems state exactly: failed writes leave a torn packet in the buffer"
  },
  {
   "property": "C28",
   "status": "proved",
   "theorems": [
    "Props.C28_v4_read_pkid",
    "Props.C28_v4_write_pkid",
    "Props.C28_v5_read_pkid",
    "Props.C28_v5_write_pkid"
   ],
   "note": ""
  },
  {
   "property": "C29",
   "status": "proved",
   "theorems": [
    "Props.C29_v4_reencode"
   ],
   "note": ""
  },
  {
   "property": "C30",
   "status": "proved",
   "theorems": [
    "Props.C30_v4_injective",
    "Props.C30_v5_injective"
   ],
   "note": ""
  },
  {
   "property": "C31",
   "status": "proved",
   "theorems": [
    "Props.C31_v4_read_iff"
   ],
   "note": ""
  },
  {
   "property": "C32",
   "status": "proved",
   "theorems": [
    "Props.C32_v5_readable_iff",
    "Props.C32_v5_publish_overrun",
    "Props.C32_v5_publish_roundtrip"
   ],
   "note": "deviation of the code that the theorems state exactly: v5 subscription identifiers are counted one byte too many: properties leak into the payload"
  },
  {
   "property": "C33",
   "status": "proved",
   "theorems": [
    "Props.C33_v5_connect_roundtrip",
    "Props.C33_v5_connect_level4"
   ],
   "note": "deviation of the code that the theorems state exactly: v5 CONNECT with protocol level 4 is written with property sections, read without"
  },
  {
   "property": "C34",
   "status": "proved",
   "theorems": [
    "Props.C34_v5_connack_roundtrip",
    "Props.C34_v5_connack_none_unreadable",
    "Props.C34_v5_connack_empty_set"
   ],
   "note": "deviation of the code that the theorems state exactly: v5 CONNACK without properties lacks the property length byte and cannot be read"
  },
  {
   "property": "C35",
   "status": "proved",
   "theorems": [
    "Props.C35_v5_acks_roundtrip"
   ],
   "note": ""
  },
  {
   "property": "C36",
   "status": "proved",
   "theorems": [
    "Props.C36_v5_subscribe_roundtrip"
   ],
   "note": ""
  },
  {
   "property": "C37",
   "status": "proved",
   "theorems": [
    "Props.C37_v5_no_codes_unreadable",
    "Props.C37_v5_suback_roundtrip",
    "Props.C37_v5_unsuback_roundtrip",
    "Props.C37_v5_empty_unreadable"
   ],
   "note": "deviation of the code that the theorems state exactly: v5 `UnsubAck::new` cannot be read back"
  },
  {
   "property": "C38",
   "status": "proved",
   "theorems": [
    "Props.C38_v5_unsubscribe_roundtrip"
   ],
   "note": ""
  },
  {
   "property": "C39",
   "status": "proved",
   "theorems": [
    "Props.C39_v5_disconnect_roundtrip",
    "Props.C39_v5_disconnect_normal_unreadable",
    "Props.C39_v5_disconnect_reason_unreadable"
   ],
   "note": "deviation of the code that the theorems state exactly: v5 DISCONNECT without properties cannot be read; with an empty property set its reason code is not written"
  },
  {
   "property": "C40",
   "status": "proved",
   "theorems": [
    "Props.C40_v5_wire_format",
    "Props.C40_v5_connect_wire_format",
    "Props.C40_v5_connack_none",
    "Props.C40_v5_wire_format_degenerate"
   ],
   "note": "deviation of the code that the theorems state exactly: v5 CONNACK without properties lacks the property length byte and cannot be read; v5 DISCONNECT without properties cannot be read; with an empty property set its reason code is not written"
  },
  {
   "property": "C41",
   "status": "proved",
   "theorems": [
    "Props.C41_v5_foreign_property"
   ],
   "note": ""
  },
  {
   "property": "C42",
   "status": "proved",
   "theorems": [
    "Props.C42_v5_exact_sections",
    "Props.C42_readable_of_one",
    "Props.C42_v5_section_end",
    "Props.C42_v5_section_bytes",
    "Props.C42_v5_deviations"
   ],
   "note": "deviation of the code that the theorems state exactly: v5 subscription identifiers are counted one byte too many: properties leak into the payload; the last property of a section may extend beyond the declared section length"
  },
  {
   "property": "C43",
   "status": "proved",
   "theorems": [
    "Props.C43_qos",
    "Props.C43_packet_type",
    "Props.C43_v4_connect_return",
    "Props.C43_v4_subscribe_reason",
    "Props.C43_v5_property",
    "Props.C43_v5_connect_return",
    "Props.C43_v5_puback_reason",
    "Props.C43_v5_pubrec_reason",
    "Props.C43_v5_pubrel_reason",
    "Props.C43_v5_pubcomp_reason",
    "Props.C43_v5_subscribe_reason",
    "Props.C43_v5_unsuback_reason",
    "Props.C43_v5_disconnect_reason"
   ],
   "note": ""
  },
  {
   "property": "C44",
   "status": "proved",
   "theorems": [
    "Props.C44_matches_iff"
   ],
   "note": ""
  },
  {
   "property": "C45",
   "status": "proved",
   "theorems": [
    "Props.C45_valid_filter_iff"
   ],
   "note": ""
  },
  {
   "property": "C46",
   "status": "proved",
   "theorems": [
    "Props.C46_valid_topic_iff",
    "Props.C46_has_wildcards_iff"
   ],
   "note": ""
  },
  {
   "property": "C47",
   "status": "proved",
   "theorems": [
    "Props.C47_matches_panic_iff",
    "Props.C47_panics"
   ],
   "note": "deviation of the code that the theorems state exactly: `matches` panics when the topic starts with a non-ASCII character"
  },
  {
   "property": "C48",
   "status": "proved",
   "theorems": [
    "Props.C48_matches_trans"
   ],
   "note": ""
  },
  {
   "property": "C49",
   "status": "proved",
   "theorems": [
    "Props.C49_dollar_never_matches",
    "Props.C49_literal_dollar_filter_missed"
   ],
   "note": "deviation of the code that the theorems state exactly: `$`-topics match no filter at all, not even their own"
  },
  {
   "property": "C50",
   "status": "proved",
   "theorems": [
    "Props.C50_length_prefix_wraps",
    "Props.C50_v4_never_refused",
    "Props.C50_v4_publish_corrupted",
    "Props.C50_v4_silent_corruption",
    "Props.C50_v5_never_refused",
    "Props.C50_v5_silent_corruption"
   ],
   "note": "deviation of the code that the theorems state exactly: fields longer than 65535 bytes are written with a truncated length"
  },
  {
   "property": "C51",
   "status": "proved",
   "theorems": [
    "Props.C51_read_string",
    "Props.C51_read_string_short",
    "Props.C51_v4_strings_bounded",
    "Props.C51_v4_publish_bad_topic",
    "Props.C51_v5_strings_bounded",
    "Props.C51_v5_publish_bad_topic"
   ],
   "note": ""
  },
  {
   "property": "C52",
   "status": "proved",
   "theorems": [
    "Props.C52_v5_property_order",
    "Props.C52_v5_order_matters"
   ],
   "note": "deviation of the code that the theorems state exactly: v5 subscription identifiers are counted one byte too many: properties leak into the payload"
  },
  {
   "property": "C53",
   "status": "proved",
   "theorems": [
    "Props.C53_v4_unknown_type",
    "Props.C53_v5_unknown_type"
   ],
   "note": ""
  },
  {
   "property": "C54",
   "status": "proved",
   "theorems": [
    "Props.C54_v4_login_validate"
   ],
   "note": ""
  },
  {
   "property": "C55",
   "status": "proved",
   "theorems": [
    "Props.C55_v4_will_bits_without_will",
    "Props.C55_v4_will_qos3",
    "Props.C55_v5_will_bits_without_will",
    "Props.C55_v5_will_qos3",
    "Props.C55_v5_level4_will_bits_without_will",
    "Props.C55_v5_level4_will_qos3"
   ],
   "note": ""
  },
  {
   "property": "C56",
   "status": "proved",
   "theorems": [
    "Props.C56_v4_publish_new",
    "Props.C56_v4_publish_new_pkid",
    "Props.C56_v4_subscribe_builder",
    "Props.C56_v4_subscribe_new_many",
    "Props.C56_v4_subscribe_new_many_roundtrip",
    "Props.C56_v4_filter_new",
    "Props.C56_v4_connect_new",
    "Props.C56_v4_other_new",
    "Props.C56_v5_publish_new",
    "Props.C56_v5_subscribe_builder",
    "Props.C56_v5_filter_setters",
    "Props.C56_v5_connect_new",
    "Props.C56_v5_other_new",
    "Props.C56_v5_unreadable_new",
    "Props.C56_v5_completed_new",
    "Props.C56_v4_will_new",
    "Props.C56_v5_will_new",
    "Props.C56_suback_new",
    "Props.C56_v5_empty_properties",
    "Props.C56_v5_subscribe_new_many",
    "Props.C56_v5_publish_new_pkid"
   ],
   "note": "deviation of the code that the theorems state exactly: v5 `UnsubAck::new` cannot be read back"
  },
  {
   "property": "C57",
   "status": "proved",
   "theorems": [
    "Props.C57_v5_decoded_wellformed",
    "Props.C57_v5_reencode_iff",
    "Props.C57_v5_lossy"
   ],
   "note": "deviation of the code that the theorems state exactly: hence some decoded v5 packets do not survive re-encoding"
  },
  {
   "property": "C58",
   "status": "proved",
   "theorems": [
    "Props.C58_v4_write_total",
    "Props.C58_v5_write_total"
   ],
   "note": ""
  },
  {
   "property": "C59",
   "status": "proved",
   "theorems": [
    "Props.C59_matches_self"
   ],
   "note": ""
  },
  {
   "property": "C60",
   "status": "proved",
   "theorems": [
    "Props.C60_v5_read_iff"
   ],
   "note": ""
  },
  {
   "property": "C61",
   "status": "proved",
   "theorems": [
    "Props.C61_v4_read_err_iff",
    "Props.C61_v4_accept_xor_reject"
   ],
   "note": ""
  },
  {
   "property": "C62",
   "status": "proved",
   "theorems": [
    "Props.C62_v5_read_err_iff",
    "Props.C62_v5_accept_xor_reject"
   ],
   "note": ""
  },
  {
   "property": "C63",
   "status": "proved",
   "theorems": [
    "Props.C63_v4_connect_len",
    "Props.C63_v4_publish_len",
    "Props.C63_v4_subscribe_len",
    "Props.C63_v4_suback_len",
    "Props.C63_v4_filter_len",
    "Props.C63_v5_connect_len",
    "Props.C63_v5_publish_len",
    "Props.C63_v5_subscribe_len",
    "Props.C63_v5_suback_len",
    "Props.C63_v5_unsubscribe_len",
    "Props.C63_v5_unsuback_len",
    "Props.C63_v5_properties_len",
    "Props.C63_v5_filter_len"
   ],
   "note": ""
  },
  {
   "property": "C64",
   "status": "proved",
   "theorems": [
    "Props.C64_v4_direct_read",
    "Props.C64_direct_read_publish",
    "Props.C64_v4_direct_read_unsuback",
    "Props.C64_v4_direct_read_unsubscribe",
    "Props.C64_v5_direct_read",
    "Props.C64_v5_extract",
    "Props.C64_v5_direct_read_empty_disconnect"
   ],
   "note": "deviation of the code that the theorems state exactly: v4 `Unsubscribe::read` underflows when given a header that does not match the bytes (not reachable through `v4::read`)"
  },
  {
   "property": "C65",
   "status": "proved",
   "theorems": [
    "Props.C65_v4_no_growth",
    "Props.C65_v5_growth_bounded",
    "Props.C65_v5_no_growth",
    "Props.C65_v5_growth_attained"
   ],
   "note": ""
  },
  {
   "property": "C66",
   "status": "proved",
   "theorems": [
    "Props.C66_v4_limit_only_gates",
    "Props.C66_v5_limit_only_gates",
    "Props.C66_v4_limit_monotone",
    "Props.C66_v5_limit_monotone"
   ],
   "note": ""
  },
  {
   "property": "C67",
   "status": "proved",
   "theorems": [
    "Props.C67_v4_blocking_client",
    "Props.C67_v5_blocking_client",
    "Props.C67_client_deterministic"
   ],
   "note": ""
  },
  {
   "property": "C68",
   "status": "proved",
   "theorems": [
    "Props.C68_v4_detects_v5",
    "Props.C68_v4_loses_client_id",
    "Props.C68_v5_detects_v4",
    "Props.C68_v5_reads_v4_without_will",
    "Props.C68_same_wire",
    "Props.C68_v4_reads_v5_short"
   ],
   "note": "deviation of the code that the theorems state exactly: `v4::read` accepts a v5 CONNECT but reports an empty client id"
  },
  {
   "property": "C69",
   "status": "proved",
   "theorems": [
    "Props.C69_matches_decides_cover",
    "Props.C69_exception"
   ],
   "note": "deviation of the code that the theorems state exactly: `matches(\"#\", \"+/#\")` is false although every topic matching the one matches the other"
  },
  {
   "property": "C70",
   "status": "proved",
   "theorems": [
    "Props.C70_v4_end_to_end",
    "Props.C70_v4_all_delivered",
    "Props.C70_v5_end_to_end",
    "Props.C70_v5_all_delivered"
   ],
   "note": ""
  },
  {
   "property": "C71",
   "status": "proved",
   "theorems": [
    "Props.C71_v4_bounded_buffer",
    "Props.C71_v5_bounded_buffer"
   ],
   "note": ""
  },
  {
   "property": "C72",
   "status": "proved",
   "theorems": [
    "Props.C72_v5_last_wins",
    "Props.C72_drop_duplicate",
    "Props.C72_v5_duplicates_accepted"
   ],
   "note": "deviation of the code that the theorems state exactly: v5: a single-valued property that occurs twice (a protocol error in MQTT 5) is accepted, the last one wins"
  },
  {
   "property": "C73",
   "status": "proved",
   "theorems": [
    "Props.C73_extract"
   ],
   "note": ""
  },
  {
   "property": "C74",
   "status": "proved",
   "theorems": [
    "Props.C74_v4_direct_read_exact",
    "Props.C74_v5_direct_read_exact"
   ],
   "note": ""
  },
  {
   "property": "C75",
   "status": "proved",
   "theorems": [
    "Props.C75_error_text"
   ],
   "note": ""
  },
  {
   "property": "C76",
   "status": "proved",
   "theorems": [
    "Props.C76_publish_debug",
    "Props.C76_filter_debug",
    "Props.C76_subscribe_debug_ambiguous",
    "Props.C76_subscribe_debug"
   ],
   "note": ""
  },
  {
   "property": "C77",
   "status": "proved",
   "theorems": [
    "Props.C77_qos_order"
   ],
   "note": ""
  },
  {
   "property": "C78",
   "status": "proved",
   "theorems": [
    "Props.C78_v4_frames_independent",
    "Props.C78_v5_frames_independent"
   ],
   "note": ""
  },
  {
   "property": "C79",
   "status": "proved",
   "theorems": [
    "Props.C79_v5_property_tables",
    "Props.C79_v5_conforming",
    "Props.C79_v5_refused_iff",
    "Props.C79_v5_miscounted"
   ],
   "note": "Full result for every conforming packet: C79_v5_conforming (result lists the four refusals), C79_v5_miscounted for the misparsed PUBLISH, C79_v5_property_tables ties the decoder's tables to Table 2-4."
  },
  {
   "property": "C80",
   "status": "proved",
   "theorems": [
    "Props.C80_v4_conforming",
    "Props.C80_v4_refused_iff"
   ],
   "note": "Deviation found: a binary (non UTF-8) password, legal in MQTT 3.1.1, is refused with TopicNotUtf8."
  },
  {
   "property": "C81",
   "status": "proved",
   "theorems": [
    "Props.C81_v5_sends_conforming",
    "Props.C81_v5_not_conforming",
    "Props.C81_v4_sends_conforming",
    "Props.C81_v4_not_conforming"
   ],
   "note": "v5: CONNECT into an empty buffer (otherwise see C26)."
  },
  {
   "property": "C82",
   "status": "proved",
   "theorems": [
    "Props.C82_v5_relay",
    "Props.C82_v5_relay_connack",
    "Props.C82_v5_relay_second_hop",
    "Props.C82_v4_relay"
   ],
   "note": "Deviation found: relaying a conforming PUBLISH with four subscription identifiers through the library twice loses one (C82_v5_relay_second_hop)."
  },
  {
   "property": "C83",
   "status": "proved",
   "theorems": [
    "Props.C83_v4_release",
    "Props.C83_v5_release",
    "Props.C83_v4_unsubscribe_release",
    "Props.C83_v5_direct"
   ],
   "note": "Release model of all decoding code that contains or calls checked arithmetic."
  },
  {
   "property": "C84",
   "status": "proved",
   "theorems": [
    "Props.C84_truncated",
    "Props.C84_v4_truncated_write",
    "Props.C84_v5_truncated_write"
   ],
   "note": ""
  },
  {
   "property": "C85",
   "status": "proved",
   "theorems": [
    "Props.C85_v4_loops",
    "Props.C85_v5_loops",
    "Props.C85_v5_property_loops",
    "Props.C85_write_length"
   ],
   "note": ""
  },
  {
   "property": "C86",
   "status": "proved",
   "theorems": [
    "Props.C86_v4_fifo",
    "Props.C86_v5_fifo",
    "Props.C86_v4_order",
    "Props.C86_v5_order"
   ],
   "note": "Refinement of a plain queue for every schedule; the cut after a refused write is needed (example)."
  },
  {
   "property": "C87",
   "status": "proved",
   "theorems": [
    "Props.C87_v4_read_flags",
    "Props.C87_v5_read_flags",
    "Props.C87_v4_write_flags",
    "Props.C87_v5_write_flags"
   ],
   "note": ""
  },
  {
   "property": "C88",
   "status": "proved",
   "theorems": [
    "Props.C88_v4_write_uniform",
    "Props.C88_v5_write_uniform"
   ],
   "note": ""
  },
  {
   "property": "C89",
   "status": "proved",
   "theorems": [
    "Props.C89_matches_exact",
    "Props.C89_widen_plus",
    "Props.C89_widen_hash",
    "Props.C89_common_level"
   ],
   "note": ""
  },
  {
   "property": "C90",
   "status": "proved",
   "theorems": [
    "Props.C90_v5_any_length",
    "Props.C90_v4_any_length"
   ],
   "note": "Generalises C74 for the readers that look at the length; panics of v4 Unsubscribe::read with too short a length are C64."
  },
  {
   "property": "C91",
   "status": "proved",
   "theorems": [
    "Props.C91_v4_write_exact",
    "Props.C91_v5_write_exact",
    "Props.C91_v4_connect_exact",
    "Props.C91_v5_connect_exact",
    "Props.C91_v4_connect_into",
    "Props.C91_v5_connect_into",
    "Props.C91_v4_which_error",
    "Props.C91_v5_which_error",
    "Props.C91_overlong"
   ],
   "note": "exact for every packet and buffer"
  },
  {
   "property": "C92",
   "status": "proved",
   "theorems": [
    "Props.C92_v4_in_step",
    "Props.C92_v5_in_step"
   ],
   "note": "v4 and v5"
  },
  {
   "property": "C93",
   "status": "proved",
   "theorems": [
    "Props.C93_check_errors",
    "Props.C93_framing_errors_at",
    "Props.C93_v4_read_errors",
    "Props.C93_v5_read_errors",
    "Props.C93_v4_write_errors",
    "Props.C93_v5_write_errors"
   ],
   "note": "both directions for every entry point"
  },
  {
   "property": "C94",
   "status": "proved",
   "theorems": [
    "Props.C94_from_utf8",
    "Props.C94_from_utf8_none",
    "Props.C94_spec_strings",
    "Props.C94_table",
    "Props.C94_v4_topic_accepted",
    "Props.C94_v4_topic_refused",
    "Props.C94_v5_topic_accepted",
    "Props.C94_v5_topic_refused",
    "Props.C94_v4_only_bad_strings",
    "Props.C94_v5_only_bad_strings",
    "Props.C94_w_points"
   ],
   "note": "string fields against Unicode's own table; accepted, refused and the only cause of TopicNotUtf8"
  },
  {
   "property": "C95",
   "status": "proved",
   "theorems": [
    "Props.C95_antisymmetric",
    "Props.C95_same_topics_iff"
   ],
   "note": "iff, with the exception {'#','+/#'} proved to be the only one"
  },
  {
   "property": "C96",
   "status": "proved",
   "theorems": [
    "Props.C96_v4",
    "Props.C96_v5",
    "Props.C96_v5_disconnect",
    "Props.C96_v4_written",
    "Props.C96_v5_written",
    "Props.C96_v4_write",
    "Props.C96_v5_write",
    "Props.C96_v4_write_panic",
    "Props.C96_v5_write_panic",
    "Props.C96_v4_release",
    "Props.C96_release_witness"
   ],
   "note": "equality with the announced length or panic, for every word size; it justifies unbounded lengths in the rest of the model"
  },
  {
   "property": "C97",
   "status": "proved",
   "theorems": [
    "Props.C97_total_order",
    "Props.C97_like_lengths"
   ],
   "note": "total order and agreement with frame length; witness for padded lengths"
  },
  {
   "property": "C98",
   "status": "proved",
   "theorems": [
    "Props.C98_v4_survives_iff",
    "Props.C98_v5_survives_iff",
    "Props.C98_v5_publish_counted_iff",
    "Props.C98_v5_publish_counted"
   ],
   "note": "both directions, for every packet"
  },
  {
   "property": "C99",
   "status": "proved",
   "theorems": [
    "Props.C99_v4_any_buffer",
    "Props.C99_v5_any_buffer"
   ],
   "note": "existence, uniqueness, termination and count bound for arbitrary buffers"
  },
  {
   "property": "C100",
   "status": "proved",
   "theorems": [
    "Props.C100_v4",
    "Props.C100_v5",
    "Props.C100_v4_packet",
    "Props.C100_v5_packet",
    "Props.C100_properties"
   ],
   "note": "The alternate form {:#?} is C102."
  },
  {
   "property": "C101",
   "status": "proved",
   "theorems": [
    "Props.C101_v4",
    "Props.C101_v5",
    "Props.C101_login_shown"
   ],
   "note": ""
  },
  {
   "property": "C102",
   "status": "proved",
   "theorems": [
    "Props.C102_error",
    "Props.C102_v4",
    "Props.C102_v5",
    "Props.C102_v4_packet",
    "Props.C102_v5_packet",
    "Props.C102_properties",
    "Props.C102_password"
   ],
   "note": "the alternate mode of the standard library's builders is modelled from its documentation and source; table of escaped characters is a parameter"
  },
  {
   "property": "C103",
   "status": "proved",
   "theorems": [
    "Props.C103_v5_output",
    "Props.C103_v5_packet_output",
    "Props.C103_v5_panic_iff",
    "Props.C103_v5_direct_output",
    "Props.C103_v5_stream_output"
   ],
   "note": "That v4 decoding and encoding print nothing is by reading the source: dbg! in src/v5/unsubscribe.rs:45 is the only printing statement outside tests. What the compiler prints for file/line/column is a parameter."
  },
  {
   "property": "C104",
   "status": "proved",
   "theorems": [
    "Props.C104_check_looks_at_five",
    "Props.C104_waiting_looks_at_five",
    "Props.C104_check_looks_at_header",
    "Props.C104_countdown"
   ],
   "note": ""
  },
  {
   "property": "C105",
   "status": "proved",
   "theorems": [
    "Props.C105_v4_publish_opaque",
    "Props.C105_v5_publish_opaque",
    "Props.C105_v4_will_opaque",
    "Props.C105_v5_will_opaque"
   ],
   "note": ""
  },
  {
   "property": "C106",
   "status": "proved",
   "theorems": [
    "Props.C106_v4_flags",
    "Props.C106_v5_flags",
    "Props.C106_v4_pkid",
    "Props.C106_v5_pkid"
   ],
   "note": ""
  },
  {
   "property": "C107",
   "status": "proved",
   "theorems": [
    "Props.C107_v4_reads_v5",
    "Props.C107_v5_reads_v4",
    "Props.C107_suback_shifted",
    "Props.C107_failure_lost",
    "Props.C107_v5_reads_v4_publish"
   ],
   "note": ""
  },
  {
   "property": "C108",
   "status": "proved",
   "theorems": [
    "Props.C108_literal",
    "Props.C108_alive_iff",
    "Props.C108_unbounded",
    "Props.C108_dead"
   ],
   "note": "dead filters accepted by valid_filter: C108_dead"
  },
  {
   "property": "C109",
   "status": "proved",
   "theorems": [
    "Props.C109_check",
    "Props.C109_length",
    "Props.C109_frame_length",
    "Props.C109_v4_read",
    "Props.C109_v5_read",
    "Props.C109_header",
    "Props.C109_header_release",
    "Props.C109_sixteen_bits"
   ],
   "note": "16-bit targets: witness C109_sixteen_bits"
  },
  {
   "property": "C110",
   "status": "proved",
   "theorems": [
    "Props.C110_rename",
    "Props.C110_concat",
    "Props.C110_level_count"
   ],
   "note": ""
  },
  {
   "property": "C111",
   "status": "proved",
   "theorems": [
    "Props.C111_total_size",
    "Props.C111_generous",
    "Props.C111_v4_maximum_packet_size",
    "Props.C111_v5_maximum_packet_size"
   ],
   "note": ""
  },
  {
   "property": "C112",
   "status": "proved",
   "theorems": [
    "Props.C112_v4_chain",
    "Props.C112_v5_chain",
    "Props.C112_v5_stops",
    "Props.C112_v5_publish_chain"
   ],
   "note": "v5 CONNECT with protocol level 4 is not covered by the v5 part (C33 says what one hop does to it)"
  },
  {
   "property": "C113",
   "status": "proved",
   "theorems": [
    "Props.C113_v4_torn",
    "Props.C113_v5_torn",
    "Props.C113_v4_forged",
    "Props.C113_v5_forged"
   ],
   "note": ""
  },
  {
   "property": "C114",
   "status": "proved",
   "theorems": [
    "Props.C114_v4_stripped",
    "Props.C114_v5_stripped"
   ],
   "note": ""
  },
  {
   "property": "C115",
   "status": "proved",
   "theorems": [
    "Props.C115_v4_same_bytes",
    "Props.C115_v5_same_bytes",
    "Props.C115_v4_overlong_collides",
    "Props.C115_v5_overlong_collides",
    "Props.C115_v4_read_essence",
    "Props.C115_v5_read_essence"
   ],
   "note": ""
  },
  {
   "property": "C116",
   "status": "proved",
   "theorems": [
    "Props.C116_wanted",
    "Props.C116_v4_route",
    "Props.C116_v5_route",
    "Props.C116_v4_to_v5",
    "Props.C116_v5_to_v4",
    "Props.C116_crash"
   ],
   "note": ""
  },
  {
   "property": "C117",
   "status": "proved",
   "theorems": [
    "Props.C117_common",
    "Props.C117_closed",
    "Props.C117_overlap",
    "Props.C117_matches_sound",
    "Props.C117_matches_name",
    "Props.C117_matches_misses"
   ],
   "note": ""
  },
  {
   "property": "C118",
   "status": "proved",
   "theorems": [
    "Props.C118_v4_size",
    "Props.C118_v5_size",
    "Props.C118_v4_sizes",
    "Props.C118_v5_sizes"
   ],
   "note": ""
  },
  {
   "property": "C119",
   "status": "proved",
   "theorems": [
    "Props.C119_count",
    "Props.C119_two_levels"
   ],
   "note": ""
  },
  {
   "property": "C120",
   "status": "proved",
   "theorems": [
    "Props.C120_version_place",
    "Props.C120_version_stable",
    "Props.C120_version_sound",
    "Props.C120_never_mixed",
    "Props.C120_peers",
    "Props.C120_own_clients",
    "Props.C120_waits_briefly"
   ],
   "note": ""
  },
  {
   "property": "C121",
   "status": "proved",
   "theorems": [
    "Props.C121_v4_received",
    "Props.C121_v5_received",
    "Props.C121_v5_level4_loses_id",
    "Props.C121_v4_stream",
    "Props.C121_v5_stream",
    "Props.C121_v4_client",
    "Props.C121_v5_client",
    "Props.C121_v4_essence_write",
    "Props.C121_v5_essence_write"
   ],
   "note": "A v5 CONNECT with protocol level 4 (written with, read without, property length) is excluded here; for it see C55, C68 and C107."
  },
  {
   "property": "C122",
   "status": "proved",
   "theorems": [
    "Props.C122_v4_pieces",
    "Props.C122_v5_pieces",
    "Props.C122_v4_verbatim",
    "Props.C122_v5_verbatim"
   ],
   "note": ""
  },
  {
   "property": "C123",
   "status": "proved",
   "theorems": [
    "Props.C123_v4_any_schedule",
    "Props.C123_v4_schedules_agree",
    "Props.C123_v4_catches_up",
    "Props.C123_v5_any_schedule",
    "Props.C123_v5_schedules_agree",
    "Props.C123_v5_catches_up"
   ],
   "note": "Subsumes the chunk independence of C13/C14 for clients that read on after errors, and the monotonicity of the limit (C66) over a history of limits."
  },
  {
   "property": "C124",
   "status": "proved",
   "theorems": [
    "Props.C124_without_hash",
    "Props.C124_with_hash",
    "Props.C124_only_together"
   ],
   "note": "The list is arbitrary: its filters need not be valid."
  },
  {
   "property": "C125",
   "status": "proved",
   "theorems": [
    "Props.C125_same_frame",
    "Props.C125_any_schedule",
    "Props.C125_switching"
   ],
   "note": ""
  },
  {
   "property": "C126",
   "status": "proved",
   "theorems": [
    "Props.C126_v4_same_bytes",
    "Props.C126_v4_normal_form",
    "Props.C126_v4_of_the_writer"
   ],
   "note": ""
  },
  {
   "property": "C127",
   "status": "proved",
   "theorems": [
    "Props.C127_v5_same_bytes",
    "Props.C127_v5_one_strict"
   ],
   "note": ""
  },
  {
   "property": "C128",
   "status": "proved",
   "theorems": [
    "Props.C128_down",
    "Props.C128_up",
    "Props.C128_there_and_back"
   ],
   "note": "Spec/Gateway relates packets; C128_down, C128_up, C128_there_and_back. The gateway's own duties (topic aliases, sessions, mapping of refusal codes) are not part of the crate."
  },
  {
   "property": "C129",
   "status": "proved",
   "theorems": [
    "Props.C129_expiry",
    "Props.C129_alias"
   ],
   "note": "C129_expiry and C129_alias, from patch_property about any property of PUBLISH of fixed size. A broker that forwards a message must lower its expiry interval (MQTT 5, 3.3.2.3.3)."
  },
  {
   "property": "C130",
   "status": "proved",
   "theorems": [
    "Props.C130_v4",
    "Props.C130_v5"
   ],
   "note": "C130_v4, C130_v5."
  },
  {
   "property": "C131",
   "status": "proved",
   "theorems": [
    "Props.C131_v4",
    "Props.C131_v5"
   ],
   "note": "C131_v4, C131_v5; an example shows the exception."
  },
  {
   "property": "C132",
   "status": "proved",
   "theorems": [
    "Props.C132_tag"
   ],
   "note": "C132_tag; examples show both exceptions, and that a CONNACK becomes readable."
  },
  {
   "property": "C133",
   "status": "proved",
   "theorems": [
    "Props.C133_v4_part",
    "Props.C133_v4_merged",
    "Props.C133_v4_answers",
    "Props.C133_v5_part",
    "Props.C133_v5_merged",
    "Props.C133_v5_answers"
   ],
   "note": "C133_v4_part, C133_v4_merged, C133_v4_answers and the same for v5."
  },
  {
   "property": "C134",
   "status": "proved",
   "theorems": [
    "Props.C134_names",
    "Props.C134_inside",
    "Props.C134_apart",
    "Props.C134_whole",
    "Props.C134_v4_mount",
    "Props.C134_v5_mount"
   ],
   "note": "C134_names, C134_inside, C134_apart, C134_whole, C134_v4_mount, C134_v5_mount."
  }
 ]
}