{
 "claims": [
  {
   "property": "C01",
   "status": "proved",
   "theorems": [
    "Zbgp.Props.C01_header_round_trip",
    "Zbgp.Props.C01_header_write_succeeds"
   ],
   "note": "Header writer and reader are inverse for every buffer, type and body length up to 65516."
  },
  {
   "property": "C02",
   "status": "partial",
   "theorems": [
    "Zbgp.Props.C02_head_rejects",
    "Zbgp.Props.C02_head_total_partial",
    "Zbgp.Props.C02_head_can_panic"
   ],
   "note": "Rejection proved for every byte string. The no-panic half fails in the code for length fields below 19 (C02_head_can_panic); totality proved for length fields of at least 19."
  },
  {
   "property": "C03",
   "status": "partial",
   "theorems": [
    "Zbgp.Props.C03_header_write_partial",
    "Zbgp.Props.C03_header_write_wraps"
   ],
   "note": "Holds for bodies up to 65516 octets. The code violates it above: 65536 octets are announced as 19, 65517 panics (C03_header_write_wraps)."
  },
  {
   "property": "C04",
   "status": "proved",
   "theorems": [
    "Zbgp.Props.C04_stream_framing"
   ],
   "note": "Induction over the message history, with arbitrary junk in the send buffers."
  },
  {
   "property": "C05",
   "status": "proved",
   "theorems": [
    "Zbgp.Props.C05_open_round_trip"
   ],
   "note": "All encodable OPEN messages, any sufficient buffer, any previous object."
  },
  {
   "property": "C06",
   "status": "proved",
   "theorems": [
    "Zbgp.Props.C06_open_decode_total"
   ],
   "note": "Every byte string."
  },
  {
   "property": "C07",
   "status": "proved",
   "theorems": [
    "Zbgp.Props.C07_unknown_caps_skipped"
   ],
   "note": "Every interleaving, spread over any number of optional parameters."
  },
  {
   "property": "C08",
   "status": "partial",
   "theorems": [
    "Zbgp.Props.C08_capability_round_trip_partial",
    "Zbgp.Props.C08_fqdn_does_not_round_trip"
   ],
   "note": "All capabilities except FQDN; FQDN is violated by the code (C08_fqdn_does_not_round_trip)."
  },
  {
   "property": "C09",
   "status": "partial",
   "theorems": [
    "Zbgp.Props.C09_open_length_partial",
    "Zbgp.Props.C09_open_length_wraps"
   ],
   "note": "Holds for parameters up to 255 octets; the code wraps modulo 256 beyond (C09_open_length_wraps)."
  },
  {
   "property": "C10",
   "status": "proved",
   "theorems": [
    "Zbgp.Props.C10_notification_round_trip",
    "Zbgp.Props.C10_notification_total"
   ],
   "note": "Round trip, totality and rejection of short buffers."
  },
  {
   "property": "C11",
   "status": "partial",
   "theorems": [
    "Zbgp.Props.C11_open_history_free",
    "Zbgp.Props.C11_notification_history_free_partial",
    "Zbgp.Props.C11_notification_keeps_old_data",
    "Zbgp.Props.C11_update_appends",
    "Zbgp.Props.C11_update_history_free_partial",
    "Zbgp.Props.C11_update_keeps_old_attributes"
   ],
   "note": "OPEN in full; NOTIFICATION except for two-octet bodies, where the code keeps old data (C11_notification_keeps_old_data); UPDATE into objects without attributes, in others the code keeps the old attributes (C11_update_keeps_old_attributes)."
  },
  {
   "property": "C12",
   "status": "proved",
   "theorems": [
    "Zbgp.Props.C12_ipv4_nlri_round_trip",
    "Zbgp.Props.C12_ipv4_network_form"
   ],
   "note": "Every list of valid IPv4 prefixes; the decoded prefixes are in network form (host bits cleared up to the last sent octet, see C12_ipv4_network_form)."
  },
  {
   "property": "C13",
   "status": "proved",
   "theorems": [
    "Zbgp.Props.C13_ipv6_nlri_round_trip"
   ],
   "note": "Same for IPv6."
  },
  {
   "property": "C14",
   "status": "partial",
   "theorems": [
    "Zbgp.Props.C14_ipv4_total_partial",
    "Zbgp.Props.C14_ipv6_total_partial",
    "Zbgp.Props.C14_length_249_panics",
    "Zbgp.Props.C14_ipv4_rejects",
    "Zbgp.Props.C14_ipv6_rejects",
    "Zbgp.Props.C14_consumes_all"
   ],
   "note": "Partial: the decoder panics on a prefix length octet of 249..255 (overflow of the u8 sum bits+7), shown by C14_length_249_panics; totality is proved for every buffer in which no such octet is read as a length. Which buffers crash is exact in C80_items_read_exactly."
  },
  {
   "property": "C15",
   "status": "proved",
   "theorems": [
    "Zbgp.Props.C15_families_decode",
    "Zbgp.Props.C15_families_encode",
    "Zbgp.Props.C15_encode_append",
    "Zbgp.Props.C15_decode_append",
    "Zbgp.Props.C15_families_exactly"
   ],
   "note": "C15_encode_append and C15_decode_append: every NLRI kind that goes through the bit-length item loop. C15_families_encode and C15_families_decode: all thirty kinds of route lists, with and without path identifiers (VPLS lists, which do not come back from the wire, only for decoding)."
  },
  {
   "property": "C16",
   "status": "proved",
   "theorems": [
    "Zbgp.Props.C16_addpath_round_trip"
   ],
   "note": "Every BgpItem kind with the lawful codec, every path identifier."
  },
  {
   "property": "C17",
   "status": "partial",
   "theorems": [
    "Zbgp.Props.C17_contains_is_inclusion_partial",
    "Zbgp.Props.C17_contains_sound",
    "Zbgp.Props.C17_same_length_host_bits",
    "Zbgp.Props.C17_contains_exactly",
    "Zbgp.Props.C17_wrong_exactly"
   ],
   "note": "Partial: a prefix value may carry host bits that the code does not clear on construction. C17_contains_exactly gives the answer for every pair of values, with impossible lengths too; C17_wrong_exactly says exactly where it is not inclusion: same length, different host bits. Never wrongly yes (C17_contains_sound)."
  },
  {
   "property": "C18",
   "status": "partial",
   "theorems": [
    "Zbgp.Props.C18_contains_is_inclusion_partial",
    "Zbgp.Props.C18_contains_sound",
    "Zbgp.Props.C18_same_length_host_bits",
    "Zbgp.Props.C18_contains_exactly",
    "Zbgp.Props.C18_wrong_exactly"
   ],
   "note": "As C17, for IPv6 (C18_contains_exactly, C18_wrong_exactly)."
  },
  {
   "property": "C19",
   "status": "partial",
   "theorems": [
    "Zbgp.Props.C19_ipv4_range_partial",
    "Zbgp.Props.C19_ipv4_default_route_panics",
    "Zbgp.Props.C19_ipv6_range_partial",
    "Zbgp.Props.C19_ipv6_last_address_excluded",
    "Zbgp.Props.C19_ipv6_default_route_panics",
    "Zbgp.Props.C19_mac_range",
    "Zbgp.Props.C19_impossible_lengths"
   ],
   "note": "Partial: range_first of IPv4 /0 and range_first and in_subnet of IPv6 /0 panic, IPv6 in_subnet leaves out the last address; all shown by theorems, everything else proved."
  },
  {
   "property": "C20",
   "status": "proved",
   "theorems": [
    "Zbgp.Props.C20_mixed_families",
    "Zbgp.Props.C20_contains_returns",
    "Zbgp.Props.C20_mac_contains_is_inclusion",
    "Zbgp.Props.C20_mac_contains_exactly"
   ],
   "note": "Mixed families never contain each other; same-family reduces to C17/C18."
  },
  {
   "property": "C21",
   "status": "proved",
   "theorems": [
    "Zbgp.Props.C21_rd_round_trip",
    "Zbgp.Props.C21_rd_decode"
   ],
   "note": "All 2^64 route distinguishers."
  },
  {
   "property": "C22",
   "status": "proved",
   "theorems": [
    "Zbgp.Props.C22_label_stack_round_trip"
   ],
   "note": "Every label stack that RFC 3107 allows (non-empty, 20-bit labels, no reserved bottom marker before the end, at most 10 labels)."
  },
  {
   "property": "C23",
   "status": "proved",
   "theorems": [
    "Zbgp.Props.C23_labeled_vpn_round_trip",
    "Zbgp.Props.C23_labeled_vpn_identical"
   ],
   "note": "Labeled, VPN and labeled VPN NLRI for both families, every list."
  },
  {
   "property": "C24",
   "status": "partial",
   "theorems": [
    "Zbgp.Props.C24_labeled_total_partial",
    "Zbgp.Props.C24_vpn_total_partial",
    "Zbgp.Props.C24_labeled_panics",
    "Zbgp.Props.C24_vpn_panics"
   ],
   "note": "Partial: inputs on which the code panics are shown by C24_labeled_panics and C24_vpn_panics; totality proved outside them. Which inputs crash is exact in C80_nlri_read_exactly."
  },
  {
   "property": "C25",
   "status": "proved",
   "theorems": [
    "Zbgp.Props.C25_reported_code",
    "Zbgp.Props.C25_decoder_family",
    "Zbgp.Props.C25_families_accepted",
    "Zbgp.Props.C25_unknown_rejected",
    "Zbgp.Props.C25_collection_round_trip"
   ],
   "note": "All 30 NLRI collections and all (AFI, SAFI) pairs and byte strings. The round trip of whole collections excludes the item kinds that C49-C53 show not to round trip."
  },
  {
   "property": "C26",
   "status": "partial",
   "theorems": [
    "Zbgp.Props.C26_capability_codes_partial",
    "Zbgp.Props.C26_stale_time_refused",
    "Zbgp.Props.C26_ipv4_codes_swapped"
   ],
   "note": "Negative for two of the seventeen capabilities: the codes of IPv4 multicast and IPv4 labeled unicast are swapped (C26_ipv4_codes_swapped); the other fifteen are proved."
  },
  {
   "property": "C27",
   "status": "proved",
   "theorems": [
    "Zbgp.Props.C27_labels_not_in_identity",
    "Zbgp.Props.C27_vpls_partial_cmp_disagrees"
   ],
   "note": "Labels never take part in ==, cmp or hash; the VPLS partial_cmp disagreement is stated separately."
  },
  {
   "property": "C28",
   "status": "partial",
   "theorems": [
    "Zbgp.Props.C28_lawful_orderings_partial",
    "Zbgp.Props.C28_as_number_order_partial",
    "Zbgp.Props.C28_as_number_inconsistent",
    "Zbgp.Props.C28_as_number_not_lawful"
   ],
   "note": "Partial: AS numbers are ordered by an inconsistent relation (C28_as_number_not_lawful); every other ordered type is lawful."
  },
  {
   "property": "C29",
   "status": "partial",
   "theorems": [
    "Zbgp.Props.C29_aspath_encode",
    "Zbgp.Props.C29_aspath_round_trip_partial",
    "Zbgp.Props.C29_as16_header_becomes_asn"
   ],
   "note": "Encoding holds in both widths; the round trip holds with 32-bit AS numbers and fails for every non-empty path in 16-bit sessions (C29_as16_header_becomes_asn)."
  },
  {
   "property": "C30",
   "status": "partial",
   "theorems": [
    "Zbgp.Props.C30_single_segment_partial",
    "Zbgp.Props.C30_correct_iff",
    "Zbgp.Props.C30_two_segments_misread"
   ],
   "note": "C30_correct_iff says exactly which AS_PATHs are read correctly: no segment, or one segment with 32-bit AS numbers. The code violates the property for all others (C30_two_segments_misread is an instance)."
  },
  {
   "property": "C31",
   "status": "proved",
   "theorems": [
    "Zbgp.Props.C31_aspath_total"
   ],
   "note": "All byte strings, all paths, all buffers."
  },
  {
   "property": "C32",
   "status": "partial",
   "theorems": [
    "Zbgp.Props.C32_header",
    "Zbgp.Props.C32_framing_partial",
    "Zbgp.Props.C32_contents",
    "Zbgp.Props.C32_too_long",
    "Zbgp.Props.C32_aggregator_not_written",
    "Zbgp.Props.C32_overwrites_behind"
   ],
   "note": "The header claim holds for every attribute. The frame claim leaves out AGGREGATOR, VPLS and IPv6 EVPN type 5, for which the code violates it (C32_aggregator_not_written, C32_overwrites_behind)."
  },
  {
   "property": "C33",
   "status": "partial",
   "theorems": [
    "Zbgp.Props.C33_attribute_round_trip_partial",
    "Zbgp.Props.C33_named_attributes",
    "Zbgp.Props.C33_aggregator_lost",
    "Zbgp.Props.C33_no_encoder"
   ],
   "note": "All attributes named but AGGREGATOR, which is lost for every value (C33_aggregator_lost), and AS paths in 16-bit sessions (C29). ATOMIC_AGGREGATE is shown to round trip the address the library puts in it, which RFC 4271 does not have."
  },
  {
   "property": "C34",
   "status": "proved",
   "theorems": [
    "Zbgp.Props.C34_unknown_transparent"
   ],
   "note": "All unassigned codes, all flags, all values that fit the length field."
  },
  {
   "property": "C35",
   "status": "proved",
   "theorems": [
    "Zbgp.Props.C35_decode_set",
    "Zbgp.Props.C35_order_irrelevant",
    "Zbgp.Props.C35_encode_round_trip"
   ],
   "note": "All three kinds of lists. Well-formed means a whole number of elements; for extended communities any value."
  },
  {
   "property": "C36",
   "status": "partial",
   "theorems": [
    "Zbgp.Props.C36_attribute_decode_total_partial",
    "Zbgp.Props.C36_unreach_decode_total",
    "Zbgp.Props.C36_crashes",
    "Zbgp.Props.C36_crash_iff"
   ],
   "note": "C36_crash_iff is exact: the values that crash are those of ValueCrash, for every session, code, flags and value, with attribute sets nested to any depth; no value loops for ever. The code violates the property (C36_crashes)."
  },
  {
   "property": "C37",
   "status": "proved",
   "theorems": [
    "Zbgp.Props.C37_ext_community_helpers"
   ],
   "note": "All addresses, AS numbers, numbers and 64-bit values, with the octets of both kinds of route target."
  },
  {
   "property": "C38",
   "status": "proved",
   "theorems": [
    "Zbgp.Props.C38_community_text",
    "Zbgp.Props.C38_community_parts"
   ],
   "note": "Proved for all 2^32 communities, with what the texts are. Number parsing, splitting and trimming of core are modelled (Model/Text)."
  },
  {
   "property": "C39",
   "status": "partial",
   "theorems": [
    "Zbgp.Props.C39_update_round_trip_partial",
    "Zbgp.Props.C39_sections"
   ],
   "note": "Messages of parts that round trip on their own (C29, C33, C44 say which do not); octets of prefixes that are not sent come back as zero."
  },
  {
   "property": "C40",
   "status": "partial",
   "theorems": [
    "Zbgp.Props.C40_every_message",
    "Zbgp.Props.C40_exactly",
    "Zbgp.Props.C40_lengths_partial",
    "Zbgp.Props.C40_withdrawn_too_long",
    "Zbgp.Props.C40_attributes_too_long",
    "Zbgp.Props.C40_attribute_length_wraps"
   ],
   "note": "C40_every_message: for every message, with AGGREGATOR and with NLRI of which the encoder misreports the size too, and every buffer, what the two length fields hold. Code violates it when the last attribute takes the section over 65535 octets: the length wraps (C40_attribute_length_wraps); C40_exactly: it is right if and only if the attributes have at most 65535 octets."
  },
  {
   "property": "C41",
   "status": "partial",
   "theorems": [
    "Zbgp.Props.C41_never_hangs",
    "Zbgp.Props.C41_crash_iff",
    "Zbgp.Props.C41_total_partial",
    "Zbgp.Props.C41_crashes"
   ],
   "note": "Endless loops are excluded for every input. Crashes are characterised exactly (C41_crash_iff), by a specification (UpdateCrash) that refers to no decoder; the code violates the property (C41_crashes)."
  },
  {
   "property": "C42",
   "status": "proved",
   "theorems": [
    "Zbgp.Props.C42_sections",
    "Zbgp.Props.C42_independent",
    "Zbgp.Props.C42_one_reading"
   ],
   "note": "In full: the decoder accepts exactly the messages made of three delimited sections, each read from its own octets as C80 and C81 specify."
  },
  {
   "property": "C43",
   "status": "proved",
   "theorems": [
    "Zbgp.Props.C43_accessors"
   ],
   "note": "In full, for the eight accessors."
  },
  {
   "property": "C44",
   "status": "partial",
   "theorems": [
    "Zbgp.Props.C44_unreach_round_trip",
    "Zbgp.Props.C44_reach_round_trip_partial",
    "Zbgp.Props.C44_flowspec6_rejected",
    "Zbgp.Props.C44_ipv4_next_hop_of_ipv6"
   ],
   "note": "Holds for all families that round trip but IPv6 FlowSpec MP_REACH_NLRI, which is always rejected. Three constructors build attributes with a next hop of the wrong family (C44_ipv4_next_hop_of_ipv6)."
  },
  {
   "property": "C45",
   "status": "proved",
   "theorems": [
    "Zbgp.Props.C45_addpath_exactly_when",
    "Zbgp.Props.C45_receives_iff",
    "Zbgp.Props.C45_plain_not_misread",
    "Zbgp.Props.C45_addpath_read",
    "Zbgp.Props.C45_messages"
   ],
   "note": "C45_messages carries the decision through to whole UPDATE messages: the NLRI fields of the message and those of MP_REACH/MP_UNREACH are read in the form the capabilities announce."
  },
  {
   "property": "C46",
   "status": "partial",
   "theorems": [
    "Zbgp.Props.C46_addpath_directions_partial",
    "Zbgp.Props.C46_addpath_directions_bidirectional_partial",
    "Zbgp.Props.C46_own_direction_ignored"
   ],
   "note": "Peer direction and family proved; the own direction is ignored by the code (C46_own_direction_ignored). Full statement proved for sessions that offer both directions."
  },
  {
   "property": "C47",
   "status": "partial",
   "theorems": [
    "Zbgp.Props.C47_match_caps",
    "Zbgp.Props.C47_match_addpath_partial",
    "Zbgp.Props.C47_second_addpath_ignored"
   ],
   "note": "Non-AddPath part and AS4 in full; the AddPath part for peers with one AddPath capability, the code ignores further ones (C47_second_addpath_ignored)."
  },
  {
   "property": "C48",
   "status": "partial",
   "theorems": [
    "Zbgp.Props.C48_remove_keeps_others",
    "Zbgp.Props.C48_remove_capability_partial",
    "Zbgp.Props.C48_second_addpath_survives",
    "Zbgp.Props.C48_remove_addpath_all"
   ],
   "note": "Other kinds are kept for every list; removal and idempotence proved except for AddPath when the list has several AddPath capabilities (C48_second_addpath_survives)."
  },
  {
   "property": "C49",
   "status": "partial",
   "theorems": [
    "Zbgp.Props.C49_evpn_round_trip_partial",
    "Zbgp.Props.C49_ipv6_prefix_not_carried"
   ],
   "note": "Lists of all route types, exact wire bytes. Type 5 routes for IPv6 prefixes are excluded: the code does not carry them (C49_ipv6_prefix_not_carried)."
  },
  {
   "property": "C50",
   "status": "partial",
   "theorems": [
    "Zbgp.Props.C50_mvpn_round_trip_partial",
    "Zbgp.Props.C50_types_3_to_7_not_carried",
    "Zbgp.Props.C50_mvpn_sent",
    "Zbgp.Props.C50_sent_is_wire_iff",
    "Zbgp.Props.C50_types_3_to_7_never_carried"
   ],
   "note": "Types 1 and 2 in both transport modes. What is sent for every type is exact (C50_mvpn_sent); for types 3 to 7 it is never read back and, with addresses of the session's family, always refused (C50_types_3_to_7_never_carried)."
  },
  {
   "property": "C51",
   "status": "partial",
   "theorems": [
    "Zbgp.Props.C51_vpls_decode_partial",
    "Zbgp.Props.C51_vpls_encode_partial",
    "Zbgp.Props.C51_reported_length_short",
    "Zbgp.Props.C51_l2_decode_exactly",
    "Zbgp.Props.C51_l2_encode_exactly"
   ],
   "note": "Decoding of lists in full. The encoder reports two octets less per item than it writes, so what it reports never decodes (C51_reported_length_short). The address without label block (BgpL2): C51_l2_decode_exactly, C51_l2_encode_exactly."
  },
  {
   "property": "C52",
   "status": "partial",
   "theorems": [
    "Zbgp.Props.C52_mdt4_round_trip",
    "Zbgp.Props.C52_mdt6_round_trip_partial",
    "Zbgp.Props.C52_mdt6_long_prefix_panics"
   ],
   "note": "IPv4 in full; IPv6 for prefix lengths up to 63, longer ones overflow the length octet (C52_mdt6_long_prefix_panics)."
  },
  {
   "property": "C53",
   "status": "partial",
   "theorems": [
    "Zbgp.Props.C53_flowspec_ops_round_trip_partial",
    "Zbgp.Props.C53_flowspec_prefix_round_trip_partial",
    "Zbgp.Props.C53_two_small_values_lost",
    "Zbgp.Props.C53_large_value_panics",
    "Zbgp.Props.C53_prefix_misaligns",
    "Zbgp.Props.C53_vpn_prefix_panics"
   ],
   "note": "Operator components whose announced length is right, and single prefix components. The code violates the property otherwise (C53_two_small_values_lost, C53_large_value_panics, C53_prefix_misaligns, C53_vpn_prefix_panics)."
  },
  {
   "property": "C54",
   "status": "proved",
   "theorems": [
    "Zbgp.Props.C54_operator_round_trip",
    "Zbgp.Props.C54_value_minimal",
    "Zbgp.Props.C54_operator_list_round_trip"
   ],
   "note": "All flags, all values, all lists, both operator kinds."
  },
  {
   "property": "C55",
   "status": "partial",
   "theorems": [
    "Zbgp.Props.C55_mac_conversions",
    "Zbgp.Props.C55_mac_compare_partial",
    "Zbgp.Props.C55_order_is_not_integer_order"
   ],
   "note": "Partial: MAC comparison is lawful but is not the order of the integer value (C55_order_is_not_integer_order)."
  },
  {
   "property": "C56",
   "status": "partial",
   "theorems": [
    "Zbgp.Props.C56_common_header_partial",
    "Zbgp.Props.C56_common_header_other",
    "Zbgp.Props.C56_peer_header_partial",
    "Zbgp.Props.C56_rest_is_cleared"
   ],
   "note": "Common header for version 3 and lengths below 2^32 (others: C56_common_header_other). Per-peer header: exact octets and result for all values; it round trips exactly for addresses outside ::/96. The code clears the whole buffer behind the header of an IPv4 peer (C56_rest_is_cleared)."
  },
  {
   "property": "C57",
   "status": "partial",
   "theorems": [
    "Zbgp.Props.C57_termination_round_trip",
    "Zbgp.Props.C57_initiation_decode",
    "Zbgp.Props.C57_initiation_as_written",
    "Zbgp.Props.C57_initiation_round_trip_partial",
    "Zbgp.Props.C57_initiation_loses_types"
   ],
   "note": "Termination in full. Initiation: decoding of any TLV sequence; round trip without system description and name; the code writes all three strings with type 0, so other messages come back changed (C57_initiation_loses_types)."
  },
  {
   "property": "C58",
   "status": "partial",
   "theorems": [
    "Zbgp.Props.C58_peer_up_partial",
    "Zbgp.Props.C58_open_embeds",
    "Zbgp.Props.C58_peer_up_of_opens_partial",
    "Zbgp.Props.C58_peer_up_addresses",
    "Zbgp.Props.C58_peer_down_partial",
    "Zbgp.Props.C58_route_monitoring_partial",
    "Zbgp.Props.C58_update_embeds"
   ],
   "note": "Round trip for all messages with addresses outside ::/96, given that the embedded BGP messages round trip; discharged from C05, C10 and C39. Addresses in ::/96 come back as IPv4 (C58_peer_up_addresses)."
  },
  {
   "property": "C59",
   "status": "partial",
   "theorems": [
    "Zbgp.Props.C59_no_hang_partial",
    "Zbgp.Props.C59_decode_returns_iff_partial",
    "Zbgp.Props.C59_crashes"
   ],
   "note": "No endless loop on any input, and an exact characterisation of the inputs that panic (Spec.BmpCrash); the code violates the property on those (C59_crashes)."
  },
  {
   "property": "C60",
   "status": "proved",
   "theorems": [
    "Zbgp.Props.C60_session_table",
    "Zbgp.Props.C60_others_change_nothing",
    "Zbgp.Props.C60_results"
   ],
   "note": "Invariant over all histories, BTreeMap by its documented contract (sorted association list)."
  },
  {
   "property": "C61",
   "status": "partial",
   "theorems": [
    "Zbgp.Props.C61_parameters",
    "Zbgp.Props.C61_path_ids_partial",
    "Zbgp.Props.C61_direction_ignored"
   ],
   "note": "Parameters after every history. Path ids: exact for peers that announce both directions or none for each family; the code looks at the receive bit of the peer's OPEN where the send bit is meant (C61_direction_ignored)."
  },
  {
   "property": "C62",
   "status": "partial",
   "theorems": [
    "Zbgp.Props.C62_buffer_size_kept",
    "Zbgp.Props.C62_frame_partial",
    "Zbgp.Props.C62_bmp_partial",
    "Zbgp.Props.C62_vpls_writes_behind",
    "Zbgp.Props.C62_not_framed",
    "Zbgp.Props.C62_long_update_wraps",
    "Zbgp.Props.C62_release_buffer_size_kept",
    "Zbgp.Props.C62_release_frame_partial",
    "Zbgp.Props.C62_release_not_framed"
   ],
   "note": "Length: every encoder. Frame: every encoder but VPLS routes, EVPN prefix routes (type 5) with an IPv6 prefix and AGGREGATOR; BMP on buffers up to 65535 octets, where IPv4 addresses clear the rest of the buffer. The code violates the property for those (C62_vpls_writes_behind, C62_not_framed, C62_long_update_wraps). Without overflow checks the same holds of NLRI, path attributes and UPDATE messages (C62_release_frame_partial), with the same exceptions (C62_release_not_framed); the size of the buffer is kept by all of them and by BMP messages (C62_release_buffer_size_kept)."
  },
  {
   "property": "C63",
   "status": "partial",
   "theorems": [
    "Zbgp.Props.C63_attribute_room",
    "Zbgp.Props.C63_update_exact",
    "Zbgp.Props.C63_peer_up_exact",
    "Zbgp.Props.C63_route_monitoring_exact",
    "Zbgp.Props.C63_initiation_exact",
    "Zbgp.Props.C63_never_ok_partial",
    "Zbgp.Props.C63_errors_partial",
    "Zbgp.Props.C63_more_errors_partial",
    "Zbgp.Props.C63_prefixes_panic",
    "Zbgp.Props.C63_attributes_exact",
    "Zbgp.Props.C63_open_exact",
    "Zbgp.Props.C63_panics"
   ],
   "note": "Never success on a short buffer (all encoders with a specified encoding). Error, not panic, for addresses, NOTIFICATION, communities, attribute values, message header, capabilities, flowspec, BMP common and per-peer header, Termination, peer-down; exact characterisation for OPEN, for path attributes and for whole UPDATE messages (multiprotocol NLRI of every family: prefixes, multicast VPN, EVPN and flow specifications): at which sizes the encoder panics and at which it returns an error (C63_update_exact); the same for BMP peer-up, route monitoring and initiation messages. The code violates the property elsewhere: prefix lists always panic on short buffers, attributes on buffers without room for the header, OPEN at capability boundaries, BMP information elements, UPDATE on buffers below two bytes; PMSI_TUNNEL, ATTR_SET, BMP statistics and mirroring panic on every buffer."
  },
  {
   "property": "C64",
   "status": "partial",
   "theorems": [
    "Zbgp.Props.C64_local_partial",
    "Zbgp.Props.C64_lists_partial",
    "Zbgp.Props.C64_routes_partial",
    "Zbgp.Props.C64_fails_routes",
    "Zbgp.Props.C64_flowspec_partial",
    "Zbgp.Props.C64_fails_flowspec"
   ],
   "note": "Reported length inside the input and independence of what follows, for prefix NLRI of every kind with and without path ids, VPLS, RD, capabilities, FlowSpec operator components, BMP headers, information elements, peer-up, peer-down, route monitoring; consumption of lists, Initiation, Termination. The code violates it for EVPN/MVPN routes longer than their content (octets read but not reported) and for FlowSpec prefix components (one octet too many reported). Decoders that report no length are not covered."
  },
  {
   "property": "C65",
   "status": "proved",
   "theorems": [
    "Zbgp.Props.C65_set_get",
    "Zbgp.Props.C65_get_set",
    "Zbgp.Props.C65_addresses",
    "Zbgp.Props.C65_slices"
   ],
   "note": "All widths and all values."
  },
  {
   "property": "C66",
   "status": "partial",
   "theorems": [
    "Zbgp.Props.C66_rd_text_partial",
    "Zbgp.Props.C66_fails"
   ],
   "note": "Round trip proved for every RD whose type is not 1. The code violates it for type 1: such an RD is displayed with a dotted address and its text is always refused (C66_fails)."
  },
  {
   "property": "C67",
   "status": "partial",
   "theorems": [
    "Zbgp.Props.C67_release_size_independent_partial",
    "Zbgp.Props.C67_size_independent_partial",
    "Zbgp.Props.C67_bmp_v4"
   ],
   "note": "All BGP encoders, and BMP encoders without IPv4 addresses. BMP encoders with an IPv4 address clear the spare room (proved, C67_bmp_v4). Without overflow checks the same holds, with the same exception (C67_release_size_independent_partial)."
  },
  {
   "property": "C68",
   "status": "proved",
   "theorems": [
    "Zbgp.Props.C68_prefix_text",
    "Zbgp.Props.C68_v4_display",
    "Zbgp.Props.C68_text_injective"
   ],
   "note": "All values of all prefix kinds; the IPv4/IPv6 parsers and Display of core are modelled (Model/Text)."
  },
  {
   "property": "C69",
   "status": "partial",
   "theorems": [
    "Zbgp.Props.C69_prefix_length_partial",
    "Zbgp.Props.C69_fails",
    "Zbgp.Props.C69_fails_bad_length",
    "Zbgp.Props.C69_address_partial"
   ],
   "note": "The code violates it: whatever stands behind the slash is accepted (C69_fails), text that is no number becomes the full length (C69_fails_bad_length), lengths up to 255 are taken as they are. Proved: decimal lengths below 256 are taken literally, and IPv4 texts need a canonical address."
  },
  {
   "property": "C70",
   "status": "proved",
   "theorems": [
    "Zbgp.Props.C70_list_text",
    "Zbgp.Props.C70_list_round_trip"
   ],
   "note": "Any number of parts, any separators."
  },
  {
   "property": "C71",
   "status": "partial",
   "theorems": [
    "Zbgp.Props.C71_mac_text_partial",
    "Zbgp.Props.C71_fails"
   ],
   "note": "The code violates it: every text with a hexadecimal digit is accepted, other characters are skipped and only the last twelve digits count (C71_fails). Proved: texts without a hexadecimal digit are refused."
  },
  {
   "property": "C72",
   "status": "partial",
   "theorems": [
    "Zbgp.Props.C72_fixed_values_partial",
    "Zbgp.Props.C72_trailing_octets",
    "Zbgp.Props.C72_atomic_aggregate",
    "Zbgp.Props.C72_originator_id",
    "Zbgp.Props.C72_cluster_list_partial",
    "Zbgp.Props.C72_pmsi_tunnel",
    "Zbgp.Props.C72_attr_set",
    "Zbgp.Props.C72_mp_reach"
   ],
   "note": "If and only if, for every session and value. The code accepts octets behind the value of ORIGIN, NEXT_HOP, MED, LOCAL_PREF, CONNECTOR and CLUSTER_LIST (C72_trailing_octets), an address in ATOMIC_AGGREGATE, and for AGGREGATOR both widths in every session."
  },
  {
   "property": "C73",
   "status": "partial",
   "theorems": [
    "Zbgp.Props.C73_next_hop_field_partial",
    "Zbgp.Props.C73_vpn_length_ignored",
    "Zbgp.Props.C73_fails"
   ],
   "note": "All families without route distinguishers in the next hop. For VPN families the length byte is ignored (C73_vpn_length_ignored); the 48-byte next hop of RFC 4659 crashes the decoder (C73_fails)."
  },
  {
   "property": "C74",
   "status": "proved",
   "theorems": [
    "Zbgp.Props.C74_evpn_text_identifies",
    "Zbgp.Props.C74_evpn_text_start"
   ],
   "note": "Injectivity for all five route types and all label stacks; the text starts with type and route distinguisher."
  },
  {
   "property": "C75",
   "status": "partial",
   "theorems": [
    "Zbgp.Props.C75_mvpn_text_identifies_partial",
    "Zbgp.Props.C75_mvpn_text_ad_partial",
    "Zbgp.Props.C75_mvpn_text_fails"
   ],
   "note": "Proved for routes with IPv4 addresses only and for the types 1 and 2 with any addresses. The code violates it with IPv6: source 1::2:3, group 4::5 and source 1::2, group 3:4::5 have the same text (C75_mvpn_text_fails)."
  },
  {
   "property": "C76",
   "status": "proved",
   "theorems": [
    "Zbgp.Props.C76_rd_text_identifies",
    "Zbgp.Props.C76_prefix_text_identifies",
    "Zbgp.Props.C76_vpn_nexthop_text_identifies",
    "Zbgp.Props.C76_vpls_text",
    "Zbgp.Props.C76_vpls_site_text_identifies",
    "Zbgp.Props.C76_flowspec_operator_text_identifies"
   ],
   "note": "Injectivity for each prefix family with and without labels, route distinguisher, path identifier; for VPLS exactly the labels are not shown."
  },
  {
   "property": "C77",
   "status": "partial",
   "theorems": [
    "Zbgp.Props.C77_as_text_partial",
    "Zbgp.Props.C77_as_text_wrong",
    "Zbgp.Props.C77_as_text_fails"
   ],
   "note": "Holds for 0 and all numbers that are not a multiple of 65536; AS k*65536 is displayed as k (C77_as_text_wrong, C77_as_text_fails)."
  },
  {
   "property": "C78",
   "status": "proved",
   "theorems": [
    "Zbgp.Props.C78_notification_text",
    "Zbgp.Props.C78_notification_text_identifies"
   ],
   "note": "Exact text for every code and subcode; injective."
  },
  {
   "property": "C79",
   "status": "partial",
   "theorems": [
    "Zbgp.Props.C79_ext_community_text",
    "Zbgp.Props.C79_ext_community_text_fails",
    "Zbgp.Props.C79_route_target_text",
    "Zbgp.Props.C79_large_community_text",
    "Zbgp.Props.C79_large_community_text_identifies"
   ],
   "note": "Exact: equal texts iff equal or one of three pairs (import route targets transitive and not, reserved octets of encapsulation and of EVPN layer 2 attributes). So the full property fails for extended communities (C79_ext_community_text_fails); proved for large communities."
  },
  {
   "property": "C80",
   "status": "proved",
   "theorems": [
    "Zbgp.Props.C80_nlri_read_exactly",
    "Zbgp.Props.C80_items_read_exactly",
    "Zbgp.Props.C80_reading_is_unambiguous"
   ],
   "note": "Exact for all families, sessions and octets: AddrsRead, AddrsCrash and an error otherwise; also for every kind of item on its own."
  },
  {
   "property": "C81",
   "status": "proved",
   "theorems": [
    "Zbgp.Props.C81_values_read_exactly",
    "Zbgp.Props.C81_updates_read_exactly",
    "Zbgp.Props.C81_reading_is_unambiguous"
   ],
   "note": "Exact for all type codes, sessions and octets: ValueRead, ValueCrash and an error otherwise; likewise UpdateRead and UpdateCrash for whole messages. The specifications use only data types."
  },
  {
   "property": "C82",
   "status": "proved",
   "theorems": [
    "Zbgp.Props.C82_open",
    "Zbgp.Props.C82_notification",
    "Zbgp.Props.C82_bmp",
    "Zbgp.Props.C82_bmp_session",
    "Zbgp.Props.C82_parameters_unique"
   ],
   "note": "Specifications OpenRead, NotificationRead (Spec/OpenReads.lean) and BmpRead, BmpCrash (Spec/Bmp.lean) use the data types of the model only; UTF-8 is RFC 3629 and is proved to be what the model of std::str::from_utf8 accepts."
  },
  {
   "property": "C83",
   "status": "partial",
   "theorems": [
    "Zbgp.Props.C83_rd_text_partial",
    "Zbgp.Props.C83_as4_text_fails",
    "Zbgp.Props.C83_rd_parse_partial",
    "Zbgp.Props.C83_rd_parse_fails"
   ],
   "note": "Types 0 and 1 are displayed as RFC 4364 writes them, texts with a two-octet AS number are parsed so. The code violates the property otherwise: no route distinguisher of type 2 is displayed so (C83_as4_text_fails), texts with an address are refused and texts with a larger AS number are taken for another route distinguisher (C83_rd_parse_fails)."
  },
  {
   "property": "C84",
   "status": "partial",
   "theorems": [
    "Zbgp.Props.C84_multicast_partial",
    "Zbgp.Props.C84_multicast_fails",
    "Zbgp.Props.C84_zero",
    "Zbgp.Props.C84_empty",
    "Zbgp.Props.C84_fresh_messages"
   ],
   "note": "All but the IPv4 multicast test, which the code also answers with yes for the reserved addresses 240.0.0.0 to 255.255.255.254 (C84_multicast_partial is exact, C84_multicast_fails)."
  },
  {
   "property": "C85",
   "status": "partial",
   "theorems": [
    "Zbgp.Props.C85_attributes_partial",
    "Zbgp.Props.C85_nlri_partial",
    "Zbgp.Props.C85_values",
    "Zbgp.Props.C85_flowspec_fails",
    "Zbgp.Props.C85_iff_no_rule"
   ],
   "note": "The serde model (Model/Serde.lean) assumes the documented behaviour of serde, its derive macros and a JSON-like format: part of the trusted base. Violated: BgpFlowSpec's Deserialize calls deserialize_enum with a visitor that has visit_map but no visit_enum, so no document is accepted; proved for every document, and for every attribute that carries a rule at any depth. Everything else round-trips (C85_attributes_partial, C85_nlri_partial, C85_values), and C85_iff_no_rule says so exactly."
  },
  {
   "property": "C86",
   "status": "partial",
   "theorems": [
    "Zbgp.Props.C86_with_rd",
    "Zbgp.Props.C86_labeled",
    "Zbgp.Props.C86_with_path_id",
    "Zbgp.Props.C86_net",
    "Zbgp.Props.C86_origin",
    "Zbgp.Props.C86_missing_partial",
    "Zbgp.Props.C86_wrong_field_named",
    "Zbgp.Props.C86_short_sequence"
   ],
   "note": "The acceptance of documents is proved exactly. Violated: WithPathId reports missing fields under the names of WithRd's fields (src/afi/mod.rs:1374-1375)."
  },
  {
   "property": "C87",
   "status": "proved",
   "theorems": [
    "Zbgp.Props.C87_attribute_names",
    "Zbgp.Props.C87_parts",
    "Zbgp.Props.C87_injective",
    "Zbgp.Props.C87_flowspec_map"
   ],
   "note": "C87_flowspec_map shows that the unused visit_map method would read every rule back. SetsListed only says that a BTreeSet is listed in order."
  },
  {
   "property": "C88",
   "status": "partial",
   "theorems": [
    "Zbgp.Props.C88_full_keys",
    "Zbgp.Props.C88_wrapped_keys",
    "Zbgp.Props.C88_labeled_keys_partial",
    "Zbgp.Props.C88_vpls_partial_cmp",
    "Zbgp.Props.C88_evpn_partial_cmp",
    "Zbgp.Props.C88_lists_partial_cmp"
   ],
   "note": "Everything except partial_cmp, which answers None for == VPLS routes, == EVPN routes of the types 1, 2 and 5 and lists that begin with such routes (C88_vpls_partial_cmp, C88_evpn_partial_cmp, C88_lists_partial_cmp: exactly which). Assumes that derive(PartialOrd) compares lexicographically by partial_cmp of the fields."
  },
  {
   "property": "C89",
   "status": "partial",
   "theorems": [
    "Zbgp.Props.C89_attributes_partial",
    "Zbgp.Props.C89_plain_keys_partial",
    "Zbgp.Props.C89_eq_and_cmp_disagree",
    "Zbgp.Props.C89_pmsi_partial_cmp",
    "Zbgp.Props.C89_partial_cmp"
   ],
   "note": "Total order and hash proved for all attributes; == agrees with cmp for attributes without AS numbers that are non-zero multiples of 65536 (C89_plain_keys_partial); for the others it does not (C89_eq_and_cmp_disagree). partial_cmp: C89_partial_cmp, C89_pmsi_partial_cmp."
  },
  {
   "property": "C90",
   "status": "partial",
   "theorems": [
    "Zbgp.Props.C90_kinds",
    "Zbgp.Props.C90_ipv4_subnets_contiguous_partial",
    "Zbgp.Props.C90_ipv6_subnets_contiguous_partial",
    "Zbgp.Props.C90_mac_not_contiguous"
   ],
   "note": "Proved for IPv4 and IPv6 prefixes in network form and for the order of kinds. False for MAC prefixes, which are sorted from the last byte of the address (C90_mac_not_contiguous)."
  },
  {
   "property": "C91",
   "status": "proved",
   "theorems": [
    "Zbgp.Props.C91_prefix_texts",
    "Zbgp.Props.C91_net_texts",
    "Zbgp.Props.C91_rd_texts",
    "Zbgp.Props.C91_community_texts",
    "Zbgp.Props.C91_list_texts",
    "Zbgp.Props.C91_texts_unambiguous"
   ],
   "note": "If and only if, for every text, with the lenient cases that the library accepts written into the grammar (see C69, C71): a length that is no number below 256 is taken for the full length, parts behind a second / or a third : are not looked at, anything with a hexadecimal digit is a MAC address. The parsers of Ipv4Addr, Ipv6Addr and integers are those of std as modelled in Model/Text.lean."
  },
  {
   "property": "C92",
   "status": "partial",
   "theorems": [
    "Zbgp.Props.C92_collections_partial",
    "Zbgp.Props.C92_collections_exactly",
    "Zbgp.Props.C92_messages_partial",
    "Zbgp.Props.C92_messages_exactly"
   ],
   "note": "Proved for what Relayable and AttrRelayable describe, in every buffer with room, and the description is exact (C92_collections_exactly, C92_messages_exactly): received VPLS routes, MVPN routes of types 3-7, FlowSpec rules with wrong announced lengths or prefixes, AGGREGATOR, PMSI tunnels, attribute sets, AS paths in 16-bit sessions and originators of the other family are not sent on as they were."
  },
  {
   "property": "C93",
   "status": "proved",
   "theorems": [
    "Zbgp.Props.C93_collections",
    "Zbgp.Props.C93_messages"
   ],
   "note": "Exact: if and only if, over every buffer. The conditions are those of C39 and C35."
  },
  {
   "property": "C94",
   "status": "partial",
   "theorems": [
    "Zbgp.Props.C94_negotiated",
    "Zbgp.Props.C94_as_width",
    "Zbgp.Props.C94_addpath_agreement",
    "Zbgp.Props.C94_both_directions_partial",
    "Zbgp.Props.C94_conversation_partial",
    "Zbgp.Props.C94_one_way_offers_misread",
    "Zbgp.Props.C94_send_only_misread",
    "Zbgp.Props.C94_guess_misreads"
   ],
   "note": "Partial: the two ends agree on the width of AS numbers always, on path identifiers exactly if the offers of the two sides are complementary (C94_addpath_agreement), which one-way offers are not (C94_one_way_offers_misread, C94_send_only_misread). With agreement every message arrives (C94_conversation_partial). Sessions made with new() guess path identifiers and can misread (C94_guess_misreads)."
  },
  {
   "property": "C95",
   "status": "partial",
   "theorems": [
    "Zbgp.Props.C95_start",
    "Zbgp.Props.C95_dumps",
    "Zbgp.Props.C95_keepalive",
    "Zbgp.Props.C95_session_partial",
    "Zbgp.Props.C95_one_way_peer_misread",
    "Zbgp.Props.C95_large_open_panics",
    "Zbgp.Props.C95_close_panics",
    "Zbgp.Props.C95_hello"
   ],
   "note": "Partial: what the program prints and how it ends is proved exactly for every octet stream (C95_start, C95_dumps). It panics when the connection is closed, on OPENs of more than 4096 octets and on length fields below 19, and misreads the prefixes of peers that only offer to receive path identifiers."
  },
  {
   "property": "C96",
   "status": "proved",
   "theorems": [
    "Zbgp.Props.C96_nlri",
    "Zbgp.Props.C96_nlri_reached",
    "Zbgp.Props.C96_attribute",
    "Zbgp.Props.C96_nesting",
    "Zbgp.Props.C96_nesting_reached",
    "Zbgp.Props.C96_update",
    "Zbgp.Props.C96_update_reused",
    "Zbgp.Props.C96_open",
    "Zbgp.Props.C96_bmp",
    "Zbgp.Props.C96_bmp_table"
   ],
   "note": "The number of entries of all lists in a value is counted (Spec/Volume.lean), not octets of memory. C96_nlri_reached and C96_nesting_reached show that the bounds are met: the depth of attribute sets, with which the decoder calls itself, is limited by the octets only (8192 in one attribute). A reused UPDATE object keeps all attributes it ever read (C11), which C96_update_reused counts."
  },
  {
   "property": "C97",
   "status": "proved",
   "theorems": [
    "Zbgp.Props.C97_routes",
    "Zbgp.Props.C97_attribute",
    "Zbgp.Props.C97_update",
    "Zbgp.Props.C97_notification",
    "Zbgp.Props.C97_open",
    "Zbgp.Props.C97_session",
    "Zbgp.Props.C97_bmp",
    "Zbgp.Props.C97_open_received",
    "Zbgp.Props.C97_bmp_received",
    "Zbgp.Props.C97_one_line",
    "Zbgp.Props.C97_dumper"
   ],
   "note": "For every pair of values; strings must be UTF-8, as Rust guarantees (what is received is proved to be). The Unicode tables of the standard library are parameters of the theorems."
  },
  {
   "property": "C98",
   "status": "partial",
   "theorems": [
    "Zbgp.Props.C98_attribute_text_iff",
    "Zbgp.Props.C98_attribute_text_partial",
    "Zbgp.Props.C98_attribute_text_fails",
    "Zbgp.Props.C98_attribute_kinds",
    "Zbgp.Props.C98_routes_text",
    "Zbgp.Props.C98_next_hop_text_iff",
    "Zbgp.Props.C98_next_hop_text_fails",
    "Zbgp.Props.C98_notification_text",
    "Zbgp.Props.C98_flowspec_text"
   ],
   "note": "Exact: two attributes have the same text iff they are equal or are mLDP tunnels that differ only in the opaque value; two next hops (other than multicast VPN routes, see C75) iff they are equal up to a zero route distinguisher; two NOTIFICATIONs iff they are equal."
  },
  {
   "property": "C99",
   "status": "partial",
   "theorems": [
    "Zbgp.Props.C99_ignores_old_partial",
    "Zbgp.Props.C99_sent",
    "Zbgp.Props.C99_fqdn_leaks",
    "Zbgp.Props.C99_open_iff",
    "Zbgp.Props.C99_attribute_iff",
    "Zbgp.Props.C99_aggregator_leaks"
   ],
   "note": "Proved for every encoder and all values, except: the AGGREGATOR attribute (nothing is written but 2 or 4 octets are reported) and the FQDN capability (two octets fewer are written than are reported). For both the leak is proved for every message that has one (C99_aggregator_leaks, C99_fqdn_leaks), and the property is characterised exactly for attributes and OPEN messages."
  },
  {
   "property": "C100",
   "status": "partial",
   "theorems": [
    "Zbgp.Props.C100_collections_partial",
    "Zbgp.Props.C100_collections_iff",
    "Zbgp.Props.C100_guessing_fails",
    "Zbgp.Props.C100_update_partial",
    "Zbgp.Props.C100_open",
    "Zbgp.Props.C100_open_cut",
    "Zbgp.Props.C100_notification_fails"
   ],
   "note": "Proved for NLRI of all families and UPDATE in sessions that do not guess at path identifiers (and in the others once five octets are there), with the exact exceptions otherwise, and for OPEN without conditions. Fails with guessing (the first octet of a path identifier is read as the default route) and for NOTIFICATION data of two octets. An OPEN cut off between parameters is accepted, because its length octet is not looked at."
  },
  {
   "property": "C101",
   "status": "partial",
   "theorems": [
    "Zbgp.Props.C101_flowspec_iff",
    "Zbgp.Props.C101_flowspec6_iff",
    "Zbgp.Props.C101_flowspecVpn_iff",
    "Zbgp.Props.C101_collections_partial",
    "Zbgp.Props.C101_attributes_partial",
    "Zbgp.Props.C101_update_partial",
    "Zbgp.Props.C101_session",
    "Zbgp.Props.C101_bmp_partial",
    "Zbgp.Props.C101_update_fails",
    "Zbgp.Props.C101_other_errors_fail"
   ],
   "note": "Proved for OPEN, NOTIFICATION, KEEPALIVE and message headers, for all attributes, UPDATE and BMP messages without an oversized FlowSpec component, and exactly for FlowSpec components: one that the library counts as more than 4094 octets is answered with 'insufficient buffer size' on every buffer (C101_flowspec_iff, C101_update_fails). The converse, that other errors are final, is false (C101_other_errors_fail)."
  },
  {
   "property": "C102",
   "status": "proved",
   "theorems": [
    "Zbgp.Props.C102_decoders_agree",
    "Zbgp.Props.C102_encoders_agree",
    "Zbgp.Props.C102_containment_agrees",
    "Zbgp.Props.C102_bmp_agrees",
    "Zbgp.Props.C102_checked_is_the_model",
    "Zbgp.Props.C102_decoders_end"
   ],
   "note": "The model has both builds: Build.checked (equal to the rest of the model, C102_checked_is_the_model) and Build.release. Covers header, NLRI of all families, attributes, UPDATE, BMP and containment; OPEN and NOTIFICATION have no arithmetic that can overflow."
  },
  {
   "property": "C103",
   "status": "proved",
   "theorems": [
    "Zbgp.Props.C103_size_difference",
    "Zbgp.Props.C103_header_read_exactly",
    "Zbgp.Props.C103_header_write_wraps",
    "Zbgp.Props.C103_large_message_lost",
    "Zbgp.Props.C103_prefixes_read_exactly",
    "Zbgp.Props.C103_collections_read_exactly",
    "Zbgp.Props.C103_updates_read_exactly",
    "Zbgp.Props.C103_plain_nlri_return",
    "Zbgp.Props.C103_made_up_items_overrun",
    "Zbgp.Props.C103_made_up_vpnv6_route",
    "Zbgp.Props.C103_encoders_wrap",
    "Zbgp.Props.C103_bmp_update_length_below_19",
    "Zbgp.Props.C103_bmp_read_exactly",
    "Zbgp.Props.C103_peer_down_length_below_19"
   ],
   "note": "Exact for the header, for the NLRI of every family in a session (C103_collections_read_exactly), for attribute values and whole UPDATE messages (C103_updates_read_exactly), and for BMP messages read by themselves or by a session object after every history (C103_bmp_read_exactly). C103_bmp_update_length_below_19 and C103_peer_down_length_below_19: what a length below 19 does."
  },
  {
   "property": "C104",
   "status": "partial",
   "theorems": [
    "Zbgp.Props.C104_containment_returns",
    "Zbgp.Props.C104_first_address_exactly",
    "Zbgp.Props.C104_same_as_checked_partial",
    "Zbgp.Props.C104_default_route_first",
    "Zbgp.Props.C104_ipv6_default_route_empty"
   ],
   "note": "Missing because false: default routes. Without overflow checks the first address of a/0 is a, and in_subnet of the IPv6 default route is false for every address (a checked build crashes on both)."
  },
  {
   "property": "C105",
   "status": "proved",
   "theorems": [
    "Zbgp.Props.C105_full_keys",
    "Zbgp.Props.C105_wrapped_keys",
    "Zbgp.Props.C105_labeled_keys",
    "Zbgp.Props.C105_strings"
   ],
   "note": "HashesBy and HashesFully in Spec/Derived.lean. The discriminant of an enum is fed to the hasher as the way to the variant in the model instead of one number, and a string with its length; C105_strings shows that the end mark std uses for strings keeps them apart as well. That values which are == feed the same data is C28, C88 and C89 (false for AS numbers that are multiples of 65536)."
  },
  {
   "property": "C106",
   "status": "proved",
   "theorems": [
    "Zbgp.Props.C106_same_outcome",
    "Zbgp.Props.C106_update",
    "Zbgp.Props.C106_update_again",
    "Zbgp.Props.C106_update_keeps",
    "Zbgp.Props.C106_update_not_unchanged",
    "Zbgp.Props.C106_open",
    "Zbgp.Props.C106_open_again",
    "Zbgp.Props.C106_notification"
   ],
   "note": "Exact for all three messages. That an UPDATE object carries attributes of a failed message into the next is part of the property as stated and shown by C106_update_not_unchanged."
  },
  {
   "property": "C107",
   "status": "proved",
   "theorems": [
    "Zbgp.Props.C107_attributes",
    "Zbgp.Props.C107_as_path",
    "Zbgp.Props.C107_community_lists",
    "Zbgp.Props.C107_vpn_route",
    "Zbgp.Props.C107_no_labels",
    "Zbgp.Props.C107_mdt_l2",
    "Zbgp.Props.C107_defaults",
    "Zbgp.Props.C107_flowspec_operators",
    "Zbgp.Props.C107_flowspec_lists",
    "Zbgp.Props.C107_evpn_mac_nexthop",
    "Zbgp.Props.C107_mac_flowspec6",
    "Zbgp.Props.C107_session_key"
   ],
   "note": "all constructors with arguments that reach the wire, including FlowSpec operators and lists, EVPN identifiers and MAC addresses; the constructors that are plain empty lists are covered by C107_defaults"
  },
  {
   "property": "C108",
   "status": "proved",
   "theorems": [
    "Zbgp.Props.C108_display",
    "Zbgp.Props.C108_header",
    "Zbgp.Props.C108_notification",
    "Zbgp.Props.C108_open",
    "Zbgp.Props.C108_open_insufficient_is_final",
    "Zbgp.Props.C108_update",
    "Zbgp.Props.C108_bmp_header"
   ],
   "note": "error kinds of the message frames and of OPEN; kinds inside attributes and multiprotocol routes are not distinguished"
  },
  {
   "property": "C109",
   "status": "partial",
   "theorems": [
    "Zbgp.Props.C109_framing",
    "Zbgp.Props.C109_break",
    "Zbgp.Props.C109_stream_partial",
    "Zbgp.Props.C109_two_octet_peer_misread",
    "Zbgp.Props.C109_ipv6_peer_misread",
    "Zbgp.Props.C109_read_exactly"
   ],
   "note": "Violated: a route-monitoring message is always encoded with 4-octet AS numbers and the transport of the peer's address, but read with the OPEN of the peer-up and IPv4 transport: paths of peers without 4-octet AS numbers (C109_two_octet_peer_misread, every path) and prefixes of IPv6 peers (C109_ipv6_peer_misread) come back as others. For all other messages the stream comes back (C109_stream_partial); framing holds in full, also for a connection that breaks after any octet (C109_framing, C109_break)."
  },
  {
   "property": "C110",
   "status": "partial",
   "theorems": [
    "Zbgp.Props.C110_history_partial",
    "Zbgp.Props.C110_break_partial",
    "Zbgp.Props.C110_dialogue_partial",
    "Zbgp.Props.C110_misheard"
   ],
   "note": "Violated where the ends offer AddPath in different directions: the library takes both offers as one bit, the sender puts path identifiers the reader does not look for, and other routes are read without an error (C110_misheard). For sessions whose ends agree per family on path identifiers (C94 says when) every history is heard as said, and a break after any octet cuts between messages (C110_history_partial, C110_break_partial, C110_dialogue_partial). Missing: fuzzy path identifiers, which guess."
  },
  {
   "property": "C111",
   "status": "partial",
   "theorems": [
    "Zbgp.Props.C111_table_partial",
    "Zbgp.Props.C111_plain_table_partial",
    "Zbgp.Props.C111_evpn_table_partial",
    "Zbgp.Props.C111_watch",
    "Zbgp.Props.C111_trailing_bits",
    "Zbgp.Props.C111_stale_labels",
    "Zbgp.Props.C111_evpn_moved"
   ],
   "note": "Violated in three ways, each proved for all values: bits behind the prefix length are part of the key, so that a withdrawal that writes them differently withdraws nothing (C111_trailing_bits); a route announced again with other labels keeps the old ones in the table (C111_stale_labels); a MAC route that moves to another Ethernet segment is there twice (C111_evpn_moved). For prefixes in network form and EVPN routes that stay the table is right after every history; without labels the entries are exactly the routes in force."
  },
  {
   "property": "C112",
   "status": "partial",
   "theorems": [
    "Zbgp.Props.C112_again",
    "Zbgp.Props.C112_peer_order_partial",
    "Zbgp.Props.C112_order_matters",
    "Zbgp.Props.C112_own_order",
    "Zbgp.Props.C112_two_as_numbers"
   ],
   "note": "Full for matching again (C112_again) and for the own order (C112_own_order, with one AS4 number; C112_two_as_numbers shows what two do). Partial for the peer's order: it matters if the peer sends several AddPath capabilities or lists a family twice (C112_order_matters)."
  },
  {
   "property": "C113",
   "status": "proved",
   "theorems": [
    "Zbgp.Props.C113_peer_up",
    "Zbgp.Props.C113_peer_down",
    "Zbgp.Props.C113_initiation",
    "Zbgp.Props.C113_termination",
    "Zbgp.Props.C113_route_monitoring",
    "Zbgp.Props.C113_not_sent",
    "Zbgp.Props.C113_bmp_received",
    "Zbgp.Props.C113_open_exactly",
    "Zbgp.Props.C113_received",
    "Zbgp.Props.C113_route_monitoring_any_buffer"
   ],
   "note": "C113_open_exactly and C113_peer_up, C113_peer_down, C113_initiation, C113_termination, C113_route_monitoring_any_buffer are equivalences without hypotheses, for buffers of every size. C113_received and C113_bmp_received: what was received and can be sent on."
  },
  {
   "property": "C114",
   "status": "partial",
   "theorems": [
    "Zbgp.Props.C114_each_by_itself",
    "Zbgp.Props.C114_any_order",
    "Zbgp.Props.C114_accessors_any_order",
    "Zbgp.Props.C114_refused_any_order_partial",
    "Zbgp.Props.C114_refused_fails_order",
    "Zbgp.Props.C114_split_partial",
    "Zbgp.Props.C114_table_partial",
    "Zbgp.Props.C114_split_fails_guessing",
    "Zbgp.Props.C114_split_exactly"
   ],
   "note": "C114_each_by_itself is an equivalence for every session; C114_any_order and C114_accessors_any_order cover messages that are read. A message that is not read is not read in any order (C114_refused_any_order_partial), but whether the program returns an error or stops depends on the order (C114_refused_fails_order). Splitting holds in sessions that do not guess path identifiers (C114_split_partial, C114_table_partial) and fails in those that do (C114_split_fails_guessing)."
  },
  {
   "property": "C115",
   "status": "proved",
   "theorems": [
    "Zbgp.Props.C115_read_exactly",
    "Zbgp.Props.C115_write_exactly",
    "Zbgp.Props.C115_recv_head",
    "Zbgp.Props.C115_send",
    "Zbgp.Props.C115_pieces",
    "Zbgp.Props.C115_failing",
    "Zbgp.Props.C115_two_ends",
    "Zbgp.Props.C115_dumper_pieces",
    "Zbgp.Props.C115_dumper_failing",
    "Zbgp.Props.C115_read_again_misreads",
    "Zbgp.Props.C115_send_again_misreads",
    "Zbgp.Props.C115_dumper_open_fails",
    "Zbgp.Props.C115_keepalives"
   ],
   "note": "C115_read_exactly and C115_write_exactly are exact for every schedule. C115_two_ends is for two ends that agree on the parameters of the session (C94), as the property says. That a failed call cannot be repeated is C115_read_again_misreads, C115_send_again_misreads."
  },
  {
   "property": "C116",
   "status": "proved",
   "theorems": [
    "Zbgp.Props.C116_any_buffer",
    "Zbgp.Props.C116_more_than_the_buffer",
    "Zbgp.Props.C116_nlri",
    "Zbgp.Props.C116_attribute",
    "Zbgp.Props.C116_update",
    "Zbgp.Props.C116_one_outcome",
    "Zbgp.Props.C116_wire_form",
    "Zbgp.Props.C116_other_families_vanish",
    "Zbgp.Props.C116_aggregator_lost",
    "Zbgp.Props.C116_gateway_lost",
    "Zbgp.Props.C116_large_labels",
    "Zbgp.Props.C116_vpls_cut"
   ],
   "note": "C116_nlri, C116_attribute and C116_update have no hypothesis on the value. C116_one_outcome says that the outcome is unique, C116_wire_form that it is the wire form for messages that can be put on the wire; the other theorems are what the table says where something else is sent. Exactly how much room is enough is C63."
  },
  {
   "property": "C117",
   "status": "proved",
   "theorems": [
    "Zbgp.Props.C117_any_buffer",
    "Zbgp.Props.C117_open",
    "Zbgp.Props.C117_open_wire_form",
    "Zbgp.Props.C117_open_refused",
    "Zbgp.Props.C117_notification",
    "Zbgp.Props.C117_message",
    "Zbgp.Props.C117_send",
    "Zbgp.Props.C117_long_body",
    "Zbgp.Props.C117_bmp",
    "Zbgp.Props.C117_initiation_texts"
   ],
   "note": "C117_open, C117_notification and C117_bmp have no hypothesis on the value; C117_message and C117_send take the outcome of the body, which C116_update and C117_open give for every UPDATE and OPEN. C116_one_outcome says that outcomes are unique. The room needed is C63."
  },
  {
   "property": "C118",
   "status": "proved",
   "theorems": [
    "Zbgp.Props.C118_nlri",
    "Zbgp.Props.C118_attribute",
    "Zbgp.Props.C118_update",
    "Zbgp.Props.C118_bmp",
    "Zbgp.Props.C118_message",
    "Zbgp.Props.C118_send",
    "Zbgp.Props.C118_same_without_panic",
    "Zbgp.Props.C118_send_panics_with_the_body",
    "Zbgp.Props.C118_unicast_panics_exactly",
    "Zbgp.Props.C118_oversized_prefix_sent",
    "Zbgp.Props.C118_flowspec_sends_buffer_contents",
    "Zbgp.Props.C118_long_body"
   ],
   "note": "C118_nlri, C118_attribute, C118_update and C118_bmp have no hypothesis on the value. OPEN and NOTIFICATION messages are the same in both builds (C117_open, C117_notification apply to both)."
  },
  {
   "property": "C119",
   "status": "proved",
   "theorems": [
    "Zbgp.Props.C119_prefixes",
    "Zbgp.Props.C119_path_ids",
    "Zbgp.Props.C119_not_fewer",
    "Zbgp.Props.C119_vpnv6_three_labels",
    "Zbgp.Props.C119_mdt_ipv6",
    "Zbgp.Props.C119_ten_labels_lost"
   ],
   "note": "C119_prefixes and C119_path_ids have no hypothesis on the values. Stated for the lists of each kind, which is what BgpAddrs::encode_to and decode_from call; other families (VPLS, EVPN, MVPN, FlowSpec) are covered by C119_not_fewer only."
  },
  {
   "property": "C120",
   "status": "proved",
   "theorems": [
    "Zbgp.Props.C120_collections",
    "Zbgp.Props.C120_values",
    "Zbgp.Props.C120_messages",
    "Zbgp.Props.C120_not_fewer",
    "Zbgp.Props.C120_evpn_labels",
    "Zbgp.Props.C120_never"
   ],
   "note": "C120_collections, C120_values and C120_messages have no hypothesis on the values; the buffers are those from some size on."
  },
  {
   "property": "C121",
   "status": "proved",
   "theorems": [
    "Zbgp.Props.C121_messages",
    "Zbgp.Props.C121_not_fewer",
    "Zbgp.Props.C121_same",
    "Zbgp.Props.C121_more"
   ],
   "note": "C121_messages has no hypothesis on the message; the buffers are those from some size on."
  },
  {
   "property": "C122",
   "status": "proved",
   "theorems": [
    "Zbgp.Props.C122_messages",
    "Zbgp.Props.C122_checked",
    "Zbgp.Props.C122_values",
    "Zbgp.Props.C122_agree",
    "Zbgp.Props.C122_checked_agree",
    "Zbgp.Props.C122_paths",
    "Zbgp.Props.C122_paths_silent",
    "Zbgp.Props.C122_never"
   ],
   "note": "Exact in both builds: without overflow checks the condition is MessageBetween; with them it is MessageBetween and that no prefix or route in the message is of those the checks fire for (C122_checked, C122_checked_agree). AS paths are exact for both (C122_paths)."
  },
  {
   "property": "C123",
   "status": "proved",
   "theorems": [
    "Zbgp.Props.C123_nlri",
    "Zbgp.Props.C123_attribute",
    "Zbgp.Props.C123_update",
    "Zbgp.Props.C123_update_reused",
    "Zbgp.Props.C123_bmp",
    "Zbgp.Props.C123_bmp_table"
   ],
   "note": "The counterpart of C96 for builds without overflow checks. The bound on NLRI is reached in both builds (C96_nlri_reached, C102)."
  },
  {
   "property": "C124",
   "status": "proved",
   "theorems": [
    "Zbgp.Props.C124_one_peer",
    "Zbgp.Props.C124_interleavings",
    "Zbgp.Props.C124_next",
    "Zbgp.Props.C124_one_peer_release",
    "Zbgp.Props.C124_interleavings_release",
    "Zbgp.Props.C124_octets"
   ],
   "note": "Peers are told apart by distinguisher and address only (C124_octets): type, flags, AS number and router id do not count."
  },
  {
   "property": "C125",
   "status": "proved",
   "theorems": [
    "Zbgp.Props.C125_in_step",
    "Zbgp.Props.C125_forgotten",
    "Zbgp.Props.C125_lost",
    "Zbgp.Props.C125_repeated",
    "Zbgp.Props.C125_swapped",
    "Zbgp.Props.C125_in_step_release",
    "Zbgp.Props.C125_forgotten_release",
    "Zbgp.Props.C125_lost_release",
    "Zbgp.Props.C125_repeated_release",
    "Zbgp.Props.C125_swapped_release"
   ],
   "note": "What a lost peer-up costs is C61 (the parameters of the per-peer header are used until the next one)."
  },
  {
   "property": "C126",
   "status": "proved",
   "theorems": [
    "Zbgp.Props.C126_split_exactly",
    "Zbgp.Props.C126_joined_exactly",
    "Zbgp.Props.C126_joined",
    "Zbgp.Props.C126_cut_off_exactly",
    "Zbgp.Props.C126_each_by_itself",
    "Zbgp.Props.C126_any_order",
    "Zbgp.Props.C126_split",
    "Zbgp.Props.C126_update_cut_off"
   ],
   "note": "The counterpart of C15, C100 and C114. In sessions that guess at path identifiers (as new makes them) joining and cutting fail exactly where the guesses differ."
  },
  {
   "property": "C127",
   "status": "partial",
   "theorems": [
    "Zbgp.Props.C127_framing",
    "Zbgp.Props.C127_read_exactly",
    "Zbgp.Props.C127_break",
    "Zbgp.Props.C127_both_builds",
    "Zbgp.Props.C127_no_crash",
    "Zbgp.Props.C127_sent",
    "Zbgp.Props.C127_stream_partial",
    "Zbgp.Props.C127_two_octet_peer_misread",
    "Zbgp.Props.C127_parts"
   ],
   "note": "The counterpart of C109, partial for the same reason: route monitoring of IPv6 peers and of peers without 4-octet AS numbers is misread. C127_parts shows how the two builds part after a message on which only one crashes."
  },
  {
   "property": "C128",
   "status": "partial",
   "theorems": [
    "Zbgp.Props.C128_ignores_old_partial",
    "Zbgp.Props.C128_sent",
    "Zbgp.Props.C128_update_sent",
    "Zbgp.Props.C128_flowspec4_iff",
    "Zbgp.Props.C128_flowspec_iff",
    "Zbgp.Props.C128_attribute_iff"
   ],
   "note": "Violated by the code: besides AGGREGATOR and the FQDN capability (C99), a FlowSpec prefix of 249 bits or more sends octets of the old contents (C128_flowspec4_iff, C128_flowspec_iff). The partial theorem is for all other values."
  }
 ]
}