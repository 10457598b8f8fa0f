{
 "C01": {
  "note": "Header writer and reader are inverse for every buffer, type and body length up to 65516."
 },
 "C02": {
  "note": "Rejection proved for every byte string. The no-panic half fails in the code for length fields below 19 (C02_head_can_panic); totality proved for length fields of at least 19."
 },
 "C03": {
  "note": "Holds for bodies up to 65516 octets. The code violates it above: 65536 octets are announced as 19, 65517 panics (C03_header_write_wraps)."
 },
 "C04": {
  "note": "Induction over the message history, with arbitrary junk in the send buffers."
 },
 "C05": {
  "note": "All encodable OPEN messages, any sufficient buffer, any previous object."
 },
 "C06": {
  "note": "Every byte string."
 },
 "C07": {
  "note": "Every interleaving, spread over any number of optional parameters."
 },
 "C08": {
  "note": "All capabilities except FQDN; FQDN is violated by the code (C08_fqdn_does_not_round_trip)."
 },
 "C09": {
  "note": "Holds for parameters up to 255 octets; the code wraps modulo 256 beyond (C09_open_length_wraps)."
 },
 "C10": {
  "note": "Round trip, totality and rejection of short buffers."
 },
 "C100": {
  "note": "Proved for NLRI of all families and UPDATE in sessions that do not guess at path identifiers (and in the others once five octets are there), with the exact exceptions otherwise, and for OPEN without conditions. Fails with guessing (the first octet of a path identifier is read as the default route) and for NOTIFICATION data of two octets. An OPEN cut off between parameters is accepted, because its length octet is not looked at."
 },
 "C101": {
  "note": "Proved for OPEN, NOTIFICATION, KEEPALIVE and message headers, for all attributes, UPDATE and BMP messages without an oversized FlowSpec component, and exactly for FlowSpec components: one that the library counts as more than 4094 octets is answered with 'insufficient buffer size' on every buffer (C101_flowspec_iff, C101_update_fails). The converse, that other errors are final, is false (C101_other_errors_fail)."
 },
 "C102": {
  "note": "The model has both builds: Build.checked (equal to the rest of the model, C102_checked_is_the_model) and Build.release. Covers header, NLRI of all families, attributes, UPDATE, BMP and containment; OPEN and NOTIFICATION have no arithmetic that can overflow."
 },
 "C103": {
  "note": "Exact for the header, for the NLRI of every family in a session (C103_collections_read_exactly), for attribute values and whole UPDATE messages (C103_updates_read_exactly), and for BMP messages read by themselves or by a session object after every history (C103_bmp_read_exactly). C103_bmp_update_length_below_19 and C103_peer_down_length_below_19: what a length below 19 does."
 },
 "C104": {
  "note": "Missing because false: default routes. Without overflow checks the first address of a/0 is a, and in_subnet of the IPv6 default route is false for every address (a checked build crashes on both)."
 },
 "C105": {
  "note": "HashesBy and HashesFully in Spec/Derived.lean. The discriminant of an enum is fed to the hasher as the way to the variant in the model instead of one number, and a string with its length; C105_strings shows that the end mark std uses for strings keeps them apart as well. That values which are == feed the same data is C28, C88 and C89 (false for AS numbers that are multiples of 65536)."
 },
 "C106": {
  "note": "Exact for all three messages. That an UPDATE object carries attributes of a failed message into the next is part of the property as stated and shown by C106_update_not_unchanged."
 },
 "C107": {
  "note": "all constructors with arguments that reach the wire, including FlowSpec operators and lists, EVPN identifiers and MAC addresses; the constructors that are plain empty lists are covered by C107_defaults"
 },
 "C108": {
  "note": "error kinds of the message frames and of OPEN; kinds inside attributes and multiprotocol routes are not distinguished"
 },
 "C109": {
  "note": "Violated: a route-monitoring message is always encoded with 4-octet AS numbers and the transport of the peer's address, but read with the OPEN of the peer-up and IPv4 transport: paths of peers without 4-octet AS numbers (C109_two_octet_peer_misread, every path) and prefixes of IPv6 peers (C109_ipv6_peer_misread) come back as others. For all other messages the stream comes back (C109_stream_partial); framing holds in full, also for a connection that breaks after any octet (C109_framing, C109_break)."
 },
 "C11": {
  "note": "OPEN in full; NOTIFICATION except for two-octet bodies, where the code keeps old data (C11_notification_keeps_old_data); UPDATE into objects without attributes, in others the code keeps the old attributes (C11_update_keeps_old_attributes)."
 },
 "C110": {
  "note": "Violated where the ends offer AddPath in different directions: the library takes both offers as one bit, the sender puts path identifiers the reader does not look for, and other routes are read without an error (C110_misheard). For sessions whose ends agree per family on path identifiers (C94 says when) every history is heard as said, and a break after any octet cuts between messages (C110_history_partial, C110_break_partial, C110_dialogue_partial). Missing: fuzzy path identifiers, which guess."
 },
 "C111": {
  "note": "Violated in three ways, each proved for all values: bits behind the prefix length are part of the key, so that a withdrawal that writes them differently withdraws nothing (C111_trailing_bits); a route announced again with other labels keeps the old ones in the table (C111_stale_labels); a MAC route that moves to another Ethernet segment is there twice (C111_evpn_moved). For prefixes in network form and EVPN routes that stay the table is right after every history; without labels the entries are exactly the routes in force."
 },
 "C112": {
  "note": "Full for matching again (C112_again) and for the own order (C112_own_order, with one AS4 number; C112_two_as_numbers shows what two do). Partial for the peer's order: it matters if the peer sends several AddPath capabilities or lists a family twice (C112_order_matters)."
 },
 "C113": {
  "note": "C113_open_exactly and C113_peer_up, C113_peer_down, C113_initiation, C113_termination, C113_route_monitoring_any_buffer are equivalences without hypotheses, for buffers of every size. C113_received and C113_bmp_received: what was received and can be sent on."
 },
 "C114": {
  "note": "C114_each_by_itself is an equivalence for every session; C114_any_order and C114_accessors_any_order cover messages that are read. A message that is not read is not read in any order (C114_refused_any_order_partial), but whether the program returns an error or stops depends on the order (C114_refused_fails_order). Splitting holds in sessions that do not guess path identifiers (C114_split_partial, C114_table_partial) and fails in those that do (C114_split_fails_guessing)."
 },
 "C115": {
  "note": "C115_read_exactly and C115_write_exactly are exact for every schedule. C115_two_ends is for two ends that agree on the parameters of the session (C94), as the property says. That a failed call cannot be repeated is C115_read_again_misreads, C115_send_again_misreads."
 },
 "C116": {
  "note": "C116_nlri, C116_attribute and C116_update have no hypothesis on the value. C116_one_outcome says that the outcome is unique, C116_wire_form that it is the wire form for messages that can be put on the wire; the other theorems are what the table says where something else is sent. Exactly how much room is enough is C63."
 },
 "C117": {
  "note": "C117_open, C117_notification and C117_bmp have no hypothesis on the value; C117_message and C117_send take the outcome of the body, which C116_update and C117_open give for every UPDATE and OPEN. C116_one_outcome says that outcomes are unique. The room needed is C63."
 },
 "C118": {
  "note": "C118_nlri, C118_attribute, C118_update and C118_bmp have no hypothesis on the value. OPEN and NOTIFICATION messages are the same in both builds (C117_open, C117_notification apply to both)."
 },
 "C119": {
  "note": "C119_prefixes and C119_path_ids have no hypothesis on the values. Stated for the lists of each kind, which is what BgpAddrs::encode_to and decode_from call; other families (VPLS, EVPN, MVPN, FlowSpec) are covered by C119_not_fewer only."
 },
 "C12": {
  "note": "Every list of valid IPv4 prefixes; the decoded prefixes are in network form (host bits cleared up to the last sent octet, see C12_ipv4_network_form)."
 },
 "C120": {
  "note": "C120_collections, C120_values and C120_messages have no hypothesis on the values; the buffers are those from some size on."
 },
 "C121": {
  "note": "C121_messages has no hypothesis on the message; the buffers are those from some size on."
 },
 "C122": {
  "note": "Exact in both builds: without overflow checks the condition is MessageBetween; with them it is MessageBetween and that no prefix or route in the message is of those the checks fire for (C122_checked, C122_checked_agree). AS paths are exact for both (C122_paths)."
 },
 "C123": {
  "note": "The counterpart of C96 for builds without overflow checks. The bound on NLRI is reached in both builds (C96_nlri_reached, C102)."
 },
 "C124": {
  "note": "Peers are told apart by distinguisher and address only (C124_octets): type, flags, AS number and router id do not count."
 },
 "C125": {
  "note": "What a lost peer-up costs is C61 (the parameters of the per-peer header are used until the next one)."
 },
 "C126": {
  "note": "The counterpart of C15, C100 and C114. In sessions that guess at path identifiers (as new makes them) joining and cutting fail exactly where the guesses differ."
 },
 "C127": {
  "note": "The counterpart of C109, partial for the same reason: route monitoring of IPv6 peers and of peers without 4-octet AS numbers is misread. C127_parts shows how the two builds part after a message on which only one crashes."
 },
 "C128": {
  "note": "Violated by the code: besides AGGREGATOR and the FQDN capability (C99), a FlowSpec prefix of 249 bits or more sends octets of the old contents (C128_flowspec4_iff, C128_flowspec_iff). The partial theorem is for all other values."
 },
 "C13": {
  "note": "Same for IPv6."
 },
 "C14": {
  "note": "Partial: the decoder panics on a prefix length octet of 249..255 (overflow of the u8 sum bits+7), shown by C14_length_249_panics; totality is proved for every buffer in which no such octet is read as a length. Which buffers crash is exact in C80_items_read_exactly."
 },
 "C15": {
  "note": "C15_encode_append and C15_decode_append: every NLRI kind that goes through the bit-length item loop. C15_families_encode and C15_families_decode: all thirty kinds of route lists, with and without path identifiers (VPLS lists, which do not come back from the wire, only for decoding)."
 },
 "C16": {
  "note": "Every BgpItem kind with the lawful codec, every path identifier."
 },
 "C17": {
  "note": "Partial: a prefix value may carry host bits that the code does not clear on construction. C17_contains_exactly gives the answer for every pair of values, with impossible lengths too; C17_wrong_exactly says exactly where it is not inclusion: same length, different host bits. Never wrongly yes (C17_contains_sound)."
 },
 "C18": {
  "note": "As C17, for IPv6 (C18_contains_exactly, C18_wrong_exactly)."
 },
 "C19": {
  "note": "Partial: range_first of IPv4 /0 and range_first and in_subnet of IPv6 /0 panic, IPv6 in_subnet leaves out the last address; all shown by theorems, everything else proved."
 },
 "C20": {
  "note": "Mixed families never contain each other; same-family reduces to C17/C18."
 },
 "C21": {
  "note": "All 2^64 route distinguishers."
 },
 "C22": {
  "note": "Every label stack that RFC 3107 allows (non-empty, 20-bit labels, no reserved bottom marker before the end, at most 10 labels)."
 },
 "C23": {
  "note": "Labeled, VPN and labeled VPN NLRI for both families, every list."
 },
 "C24": {
  "note": "Partial: inputs on which the code panics are shown by C24_labeled_panics and C24_vpn_panics; totality proved outside them. Which inputs crash is exact in C80_nlri_read_exactly."
 },
 "C25": {
  "note": "All 30 NLRI collections and all (AFI, SAFI) pairs and byte strings. The round trip of whole collections excludes the item kinds that C49-C53 show not to round trip."
 },
 "C26": {
  "note": "Negative for two of the seventeen capabilities: the codes of IPv4 multicast and IPv4 labeled unicast are swapped (C26_ipv4_codes_swapped); the other fifteen are proved."
 },
 "C27": {
  "note": "Labels never take part in ==, cmp or hash; the VPLS partial_cmp disagreement is stated separately."
 },
 "C28": {
  "note": "Partial: AS numbers are ordered by an inconsistent relation (C28_as_number_not_lawful); every other ordered type is lawful."
 },
 "C29": {
  "note": "Encoding holds in both widths; the round trip holds with 32-bit AS numbers and fails for every non-empty path in 16-bit sessions (C29_as16_header_becomes_asn)."
 },
 "C30": {
  "note": "C30_correct_iff says exactly which AS_PATHs are read correctly: no segment, or one segment with 32-bit AS numbers. The code violates the property for all others (C30_two_segments_misread is an instance)."
 },
 "C31": {
  "note": "All byte strings, all paths, all buffers."
 },
 "C32": {
  "note": "The header claim holds for every attribute. The frame claim leaves out AGGREGATOR, VPLS and IPv6 EVPN type 5, for which the code violates it (C32_aggregator_not_written, C32_overwrites_behind)."
 },
 "C33": {
  "note": "All attributes named but AGGREGATOR, which is lost for every value (C33_aggregator_lost), and AS paths in 16-bit sessions (C29). ATOMIC_AGGREGATE is shown to round trip the address the library puts in it, which RFC 4271 does not have."
 },
 "C34": {
  "note": "All unassigned codes, all flags, all values that fit the length field."
 },
 "C35": {
  "note": "All three kinds of lists. Well-formed means a whole number of elements; for extended communities any value."
 },
 "C36": {
  "note": "C36_crash_iff is exact: the values that crash are those of ValueCrash, for every session, code, flags and value, with attribute sets nested to any depth; no value loops for ever. The code violates the property (C36_crashes)."
 },
 "C37": {
  "note": "All addresses, AS numbers, numbers and 64-bit values, with the octets of both kinds of route target."
 },
 "C38": {
  "note": "Proved for all 2^32 communities, with what the texts are. Number parsing, splitting and trimming of core are modelled (Model/Text)."
 },
 "C39": {
  "note": "Messages of parts that round trip on their own (C29, C33, C44 say which do not); octets of prefixes that are not sent come back as zero."
 },
 "C40": {
  "note": "C40_every_message: for every message, with AGGREGATOR and with NLRI of which the encoder misreports the size too, and every buffer, what the two length fields hold. Code violates it when the last attribute takes the section over 65535 octets: the length wraps (C40_attribute_length_wraps); C40_exactly: it is right if and only if the attributes have at most 65535 octets."
 },
 "C41": {
  "note": "Endless loops are excluded for every input. Crashes are characterised exactly (C41_crash_iff), by a specification (UpdateCrash) that refers to no decoder; the code violates the property (C41_crashes)."
 },
 "C42": {
  "note": "In full: the decoder accepts exactly the messages made of three delimited sections, each read from its own octets as C80 and C81 specify."
 },
 "C43": {
  "note": "In full, for the eight accessors."
 },
 "C44": {
  "note": "Holds for all families that round trip but IPv6 FlowSpec MP_REACH_NLRI, which is always rejected. Three constructors build attributes with a next hop of the wrong family (C44_ipv4_next_hop_of_ipv6)."
 },
 "C45": {
  "note": "C45_messages carries the decision through to whole UPDATE messages: the NLRI fields of the message and those of MP_REACH/MP_UNREACH are read in the form the capabilities announce."
 },
 "C46": {
  "note": "Peer direction and family proved; the own direction is ignored by the code (C46_own_direction_ignored). Full statement proved for sessions that offer both directions."
 },
 "C47": {
  "note": "Non-AddPath part and AS4 in full; the AddPath part for peers with one AddPath capability, the code ignores further ones (C47_second_addpath_ignored)."
 },
 "C48": {
  "note": "Other kinds are kept for every list; removal and idempotence proved except for AddPath when the list has several AddPath capabilities (C48_second_addpath_survives)."
 },
 "C49": {
  "note": "Lists of all route types, exact wire bytes. Type 5 routes for IPv6 prefixes are excluded: the code does not carry them (C49_ipv6_prefix_not_carried)."
 },
 "C50": {
  "note": "Types 1 and 2 in both transport modes. What is sent for every type is exact (C50_mvpn_sent); for types 3 to 7 it is never read back and, with addresses of the session's family, always refused (C50_types_3_to_7_never_carried)."
 },
 "C51": {
  "note": "Decoding of lists in full. The encoder reports two octets less per item than it writes, so what it reports never decodes (C51_reported_length_short). The address without label block (BgpL2): C51_l2_decode_exactly, C51_l2_encode_exactly."
 },
 "C52": {
  "note": "IPv4 in full; IPv6 for prefix lengths up to 63, longer ones overflow the length octet (C52_mdt6_long_prefix_panics)."
 },
 "C53": {
  "note": "Operator components whose announced length is right, and single prefix components. The code violates the property otherwise (C53_two_small_values_lost, C53_large_value_panics, C53_prefix_misaligns, C53_vpn_prefix_panics)."
 },
 "C54": {
  "note": "All flags, all values, all lists, both operator kinds."
 },
 "C55": {
  "note": "Partial: MAC comparison is lawful but is not the order of the integer value (C55_order_is_not_integer_order)."
 },
 "C56": {
  "note": "Common header for version 3 and lengths below 2^32 (others: C56_common_header_other). Per-peer header: exact octets and result for all values; it round trips exactly for addresses outside ::/96. The code clears the whole buffer behind the header of an IPv4 peer (C56_rest_is_cleared)."
 },
 "C57": {
  "note": "Termination in full. Initiation: decoding of any TLV sequence; round trip without system description and name; the code writes all three strings with type 0, so other messages come back changed (C57_initiation_loses_types)."
 },
 "C58": {
  "note": "Round trip for all messages with addresses outside ::/96, given that the embedded BGP messages round trip; discharged from C05, C10 and C39. Addresses in ::/96 come back as IPv4 (C58_peer_up_addresses)."
 },
 "C59": {
  "note": "No endless loop on any input, and an exact characterisation of the inputs that panic (Spec.BmpCrash); the code violates the property on those (C59_crashes)."
 },
 "C60": {
  "note": "Invariant over all histories, BTreeMap by its documented contract (sorted association list)."
 },
 "C61": {
  "note": "Parameters after every history. Path ids: exact for peers that announce both directions or none for each family; the code looks at the receive bit of the peer's OPEN where the send bit is meant (C61_direction_ignored)."
 },
 "C62": {
  "note": "Length: every encoder. Frame: every encoder but VPLS routes, EVPN prefix routes (type 5) with an IPv6 prefix and AGGREGATOR; BMP on buffers up to 65535 octets, where IPv4 addresses clear the rest of the buffer. The code violates the property for those (C62_vpls_writes_behind, C62_not_framed, C62_long_update_wraps). Without overflow checks the same holds of NLRI, path attributes and UPDATE messages (C62_release_frame_partial), with the same exceptions (C62_release_not_framed); the size of the buffer is kept by all of them and by BMP messages (C62_release_buffer_size_kept)."
 },
 "C63": {
  "note": "Never success on a short buffer (all encoders with a specified encoding). Error, not panic, for addresses, NOTIFICATION, communities, attribute values, message header, capabilities, flowspec, BMP common and per-peer header, Termination, peer-down; exact characterisation for OPEN, for path attributes and for whole UPDATE messages (multiprotocol NLRI of every family: prefixes, multicast VPN, EVPN and flow specifications): at which sizes the encoder panics and at which it returns an error (C63_update_exact); the same for BMP peer-up, route monitoring and initiation messages. The code violates the property elsewhere: prefix lists always panic on short buffers, attributes on buffers without room for the header, OPEN at capability boundaries, BMP information elements, UPDATE on buffers below two bytes; PMSI_TUNNEL, ATTR_SET, BMP statistics and mirroring panic on every buffer."
 },
 "C64": {
  "note": "Reported length inside the input and independence of what follows, for prefix NLRI of every kind with and without path ids, VPLS, RD, capabilities, FlowSpec operator components, BMP headers, information elements, peer-up, peer-down, route monitoring; consumption of lists, Initiation, Termination. The code violates it for EVPN/MVPN routes longer than their content (octets read but not reported) and for FlowSpec prefix components (one octet too many reported). Decoders that report no length are not covered."
 },
 "C65": {
  "note": "All widths and all values."
 },
 "C66": {
  "note": "Round trip proved for every RD whose type is not 1. The code violates it for type 1: such an RD is displayed with a dotted address and its text is always refused (C66_fails)."
 },
 "C67": {
  "note": "All BGP encoders, and BMP encoders without IPv4 addresses. BMP encoders with an IPv4 address clear the spare room (proved, C67_bmp_v4). Without overflow checks the same holds, with the same exception (C67_release_size_independent_partial)."
 },
 "C68": {
  "note": "All values of all prefix kinds; the IPv4/IPv6 parsers and Display of core are modelled (Model/Text)."
 },
 "C69": {
  "note": "The code violates it: whatever stands behind the slash is accepted (C69_fails), text that is no number becomes the full length (C69_fails_bad_length), lengths up to 255 are taken as they are. Proved: decimal lengths below 256 are taken literally, and IPv4 texts need a canonical address."
 },
 "C70": {
  "note": "Any number of parts, any separators."
 },
 "C71": {
  "note": "The code violates it: every text with a hexadecimal digit is accepted, other characters are skipped and only the last twelve digits count (C71_fails). Proved: texts without a hexadecimal digit are refused."
 },
 "C72": {
  "note": "If and only if, for every session and value. The code accepts octets behind the value of ORIGIN, NEXT_HOP, MED, LOCAL_PREF, CONNECTOR and CLUSTER_LIST (C72_trailing_octets), an address in ATOMIC_AGGREGATE, and for AGGREGATOR both widths in every session."
 },
 "C73": {
  "note": "All families without route distinguishers in the next hop. For VPN families the length byte is ignored (C73_vpn_length_ignored); the 48-byte next hop of RFC 4659 crashes the decoder (C73_fails)."
 },
 "C74": {
  "note": "Injectivity for all five route types and all label stacks; the text starts with type and route distinguisher."
 },
 "C75": {
  "note": "Proved for routes with IPv4 addresses only and for the types 1 and 2 with any addresses. The code violates it with IPv6: source 1::2:3, group 4::5 and source 1::2, group 3:4::5 have the same text (C75_mvpn_text_fails)."
 },
 "C76": {
  "note": "Injectivity for each prefix family with and without labels, route distinguisher, path identifier; for VPLS exactly the labels are not shown."
 },
 "C77": {
  "note": "Holds for 0 and all numbers that are not a multiple of 65536; AS k*65536 is displayed as k (C77_as_text_wrong, C77_as_text_fails)."
 },
 "C78": {
  "note": "Exact text for every code and subcode; injective."
 },
 "C79": {
  "note": "Exact: equal texts iff equal or one of three pairs (import route targets transitive and not, reserved octets of encapsulation and of EVPN layer 2 attributes). So the full property fails for extended communities (C79_ext_community_text_fails); proved for large communities.",
  "status": "partial"
 },
 "C80": {
  "note": "Exact for all families, sessions and octets: AddrsRead, AddrsCrash and an error otherwise; also for every kind of item on its own."
 },
 "C81": {
  "note": "Exact for all type codes, sessions and octets: ValueRead, ValueCrash and an error otherwise; likewise UpdateRead and UpdateCrash for whole messages. The specifications use only data types."
 },
 "C82": {
  "note": "Specifications OpenRead, NotificationRead (Spec/OpenReads.lean) and BmpRead, BmpCrash (Spec/Bmp.lean) use the data types of the model only; UTF-8 is RFC 3629 and is proved to be what the model of std::str::from_utf8 accepts."
 },
 "C83": {
  "note": "Types 0 and 1 are displayed as RFC 4364 writes them, texts with a two-octet AS number are parsed so. The code violates the property otherwise: no route distinguisher of type 2 is displayed so (C83_as4_text_fails), texts with an address are refused and texts with a larger AS number are taken for another route distinguisher (C83_rd_parse_fails)."
 },
 "C84": {
  "note": "All but the IPv4 multicast test, which the code also answers with yes for the reserved addresses 240.0.0.0 to 255.255.255.254 (C84_multicast_partial is exact, C84_multicast_fails)."
 },
 "C85": {
  "note": "The serde model (Model/Serde.lean) assumes the documented behaviour of serde, its derive macros and a JSON-like format: part of the trusted base. Violated: BgpFlowSpec's Deserialize calls deserialize_enum with a visitor that has visit_map but no visit_enum, so no document is accepted; proved for every document, and for every attribute that carries a rule at any depth. Everything else round-trips (C85_attributes_partial, C85_nlri_partial, C85_values), and C85_iff_no_rule says so exactly."
 },
 "C86": {
  "note": "The acceptance of documents is proved exactly. Violated: WithPathId reports missing fields under the names of WithRd's fields (src/afi/mod.rs:1374-1375)."
 },
 "C87": {
  "note": "C87_flowspec_map shows that the unused visit_map method would read every rule back. SetsListed only says that a BTreeSet is listed in order."
 },
 "C88": {
  "note": "Everything except partial_cmp, which answers None for == VPLS routes, == EVPN routes of the types 1, 2 and 5 and lists that begin with such routes (C88_vpls_partial_cmp, C88_evpn_partial_cmp, C88_lists_partial_cmp: exactly which). Assumes that derive(PartialOrd) compares lexicographically by partial_cmp of the fields."
 },
 "C89": {
  "note": "Total order and hash proved for all attributes; == agrees with cmp for attributes without AS numbers that are non-zero multiples of 65536 (C89_plain_keys_partial); for the others it does not (C89_eq_and_cmp_disagree). partial_cmp: C89_partial_cmp, C89_pmsi_partial_cmp."
 },
 "C90": {
  "note": "Proved for IPv4 and IPv6 prefixes in network form and for the order of kinds. False for MAC prefixes, which are sorted from the last byte of the address (C90_mac_not_contiguous)."
 },
 "C91": {
  "note": "If and only if, for every text, with the lenient cases that the library accepts written into the grammar (see C69, C71): a length that is no number below 256 is taken for the full length, parts behind a second / or a third : are not looked at, anything with a hexadecimal digit is a MAC address. The parsers of Ipv4Addr, Ipv6Addr and integers are those of std as modelled in Model/Text.lean."
 },
 "C92": {
  "note": "Proved for what Relayable and AttrRelayable describe, in every buffer with room, and the description is exact (C92_collections_exactly, C92_messages_exactly): received VPLS routes, MVPN routes of types 3-7, FlowSpec rules with wrong announced lengths or prefixes, AGGREGATOR, PMSI tunnels, attribute sets, AS paths in 16-bit sessions and originators of the other family are not sent on as they were."
 },
 "C93": {
  "note": "Exact: if and only if, over every buffer. The conditions are those of C39 and C35."
 },
 "C94": {
  "note": "Partial: the two ends agree on the width of AS numbers always, on path identifiers exactly if the offers of the two sides are complementary (C94_addpath_agreement), which one-way offers are not (C94_one_way_offers_misread, C94_send_only_misread). With agreement every message arrives (C94_conversation_partial). Sessions made with new() guess path identifiers and can misread (C94_guess_misreads)."
 },
 "C95": {
  "note": "Partial: what the program prints and how it ends is proved exactly for every octet stream (C95_start, C95_dumps). It panics when the connection is closed, on OPENs of more than 4096 octets and on length fields below 19, and misreads the prefixes of peers that only offer to receive path identifiers."
 },
 "C96": {
  "note": "The number of entries of all lists in a value is counted (Spec/Volume.lean), not octets of memory. C96_nlri_reached and C96_nesting_reached show that the bounds are met: the depth of attribute sets, with which the decoder calls itself, is limited by the octets only (8192 in one attribute). A reused UPDATE object keeps all attributes it ever read (C11), which C96_update_reused counts."
 },
 "C97": {
  "note": "For every pair of values; strings must be UTF-8, as Rust guarantees (what is received is proved to be). The Unicode tables of the standard library are parameters of the theorems."
 },
 "C98": {
  "note": "Exact: two attributes have the same text iff they are equal or are mLDP tunnels that differ only in the opaque value; two next hops (other than multicast VPN routes, see C75) iff they are equal up to a zero route distinguisher; two NOTIFICATIONs iff they are equal."
 },
 "C99": {
  "note": "Proved for every encoder and all values, except: the AGGREGATOR attribute (nothing is written but 2 or 4 octets are reported) and the FQDN capability (two octets fewer are written than are reported). For both the leak is proved for every message that has one (C99_aggregator_leaks, C99_fqdn_leaks), and the property is characterised exactly for attributes and OPEN messages."
 }
}