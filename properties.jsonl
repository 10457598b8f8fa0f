{"id": "C01", "title": "BGP message header round trip", "statement": "If prepare_message_buf(buf, type, len) succeeds, then decode_message_head on the same buffer returns exactly (type, len), the returned total is len+19, the first 16 bytes are 0xff, and no byte at offset >= 19 of the caller's buffer is changed.", "quantifier": "every buffer content and size, every message type, every body length that fits one BGP message (len <= 65516)", "why_tests_cant": "65k lengths x arbitrary buffer contents; tests sample a handful of lengths and never the u16 boundary.", "anchors": ["src/lib.rs: BgpSessionParams::prepare_message_buf", "src/lib.rs: BgpSessionParams::decode_message_head"]}
{"id": "C02", "title": "Message header is validated and never crashes the reader", "statement": "decode_message_head returns an error for every buffer shorter than 19 bytes, for every marker that is not all ones and for every unknown type code, and it never panics, whatever bytes the peer sends.", "quantifier": "every byte string", "why_tests_cant": "Totality over all byte strings; the length field (bytes 16..18) has 65536 values and values below 19 are never tested.", "anchors": ["src/lib.rs: BgpSessionParams::decode_message_head", "src/message/mod.rs: BgpMessageType::decode_from"]}
{"id": "C03", "title": "Header writer refuses what it cannot represent", "statement": "prepare_message_buf/send_message_buf either write a header whose length field equals the body length plus 19 or return an error; an oversized body is never sent with a wrong length.", "quantifier": "every body length and buffer", "why_tests_cant": "Needs bodies above 65516 bytes; the cast to u16 wraps only there.", "anchors": ["src/lib.rs: BgpSessionParams::prepare_message_buf", "src/lib.rs: BgpSessionParams::send_message_buf"]}
{"id": "C04", "title": "A stream of messages keeps its framing", "statement": "For any sequence of messages written one after another with send_message_buf, a reader that repeats recv_message_head and then reads the announced number of body bytes recovers exactly the same sequence of (type, body), with no bytes left over.", "quantifier": "every finite history of messages (any types, any bodies up to 65516 bytes)", "why_tests_cant": "Histories of unbounded length; a framing slip shows only after some message of some length.", "anchors": ["src/lib.rs: BgpSessionParams::send_message_buf", "src/lib.rs: BgpSessionParams::recv_message_head", "src/message/mod.rs: BgpMessageType"]}
{"id": "C05", "title": "OPEN round trip", "statement": "Encoding an OPEN message and decoding the produced bytes gives back hold time, router id and the list of capabilities in order; the AS number comes back unchanged when it fits 16 bits and as AS_TRANS (23456) otherwise.", "quantifier": "every OPEN message whose capabilities are encodable (GR restart time < 2^12, LLGR stale time < 2^24, list capabilities short enough for their one-byte length, no FQDN capability), every buffer large enough", "why_tests_cant": "Unbounded capability lists with unbounded payload lists; tests use one fixed 3-element list.", "anchors": ["src/message/open.rs: BgpOpenMessage::encode_to", "src/message/open.rs: BgpOpenMessage::decode_from", "src/lib.rs: BgpCapability::fill_buffer", "src/lib.rs: BgpCapability::from_buffer"]}
{"id": "C06", "title": "OPEN decoding never crashes", "statement": "Decoding an OPEN message from any bytes whatsoever returns Ok or Err: no panic and no endless loop.", "quantifier": "every byte string", "why_tests_cant": "Totality over all byte strings, including nested length fields that disagree with each other.", "anchors": ["src/message/open.rs: BgpOpenMessage::decode_from", "src/lib.rs: BgpCapability::from_buffer", "src/lib.rs: BgpCapability::from_type_and_data"]}
{"id": "C07", "title": "Unknown capabilities are skipped, known ones survive", "statement": "Inserting capability TLVs with unrecognised codes anywhere in an OPEN message does not change what is decoded: the known capabilities come out in order and nothing else is affected.", "quantifier": "every interleaving of known and unknown capability TLVs", "why_tests_cant": "All interleavings and all unknown payloads cannot be enumerated.", "anchors": ["src/lib.rs: BgpCapability::from_buffer", "src/message/open.rs: BgpOpenMessage::decode_from"]}
{"id": "C08", "title": "Capability TLV round trip", "statement": "For every capability value, the bytes produced for the OPEN message decode to the same capability and consume exactly the bytes produced.", "quantifier": "every capability, including graceful restart, long-lived graceful restart, AddPath lists of any encodable length and FQDN strings", "why_tests_cant": "List payloads are unbounded; FQDN strings range over all strings.", "anchors": ["src/lib.rs: BgpCapability::bytes_len", "src/lib.rs: BgpCapability::fill_buffer", "src/lib.rs: BgpCapability::from_type_and_data"]}
{"id": "C09", "title": "OPEN announces the length of its optional parameters correctly", "statement": "The one-byte optional parameter length written by OPEN encoding equals the number of parameter bytes that follow, or encoding fails.", "quantifier": "every OPEN message", "why_tests_cant": "The byte wraps only when the capabilities exceed 255 bytes, which no test builds.", "anchors": ["src/message/open.rs: BgpOpenMessage::encode_to"]}
{"id": "C10", "title": "NOTIFICATION round trip and totality", "statement": "Encoding a NOTIFICATION and decoding the produced bytes returns the same code, subcode and data; decoding never panics; buffers below the minimum are rejected with an error.", "quantifier": "every notification value, every byte string, every buffer size", "why_tests_cant": "2^32 values and all byte strings.", "anchors": ["src/message/notification.rs: BgpNotificationMessage::encode_to", "src/message/notification.rs: BgpNotificationMessage::decode_from"]}
{"id": "C11", "title": "Decoding does not depend on what the message object held before", "statement": "The result of decode_from into a message object depends only on the bytes and the session parameters, not on the previous contents of the object.", "quantifier": "every prior state of OPEN, UPDATE and NOTIFICATION objects, every byte string", "why_tests_cant": "Quantifies over histories of reuse of one object; tests always decode into a fresh one.", "anchors": ["src/message/update/mod.rs: BgpUpdateMessage::decode_from", "src/message/open.rs: BgpOpenMessage::decode_from", "src/message/notification.rs: BgpNotificationMessage::decode_from"]}
{"id": "C12", "title": "IPv4 prefix NLRI round trip", "statement": "Any list of IPv4 prefixes with length <= 32 encodes as length-prefixed minimal-octet NLRI and decodes to the same list with the address bits beyond the announced octets cleared; prefixes given in network form come back identical.", "quantifier": "every list of IPv4 prefixes of any length, every sufficiently large buffer", "why_tests_cant": "Unbounded lists of 2^37 possible items.", "anchors": ["src/afi/ipv4.rs: BgpAddrV4 as BgpItem", "src/afi/mod.rs: encode_bgpitems_to", "src/afi/mod.rs: decode_bgpitems_from"]}
{"id": "C13", "title": "IPv6 prefix NLRI round trip", "statement": "Any list of IPv6 prefixes with length <= 128 encodes and decodes to the same list (for prefixes with no bits set beyond the announced octets).", "quantifier": "every list of IPv6 prefixes, every sufficiently large buffer", "why_tests_cant": "Unbounded lists of 2^135 possible items.", "anchors": ["src/afi/ipv6.rs: BgpAddrV6 as BgpItem", "src/afi/mod.rs: encode_bgpitems_to", "src/afi/mod.rs: decode_bgpitems_from"]}
{"id": "C14", "title": "Unicast NLRI decoding is total", "statement": "Decoding an IPv4 or IPv6 unicast NLRI field from any bytes returns Ok or Err, never panics and never loops; lengths beyond 32/128 and truncated prefixes are errors; on success every byte is consumed.", "quantifier": "every byte string", "why_tests_cant": "Totality over all byte strings; the length octets 249..255 are not tested.", "anchors": ["src/afi/mod.rs: decode_bgpitems_from", "src/afi/ipv4.rs: BgpAddrV4::from_bits", "src/afi/ipv6.rs: BgpAddrV6::from_bits"]}
{"id": "C15", "title": "NLRI lists compose", "statement": "Encoding a concatenation of NLRI lists writes the concatenation of their encodings, and decoding a concatenation of encodings yields the concatenation of the lists.", "quantifier": "every pair of NLRI lists of every kind that round trips", "why_tests_cant": "Unbounded pairs of lists.", "anchors": ["src/afi/mod.rs: encode_bgpitems_to", "src/afi/mod.rs: decode_bgpitems_from", "src/afi/mod.rs: encode_pathid_bgpitems_to"]}
{"id": "C16", "title": "AddPath NLRI round trip", "statement": "A list of prefixes with path identifiers encodes as 4-byte identifier plus prefix for each item and decodes to the same list.", "quantifier": "every list of (path id, prefix), for every prefix kind that round trips on its own", "why_tests_cant": "Unbounded lists of unbounded items.", "anchors": ["src/afi/mod.rs: encode_pathid_bgpitems_to", "src/afi/mod.rs: decode_pathid_bgpitems_from", "src/afi/mod.rs: WithPathId"]}
{"id": "C17", "title": "IPv4 prefix containment is inclusion of address sets", "statement": "BgpAddrV4::contains(a,b) is true exactly when every address covered by b is covered by a.", "quantifier": "every pair of IPv4 prefixes with lengths 0..32", "why_tests_cant": "2^74 pairs.", "anchors": ["src/afi/ipv4.rs: BgpAddrV4::contains", "src/afi/ipv4.rs: BgpAddrV4::norm_subnet_u32"]}
{"id": "C18", "title": "IPv6 prefix containment is inclusion of address sets", "statement": "BgpAddrV6::contains(a,b) is true exactly when every address covered by b is covered by a.", "quantifier": "every pair of IPv6 prefixes with lengths 0..128", "why_tests_cant": "2^270 pairs.", "anchors": ["src/afi/ipv6.rs: BgpAddrV6::contains"]}
{"id": "C19", "title": "Subnet range bounds", "statement": "range_first and range_last of a prefix are the least and the greatest address the prefix covers, and in_subnet(ip) is true exactly for addresses between them.", "quantifier": "every IPv4 / IPv6 / MAC prefix and every address", "why_tests_cant": "2^69 (v4) and 2^263 (v6) combinations; boundary addresses are the ones tests miss.", "anchors": ["src/afi/ipv4.rs: BgpAddrV4::in_subnet/range_first/range_last", "src/afi/ipv6.rs: BgpAddrV6::in_subnet/range_first/range_last", "src/afi/mac.rs: BgpAddrMac"]}
{"id": "C20", "title": "Containment of mixed families", "statement": "BgpNet::contains is false across address families and agrees with the per-family containment otherwise.", "quantifier": "every pair of networks of any family", "why_tests_cant": "All cross-family pairs.", "anchors": ["src/afi/mod.rs: BgpNet::contains"]}
{"id": "C21", "title": "Route distinguisher round trip", "statement": "An RD encodes to 8 bytes and decodes to itself; decoding any 8 or more bytes and re-encoding gives back the first 8 bytes; shorter input is an error.", "quantifier": "every RD and every byte string", "why_tests_cant": "2^64 values.", "anchors": ["src/afi/mod.rs: BgpRD::decode_rd_from", "src/afi/mod.rs: BgpRD::encode_rd_to"]}
{"id": "C22", "title": "MPLS label stack round trip", "statement": "A non-empty label stack of 20-bit labels, whose non-final labels are not the stack-ending reserved values, encodes to 3 bytes per label with bottom-of-stack only on the last and decodes to the same stack.", "quantifier": "every label stack with at most 10 labels that meets the rule, followed by arbitrary bytes", "why_tests_cant": "Unbounded label values and following bytes.", "anchors": ["src/afi/mod.rs: MplsLabels as BgpItem"]}
{"id": "C23", "title": "Labeled and VPN NLRI round trip", "statement": "Labeled unicast and VPN (labeled with route distinguisher) prefixes of both families encode and decode to themselves, labels included.", "quantifier": "every list of labeled / VPN prefixes whose total bit length fits one octet", "why_tests_cant": "Unbounded lists of products of unbounded components.", "anchors": ["src/afi/mod.rs: Labeled", "src/afi/mod.rs: WithRd", "src/afi/mod.rs: encode_bgpitems_to"]}
{"id": "C24", "title": "Labeled and VPN NLRI decoding is total", "statement": "Decoding labeled or VPN NLRI from any bytes returns Ok or Err and never panics.", "quantifier": "every byte string", "why_tests_cant": "Totality over all byte strings (truncated labels, bit lengths that are not multiples of what follows).", "anchors": ["src/afi/mod.rs: MplsLabels::extract_bits_from", "src/afi/mod.rs: Labeled::extract_bits_from", "src/afi/mod.rs: WithRd::extract_bits_from"]}
{"id": "C25", "title": "Address family dispatch is coherent", "statement": "For every NLRI collection the AFI/SAFI it reports is the one whose decoder produces the same kind of collection, AddPath variants share the code of their plain variant, and unknown AFI/SAFI pairs are rejected with an error.", "quantifier": "every NLRI collection kind, every (afi, safi) pair and every byte string", "why_tests_cant": "31 kinds x 2^24 codes x all byte strings.", "anchors": ["src/afi/mod.rs: BgpAddrs::get_afi_safi", "src/afi/mod.rs: BgpAddrs::decode_from", "src/afi/mod.rs: BgpAddrs::encode_to"]}
{"id": "C26", "title": "Capability and NLRI codes agree", "statement": "The AFI/SAFI pair a multiprotocol capability stands for (in the OPEN TLV and in AddPath/GR capabilities built from it) is the AFI/SAFI of the NLRI collection of the same name.", "quantifier": "every multiprotocol capability", "why_tests_cant": "Cross-module agreement that no unit test compares.", "anchors": ["src/lib.rs: afisafi_from_cap", "src/lib.rs: BgpCapability::fill_buffer", "src/afi/mod.rs: BgpAddrs::get_afi_safi"]}
{"id": "C27", "title": "MPLS labels do not take part in identity", "statement": "Equality, ordering and hashing of labeled NLRI ignore the labels and are those of the underlying NLRI; the ordering is a total order whenever the underlying one is.", "quantifier": "all pairs and triples of labeled NLRI", "why_tests_cant": "Laws over all triples.", "anchors": ["src/afi/mod.rs: Labeled PartialEq/Ord/Hash", "src/afi/mod.rs: MplsLabels PartialEq/Ord"]}
{"id": "C28", "title": "Hand-written orderings are lawful", "statement": "For every type with a hand-written Ord (VPN NLRI, AddPath NLRI, AS numbers, BMP peer headers) cmp is a total order consistent with ==, partial_cmp agrees with cmp, and equal values hash equally, so that BTreeMap/BTreeSet/HashMap keys behave.", "quantifier": "all pairs and triples of values", "why_tests_cant": "Order laws quantify over all triples.", "anchors": ["src/afi/mod.rs: WithRd Ord", "src/afi/mod.rs: WithPathId Ord", "src/message/attributes/aspath.rs: BgpAS Eq/Ord/Hash", "src/bmp/bmputl.rs: BmpMessagePeerHeader Ord"]}
{"id": "C29", "title": "AS path round trip", "statement": "An AS path of up to 255 ASNs encodes as one AS_SEQUENCE segment in the session's AS width and decodes to the same path in a session of the same width (with 16-bit ASNs in a 16-bit session).", "quantifier": "every AS path of at most 255 elements, both AS widths, every sufficient buffer", "why_tests_cant": "Unbounded values; tests check only that decoding succeeds.", "anchors": ["src/message/attributes/aspath.rs: BgpASpath::encode_to", "src/message/attributes/aspath.rs: BgpASpath::decode_from"]}
{"id": "C30", "title": "AS path segments are parsed", "statement": "Decoding an AS_PATH attribute returns the ASNs of all segments and nothing else: segment headers never appear as AS numbers, whatever the number and types of segments.", "quantifier": "every well-formed AS_PATH attribute (any number of segments)", "why_tests_cant": "Unbounded segment structure; tests only use a single segment.", "anchors": ["src/message/attributes/aspath.rs: BgpASpath::decode_from"]}
{"id": "C31", "title": "AS path decoding is total", "statement": "Decoding an AS_PATH from any bytes returns a path and never panics; an undersized encode buffer is an error.", "quantifier": "every byte string, every path, every buffer", "why_tests_cant": "Totality.", "anchors": ["src/message/attributes/aspath.rs: BgpASpath::decode_from", "src/message/attributes/aspath.rs: BgpASpath::encode_to"]}
{"id": "C32", "title": "Path attribute framing", "statement": "Each encoded path attribute starts with its flags and type code, followed by a length field (2 bytes when the extended-length flag is set, else 1) equal to the number of value bytes that follow; a value too long for its length field is an error; bytes after the attribute are untouched.", "quantifier": "every attribute value, every session, every buffer", "why_tests_cant": "Length boundary cases at 255 and 65535 and all buffer contents.", "anchors": ["src/message/attributes/mod.rs: BgpAttrItem::encode_to", "src/message/attributes/mod.rs: BgpAttrItem::encode_bgpattr"]}
{"id": "C33", "title": "Path attribute round trip", "statement": "Every encodable path attribute decodes to itself: ORIGIN, AS_PATH, NEXT_HOP, MED, LOCAL_PREF, ATOMIC_AGGREGATE, AGGREGATOR, COMMUNITIES, ORIGINATOR_ID, CLUSTER_LIST, EXTENDED and LARGE COMMUNITIES, CONNECTOR and unknown attributes.", "quantifier": "every attribute value, every session whose transport matches the address family used in the attribute", "why_tests_cant": "Unbounded values and lists.", "anchors": ["src/message/attributes/mod.rs: BgpAttrItem", "src/message/attributes/*.rs: decode_from/encode_to"]}
{"id": "C34", "title": "Unknown attributes are transparent", "statement": "An attribute with an unassigned type code is kept with its type, flags and value, and encoding it again produces the same bytes.", "quantifier": "every unassigned type code, every flags octet, every value", "why_tests_cant": "All codes x flags x values.", "anchors": ["src/message/attributes/unknown.rs: BgpAttrUnknown", "src/message/attributes/mod.rs: BgpAttrItem::decode_from"]}
{"id": "C35", "title": "Community lists are sets", "statement": "Decoding a (large/extended) community attribute yields exactly the set of communities present on the wire irrespective of order and repetition; encoding emits each member once in ascending order; encode then decode is the identity.", "quantifier": "every community set and every well-formed attribute value", "why_tests_cant": "Unbounded sets and all permutations/repetitions.", "anchors": ["src/message/attributes/community.rs: BgpCommunityList", "src/message/attributes/community.rs: BgpLargeCommunityList", "src/message/attributes/extcommunity.rs: BgpExtCommunityList"]}
{"id": "C36", "title": "Attribute decoding never crashes", "statement": "Decoding any single path attribute (any type code, any flags, any value bytes) returns Ok or Err and never panics.", "quantifier": "every type code, flags octet, byte string and session", "why_tests_cant": "Totality over 2^16 codes x all byte strings.", "anchors": ["src/message/attributes/mod.rs: BgpAttrItem::decode_from", "src/message/attributes/*.rs"]}
{"id": "C37", "title": "Extended community helpers", "statement": "A route target built from IPv4 address and number reports the same address and number; building from a 64-bit integer equals decoding its big-endian bytes; encode/decode of a single extended community is the identity.", "quantifier": "every address, number and 64-bit value", "why_tests_cant": "2^48 / 2^64 values.", "anchors": ["src/message/attributes/extcommunity.rs: BgpExtCommunity::rt_ipn/get_ipv4/get_num/From<u64>"]}
{"id": "C38", "title": "Community text round trip", "statement": "Parsing the displayed text of a community returns the same community, well-known names included.", "quantifier": "every 32-bit community", "why_tests_cant": "2^32 values and names that collide with numbers.", "anchors": ["src/message/attributes/community.rs: BgpCommunity Display/FromStr"]}
{"id": "C39", "title": "UPDATE round trip", "statement": "Encoding an UPDATE with withdrawn prefixes, attributes and announced prefixes of the session's family and decoding the bytes in the same session gives back the same withdrawals, attributes and announcements (plain or AddPath).", "quantifier": "every UPDATE whose parts round trip on their own and whose NLRI does not look like AddPath under the fuzzy detection", "why_tests_cant": "Unbounded products of three unbounded lists; existing test only checks is_ok.", "anchors": ["src/message/update/mod.rs: BgpUpdateMessage::encode_to", "src/message/update/mod.rs: BgpUpdateMessage::decode_from"]}
{"id": "C40", "title": "UPDATE length fields are exact", "statement": "The withdrawn-routes length and the total attribute length written by UPDATE encoding equal the number of bytes of the respective sections, or encoding fails.", "quantifier": "every UPDATE and every buffer", "why_tests_cant": "Length overflow needs sections above 65535 bytes.", "anchors": ["src/message/update/mod.rs: BgpUpdateMessage::encode_to"]}
{"id": "C41", "title": "UPDATE decoding never crashes", "statement": "Decoding an UPDATE from any bytes returns Ok or Err: no panic and no endless loop, whatever the nested lengths say.", "quantifier": "every byte string and session", "why_tests_cant": "Totality over nested length fields.", "anchors": ["src/message/update/mod.rs: BgpUpdateMessage::decode_from"]}
{"id": "C42", "title": "UPDATE sections are delimited", "statement": "A successfully decoded UPDATE interprets each byte in exactly one section: attributes are taken only from the announced attribute section and announced prefixes only from the bytes after it; changing bytes of one section leaves the decoded other sections alone.", "quantifier": "every byte string that decodes", "why_tests_cant": "Quantifies over pairs of byte strings.", "anchors": ["src/message/update/mod.rs: BgpUpdateMessage::decode_from"]}
{"id": "C43", "title": "First attribute wins in accessors", "statement": "get_attr_* / get_mp* return the first attribute of that kind in message order and nothing iff there is none.", "quantifier": "every attribute list", "why_tests_cant": "Unbounded lists.", "anchors": ["src/message/update/mod.rs: BgpUpdateMessage::get_attr_origin etc."]}
{"id": "C44", "title": "Multiprotocol reach/unreach round trip", "statement": "MP_REACH_NLRI and MP_UNREACH_NLRI attributes decode to the same next hop and NLRI that were encoded.", "quantifier": "every next hop of the kind used by the family and every NLRI list of a family that round trips", "why_tests_cant": "Products of unbounded parts over all families.", "anchors": ["src/message/attributes/multiproto.rs: BgpMPUpdates", "src/message/attributes/multiproto.rs: BgpMPWithdraws"]}
{"id": "C45", "title": "AddPath detection", "statement": "A session decodes NLRI as AddPath exactly when it negotiated AddPath receive for that family or the fuzzy option is on and the field has at least 5 bytes starting with two zero bytes; with fuzzy off and no AddPath negotiated, plain NLRI is never misread.", "quantifier": "every session and NLRI byte string", "why_tests_cant": "All byte strings; default-route NLRI starts with zero bytes.", "anchors": ["src/util.rs: is_addpath_nlri", "src/afi/mod.rs: BgpAddrs::decode_from", "src/message/update/mod.rs: BgpUpdateMessage::decode_from"]}
{"id": "C46", "title": "AddPath negotiation directions", "statement": "After match_caps, a session sends (receives) path ids for a family only if it offered to send (receive) and the peer offered to receive (send) for that family.", "quantifier": "every pair of capability lists", "why_tests_cant": "All pairs of unbounded lists.", "anchors": ["src/lib.rs: BgpSessionParams::match_caps", "src/lib.rs: BgpSessionParams::match_addpath_caps", "src/lib.rs: BgpCapAddPath::response"]}
{"id": "C47", "title": "Capability matching is an intersection", "statement": "match_caps keeps, in order, exactly the own capabilities the peer also advertised (AS4 matched by kind, AddPath by family) and turns on 32-bit AS numbers exactly when both sides advertised AS4; it is idempotent on the non-AddPath part.", "quantifier": "every pair of capability lists", "why_tests_cant": "All pairs of unbounded lists.", "anchors": ["src/lib.rs: BgpSessionParams::match_caps", "src/lib.rs: BgpSessionParams::check_caps"]}
{"id": "C48", "title": "Capability removal", "statement": "After remove_capability(c), check_capability(c) is false and every capability of a different kind is kept in order; removal is idempotent.", "quantifier": "every capability list and every capability", "why_tests_cant": "Unbounded lists with duplicates and several AddPath entries.", "anchors": ["src/lib.rs: BgpSessionParams::remove_capability", "src/lib.rs: BgpSessionParams::check_capability", "src/lib.rs: BgpSessionParams::remove_capability_addpath"]}
{"id": "C49", "title": "EVPN route round trip", "statement": "EVPN routes of types 1 to 5 encode with their type and exact length and decode to the same route.", "quantifier": "every EVPN route", "why_tests_cant": "Products of ESI, tags, MACs, labels, addresses.", "anchors": ["src/afi/evpn.rs: BgpEVPN", "src/afi/evpn.rs: BgpEVPN1..BgpEVPN5"]}
{"id": "C50", "title": "MVPN route round trip", "statement": "MVPN routes of types 1 to 7 encode with their type and exact length and decode to the same route.", "quantifier": "every MVPN route and transport mode", "why_tests_cant": "Products of unbounded parts; existing tests cover no MVPN encoding.", "anchors": ["src/afi/mvpn.rs: BgpMVPN"]}
{"id": "C51", "title": "VPLS NLRI round trip", "statement": "A list of VPLS NLRI encodes with 2-byte lengths and decodes to the same list.", "quantifier": "every list of VPLS NLRI", "why_tests_cant": "Unbounded lists.", "anchors": ["src/afi/vpls.rs: BgpAddrL2", "src/afi/mod.rs: encode_long_bgpitems_to", "src/afi/mod.rs: decode_long_bgpitems_from"]}
{"id": "C52", "title": "MDT NLRI round trip", "statement": "MDT NLRI (RD, prefix, group) encode and decode to themselves.", "quantifier": "every list of MDT NLRI of both families", "why_tests_cant": "Unbounded lists.", "anchors": ["src/afi/mdt.rs: BgpMdtV4", "src/afi/mdt.rs: BgpMdtV6"]}
{"id": "C53", "title": "FlowSpec NLRI round trip", "statement": "FlowSpec NLRI encode with a correct length and decode to the same list of components.", "quantifier": "every FlowSpec rule", "why_tests_cant": "Unbounded component and operator lists.", "anchors": ["src/afi/flowspec.rs: BgpFlowSpec", "src/afi/flowspec.rs: FSItem", "src/afi/flowspec.rs: FSOperValItem"]}
{"id": "C54", "title": "FlowSpec operator round trip", "statement": "A flowspec operator/value pair encodes to one operator octet plus a minimal 1/2/4-byte value and decodes to the same operator and value; the end-of-list bit is on the last operator only.", "quantifier": "every operator flags combination and 32-bit value, every operator list", "why_tests_cant": "2^36 pairs, unbounded lists.", "anchors": ["src/afi/flowspec.rs: FSOperValItem", "src/afi/flowspec.rs: FSOperVec"]}
{"id": "C55", "title": "MAC address conversions", "statement": "MAC addresses convert to and from 48-bit integers and network bytes without loss, and two MACs compare as their network-order integers.", "quantifier": "every MAC address and every 48-bit value", "why_tests_cant": "2^48 values.", "anchors": ["src/afi/mac.rs: MacAddress"]}
{"id": "C56", "title": "BMP header and per-peer header round trip", "statement": "The BMP common header and the per-peer header encode and decode to themselves, and no byte beyond the header is changed.", "quantifier": "every header value, every buffer", "why_tests_cant": "Unbounded buffers; IPv6 addresses that look like IPv4 on the wire.", "anchors": ["src/bmp/mod.rs: BmpMessageHeader", "src/bmp/bmputl.rs: BmpMessagePeerHeader", "src/bmp/bmputl.rs: decode_bmp_addr_from/encode_bmp_addr_to"]}
{"id": "C57", "title": "BMP initiation and termination round trip", "statement": "Initiation and termination messages encode and decode to themselves.", "quantifier": "every message (any strings below 65536 bytes)", "why_tests_cant": "All strings and all option combinations.", "anchors": ["src/bmp/msginit.rs: BmpMessageInitiation", "src/bmp/msgterm.rs: BmpMessageTermination"]}
{"id": "C58", "title": "BMP peer up, peer down and route monitoring round trip", "statement": "Peer-up, peer-down and route-monitoring messages encode and decode to themselves.", "quantifier": "every message whose embedded BGP messages round trip", "why_tests_cant": "Products of unbounded messages.", "anchors": ["src/bmp/msgpeer.rs: BmpMessagePeerUp", "src/bmp/msgpeer.rs: BmpMessagePeerDown", "src/bmp/msgrmon.rs: BmpMessageRouteMonitoring"]}
{"id": "C59", "title": "BMP decoding never crashes", "statement": "Decoding any BMP message from any bytes returns Ok or Err and never panics.", "quantifier": "every byte string", "why_tests_cant": "Totality over all byte strings.", "anchors": ["src/bmp/mod.rs: BmpMessage::decode_from", "src/bmp/mod.rs: BMPSession::decode_from"]}
{"id": "C60", "title": "BMP session table follows the message history", "statement": "After any history of BMP messages the session table holds, for each (RD, peer address), the last successfully decoded peer-up that was not followed by a peer-down for that key, and nothing else; failed, statistics, mirroring and monitoring messages leave it unchanged.", "quantifier": "every finite sequence of byte strings fed to BMPSession::decode_from", "why_tests_cant": "Quantifies over all message histories.", "anchors": ["src/bmp/mod.rs: BMPSession::decode_from", "src/bmp/mod.rs: BgpSessionKey"]}
{"id": "C61", "title": "Route monitoring uses the monitored session's parameters", "statement": "A route-monitoring message is decoded with the AS width that the peer announced in its OPEN message in the last peer-up for the same (RD, address), and with path ids exactly for the families for which that OPEN announces to send them; with the parameters derived from the per-peer header when there is no such peer-up.", "quantifier": "every message history and route-monitoring message", "why_tests_cant": "Depends on unbounded history.", "anchors": ["src/bmp/mod.rs: BMPSession::decode_rm", "src/lib.rs: From<&BgpOpenMessage> for BgpSessionParams"]}
{"id": "C62", "title": "Encoders stay inside the bytes they report", "statement": "Every encoder changes only the first n bytes of the caller's buffer, where n is the count it returns, and never changes the buffer size.", "quantifier": "every encodable value and every buffer", "why_tests_cant": "All buffer contents beyond the written region.", "anchors": ["src/util.rs: encode_addr*_to", "src/afi/mod.rs: encode_*", "src/message/**: encode_to", "src/bmp/**: encode_to"]}
{"id": "C63", "title": "Short buffers give errors, not crashes, when encoding", "statement": "Encoding into a buffer that is too small returns an error and never panics.", "quantifier": "every value and every buffer that is too small", "why_tests_cant": "Every truncation point of every encoding.", "anchors": ["src/util.rs: slice_mut", "src/message/**: encode_to", "src/afi/mod.rs: encode_bgpitems_to"]}
{"id": "C64", "title": "Decoders report what they consumed", "statement": "A decoder that succeeds reports a consumed length no larger than its input, and its result does not depend on bytes after that length.", "quantifier": "every byte string", "why_tests_cant": "Pairs of byte strings.", "anchors": ["src/afi/mod.rs: BgpItem/BgpAddrItem implementations", "src/lib.rs: BgpCapability::from_buffer", "src/bmp/**: decode_from"]}
{"id": "C65", "title": "Network byte order primitives", "statement": "The 16/32/64/128-bit getters and setters are mutually inverse big-endian conversions, and address readers/writers agree with them; out-of-range slices are reported as errors by slice/slice_mut.", "quantifier": "every value and buffer", "why_tests_cant": "2^16..2^128 values.", "anchors": ["src/util.rs: getn_u16/setn_u16/getn_u32/setn_u32/getn_u64/setn_u64/getn_u128", "src/util.rs: slice/slice_mut", "src/util.rs: decode_addr_from/encode_addr_to"]}
{"id": "C66", "title": "Route distinguisher text round trip", "statement": "Parsing the displayed text of a route distinguisher returns the same route distinguisher.", "quantifier": "every RD", "why_tests_cant": "2^64 values, two display formats.", "anchors": ["src/afi/mod.rs: BgpRD Display/FromStr"]}
{"id": "C67", "title": "Encoding does not depend on spare room", "statement": "What an encoder does in a buffer it does in every longer buffer: it writes the same bytes, returns the same count and leaves the additional bytes alone.", "quantifier": "every value, every buffer on which encoding succeeds, every extension of the buffer", "why_tests_cant": "All pairs of buffer sizes and all contents of the spare room.", "anchors": ["src/util.rs: encode_addr*_to", "src/afi/mod.rs: encode_*", "src/message/**: encode_to", "src/bmp/**: encode_to"]}
{"id": "C68", "title": "Prefix text round trip", "statement": "Parsing the displayed text of an IPv4, IPv6, MAC, mixed-family or MDT prefix returns the same value, and different values have different texts.", "quantifier": "every address and every prefix length octet", "why_tests_cant": "2^136 IPv6 prefixes; zero-run compression and IPv4-mapped texts.", "anchors": ["src/afi/ipv4.rs: BgpAddrV4 Display/FromStr", "src/afi/ipv6.rs: BgpAddrV6 Display/FromStr", "src/afi/mac.rs: MacAddress/BgpAddrMac Display/FromStr", "src/afi/mod.rs: BgpNet Display/FromStr", "src/afi/mdt.rs: BgpMdtV4/BgpMdtV6 Display/FromStr"]}
{"id": "C69", "title": "Prefix texts with a bad length are refused", "statement": "A prefix text whose part behind the slash is not a decimal number between 0 and the address width is refused with an error.", "quantifier": "every text", "why_tests_cant": "All texts.", "anchors": ["src/afi/ipv4.rs: BgpAddrV4 FromStr", "src/afi/ipv6.rs: BgpAddrV6 FromStr", "src/afi/mac.rs: BgpAddrMac FromStr"]}
{"id": "C70", "title": "Community list texts", "statement": "A text of communities separated by commas, blanks or tabs parses to the set of exactly these communities; parts that are no community are skipped.", "quantifier": "every text, any number of parts and any separators", "why_tests_cant": "Unbounded texts.", "anchors": ["src/message/attributes/community.rs: BgpCommunityList FromStr"]}
{"id": "C71", "title": "MAC texts that are no MAC address are refused", "statement": "A text that is not six hexadecimal octets is refused with an error.", "quantifier": "every text", "why_tests_cant": "All texts.", "anchors": ["src/afi/mac.rs: MacAddress FromStr"]}
{"id": "C72", "title": "Attribute values are read as the RFCs define them", "statement": "Decoding the value of a path attribute succeeds exactly for the values the RFCs allow for its type code, and returns the fields found at their places: ORIGIN, NEXT_HOP, MULTI_EXIT_DISC, LOCAL_PREF, ATOMIC_AGGREGATE, AGGREGATOR in both AS widths, ORIGINATOR_ID, CLUSTER_LIST, MP_REACH_NLRI with SNPAs, CONNECTOR, PMSI tunnel, ATTR_SET.", "quantifier": "every session, flags octet, value and result", "why_tests_cant": "All byte strings; nested sets of any depth.", "anchors": ["src/message/attributes/mod.rs: BgpAttrItem::decode_from", "src/message/attributes/aggregatoras.rs: decode_from", "src/message/attributes/pmsitunnelattr.rs: decode_from", "src/message/attributes/attrset.rs: decode_from", "src/message/attributes/multiproto.rs: BgpMPUpdates::decode_from"]}
{"id": "C73", "title": "NLRI of MP_REACH_NLRI start behind the next hop field", "statement": "The next hop field of MP_REACH_NLRI has the number of bytes its length byte says, whatever it holds behind the first address; the NLRI are those behind it.", "quantifier": "every family, next hop, further bytes of the next hop field, SNPAs and NLRI", "why_tests_cant": "All lengths of the field and all contents.", "anchors": ["src/message/attributes/multiproto.rs: BgpMPUpdates::decode_from"]}
{"id": "C74", "title": "EVPN texts identify the route", "statement": "Two different EVPN routes, of the same or of different types, are never displayed as the same text.", "quantifier": "every pair of EVPN routes with any segment identifiers, tags, addresses and label stacks", "why_tests_cant": "All pairs of routes; label stacks of any length.", "anchors": ["src/afi/evpn.rs: Display"]}
{"id": "C75", "title": "Multicast VPN texts identify the route", "statement": "Two different multicast VPN routes, of the same or of different types, are never displayed as the same text.", "quantifier": "every pair of multicast VPN routes", "why_tests_cant": "All pairs of addresses, IPv4 and IPv6.", "anchors": ["src/afi/mvpn.rs: Display"]}
{"id": "C76", "title": "Texts of prefixes, VPN next hops, VPLS routes and FlowSpec operators identify them", "statement": "Two different values of one of these types are never displayed as the same text, also with labels, route distinguisher and path identifier in front; VPLS routes that differ only in labels are.", "quantifier": "every pair of values, any label stack, route distinguisher and path identifier", "why_tests_cant": "All pairs; stacks of any length.", "anchors": ["src/afi/mod.rs: Labeled/WithRd/WithPathId/BgpRD/MplsLabels Display", "src/afi/ipv4.rs: BgpIPv4RD Display", "src/afi/ipv6.rs: BgpIPv6RD Display", "src/afi/vpls.rs: Display", "src/afi/flowspec.rs: Display"]}
{"id": "C77", "title": "AS numbers are displayed in decimal", "statement": "The text of an AS number is its decimal value.", "quantifier": "every 32-bit AS number", "why_tests_cant": "2^32 numbers.", "anchors": ["src/message/attributes/aspath.rs: BgpAS Display"]}
{"id": "C78", "title": "Notification texts", "statement": "The text of a notification names its error code and subcode as RFC 4271 does and gives the numbers where there is no name; notifications with different codes or subcodes have different texts.", "quantifier": "every code and subcode, and every pair", "why_tests_cant": "All pairs of codes and subcodes.", "anchors": ["src/message/notification.rs: error_text"]}
{"id": "C79", "title": "Extended and large community texts", "statement": "Two different extended communities, or large communities, are never displayed as the same text; route targets and large communities are displayed as their numbers in decimal.", "quantifier": "every pair of communities", "why_tests_cant": "2^128 pairs.", "anchors": ["src/message/attributes/extcommunity.rs: Display", "src/message/attributes/community.rs: BgpLargeCommunity Display"]}
{"id": "C80", "title": "NLRI of every family are read exactly as specified", "statement": "For any octets in the place of NLRI of any family, in any session: which octets are accepted, what they are read as and how many are taken, which bring the program down, and that all others are refused with an error, is given exactly by a specification that does not refer to the decoders; no octets are read in two ways.", "quantifier": "every octet string, every address family, every session, lists of any length", "why_tests_cant": "All octet strings, of any length.", "anchors": ["src/afi/mod.rs: BgpAddrs::decode_from and the item decoders", "src/afi/ipv4.rs", "src/afi/ipv6.rs", "src/afi/vpls.rs", "src/afi/evpn.rs", "src/afi/mvpn.rs", "src/afi/flowspec.rs", "src/afi/mdt.rs: decode_from"]}
{"id": "C81", "title": "Attribute values and UPDATE messages are read exactly as specified", "statement": "For any octets as the value of an attribute of any type code, and for any octets as the body of an UPDATE, in any session: which are accepted and what they are read as, which bring the program down, and that all others are refused with an error, is given exactly by a specification that does not refer to the decoders; no octets are read in two ways.", "quantifier": "every octet string, type code, flags and session; attribute sets nested to any depth", "why_tests_cant": "All octet strings, of any length, and sets nested in sets.", "anchors": ["src/message/attributes/*.rs: decode_from", "src/message/attributes/mod.rs: BgpAttrItem::decode_from", "src/message/update/mod.rs: BgpUpdateMessage::decode_from"]}
{"id": "C82", "title": "OPEN, NOTIFICATION and BMP messages are read exactly as specified", "statement": "For any octets as the body of an OPEN or NOTIFICATION, and for any octets as a BMP message, without a session or in a session that has seen any history of messages: which are accepted and what they are read as, which bring the program down, and that all others are refused with an error, is given exactly by a specification that does not refer to the decoders.", "quantifier": "every octet string and every history of BMP messages", "why_tests_cant": "All octet strings, of any length, and all histories.", "anchors": ["src/message/open/mod.rs: decode_from", "src/message/notification.rs: decode_from", "src/bmp/*.rs: decode_from", "src/bmp/mod.rs: BMPSession, BmpMessage"]}
{"id": "C83", "title": "Route distinguisher texts are those of RFC 4364", "statement": "A route distinguisher received from a peer is displayed as administrator and number with a colon between them, the administrator being a two-octet AS number, an IPv4 address or a four-octet AS number after the type; parsing such a text gives the route distinguisher with these octets.", "quantifier": "every route distinguisher of the types 0, 1 and 2, every text of these forms", "why_tests_cant": "2^48 values of each type.", "anchors": ["src/afi/mod.rs: BgpRD Display, FromStr, decode_rd_from, encode_rd_to"]}
{"id": "C84", "title": "Tests for multicast, zero and empty, and fresh messages", "statement": "The multicast test of a prefix is true exactly for multicast addresses; a route distinguisher or segment identifier is zero exactly if all its octets are; a collection of routes is empty exactly if it has no routes; fresh OPEN, UPDATE and NOTIFICATION messages encode to their documented defaults and nothing else.", "quantifier": "every prefix, route distinguisher, segment identifier, collection of routes, buffer and session", "why_tests_cant": "All addresses; collections of any length and family.", "anchors": ["src/afi/ipv4.rs: is_multicast", "src/afi/ipv6.rs: is_multicast", "src/afi/mod.rs: BgpRD::is_zero, BgpAddrs::is_empty, BgpAddrs::len", "src/afi/evpn.rs: EVPNESI::is_zero", "src/message/open.rs: BgpOpenMessage::new"]}
{"id": "C85", "title": "Serialised attributes and routes are read back", "statement": "A path attribute, an NLRI collection, a next hop or a prefix that is serialised with serde to a self-describing text format is deserialised to an equal value.", "quantifier": "every attribute (sets nested to any depth), every collection of every family, every next hop and prefix", "why_tests_cant": "All values, collections of any length, sets nested in sets.", "anchors": ["src/message/attributes/mod.rs: BgpAttrItem Serialize, Deserialize", "src/afi/mod.rs: BgpAddrs, BgpAddr, BgpNet, WithRd, Labeled, WithPathId Serialize, Deserialize", "src/afi/flowspec.rs: BgpFlowSpec Serialize, Deserialize"]}
{"id": "C86", "title": "Exactly which documents the hand-written deserialisers accept", "statement": "A wrapped prefix (route distinguisher, labels, path identifier) is deserialised exactly from a document with its two fields, each once, in any order and no other, or from the two values in sequence; a field that is missing is reported by its name. A prefix of any kind is deserialised exactly from the texts that parse.", "quantifier": "every document", "why_tests_cant": "All documents.", "anchors": ["src/afi/mod.rs: ser module, BgpNet Deserialize"]}
{"id": "C87", "title": "What serialised values look like, and that they are told apart", "statement": "An attribute is serialised as one entry under the name of its kind, addresses as their texts, numbers as numbers, wrapped prefixes with their two fields; two different attributes, FlowSpec rules included, are never serialised to the same document.", "quantifier": "every attribute and every pair of attributes", "why_tests_cant": "All pairs of values, of any size.", "anchors": ["src/message/attributes/mod.rs: BgpAttrItem Serialize", "src/afi/mod.rs: Serialize", "src/afi/flowspec.rs: Serialize"]}
{"id": "C88", "title": "Routes of every family are lawful keys", "statement": "Prefixes, routes of every family, route collections, capabilities and OPEN messages can be sorted and kept in ordered and hashed maps and sets: the comparison is a total order, it says Equal of exactly the values that are ==, those hash alike, partial_cmp says the same as cmp, and two values are the same key only if they differ in nothing but MPLS label stacks.", "quantifier": "every pair and triple of values of every route type, lists of any length", "why_tests_cant": "All pairs and triples of values.", "anchors": ["src/afi/*.rs: derived PartialEq, Eq, PartialOrd, Ord, Hash", "src/afi/mod.rs: MplsLabels, Labeled, WithRd, WithPathId comparisons", "src/afi/evpn.rs", "src/afi/mvpn.rs", "src/afi/vpls.rs", "src/afi/flowspec.rs"]}
{"id": "C89", "title": "Path attributes are lawful keys", "statement": "Path attributes, attribute sets nested to any depth included, are totally ordered, and ==, the order and hashing agree with each other, so that attributes can be interned, sorted and deduplicated.", "quantifier": "every pair and triple of attributes, sets nested to any depth", "why_tests_cant": "All triples of values, sets nested in sets.", "anchors": ["src/message/attributes/mod.rs: BgpAttrItem derived comparisons", "src/message/attributes/attrset.rs: BgpAttrSet", "src/message/attributes/aspath.rs: BgpAS PartialEq, Ord, Hash", "src/message/attributes/pmsitunnelattr.rs: BgpPMSITunnel"]}
{"id": "C90", "title": "Sorted tables group routes", "statement": "Sorting puts routes in the order of their types and attributes in the order of their kinds; in a sorted table of prefixes every prefix is directly followed by the prefixes it contains, with nothing else between them.", "quantifier": "every three prefixes in network form of a kind, every pair of routes or attributes", "why_tests_cant": "All triples of prefixes.", "anchors": ["src/afi/ipv4.rs: BgpAddrV4 Ord, contains", "src/afi/ipv6.rs: BgpAddrV6 Ord, contains", "src/afi/mac.rs: MacAddress, BgpAddrMac Ord, contains", "src/afi/evpn.rs: BgpEVPN Ord", "src/message/attributes/mod.rs: BgpAttrItem Ord"]}
{"id": "C91", "title": "Exactly which texts are accepted, and for which values", "statement": "A text is parsed to a prefix, network, MAC address, route distinguisher, MDT prefix or community if and only if it is one of the texts of this value: dotted IPv4 addresses, IPv6 addresses as RFC 4291 writes them (any case, leading zeroes, :: once, an IPv4 address at the end), lengths, numbers, names of well-known communities; a prefix without length is a host; no text stands for two values.", "quantifier": "every text and every value", "why_tests_cant": "All texts, of any length.", "anchors": ["src/afi/ipv4.rs: BgpAddrV4 FromStr", "src/afi/ipv6.rs: BgpAddrV6 FromStr", "src/afi/mac.rs: FromStr", "src/afi/mod.rs: BgpNet, BgpRD FromStr", "src/afi/mdt.rs: FromStr", "src/message/attributes/community.rs: BgpCommunity, BgpCommunityList FromStr"]}
{"id": "C92", "title": "What was received can be sent on unchanged", "statement": "NLRI and UPDATE messages that were read from the wire can be written again in the same session, and what is written is read as the same NLRI and the same message: a route server or reflector passes on what it got.", "quantifier": "every octet string that is accepted as NLRI of any family or as the body of an UPDATE, every session, every buffer with room", "why_tests_cant": "All octet strings, of any length, in every session; the exact set of exceptions.", "anchors": ["src/afi/mod.rs: BgpAddrs::decode_from, BgpAddrs::encode_to", "src/message/update/mod.rs: decode_from, encode_to", "src/message/attributes/*.rs"]}
{"id": "C93", "title": "Exactly which NLRI and which UPDATE messages come back unchanged", "statement": "An NLRI collection, an UPDATE message, is written in a session as octets that the same session reads as the same collection, the same message, exactly if it fulfils the documented conditions: the family and form of the session, well-formed routes without set bits behind the prefixes, attributes with a faithful encoder, and lengths that fit the length fields. For all others no buffer gives that.", "quantifier": "every collection of every family, every message, every session, every buffer", "why_tests_cant": "All values and buffers; that nothing else comes back is a statement about all other values.", "anchors": ["src/afi/mod.rs: BgpAddrs::decode_from, BgpAddrs::encode_to", "src/message/update/mod.rs: decode_from, encode_to", "src/message/attributes/*.rs"]}
{"id": "C94", "title": "Two speakers that exchanged OPENs understand each other", "statement": "Two sides that read each other's OPEN and match capabilities agree on the width of AS numbers and on the families with path identifiers, in both directions, and every UPDATE one of them can send in its session is read by the other one as the same message.", "quantifier": "every two sessions on the same transport with encodable capabilities, every UPDATE message that can be sent, every buffer with room", "why_tests_cant": "All pairs of capability lists and all messages; the two ends are different session objects.", "anchors": ["src/lib.rs: BgpSessionParams::open_message, match_caps, match_addpath_caps, check_addpath_send, check_addpath_receive, check_caps", "src/message/open.rs", "src/message/update/mod.rs"]}
{"id": "C95", "title": "The example program prints what the peer sends", "statement": "The example program opens the session with its parameters, takes over what the peer answers, and then prints the UPDATE messages of the peer, all and in order, complains about those that cannot be read, ignores KEEPALIVEs, stops at a NOTIFICATION, and ends regularly when the connection is closed, whatever octets the peer sends.", "quantifier": "every session parameters, every stream of octets from the peer", "why_tests_cant": "All octet streams, of any length, with any sequence of messages.", "anchors": ["examples/bgpdumper.rs: BgpDumper::start_active, send_keepalive, lifecycle, main", "src/lib.rs: decode_message_head, recv_message_head, prepare_message_buf"]}
{"id": "C96", "title": "What is decoded holds no more than the octets it was decoded from", "statement": "Routes, labels, FlowSpec operators, AS numbers, communities, attributes at any depth of nesting, capabilities, texts and uninterpreted octets in a decoded NLRI field, attribute, UPDATE, OPEN or BMP message are together no more than the octets it was decoded from; attribute sets are nested at most once in seven octets; the table of a BMP session holds no more than the octets it was shown. No length field, count or nesting on the wire makes the library hold more than it was sent.", "quantifier": "every octet string, every session, every family, every history of BMP messages, every sequence of messages read into one object", "why_tests_cant": "All inputs, with any lengths and counts in them and any depth of nesting.", "anchors": ["src/afi/mod.rs: BgpAddrs::decode_from", "src/message/attributes/mod.rs: BgpAttrItem::decode_from", "src/message/attributes/attrset.rs", "src/message/update/mod.rs: decode_from", "src/message/open.rs: decode_from", "src/bmp/mod.rs: BMPSession::decode_from"]}
{"id": "C97", "title": "What Debug prints tells values apart", "statement": "Two lists of routes, attributes, UPDATE, OPEN, NOTIFICATION or BMP messages or session parameters for which {:?} prints the same text are equal; the text is one line, whatever strings the peer sent in capabilities and information TLVs; from the standard output of the example program one can tell exactly which NOTIFICATION and UPDATE messages it received, in order.", "quantifier": "every pair of values of these types, every pair of runs of the example program; any tables of printable and combining characters", "why_tests_cant": "All pairs of values, lists of any length, attribute sets nested to any depth, strings with any characters.", "anchors": ["src/afi/*.rs: Debug", "src/message/attributes/*.rs: Debug", "src/message/update/mod.rs: BgpUpdateMessage Debug", "src/message/open.rs: BgpOpenMessage Debug", "src/message/notification.rs: BgpNotificationMessage Debug, error_text", "src/lib.rs: BgpCapability, BgpSessionParams Debug", "src/bmp/*.rs: Debug", "examples/bgpdumper.rs: println!"]}
{"id": "C98", "title": "What Display prints tells attributes and next hops apart", "statement": "Two path attributes of any kinds, two lists of routes or two next hops for which {} prints the same text are equal; every attribute other than ATOMIC_AGGREGATE is printed with the name of its kind.", "quantifier": "every pair of attributes of any kinds, attribute sets nested to any depth included; every pair of route lists of any families; every pair of next hops", "why_tests_cant": "All pairs of values; a text may be ambiguous only between values nobody thought of comparing.", "anchors": ["src/message/attributes/*.rs: Display", "src/afi/mod.rs: BgpAddrs Display, BgpAddr Display"]}
{"id": "C99", "title": "What the buffer held before does not show in what is encoded", "statement": "The octets an encoder reports, or the way it fails, depend on the value, the session and the size of the buffer, and not on what an earlier message left in the buffer; so the octets sent for a message never contain pieces of an earlier one.", "quantifier": "every value of every encodable type, well-formed or not, every session, every two buffers of the same size", "why_tests_cant": "All pairs of buffers; a test usually encodes into a fresh buffer of zeros, where octets that are reported but never written look like zeros.", "anchors": ["src/afi/*.rs: encode_to", "src/message/attributes/*.rs: encode_to", "src/message/update/mod.rs: encode_to", "src/message/open.rs: encode_to", "src/lib.rs: BgpCapability::fill_buffer, send_message_buf, prepare_message_buf", "src/bmp/*.rs: encode_to"]}
{"id": "C100", "title": "What is read of a message that was cut off is part of the message", "statement": "If octets are accepted as the routes of a family, as an UPDATE or as an OPEN message, and are also accepted with more octets behind them, then what was read first is the beginning of what is read then: the same withdrawn routes, attributes, AS number, hold time and router id, and the announced routes or capabilities read first come first and unchanged. A message that was cut off never yields routes or capabilities that are not in the whole message.", "quantifier": "every octet string and every continuation of it, every family, every session", "why_tests_cant": "All messages and all places at which they may be cut off.", "anchors": ["src/afi/mod.rs: BgpAddrs::decode_from", "src/message/update/mod.rs: decode_from", "src/message/open.rs: decode_from", "src/message/notification.rs: decode_from"]}
{"id": "C101", "title": "The error that asks for a larger buffer goes away with a larger buffer", "statement": "For every value there is a size of buffer from which on encoding always has the same outcome, and that outcome is not the error that the buffer is too small: it is success with one number of octets, or an error of another kind, or a panic. A program that enlarges its buffer on that error and tries again stops.", "quantifier": "every value of every encodable type, well-formed or not, every session, every buffer of any size and contents", "why_tests_cant": "All sizes of buffers; a retry loop that never ends is not seen with a few sizes.", "anchors": ["src/afi/*.rs: encode_to", "src/afi/flowspec.rs: BgpFlowSpec::encode_to", "src/message/attributes/*.rs: encode_to", "src/message/update/mod.rs: encode_to", "src/message/open.rs: encode_to", "src/lib.rs: BgpCapability::fill_buffer, prepare_message_buf", "src/bmp/*.rs: encode_to"]}
{"id": "C102", "title": "A build without overflow checks does what one with them does, except where that one crashes", "statement": "Whatever reading or writing messages, attributes, routes and headers, or asking a prefix about its addresses, returns in a build with overflow checks, value or error, it returns in a build without them too; the builds differ only on inputs that make the checked one panic. The decoders end in both.", "quantifier": "every function with arithmetic that can overflow, every input, every session, every buffer", "why_tests_cant": "All inputs; tests run with overflow checks on, users run release builds, and the two are never compared on the inputs that matter.", "anchors": ["src/lib.rs: decode_message_head, prepare_message_buf, send_message_buf", "src/afi/*.rs: extract_bits_from, set_bits_to, decode_from, encode_to, in_subnet, range_first, range_last, contains", "src/message/**/*.rs: decode_from, encode_to"]}
{"id": "C103", "title": "What is read and written without overflow checks where a checked build crashes", "statement": "Without overflow checks, the bits of labels and route distinguishers are taken off a prefix length modulo 256, a message length below 19 is read as a body of up to 65535 octets, and a message of more than 65535 octets is announced and sent with its length modulo 65536. Exactly those routes are read that this arithmetic gives, plain IPv4 and IPv6 routes never crash, and a route that is read only because of it takes more octets than its length announces.", "quantifier": "every octet string, the NLRI of every family in every session, every UPDATE and BMP message, every history of BMP messages, every label stack, every length of a message", "why_tests_cant": "All length octets with all label stacks; what wraps around depends on both.", "anchors": ["src/afi/mod.rs: decode_bgpitems_from, encode_bgpitems_to, Labeled, WithRd", "src/afi/ipv4.rs, src/afi/ipv6.rs: extract_bits_from, set_bits_to", "src/lib.rs: decode_message_head, prepare_message_buf, send_message_buf"]}
{"id": "C104", "title": "Asking a prefix about its addresses never crashes a build without overflow checks, and the answers are right", "statement": "Without overflow checks, the first and last address of a prefix, the test whether an address is in it and the test whether a prefix contains another return for every prefix length, and for lengths within the width of the address the answers are those of the set of addresses that the prefix covers.", "quantifier": "every IPv4, IPv6 and MAC prefix with every prefix length, every address", "why_tests_cant": "All addresses and all 256 prefix lengths; the shift amounts wrap around at the width of the word.", "anchors": ["src/afi/ipv4.rs, src/afi/ipv6.rs, src/afi/mac.rs: in_subnet, range_first, range_last, contains, norm_subnet, host_mask"]}
{"id": "C105", "title": "Different keys feed different data to a hasher", "statement": "Two routes, route lists, capabilities, OPEN messages or path attributes feed the same data to a hasher exactly if cmp says they are equal, that is if they are the same value up to label stacks; this also holds inside longer keys, whatever data goes before and after, so a compound key is not confused with another one whose parts are split differently.", "quantifier": "All pairs of values of every hashable kind of the crate, nested attribute sets of any depth, and any data fed before and after.", "why_tests_cant": "Collisions by construction (fields hashed without a length or a variant mark) show only for special pairs of values; tests compare a few.", "anchors": ["src/afi/*.rs: derived Hash", "src/afi/mod.rs: Labeled Hash, WithPathId Hash, MplsLabels Hash", "src/message/attributes/*.rs: derived Hash", "src/message/attributes/aspath.rs: BgpAS Hash", "src/lib.rs: BgpCapability"]}
{"id": "C106", "title": "What a decode that fails leaves in the message object", "statement": "If decoding into a message object fails, with an error or a panic, its contents afterwards are determined: an UPDATE object keeps its announced prefixes, has the withdrawn prefixes of the message if these were read, and has the attributes of the message up to the first one that is not read appended to those it had; an OPEN object is unchanged if the message is too short or of another version and otherwise has nothing of its old contents left; a NOTIFICATION object is unchanged. So an OPEN or NOTIFICATION object may be used again after a failure; an UPDATE object that is used again carries attributes of the failed message.", "quantifier": "every object contents before the call, every octets, every session, every outcome", "why_tests_cant": "All places at which decoding can stop; tests look at objects after successful calls.", "anchors": ["src/message/update/mod.rs: BgpUpdateMessage::decode_from", "src/message/open.rs: BgpOpenMessage::decode_from", "src/message/notification.rs: BgpNotificationMessage::decode_from"]}
{"id": "C107", "title": "A value built with a constructor is sent as the arguments of the constructor", "statement": "An attribute, AS path, community list, prefix, VPN route, MDT or VPLS route built with the constructors of the crate is put on the wire as flags, type code, length and the arguments in their order; a list built from a vector holds every member of the vector once, in ascending order; a list made with new() is empty; a route made labeled without labels is sent like the unlabeled route; the default values are what they are documented as.", "quantifier": "every argument of every constructor, in every session that carries the attribute; AS paths of 1 to 255 numbers with 32-bit AS numbers; every vector of communities that fits an attribute", "why_tests_cant": "All arguments; a swapped or dropped argument shows only if both differ, and vectors may hold members in any order and number.", "anchors": ["src/afi/mod.rs: BgpRD::new, MplsLabels::fromvec, Labeled::new, Labeled::new_nl, WithRd::new, WithPathId::new, BgpAddrs::new", "src/afi/mdt.rs: BgpMdtV4::new, BgpMdtV6::new, Default", "src/afi/vpls.rs: BgpL2::new", "src/message/attributes/*.rs: new, from, from_vec"]}
{"id": "C108", "title": "What the kind of an error says, and what it prints", "statement": "An OPEN refused with another error than InsufficientBufferSize is refused with the same error whatever octets follow; an OPEN of less than ten octets and a BMP header of less than five are refused with InsufficientBufferSize, another version with Static. A message header is only ever refused with Static, a NOTIFICATION exactly if it has less than two octets, with Static. An UPDATE that ends before its attributes is refused with InsufficientBufferSize, one that ends within them with ProtocolError. Errors print as BgpError and their text, so that they print alike exactly if the texts are the same.", "quantifier": "every octet string, every object and session, every continuation, every error text", "why_tests_cant": "All continuations of all refused inputs.", "anchors": ["src/error.rs: BgpError, Display", "src/message/open.rs: BgpOpenMessage::decode_from", "src/message/notification.rs: BgpNotificationMessage::decode_from", "src/message/update/mod.rs: BgpUpdateMessage::decode_from", "src/lib.rs: decode_message_head", "src/bmp/mod.rs: BmpMessageHeader::decode_from"]}
{"id": "C109", "title": "A monitoring station reads the messages a monitored router sent, from end to end", "statement": "A router encodes BMP messages one after the other, each behind a common header with its length, and a station reads the stream with one session object: it gets exactly the messages sent, in order, whatever peers come up and go down in between. A message that is not accepted does not change where the next one begins.", "quantifier": "every list of messages that can be sent, every sequence of peer-ups, peer-downs and routes of any peers, every OPEN in a peer-up; every stream of framed messages for the second part", "why_tests_cant": "Histories of any length: how a route is read depends on all the peer-ups and peer-downs before it.", "anchors": ["src/bmp/mod.rs: BMPSession::decode_from, BmpMessage::encode_to, BmpMessageHeader", "src/bmp/msgrmon.rs: BmpMessageRouteMonitoring", "src/bmp/msgpeer.rs: BmpMessagePeerUp, BmpMessagePeerDown", "src/bmp/bmputl.rs: From<&BmpMessagePeerHeader> for BgpSessionParams", "src/lib.rs: From<&BgpOpenMessage> for BgpSessionParams"]}
{"id": "C110", "title": "Two programs that use the library understand each other, and a broken connection never yields part of a message", "statement": "Two programs open a session with the library (each sends its OPEN, reads the other's and settles the session with it) and then send KEEPALIVE, UPDATE and NOTIFICATION messages from a buffer that is used again and again: the other end reads exactly the messages that were said, in order. If the connection breaks after any octet, it has read exactly the messages that had come in full, sees a clean end exactly if it broke between two messages, and an error otherwise.", "quantifier": "every two sessions, every history of messages the session allows, every buffer contents, every octet at which the connection breaks", "why_tests_cant": "Histories and crash points of any number; the reading end depends on both OPENs.", "anchors": ["src/lib.rs: prepare_message_buf, recv_message_head, decode_message_head, match_caps, open_message", "src/message/open.rs, src/message/update/mod.rs, src/message/notification.rs, src/message/keepalive.rs: encode_to, decode_from"]}
{"id": "C111", "title": "A table keyed by received routes holds the routes in force", "statement": "A program keeps a BTreeMap with routes as keys; for every UPDATE it receives it removes the withdrawn routes and inserts the announced ones with the attributes. After every history the table has exactly the routes that were announced and not withdrawn since, each once, as announced last (with its labels and attributes). Routes are the same if BGP says so: path identifier, route distinguisher and the bits of the prefix count, labels and the bits behind the prefix do not; for EVPN the Ethernet segment and the gateway of MAC and prefix routes do not.", "quantifier": "every history of UPDATE messages, every kind of prefix with and without path identifiers, labels and route distinguishers, EVPN routes", "why_tests_cant": "All histories; a route that is not replaced or not withdrawn shows only after two messages that write it differently.", "anchors": ["src/afi/ipv4.rs, src/afi/ipv6.rs: from_bits, derived Ord", "src/afi/mod.rs: Labeled, WithRd, WithPathId Ord", "src/afi/evpn.rs: derived Ord", "src/message/update/mod.rs: BgpUpdateMessage::decode_from"]}
{"id": "C112", "title": "The order of capabilities does not matter, and matching again changes nothing", "statement": "match_caps with the same peer capabilities again changes nothing at all. Two peers that list the same capabilities, in any order and number, and the same AddPath entries are matched alike; two sessions that list their own capabilities in another order keep the same ones and agree on AS numbers and on path identifiers for every family.", "quantifier": "every session, every two capability lists that say the same, every permutation of the own capabilities", "why_tests_cant": "All permutations of lists of any length; the order matters only for particular combinations of entries.", "anchors": ["src/lib.rs: BgpSessionParams::match_caps, match_addpath_caps, check_caps, find_addpath, check_addpath_send, check_addpath_receive, check_capability"]}
{"id": "C113", "title": "Exactly which OPEN and BMP messages come back from the wire unchanged", "statement": "An OPEN comes back unchanged from encode_to and decode_from if and only if its AS number has two octets, all its capabilities can be put on the wire (none of them an FQDN capability, no value above 255 octets) and the buffer has room. A received OPEN can be sent on if and only if it has no FQDN capability. A BMP peer-up comes back if and only if both its OPENs can and no address is IPv6 within ::/96; a peer-down if and only if its address is not; a termination if and only if its text is UTF-8 of up to 65535 octets; an initiation if and only if moreover it has no system description and name; a route monitoring message if and only if the address is not in ::/96 and its UPDATE comes back in the session of the peer header and fits; statistics reports and route mirroring can not be sent.", "quantifier": "every OPEN and BMP message, every buffer and its contents, every object decoded into", "why_tests_cant": "Both directions range over all messages; that nothing else comes back (also not by the length wrapping around) is a claim on all values.", "anchors": ["src/message/open.rs: BgpOpenMessage::encode_to, decode_from, BgpCapability", "src/bmp/mod.rs: BmpMessage::encode_to, decode_from", "src/bmp/msginit.rs, src/bmp/msgterm.rs, src/bmp/msgpeer.rs, src/bmp/msgrmon.rs", "src/lib.rs: BgpSessionParams::prepare_message_buf"]}
{"id": "C114", "title": "The parts of an UPDATE are read independently of one another", "statement": "A path attribute is read the same whatever attributes stand before or behind it and whatever routes the message carries. The same attributes in another order are read as the same attributes in that order, and if no type occurs twice all accessors give the same answers (RFC 4271 section 5); a message that is refused is refused in every order. A message with many routes is read as messages with some of the routes each, and a table kept from the messages ends up the same.", "quantifier": "every UPDATE, every session, every permutation of the attributes, every way to split the routes over messages", "why_tests_cant": "All permutations and all splits of messages of any length; one test fixes one order.", "anchors": ["src/message/update/mod.rs: BgpUpdateMessage::decode_from, get_attr", "src/message/attributes/mod.rs: BgpAttrItem::decode_from", "src/afi/mod.rs: decode_bgpitems_from, decode_pathid_bgpitems_from"]}
{"id": "C115", "title": "Short reads, short writes, interruptions and failures of the connection", "statement": "However a reader or writer cuts the octets into pieces and however often its calls are interrupted, receiving a message header, sending a message, reading a history of messages and the example program do the same as with the octets as a whole. If a call fails, the octets sent are the first octets of the messages, once and in order, and the messages read are the first ones of those sent; the caller gets an error, never a part of a message, another message or a panic caused by the failure. Two ends of a session that agree on its parameters hear exactly what got through as a whole.", "quantifier": "every reader and writer: all schedules of short reads, short writes, interruptions, closed and failing calls in both directions; all histories of messages", "why_tests_cant": "The schedules of a connection are unbounded and not under the control of a test.", "anchors": ["src/lib.rs: BgpSessionParams::recv_message_head, send_message_buf", "src/error.rs: From<std::io::Error> for BgpError", "examples/bgpdumper.rs: start_active, lifecycle, main"]}
{"id": "C116", "title": "The outcome of encoding, for every value", "statement": "Encoding an UPDATE, a path attribute or a collection of NLRI into a buffer with enough room has one outcome, determined by the value and the session alone, for every value whether or not it can be put on the wire: certain octets, an error, or a panic. The octets are the wire form of the value except: prefixes of families other than that of the session are left out of the message; the octets of AGGREGATOR are counted but not written; a label goes out as its last 20 bits; the length octet of a prefix is reduced where there are more than ten labels; an EVPN prefix route for IPv6 goes without its gateway; a VPLS item goes without its last two octets; multicast VPN routes of types 3 to 7 and long flow specifications go with other lengths.", "quantifier": "all UPDATE messages, path attributes and collections of NLRI, all sessions, all buffers that are large enough", "why_tests_cant": "The values that cannot be put on the wire are as many as the others, of every shape, and no test lists them all.", "anchors": ["src/message/update/mod.rs: BgpUpdateMessage::encode_to", "src/message/attributes/mod.rs: BgpAttrItem::encode_to, encode_bgpattr", "src/afi/mod.rs: BgpAddrs::encode_to, encode_bgpitems_to, encode_long_bgpitems_to, encode_pathid_bgpitems_to", "src/afi/evpn.rs, src/afi/flowspec.rs, src/afi/mvpn.rs, src/afi/vpls.rs, src/afi/mdt.rs: encode_to, set_bits_to, pack_to"]}
{"id": "C117", "title": "The outcome of encoding OPEN and BMP messages and of sending, for every value", "statement": "Encoding an OPEN, NOTIFICATION or BMP message, putting a message header in front of a body and sending the message each have one outcome in buffers with enough room, determined by the value alone, for every value: certain octets, an error, or a panic. An OPEN is refused exactly if a restart time or stale time does not fit its field; a host name goes out without its length and with two octets that are not written; lengths above 255 are reduced to an octet. Of a body of 65536 octets or more only the octets beyond the last multiple of 65536 are counted, and as many from its beginning are sent; there is a panic if the length so reduced leaves no room for the header. The texts of a BMP initiation are all sent with the same type, and statistics reports and route mirroring panic.", "quantifier": "all OPEN, NOTIFICATION and BMP messages, all message types and bodies, all buffers that are large enough", "why_tests_cant": "There is no bound on the number of capabilities, the lengths of names and texts and the size of a body, and the lengths wrap around only for large ones.", "anchors": ["src/message/open.rs: BgpOpenMessage::encode_to", "src/lib.rs: BgpCapability::fill_buffer, BgpSessionParams::prepare_message_buf, send_message_buf", "src/message/notification.rs: BgpNotificationMessage::encode_to", "src/bmp/mod.rs: BmpMessage::encode_to", "src/bmp/msgrmon.rs, src/bmp/msgpeer.rs, src/bmp/msginit.rs, src/bmp/msgterm.rs: encode_to"]}
{"id": "C118", "title": "The outcome of encoding and sending without overflow checks, for every value", "statement": "In a build without overflow checks, encoding any collection of NLRI, attribute, UPDATE or BMP message, putting a message header in front of a body and sending it each have one outcome in buffers with enough room, determined by the value alone, for every value. Where a build with overflow checks does not panic the outcome is the same. A list of unicast prefixes panics exactly if a length is from 33 (IPv6: 129) to 248; a length of 249 or more is sent as the length octet alone, which no reader accepts, and in a FlowSpec rule 32 octets of whatever is in the buffer go out after it. A body whose length leaves 65517 or more over a multiple of 65536 goes out as fewer than 19 octets of the header.", "quantifier": "all collections of NLRI, attributes, UPDATE and BMP messages, all sessions, all message types and bodies, all buffers that are large enough", "why_tests_cant": "Tests run with overflow checks on; the wrapped values appear only for lengths no test uses, and there is no bound on the number of items.", "anchors": ["src/afi/mod.rs: BgpAddrs::encode_to", "src/afi/ipv4.rs, src/afi/ipv6.rs: to_bits", "src/afi/flowspec.rs: encode_to", "src/message/update/mod.rs: BgpUpdateMessage::encode_to", "src/message/attributes/mod.rs: BgpAttrItem::encode_to", "src/lib.rs: BgpSessionParams::prepare_message_buf, send_message_buf", "src/bmp/mod.rs: BmpMessage::encode_to"]}
{"id": "C119", "title": "Exactly which prefixes come back from the wire without overflow checks", "statement": "Sent and read by builds without overflow checks, a list of prefixes of any kind (unicast, labelled, VPN, MDT), with or without path identifiers, comes back unchanged exactly if every address has at most 32 or 128 bits (MDT for IPv6: 126) and no set octets behind its prefix, and every label stack is one that can be delimited and at none of its labels the bits that are left are a multiple of 256. What comes back with overflow checks also comes back without them, and more does: VPNv6 host routes with three labels and MDT prefixes of IPv6 from 64 bits on, on which a build with overflow checks panics. Labels are lost where the bits reach a multiple of 256, such as those of an IPv4 route of 16 bits from the tenth on.", "quantifier": "all lists of prefixes of all kinds, with and without path identifiers, all buffers that are large enough", "why_tests_cant": "Tests run with overflow checks on. Whether the two wrapped computations cancel depends on the number of labels, which has no bound.", "anchors": ["src/afi/mod.rs: encode_bgpitems_to, decode_bgpitems_from, encode_pathid_bgpitems_to, decode_pathid_bgpitems_from, MplsLabels, Labeled, WithRd", "src/afi/ipv4.rs, src/afi/ipv6.rs: to_bits, from_bits", "src/afi/mdt.rs: extract_bits_from, set_bits_to"]}
{"id": "C120", "title": "Exactly which collections, attributes and messages come back from the wire without overflow checks", "statement": "Sent and read by builds without overflow checks, in any session: a collection of NLRI comes back unchanged exactly if it is of the family, its items are ones that come back, and it has path identifiers exactly if the session expects them in the octets sent. The items are prefixes as in C119; EVPN routes with up to 31 labels (ten with overflow checks) and the other EVPN routes, MVPN routes and flow specifications as with overflow checks; no VPLS route. An attribute comes back exactly if its NLRI do and its next hop is of the kind of the family, or it is one that comes back with overflow checks. An UPDATE comes back exactly if its two sections and all its attributes do, and the withdrawn prefixes and the attributes each take at most 65535 octets. What comes back with overflow checks also comes back without.", "quantifier": "all collections of all families, all attributes, all UPDATE messages, all sessions, all buffers that are large enough", "why_tests_cant": "Tests run with overflow checks on. The claim is an equivalence over all values that can be built, and whether a value comes back depends on the octets of all parts before it.", "anchors": ["src/afi/mod.rs: BgpAddrs::encode_to, BgpAddrs::decode_from", "src/afi/evpn.rs: encode_to, decode_from", "src/afi/flowspec.rs: encode_to, decode_from", "src/message/attributes/multiproto.rs: BgpMPUpdates, BgpMPWithdraws", "src/message/update/mod.rs: encode_to, decode_from"]}
{"id": "C121", "title": "Exactly which BMP messages come back from the wire without overflow checks", "statement": "Sent and read by builds without overflow checks: a route-monitoring message comes back unchanged exactly if the peer address can be told apart in its field, the UPDATE comes back (C120) in the session of the peer header, and its octets are at most 65516; of longer ones, only the beginning is sent, and it is never read as the same message. Peer-up, peer-down, initiation and termination messages come back exactly if they do with overflow checks; statistics reports and route mirroring never. What comes back with overflow checks also comes back without; some route-monitoring messages come back only without.", "quantifier": "all BMP messages, all buffers that are large enough", "why_tests_cant": "Tests run with overflow checks on. Lengths are reduced modulo 65536 on both sides; that no message is read as the same one from a part of its octets can not be tested for all.", "anchors": ["src/bmp/mod.rs: BmpMessage::encode_to, BmpMessage::decode_from", "src/bmp/msgrmon.rs: encode_to, decode_from", "src/bmp/msgpeer.rs: encode_to, decode_from", "src/message/mod.rs: prepare_message_buf, decode_message_head"]}
{"id": "C122", "title": "Exactly what comes back when the two ends do not agree about the session", "statement": "A message sent with one set of session parameters and read with another comes back unchanged exactly under these conditions: its prefixes are of the reader's session, and there are none if the sender's session is of the other address family; NEXT_HOP is of the family both ends assume; ORIGINATOR_ID is of the sender's family and, if it is IPv6, the reader's is IPv6 too; AS paths are empty, or both ends use 32-bit AS numbers, or, by coincidence, a path of a single number whose upper half equals the segment header is sent with 16-bit and read with 32-bit numbers; all other attributes depend on the reader only. No other parameters of the sender matter. A different width of AS numbers is never noticed: the path is read without error as a different one.", "quantifier": "all pairs of session parameters, all messages, all buffers that are large enough", "why_tests_cant": "The combinations of two sets of parameters and a message are unlimited; tests use the same parameters on both ends.", "anchors": ["src/message/update/mod.rs: encode_to, decode_from", "src/message/attributes/aspath.rs: encode_to, decode_from", "src/message/attributes/nexthop.rs", "src/message/attributes/originatorid.rs"]}
{"id": "C123", "title": "Without overflow checks, too, what is decoded holds no more than the octets it was decoded from", "statement": "In a build without overflow checks, where length arithmetic wraps instead of stopping, the routes, attributes, labels, communities, AS numbers, capabilities and texts in what is decoded are still together no more than the octets they were decoded from, for NLRI of every family, attributes, UPDATE messages and BMP messages; attribute sets are nested at most once in seven octets; a message object that is used again holds no more than all messages it was used for; and the table of a BMP session, after any history, no more than the octets of the history. So no peer can make a release build allocate out of proportion to what it sends.", "quantifier": "all octet sequences, all session parameters, all address families, all histories of a BMP session", "why_tests_cant": "The lengths at which the arithmetic wraps, and the ways to combine them in one message, cannot be enumerated; a single combination that reads the same octets twice would be enough.", "anchors": ["src/afi/mod.rs: MplsLabels::extract_bits_from, Labeled, WithRd, decode_bgpitems_from", "src/message/update/mod.rs: decode_from", "src/bmp/mod.rs: BMPSession"]}
{"id": "C124", "title": "How a monitoring station reads the messages about one peer does not depend on the messages about other peers", "statement": "A station reads all BMP messages of a router with one session object. For every history, the results for the messages about one peer (the same 24 octets of distinguisher and address) are exactly those of reading only the messages about this peer: messages about other peers, garbage, and messages that fail, in any number and any interleaving, change nothing. In builds with and without overflow checks.", "quantifier": "all histories of octet sequences (well-formed or not), all peers, all interleavings, both builds", "why_tests_cant": "The interleavings of messages about many peers are unbounded in number; a table that confuses two peers in a single constellation would read routes with the wrong parameters.", "anchors": ["src/bmp/mod.rs: BMPSession::decode_from, decode_rm, BmpMessagePeerHeader"]}
{"id": "C125", "title": "A monitoring station that joined late or lost messages is in step again with the next peer-up or peer-down of a peer", "statement": "Two stations with whatever different histories read all later messages about a peer alike from any peer-up or peer-down of this peer on; after a peer-down, as if nothing had ever been read. A message that is neither a peer-up nor a peer-down (also garbage and messages on which decoding fails) may be lost or repeated without any effect on what is read later, any message may be repeated, and neighbouring messages about different peers may change places. In builds with and without overflow checks.", "quantifier": "all pairs of histories, all octet sequences, all continuations, both builds", "why_tests_cant": "It quantifies over two unbounded histories and an unbounded continuation; state that survives in some corner of the table shows only in a particular combination.", "anchors": ["src/bmp/mod.rs: BMPSession::decode_from, decode_rm"]}
{"id": "C126", "title": "Without overflow checks, too, the parts of an UPDATE are read independently and routes one by one", "statement": "In a build without overflow checks: octets that are read to their end as routes, followed by octets that are read as routes, are read as the routes one behind the other, exactly if the session takes all to have path identifiers or all not to (always, if it does not guess); what is read of octets that were cut off is the beginning of what is read of all, under the corresponding condition; each attribute of an UPDATE is read by itself, so the order of attributes does not matter; and an UPDATE with many routes is read as two with some of them each. A label stack that runs beyond the announced length of its route never changes how the routes before and behind it are read.", "quantifier": "all octet sequences, families, session parameters, attribute lists and their permutations", "why_tests_cant": "The wrapped lengths of one route decide where the next one begins; the combinations of routes, and the places to cut, are unbounded.", "anchors": ["src/afi/mod.rs: MplsLabels::extract_bits_from, Labeled, WithRd, decode_bgpitems_from", "src/message/update/mod.rs: decode_from"]}
{"id": "C127", "title": "A BMP stream sent or read by a build without overflow checks", "statement": "A router and a monitoring station, each with or without overflow checks: what a router with checks sends, one without sends octet for octet; a station without checks cuts any stream of octets into as many messages as one with checks, and up to the first message on which the latter crashes gets the same result for each; of a stream of framed messages it reads the i-th as exactly what its octets say for the parameters that the messages before leave its peer with; if the connection breaks it has exactly the messages that came completely, and an error if one came in part; and a list of messages that can be sent is read as that list, whatever the builds at the two ends.", "quantifier": "all octet streams, all lists of framed messages, all positions in them, all places where the connection can break, all lists of messages that can be sent, all combinations of builds", "why_tests_cant": "Streams and histories are unbounded, and a wrapped length in one message changes how all later ones are read.", "anchors": ["src/bmp/mod.rs: BMPSession::decode_from, BmpMessageHeader, BmpMessage::encode_to", "src/bmp/msgpeer.rs: BmpMessagePeerDown::decode_from"]}
{"id": "C128", "title": "What the buffer held before does not show in what a build without overflow checks encodes", "statement": "Also in a build without overflow checks, where lengths wrap instead of ending in a panic, the octets an encoder reports, or the way it fails, depend on the value, the session and the size of the buffer, and not on what an earlier message left in the buffer; neither do the octets handed to the socket, even where the length in the message header wraps.", "quantifier": "every collection of NLRI, attribute, UPDATE and BMP message, well-formed or not, every session, every two buffers of the same size", "why_tests_cant": "All pairs of buffers of all sizes; and tests run with overflow checks, where the values that wrap end in a panic.", "anchors": ["src/afi/mod.rs: BgpAddrs::encode_to", "src/afi/flowspec.rs: encode_to_fs, get_store_size", "src/message/update/mod.rs: encode_to", "src/lib.rs: BgpSessionParams::send_message_buf, prepare_message_buf", "src/bmp/*.rs: encode_to"]}
