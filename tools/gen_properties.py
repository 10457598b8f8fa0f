#!/usr/bin/env python3
# Regenerates /verif/properties.jsonl (one JSON object per line).
import json, os
P = []
def p(title, statement, quantifier, why, anchors):
    P.append(dict(id="C%02d" % (len(P)+1), title=title, statement=statement,
                  quantifier=quantifier, why_tests_cant=why, anchors=anchors))

p("BGP message header round trip",
  "If prepare_message_buf(buf, type, len) succeeds, then decode_message_head on the same buffer returns exactly (type, len), the returned total is len+19, the first 16 bytes are 0xff, and no byte at offset >= 19 of the caller's buffer is changed.",
  "every buffer content and size, every message type, every body length that fits one BGP message (len <= 65516)",
  "65k lengths x arbitrary buffer contents; tests sample a handful of lengths and never the u16 boundary.",
  ["src/lib.rs: BgpSessionParams::prepare_message_buf", "src/lib.rs: BgpSessionParams::decode_message_head"])
p("Message header is validated and never crashes the reader",
  "decode_message_head returns an error for every buffer shorter than 19 bytes, for every marker that is not all ones and for every unknown type code, and it never panics, whatever bytes the peer sends.",
  "every byte string",
  "Totality over all byte strings; the length field (bytes 16..18) has 65536 values and values below 19 are never tested.",
  ["src/lib.rs: BgpSessionParams::decode_message_head", "src/message/mod.rs: BgpMessageType::decode_from"])
p("Header writer refuses what it cannot represent",
  "prepare_message_buf/send_message_buf either write a header whose length field equals the body length plus 19 or return an error; an oversized body is never sent with a wrong length.",
  "every body length and buffer",
  "Needs bodies above 65516 bytes; the cast to u16 wraps only there.",
  ["src/lib.rs: BgpSessionParams::prepare_message_buf", "src/lib.rs: BgpSessionParams::send_message_buf"])
p("A stream of messages keeps its framing",
  "For any sequence of messages written one after another with send_message_buf, a reader that repeats recv_message_head and then reads the announced number of body bytes recovers exactly the same sequence of (type, body), with no bytes left over.",
  "every finite history of messages (any types, any bodies up to 65516 bytes)",
  "Histories of unbounded length; a framing slip shows only after some message of some length.",
  ["src/lib.rs: BgpSessionParams::send_message_buf", "src/lib.rs: BgpSessionParams::recv_message_head", "src/message/mod.rs: BgpMessageType"])
p("OPEN round trip",
  "Encoding an OPEN message and decoding the produced bytes gives back hold time, router id and the list of capabilities in order; the AS number comes back unchanged when it fits 16 bits and as AS_TRANS (23456) otherwise.",
  "every OPEN message whose capabilities are encodable (GR restart time < 2^12, LLGR stale time < 2^24, list capabilities short enough for their one-byte length, no FQDN capability), every buffer large enough",
  "Unbounded capability lists with unbounded payload lists; tests use one fixed 3-element list.",
  ["src/message/open.rs: BgpOpenMessage::encode_to", "src/message/open.rs: BgpOpenMessage::decode_from", "src/lib.rs: BgpCapability::fill_buffer", "src/lib.rs: BgpCapability::from_buffer"])
p("OPEN decoding never crashes",
  "Decoding an OPEN message from any bytes whatsoever returns Ok or Err: no panic and no endless loop.",
  "every byte string",
  "Totality over all byte strings, including nested length fields that disagree with each other.",
  ["src/message/open.rs: BgpOpenMessage::decode_from", "src/lib.rs: BgpCapability::from_buffer", "src/lib.rs: BgpCapability::from_type_and_data"])
p("Unknown capabilities are skipped, known ones survive",
  "Inserting capability TLVs with unrecognised codes anywhere in an OPEN message does not change what is decoded: the known capabilities come out in order and nothing else is affected.",
  "every interleaving of known and unknown capability TLVs",
  "All interleavings and all unknown payloads cannot be enumerated.",
  ["src/lib.rs: BgpCapability::from_buffer", "src/message/open.rs: BgpOpenMessage::decode_from"])
p("Capability TLV round trip",
  "For every capability value, the bytes produced for the OPEN message decode to the same capability and consume exactly the bytes produced.",
  "every capability, including graceful restart, long-lived graceful restart, AddPath lists of any encodable length and FQDN strings",
  "List payloads are unbounded; FQDN strings range over all strings.",
  ["src/lib.rs: BgpCapability::bytes_len", "src/lib.rs: BgpCapability::fill_buffer", "src/lib.rs: BgpCapability::from_type_and_data"])
p("OPEN announces the length of its optional parameters correctly",
  "The one-byte optional parameter length written by OPEN encoding equals the number of parameter bytes that follow, or encoding fails.",
  "every OPEN message",
  "The byte wraps only when the capabilities exceed 255 bytes, which no test builds.",
  ["src/message/open.rs: BgpOpenMessage::encode_to"])
p("NOTIFICATION round trip and totality",
  "Encoding a NOTIFICATION and decoding the produced bytes returns the same code, subcode and data; decoding never panics; buffers below the minimum are rejected with an error.",
  "every notification value, every byte string, every buffer size",
  "2^32 values and all byte strings.",
  ["src/message/notification.rs: BgpNotificationMessage::encode_to", "src/message/notification.rs: BgpNotificationMessage::decode_from"])
p("Decoding does not depend on what the message object held before",
  "The result of decode_from into a message object depends only on the bytes and the session parameters, not on the previous contents of the object.",
  "every prior state of OPEN, UPDATE and NOTIFICATION objects, every byte string",
  "Quantifies over histories of reuse of one object; tests always decode into a fresh one.",
  ["src/message/update/mod.rs: BgpUpdateMessage::decode_from", "src/message/open.rs: BgpOpenMessage::decode_from", "src/message/notification.rs: BgpNotificationMessage::decode_from"])
p("IPv4 prefix NLRI round trip",
  "Any list of IPv4 prefixes with length <= 32 encodes as length-prefixed minimal-octet NLRI and decodes to the same list with the address bits beyond the announced octets cleared; prefixes given in network form come back identical.",
  "every list of IPv4 prefixes of any length, every sufficiently large buffer",
  "Unbounded lists of 2^37 possible items.",
  ["src/afi/ipv4.rs: BgpAddrV4 as BgpItem", "src/afi/mod.rs: encode_bgpitems_to", "src/afi/mod.rs: decode_bgpitems_from"])
p("IPv6 prefix NLRI round trip",
  "Any list of IPv6 prefixes with length <= 128 encodes and decodes to the same list (for prefixes with no bits set beyond the announced octets).",
  "every list of IPv6 prefixes, every sufficiently large buffer",
  "Unbounded lists of 2^135 possible items.",
  ["src/afi/ipv6.rs: BgpAddrV6 as BgpItem", "src/afi/mod.rs: encode_bgpitems_to", "src/afi/mod.rs: decode_bgpitems_from"])
p("Unicast NLRI decoding is total",
  "Decoding an IPv4 or IPv6 unicast NLRI field from any bytes returns Ok or Err, never panics and never loops; lengths beyond 32/128 and truncated prefixes are errors; on success every byte is consumed.",
  "every byte string",
  "Totality over all byte strings; the length octets 249..255 are not tested.",
  ["src/afi/mod.rs: decode_bgpitems_from", "src/afi/ipv4.rs: BgpAddrV4::from_bits", "src/afi/ipv6.rs: BgpAddrV6::from_bits"])
p("NLRI lists compose",
  "Encoding a concatenation of NLRI lists writes the concatenation of their encodings, and decoding a concatenation of encodings yields the concatenation of the lists.",
  "every pair of NLRI lists of every kind that round trips",
  "Unbounded pairs of lists.",
  ["src/afi/mod.rs: encode_bgpitems_to", "src/afi/mod.rs: decode_bgpitems_from", "src/afi/mod.rs: encode_pathid_bgpitems_to"])
p("AddPath NLRI round trip",
  "A list of prefixes with path identifiers encodes as 4-byte identifier plus prefix for each item and decodes to the same list.",
  "every list of (path id, prefix), for every prefix kind that round trips on its own",
  "Unbounded lists of unbounded items.",
  ["src/afi/mod.rs: encode_pathid_bgpitems_to", "src/afi/mod.rs: decode_pathid_bgpitems_from", "src/afi/mod.rs: WithPathId"])
p("IPv4 prefix containment is inclusion of address sets",
  "BgpAddrV4::contains(a,b) is true exactly when every address covered by b is covered by a.",
  "every pair of IPv4 prefixes with lengths 0..32",
  "2^74 pairs.",
  ["src/afi/ipv4.rs: BgpAddrV4::contains", "src/afi/ipv4.rs: BgpAddrV4::norm_subnet_u32"])
p("IPv6 prefix containment is inclusion of address sets",
  "BgpAddrV6::contains(a,b) is true exactly when every address covered by b is covered by a.",
  "every pair of IPv6 prefixes with lengths 0..128",
  "2^270 pairs.",
  ["src/afi/ipv6.rs: BgpAddrV6::contains"])
p("Subnet range bounds",
  "range_first and range_last of a prefix are the least and the greatest address the prefix covers, and in_subnet(ip) is true exactly for addresses between them.",
  "every IPv4 / IPv6 / MAC prefix and every address",
  "2^69 (v4) and 2^263 (v6) combinations; boundary addresses are the ones tests miss.",
  ["src/afi/ipv4.rs: BgpAddrV4::in_subnet/range_first/range_last", "src/afi/ipv6.rs: BgpAddrV6::in_subnet/range_first/range_last", "src/afi/mac.rs: BgpAddrMac"])
p("Containment of mixed families",
  "BgpNet::contains is false across address families and agrees with the per-family containment otherwise.",
  "every pair of networks of any family",
  "All cross-family pairs.",
  ["src/afi/mod.rs: BgpNet::contains"])
p("Route distinguisher round trip",
  "An RD encodes to 8 bytes and decodes to itself; decoding any 8 or more bytes and re-encoding gives back the first 8 bytes; shorter input is an error.",
  "every RD and every byte string",
  "2^64 values.",
  ["src/afi/mod.rs: BgpRD::decode_rd_from", "src/afi/mod.rs: BgpRD::encode_rd_to"])
p("MPLS label stack round trip",
  "A non-empty label stack of 20-bit labels, whose non-final labels are not the stack-ending reserved values, encodes to 3 bytes per label with bottom-of-stack only on the last and decodes to the same stack.",
  "every label stack with at most 10 labels that meets the rule, followed by arbitrary bytes",
  "Unbounded label values and following bytes.",
  ["src/afi/mod.rs: MplsLabels as BgpItem"])
p("Labeled and VPN NLRI round trip",
  "Labeled unicast and VPN (labeled with route distinguisher) prefixes of both families encode and decode to themselves, labels included.",
  "every list of labeled / VPN prefixes whose total bit length fits one octet",
  "Unbounded lists of products of unbounded components.",
  ["src/afi/mod.rs: Labeled", "src/afi/mod.rs: WithRd", "src/afi/mod.rs: encode_bgpitems_to"])
p("Labeled and VPN NLRI decoding is total",
  "Decoding labeled or VPN NLRI from any bytes returns Ok or Err and never panics.",
  "every byte string",
  "Totality over all byte strings (truncated labels, bit lengths that are not multiples of what follows).",
  ["src/afi/mod.rs: MplsLabels::extract_bits_from", "src/afi/mod.rs: Labeled::extract_bits_from", "src/afi/mod.rs: WithRd::extract_bits_from"])
p("Address family dispatch is coherent",
  "For every NLRI collection the AFI/SAFI it reports is the one whose decoder produces the same kind of collection, AddPath variants share the code of their plain variant, and unknown AFI/SAFI pairs are rejected with an error.",
  "every NLRI collection kind, every (afi, safi) pair and every byte string",
  "31 kinds x 2^24 codes x all byte strings.",
  ["src/afi/mod.rs: BgpAddrs::get_afi_safi", "src/afi/mod.rs: BgpAddrs::decode_from", "src/afi/mod.rs: BgpAddrs::encode_to"])
p("Capability and NLRI codes agree",
  "The AFI/SAFI pair a multiprotocol capability stands for (in the OPEN TLV and in AddPath/GR capabilities built from it) is the AFI/SAFI of the NLRI collection of the same name.",
  "every multiprotocol capability",
  "Cross-module agreement that no unit test compares.",
  ["src/lib.rs: afisafi_from_cap", "src/lib.rs: BgpCapability::fill_buffer", "src/afi/mod.rs: BgpAddrs::get_afi_safi"])
p("MPLS labels do not take part in identity",
  "Equality, ordering and hashing of labeled NLRI ignore the labels and are those of the underlying NLRI; the ordering is a total order whenever the underlying one is.",
  "all pairs and triples of labeled NLRI",
  "Laws over all triples.",
  ["src/afi/mod.rs: Labeled PartialEq/Ord/Hash", "src/afi/mod.rs: MplsLabels PartialEq/Ord"])
p("Hand-written orderings are lawful",
  "For every type with a hand-written Ord (VPN NLRI, AddPath NLRI, AS numbers, BMP peer headers) cmp is a total order consistent with ==, partial_cmp agrees with cmp, and equal values hash equally, so that BTreeMap/BTreeSet/HashMap keys behave.",
  "all pairs and triples of values",
  "Order laws quantify over all triples.",
  ["src/afi/mod.rs: WithRd Ord", "src/afi/mod.rs: WithPathId Ord", "src/message/attributes/aspath.rs: BgpAS Eq/Ord/Hash", "src/bmp/bmputl.rs: BmpMessagePeerHeader Ord"])
p("AS path round trip",
  "An AS path of up to 255 ASNs encodes as one AS_SEQUENCE segment in the session's AS width and decodes to the same path in a session of the same width (with 16-bit ASNs in a 16-bit session).",
  "every AS path of at most 255 elements, both AS widths, every sufficient buffer",
  "Unbounded values; tests check only that decoding succeeds.",
  ["src/message/attributes/aspath.rs: BgpASpath::encode_to", "src/message/attributes/aspath.rs: BgpASpath::decode_from"])
p("AS path segments are parsed",
  "Decoding an AS_PATH attribute returns the ASNs of all segments and nothing else: segment headers never appear as AS numbers, whatever the number and types of segments.",
  "every well-formed AS_PATH attribute (any number of segments)",
  "Unbounded segment structure; tests only use a single segment.",
  ["src/message/attributes/aspath.rs: BgpASpath::decode_from"])
p("AS path decoding is total",
  "Decoding an AS_PATH from any bytes returns a path and never panics; an undersized encode buffer is an error.",
  "every byte string, every path, every buffer",
  "Totality.",
  ["src/message/attributes/aspath.rs: BgpASpath::decode_from", "src/message/attributes/aspath.rs: BgpASpath::encode_to"])
p("Path attribute framing",
  "Each encoded path attribute starts with its flags and type code, followed by a length field (2 bytes when the extended-length flag is set, else 1) equal to the number of value bytes that follow; a value too long for its length field is an error; bytes after the attribute are untouched.",
  "every attribute value, every session, every buffer",
  "Length boundary cases at 255 and 65535 and all buffer contents.",
  ["src/message/attributes/mod.rs: BgpAttrItem::encode_to", "src/message/attributes/mod.rs: BgpAttrItem::encode_bgpattr"])
p("Path attribute round trip",
  "Every encodable path attribute decodes to itself: ORIGIN, AS_PATH, NEXT_HOP, MED, LOCAL_PREF, ATOMIC_AGGREGATE, AGGREGATOR, COMMUNITIES, ORIGINATOR_ID, CLUSTER_LIST, EXTENDED and LARGE COMMUNITIES, CONNECTOR and unknown attributes.",
  "every attribute value, every session whose transport matches the address family used in the attribute",
  "Unbounded values and lists.",
  ["src/message/attributes/mod.rs: BgpAttrItem", "src/message/attributes/*.rs: decode_from/encode_to"])
p("Unknown attributes are transparent",
  "An attribute with an unassigned type code is kept with its type, flags and value, and encoding it again produces the same bytes.",
  "every unassigned type code, every flags octet, every value",
  "All codes x flags x values.",
  ["src/message/attributes/unknown.rs: BgpAttrUnknown", "src/message/attributes/mod.rs: BgpAttrItem::decode_from"])
p("Community lists are sets",
  "Decoding a (large/extended) community attribute yields exactly the set of communities present on the wire irrespective of order and repetition; encoding emits each member once in ascending order; encode then decode is the identity.",
  "every community set and every well-formed attribute value",
  "Unbounded sets and all permutations/repetitions.",
  ["src/message/attributes/community.rs: BgpCommunityList", "src/message/attributes/community.rs: BgpLargeCommunityList", "src/message/attributes/extcommunity.rs: BgpExtCommunityList"])
p("Attribute decoding never crashes",
  "Decoding any single path attribute (any type code, any flags, any value bytes) returns Ok or Err and never panics.",
  "every type code, flags octet, byte string and session",
  "Totality over 2^16 codes x all byte strings.",
  ["src/message/attributes/mod.rs: BgpAttrItem::decode_from", "src/message/attributes/*.rs"])
p("Extended community helpers",
  "A route target built from IPv4 address and number reports the same address and number; building from a 64-bit integer equals decoding its big-endian bytes; encode/decode of a single extended community is the identity.",
  "every address, number and 64-bit value",
  "2^48 / 2^64 values.",
  ["src/message/attributes/extcommunity.rs: BgpExtCommunity::rt_ipn/get_ipv4/get_num/From<u64>"])
p("Community text round trip",
  "Parsing the displayed text of a community returns the same community, well-known names included.",
  "every 32-bit community",
  "2^32 values and names that collide with numbers.",
  ["src/message/attributes/community.rs: BgpCommunity Display/FromStr"])
p("UPDATE round trip",
  "Encoding an UPDATE with withdrawn prefixes, attributes and announced prefixes of the session's family and decoding the bytes in the same session gives back the same withdrawals, attributes and announcements (plain or AddPath).",
  "every UPDATE whose parts round trip on their own and whose NLRI does not look like AddPath under the fuzzy detection",
  "Unbounded products of three unbounded lists; existing test only checks is_ok.",
  ["src/message/update/mod.rs: BgpUpdateMessage::encode_to", "src/message/update/mod.rs: BgpUpdateMessage::decode_from"])
p("UPDATE length fields are exact",
  "The withdrawn-routes length and the total attribute length written by UPDATE encoding equal the number of bytes of the respective sections, or encoding fails.",
  "every UPDATE and every buffer",
  "Length overflow needs sections above 65535 bytes.",
  ["src/message/update/mod.rs: BgpUpdateMessage::encode_to"])
p("UPDATE decoding never crashes",
  "Decoding an UPDATE from any bytes returns Ok or Err: no panic and no endless loop, whatever the nested lengths say.",
  "every byte string and session",
  "Totality over nested length fields.",
  ["src/message/update/mod.rs: BgpUpdateMessage::decode_from"])
p("UPDATE sections are delimited",
  "A successfully decoded UPDATE interprets each byte in exactly one section: attributes are taken only from the announced attribute section and announced prefixes only from the bytes after it; changing bytes of one section leaves the decoded other sections alone.",
  "every byte string that decodes",
  "Quantifies over pairs of byte strings.",
  ["src/message/update/mod.rs: BgpUpdateMessage::decode_from"])
p("First attribute wins in accessors",
  "get_attr_* / get_mp* return the first attribute of that kind in message order and nothing iff there is none.",
  "every attribute list",
  "Unbounded lists.",
  ["src/message/update/mod.rs: BgpUpdateMessage::get_attr_origin etc."])
p("Multiprotocol reach/unreach round trip",
  "MP_REACH_NLRI and MP_UNREACH_NLRI attributes decode to the same next hop and NLRI that were encoded.",
  "every next hop of the kind used by the family and every NLRI list of a family that round trips",
  "Products of unbounded parts over all families.",
  ["src/message/attributes/multiproto.rs: BgpMPUpdates", "src/message/attributes/multiproto.rs: BgpMPWithdraws"])
p("AddPath detection",
  "A session decodes NLRI as AddPath exactly when it negotiated AddPath receive for that family or the fuzzy option is on and the field has at least 5 bytes starting with two zero bytes; with fuzzy off and no AddPath negotiated, plain NLRI is never misread.",
  "every session and NLRI byte string",
  "All byte strings; default-route NLRI starts with zero bytes.",
  ["src/util.rs: is_addpath_nlri", "src/afi/mod.rs: BgpAddrs::decode_from", "src/message/update/mod.rs: BgpUpdateMessage::decode_from"])
p("AddPath negotiation directions",
  "After match_caps, a session sends (receives) path ids for a family only if it offered to send (receive) and the peer offered to receive (send) for that family.",
  "every pair of capability lists",
  "All pairs of unbounded lists.",
  ["src/lib.rs: BgpSessionParams::match_caps", "src/lib.rs: BgpSessionParams::match_addpath_caps", "src/lib.rs: BgpCapAddPath::response"])
p("Capability matching is an intersection",
  "match_caps keeps, in order, exactly the own capabilities the peer also advertised (AS4 matched by kind, AddPath by family) and turns on 32-bit AS numbers exactly when both sides advertised AS4; it is idempotent on the non-AddPath part.",
  "every pair of capability lists",
  "All pairs of unbounded lists.",
  ["src/lib.rs: BgpSessionParams::match_caps", "src/lib.rs: BgpSessionParams::check_caps"])
p("Capability removal",
  "After remove_capability(c), check_capability(c) is false and every capability of a different kind is kept in order; removal is idempotent.",
  "every capability list and every capability",
  "Unbounded lists with duplicates and several AddPath entries.",
  ["src/lib.rs: BgpSessionParams::remove_capability", "src/lib.rs: BgpSessionParams::check_capability", "src/lib.rs: BgpSessionParams::remove_capability_addpath"])
p("EVPN route round trip",
  "EVPN routes of types 1 to 5 encode with their type and exact length and decode to the same route.",
  "every EVPN route",
  "Products of ESI, tags, MACs, labels, addresses.",
  ["src/afi/evpn.rs: BgpEVPN", "src/afi/evpn.rs: BgpEVPN1..BgpEVPN5"])
p("MVPN route round trip",
  "MVPN routes of types 1 to 7 encode with their type and exact length and decode to the same route.",
  "every MVPN route and transport mode",
  "Products of unbounded parts; existing tests cover no MVPN encoding.",
  ["src/afi/mvpn.rs: BgpMVPN"])
p("VPLS NLRI round trip",
  "A list of VPLS NLRI encodes with 2-byte lengths and decodes to the same list.",
  "every list of VPLS NLRI",
  "Unbounded lists.",
  ["src/afi/vpls.rs: BgpAddrL2", "src/afi/mod.rs: encode_long_bgpitems_to", "src/afi/mod.rs: decode_long_bgpitems_from"])
p("MDT NLRI round trip",
  "MDT NLRI (RD, prefix, group) encode and decode to themselves.",
  "every list of MDT NLRI of both families",
  "Unbounded lists.",
  ["src/afi/mdt.rs: BgpMdtV4", "src/afi/mdt.rs: BgpMdtV6"])
p("FlowSpec NLRI round trip",
  "FlowSpec NLRI encode with a correct length and decode to the same list of components.",
  "every FlowSpec rule",
  "Unbounded component and operator lists.",
  ["src/afi/flowspec.rs: BgpFlowSpec", "src/afi/flowspec.rs: FSItem", "src/afi/flowspec.rs: FSOperValItem"])
p("FlowSpec operator round trip",
  "A flowspec operator/value pair encodes to one operator octet plus a minimal 1/2/4-byte value and decodes to the same operator and value; the end-of-list bit is on the last operator only.",
  "every operator flags combination and 32-bit value, every operator list",
  "2^36 pairs, unbounded lists.",
  ["src/afi/flowspec.rs: FSOperValItem", "src/afi/flowspec.rs: FSOperVec"])
p("MAC address conversions",
  "MAC addresses convert to and from 48-bit integers and network bytes without loss, and two MACs compare as their network-order integers.",
  "every MAC address and every 48-bit value",
  "2^48 values.",
  ["src/afi/mac.rs: MacAddress"])
p("BMP header and per-peer header round trip",
  "The BMP common header and the per-peer header encode and decode to themselves, and no byte beyond the header is changed.",
  "every header value, every buffer",
  "Unbounded buffers; IPv6 addresses that look like IPv4 on the wire.",
  ["src/bmp/mod.rs: BmpMessageHeader", "src/bmp/bmputl.rs: BmpMessagePeerHeader", "src/bmp/bmputl.rs: decode_bmp_addr_from/encode_bmp_addr_to"])
p("BMP initiation and termination round trip",
  "Initiation and termination messages encode and decode to themselves.",
  "every message (any strings below 65536 bytes)",
  "All strings and all option combinations.",
  ["src/bmp/msginit.rs: BmpMessageInitiation", "src/bmp/msgterm.rs: BmpMessageTermination"])
p("BMP peer up, peer down and route monitoring round trip",
  "Peer-up, peer-down and route-monitoring messages encode and decode to themselves.",
  "every message whose embedded BGP messages round trip",
  "Products of unbounded messages.",
  ["src/bmp/msgpeer.rs: BmpMessagePeerUp", "src/bmp/msgpeer.rs: BmpMessagePeerDown", "src/bmp/msgrmon.rs: BmpMessageRouteMonitoring"])
p("BMP decoding never crashes",
  "Decoding any BMP message from any bytes returns Ok or Err and never panics.",
  "every byte string",
  "Totality over all byte strings.",
  ["src/bmp/mod.rs: BmpMessage::decode_from", "src/bmp/mod.rs: BMPSession::decode_from"])
p("BMP session table follows the message history",
  "After any history of BMP messages the session table holds, for each (RD, peer address), the last successfully decoded peer-up that was not followed by a peer-down for that key, and nothing else; failed, statistics, mirroring and monitoring messages leave it unchanged.",
  "every finite sequence of byte strings fed to BMPSession::decode_from",
  "Quantifies over all message histories.",
  ["src/bmp/mod.rs: BMPSession::decode_from", "src/bmp/mod.rs: BgpSessionKey"])
p("Route monitoring uses the monitored session's parameters",
  "A route-monitoring message is decoded with the AS width that the peer announced in its OPEN message in the last peer-up for the same (RD, address), and with path ids exactly for the families for which that OPEN announces to send them; with the parameters derived from the per-peer header when there is no such peer-up.",
  "every message history and route-monitoring message",
  "Depends on unbounded history.",
  ["src/bmp/mod.rs: BMPSession::decode_rm", "src/lib.rs: From<&BgpOpenMessage> for BgpSessionParams"])
p("Encoders stay inside the bytes they report",
  "Every encoder changes only the first n bytes of the caller's buffer, where n is the count it returns, and never changes the buffer size.",
  "every encodable value and every buffer",
  "All buffer contents beyond the written region.",
  ["src/util.rs: encode_addr*_to", "src/afi/mod.rs: encode_*", "src/message/**: encode_to", "src/bmp/**: encode_to"])
p("Short buffers give errors, not crashes, when encoding",
  "Encoding into a buffer that is too small returns an error and never panics.",
  "every value and every buffer that is too small",
  "Every truncation point of every encoding.",
  ["src/util.rs: slice_mut", "src/message/**: encode_to", "src/afi/mod.rs: encode_bgpitems_to"])
p("Decoders report what they consumed",
  "A decoder that succeeds reports a consumed length no larger than its input, and its result does not depend on bytes after that length.",
  "every byte string",
  "Pairs of byte strings.",
  ["src/afi/mod.rs: BgpItem/BgpAddrItem implementations", "src/lib.rs: BgpCapability::from_buffer", "src/bmp/**: decode_from"])
p("Network byte order primitives",
  "The 16/32/64/128-bit getters and setters are mutually inverse big-endian conversions, and address readers/writers agree with them; out-of-range slices are reported as errors by slice/slice_mut.",
  "every value and buffer",
  "2^16..2^128 values.",
  ["src/util.rs: getn_u16/setn_u16/getn_u32/setn_u32/getn_u64/setn_u64/getn_u128", "src/util.rs: slice/slice_mut", "src/util.rs: decode_addr_from/encode_addr_to"])
p("Route distinguisher text round trip",
  "Parsing the displayed text of a route distinguisher returns the same route distinguisher.",
  "every RD",
  "2^64 values, two display formats.",
  ["src/afi/mod.rs: BgpRD Display/FromStr"])
p("Encoding does not depend on spare room",
  "What an encoder does in a buffer it does in every longer buffer: it writes the same bytes, returns the same count and leaves the additional bytes alone.",
  "every value, every buffer on which encoding succeeds, every extension of the buffer",
  "All pairs of buffer sizes and all contents of the spare room.",
  ["src/util.rs: encode_addr*_to", "src/afi/mod.rs: encode_*", "src/message/**: encode_to", "src/bmp/**: encode_to"])
p("Prefix text round trip",
  "Parsing the displayed text of an IPv4, IPv6, MAC, mixed-family or MDT prefix returns the same value, and different values have different texts.",
  "every address and every prefix length octet",
  "2^136 IPv6 prefixes; zero-run compression and IPv4-mapped texts.",
  ["src/afi/ipv4.rs: BgpAddrV4 Display/FromStr", "src/afi/ipv6.rs: BgpAddrV6 Display/FromStr", "src/afi/mac.rs: MacAddress/BgpAddrMac Display/FromStr", "src/afi/mod.rs: BgpNet Display/FromStr", "src/afi/mdt.rs: BgpMdtV4/BgpMdtV6 Display/FromStr"])
p("Prefix texts with a bad length are refused",
  "A prefix text whose part behind the slash is not a decimal number between 0 and the address width is refused with an error.",
  "every text",
  "All texts.",
  ["src/afi/ipv4.rs: BgpAddrV4 FromStr", "src/afi/ipv6.rs: BgpAddrV6 FromStr", "src/afi/mac.rs: BgpAddrMac FromStr"])
p("Community list texts",
  "A text of communities separated by commas, blanks or tabs parses to the set of exactly these communities; parts that are no community are skipped.",
  "every text, any number of parts and any separators",
  "Unbounded texts.",
  ["src/message/attributes/community.rs: BgpCommunityList FromStr"])
p("MAC texts that are no MAC address are refused",
  "A text that is not six hexadecimal octets is refused with an error.",
  "every text",
  "All texts.",
  ["src/afi/mac.rs: MacAddress FromStr"])
p("Attribute values are read as the RFCs define them",
  "Decoding the value of a path attribute succeeds exactly for the values the RFCs allow for its type code, and returns the fields found at their places: ORIGIN, NEXT_HOP, MULTI_EXIT_DISC, LOCAL_PREF, ATOMIC_AGGREGATE, AGGREGATOR in both AS widths, ORIGINATOR_ID, CLUSTER_LIST, MP_REACH_NLRI with SNPAs, CONNECTOR, PMSI tunnel, ATTR_SET.",
  "every session, flags octet, value and result",
  "All byte strings; nested sets of any depth.",
  ["src/message/attributes/mod.rs: BgpAttrItem::decode_from", "src/message/attributes/aggregatoras.rs: decode_from", "src/message/attributes/pmsitunnelattr.rs: decode_from", "src/message/attributes/attrset.rs: decode_from", "src/message/attributes/multiproto.rs: BgpMPUpdates::decode_from"])
p("NLRI of MP_REACH_NLRI start behind the next hop field",
  "The next hop field of MP_REACH_NLRI has the number of bytes its length byte says, whatever it holds behind the first address; the NLRI are those behind it.",
  "every family, next hop, further bytes of the next hop field, SNPAs and NLRI",
  "All lengths of the field and all contents.",
  ["src/message/attributes/multiproto.rs: BgpMPUpdates::decode_from"])
p("EVPN texts identify the route",
  "Two different EVPN routes, of the same or of different types, are never displayed as the same text.",
  "every pair of EVPN routes with any segment identifiers, tags, addresses and label stacks",
  "All pairs of routes; label stacks of any length.",
  ["src/afi/evpn.rs: Display"])
p("Multicast VPN texts identify the route",
  "Two different multicast VPN routes, of the same or of different types, are never displayed as the same text.",
  "every pair of multicast VPN routes",
  "All pairs of addresses, IPv4 and IPv6.",
  ["src/afi/mvpn.rs: Display"])
p("Texts of prefixes, VPN next hops, VPLS routes and FlowSpec operators identify them",
  "Two different values of one of these types are never displayed as the same text, also with labels, route distinguisher and path identifier in front; VPLS routes that differ only in labels are.",
  "every pair of values, any label stack, route distinguisher and path identifier",
  "All pairs; stacks of any length.",
  ["src/afi/mod.rs: Labeled/WithRd/WithPathId/BgpRD/MplsLabels Display", "src/afi/ipv4.rs: BgpIPv4RD Display", "src/afi/ipv6.rs: BgpIPv6RD Display", "src/afi/vpls.rs: Display", "src/afi/flowspec.rs: Display"])
p("AS numbers are displayed in decimal",
  "The text of an AS number is its decimal value.",
  "every 32-bit AS number",
  "2^32 numbers.",
  ["src/message/attributes/aspath.rs: BgpAS Display"])
p("Notification texts",
  "The text of a notification names its error code and subcode as RFC 4271 does and gives the numbers where there is no name; notifications with different codes or subcodes have different texts.",
  "every code and subcode, and every pair",
  "All pairs of codes and subcodes.",
  ["src/message/notification.rs: error_text"])
p("Extended and large community texts",
  "Two different extended communities, or large communities, are never displayed as the same text; route targets and large communities are displayed as their numbers in decimal.",
  "every pair of communities",
  "2^128 pairs.",
  ["src/message/attributes/extcommunity.rs: Display", "src/message/attributes/community.rs: BgpLargeCommunity Display"])
p("NLRI of every family are read exactly as specified",
  "For any octets in the place of NLRI of any family, in any session: which octets are accepted, what they are read as and how many are taken, which bring the program down, and that all others are refused with an error, is given exactly by a specification that does not refer to the decoders; no octets are read in two ways.",
  "every octet string, every address family, every session, lists of any length",
  "All octet strings, of any length.",
  ["src/afi/mod.rs: BgpAddrs::decode_from and the item decoders", "src/afi/ipv4.rs", "src/afi/ipv6.rs", "src/afi/vpls.rs", "src/afi/evpn.rs", "src/afi/mvpn.rs", "src/afi/flowspec.rs", "src/afi/mdt.rs: decode_from"])
p("Attribute values and UPDATE messages are read exactly as specified",
  "For any octets as the value of an attribute of any type code, and for any octets as the body of an UPDATE, in any session: which are accepted and what they are read as, which bring the program down, and that all others are refused with an error, is given exactly by a specification that does not refer to the decoders; no octets are read in two ways.",
  "every octet string, type code, flags and session; attribute sets nested to any depth",
  "All octet strings, of any length, and sets nested in sets.",
  ["src/message/attributes/*.rs: decode_from", "src/message/attributes/mod.rs: BgpAttrItem::decode_from", "src/message/update/mod.rs: BgpUpdateMessage::decode_from"])
p("OPEN, NOTIFICATION and BMP messages are read exactly as specified",
  "For any octets as the body of an OPEN or NOTIFICATION, and for any octets as a BMP message, without a session or in a session that has seen any history of messages: which are accepted and what they are read as, which bring the program down, and that all others are refused with an error, is given exactly by a specification that does not refer to the decoders.",
  "every octet string and every history of BMP messages",
  "All octet strings, of any length, and all histories.",
  ["src/message/open/mod.rs: decode_from", "src/message/notification.rs: decode_from", "src/bmp/*.rs: decode_from", "src/bmp/mod.rs: BMPSession, BmpMessage"])
p("Route distinguisher texts are those of RFC 4364",
  "A route distinguisher received from a peer is displayed as administrator and number with a colon between them, the administrator being a two-octet AS number, an IPv4 address or a four-octet AS number after the type; parsing such a text gives the route distinguisher with these octets.",
  "every route distinguisher of the types 0, 1 and 2, every text of these forms",
  "2^48 values of each type.",
  ["src/afi/mod.rs: BgpRD Display, FromStr, decode_rd_from, encode_rd_to"])
p("Tests for multicast, zero and empty, and fresh messages",
  "The multicast test of a prefix is true exactly for multicast addresses; a route distinguisher or segment identifier is zero exactly if all its octets are; a collection of routes is empty exactly if it has no routes; fresh OPEN, UPDATE and NOTIFICATION messages encode to their documented defaults and nothing else.",
  "every prefix, route distinguisher, segment identifier, collection of routes, buffer and session",
  "All addresses; collections of any length and family.",
  ["src/afi/ipv4.rs: is_multicast", "src/afi/ipv6.rs: is_multicast", "src/afi/mod.rs: BgpRD::is_zero, BgpAddrs::is_empty, BgpAddrs::len", "src/afi/evpn.rs: EVPNESI::is_zero", "src/message/open.rs: BgpOpenMessage::new"])
p("Serialised attributes and routes are read back",
  "A path attribute, an NLRI collection, a next hop or a prefix that is serialised with serde to a self-describing text format is deserialised to an equal value.",
  "every attribute (sets nested to any depth), every collection of every family, every next hop and prefix",
  "All values, collections of any length, sets nested in sets.",
  ["src/message/attributes/mod.rs: BgpAttrItem Serialize, Deserialize", "src/afi/mod.rs: BgpAddrs, BgpAddr, BgpNet, WithRd, Labeled, WithPathId Serialize, Deserialize", "src/afi/flowspec.rs: BgpFlowSpec Serialize, Deserialize"])
p("Exactly which documents the hand-written deserialisers accept",
  "A wrapped prefix (route distinguisher, labels, path identifier) is deserialised exactly from a document with its two fields, each once, in any order and no other, or from the two values in sequence; a field that is missing is reported by its name. A prefix of any kind is deserialised exactly from the texts that parse.",
  "every document",
  "All documents.",
  ["src/afi/mod.rs: ser module, BgpNet Deserialize"])
p("What serialised values look like, and that they are told apart",
  "An attribute is serialised as one entry under the name of its kind, addresses as their texts, numbers as numbers, wrapped prefixes with their two fields; two different attributes, FlowSpec rules included, are never serialised to the same document.",
  "every attribute and every pair of attributes",
  "All pairs of values, of any size.",
  ["src/message/attributes/mod.rs: BgpAttrItem Serialize", "src/afi/mod.rs: Serialize", "src/afi/flowspec.rs: Serialize"])
p("Routes of every family are lawful keys",
  "Prefixes, routes of every family, route collections, capabilities and OPEN messages can be sorted and kept in ordered and hashed maps and sets: the comparison is a total order, it says Equal of exactly the values that are ==, those hash alike, partial_cmp says the same as cmp, and two values are the same key only if they differ in nothing but MPLS label stacks.",
  "every pair and triple of values of every route type, lists of any length",
  "All pairs and triples of values.",
  ["src/afi/*.rs: derived PartialEq, Eq, PartialOrd, Ord, Hash", "src/afi/mod.rs: MplsLabels, Labeled, WithRd, WithPathId comparisons", "src/afi/evpn.rs", "src/afi/mvpn.rs", "src/afi/vpls.rs", "src/afi/flowspec.rs"])
p("Path attributes are lawful keys",
  "Path attributes, attribute sets nested to any depth included, are totally ordered, and ==, the order and hashing agree with each other, so that attributes can be interned, sorted and deduplicated.",
  "every pair and triple of attributes, sets nested to any depth",
  "All triples of values, sets nested in sets.",
  ["src/message/attributes/mod.rs: BgpAttrItem derived comparisons", "src/message/attributes/attrset.rs: BgpAttrSet", "src/message/attributes/aspath.rs: BgpAS PartialEq, Ord, Hash", "src/message/attributes/pmsitunnelattr.rs: BgpPMSITunnel"])
p("Sorted tables group routes",
  "Sorting puts routes in the order of their types and attributes in the order of their kinds; in a sorted table of prefixes every prefix is directly followed by the prefixes it contains, with nothing else between them.",
  "every three prefixes in network form of a kind, every pair of routes or attributes",
  "All triples of prefixes.",
  ["src/afi/ipv4.rs: BgpAddrV4 Ord, contains", "src/afi/ipv6.rs: BgpAddrV6 Ord, contains", "src/afi/mac.rs: MacAddress, BgpAddrMac Ord, contains", "src/afi/evpn.rs: BgpEVPN Ord", "src/message/attributes/mod.rs: BgpAttrItem Ord"])
p("Exactly which texts are accepted, and for which values",
  "A text is parsed to a prefix, network, MAC address, route distinguisher, MDT prefix or community if and only if it is one of the texts of this value: dotted IPv4 addresses, IPv6 addresses as RFC 4291 writes them (any case, leading zeroes, :: once, an IPv4 address at the end), lengths, numbers, names of well-known communities; a prefix without length is a host; no text stands for two values.",
  "every text and every value",
  "All texts, of any length.",
  ["src/afi/ipv4.rs: BgpAddrV4 FromStr", "src/afi/ipv6.rs: BgpAddrV6 FromStr", "src/afi/mac.rs: FromStr", "src/afi/mod.rs: BgpNet, BgpRD FromStr", "src/afi/mdt.rs: FromStr", "src/message/attributes/community.rs: BgpCommunity, BgpCommunityList FromStr"])
p("What was received can be sent on unchanged",
  "NLRI and UPDATE messages that were read from the wire can be written again in the same session, and what is written is read as the same NLRI and the same message: a route server or reflector passes on what it got.",
  "every octet string that is accepted as NLRI of any family or as the body of an UPDATE, every session, every buffer with room",
  "All octet strings, of any length, in every session; the exact set of exceptions.",
  ["src/afi/mod.rs: BgpAddrs::decode_from, BgpAddrs::encode_to", "src/message/update/mod.rs: decode_from, encode_to", "src/message/attributes/*.rs"])
p("Exactly which NLRI and which UPDATE messages come back unchanged",
  "An NLRI collection, an UPDATE message, is written in a session as octets that the same session reads as the same collection, the same message, exactly if it fulfils the documented conditions: the family and form of the session, well-formed routes without set bits behind the prefixes, attributes with a faithful encoder, and lengths that fit the length fields. For all others no buffer gives that.",
  "every collection of every family, every message, every session, every buffer",
  "All values and buffers; that nothing else comes back is a statement about all other values.",
  ["src/afi/mod.rs: BgpAddrs::decode_from, BgpAddrs::encode_to", "src/message/update/mod.rs: decode_from, encode_to", "src/message/attributes/*.rs"])
p("Two speakers that exchanged OPENs understand each other",
  "Two sides that read each other's OPEN and match capabilities agree on the width of AS numbers and on the families with path identifiers, in both directions, and every UPDATE one of them can send in its session is read by the other one as the same message.",
  "every two sessions on the same transport with encodable capabilities, every UPDATE message that can be sent, every buffer with room",
  "All pairs of capability lists and all messages; the two ends are different session objects.",
  ["src/lib.rs: BgpSessionParams::open_message, match_caps, match_addpath_caps, check_addpath_send, check_addpath_receive, check_caps", "src/message/open.rs", "src/message/update/mod.rs"])
p("The example program prints what the peer sends",
  "The example program opens the session with its parameters, takes over what the peer answers, and then prints the UPDATE messages of the peer, all and in order, complains about those that cannot be read, ignores KEEPALIVEs, stops at a NOTIFICATION, and ends regularly when the connection is closed, whatever octets the peer sends.",
  "every session parameters, every stream of octets from the peer",
  "All octet streams, of any length, with any sequence of messages.",
  ["examples/bgpdumper.rs: BgpDumper::start_active, send_keepalive, lifecycle, main", "src/lib.rs: decode_message_head, recv_message_head, prepare_message_buf"])
p("What is decoded holds no more than the octets it was decoded from",
  "Routes, labels, FlowSpec operators, AS numbers, communities, attributes at any depth of nesting, capabilities, texts and uninterpreted octets in a decoded NLRI field, attribute, UPDATE, OPEN or BMP message are together no more than the octets it was decoded from; attribute sets are nested at most once in seven octets; the table of a BMP session holds no more than the octets it was shown. No length field, count or nesting on the wire makes the library hold more than it was sent.",
  "every octet string, every session, every family, every history of BMP messages, every sequence of messages read into one object",
  "All inputs, with any lengths and counts in them and any depth of nesting.",
  ["src/afi/mod.rs: BgpAddrs::decode_from", "src/message/attributes/mod.rs: BgpAttrItem::decode_from", "src/message/attributes/attrset.rs", "src/message/update/mod.rs: decode_from", "src/message/open.rs: decode_from", "src/bmp/mod.rs: BMPSession::decode_from"])
p("What Debug prints tells values apart",
  "Two lists of routes, attributes, UPDATE, OPEN, NOTIFICATION or BMP messages or session parameters for which {:?} prints the same text are equal; the text is one line, whatever strings the peer sent in capabilities and information TLVs; from the standard output of the example program one can tell exactly which NOTIFICATION and UPDATE messages it received, in order.",
  "every pair of values of these types, every pair of runs of the example program; any tables of printable and combining characters",
  "All pairs of values, lists of any length, attribute sets nested to any depth, strings with any characters.",
  ["src/afi/*.rs: Debug", "src/message/attributes/*.rs: Debug", "src/message/update/mod.rs: BgpUpdateMessage Debug", "src/message/open.rs: BgpOpenMessage Debug", "src/message/notification.rs: BgpNotificationMessage Debug, error_text", "src/lib.rs: BgpCapability, BgpSessionParams Debug", "src/bmp/*.rs: Debug", "examples/bgpdumper.rs: println!"])
p("What Display prints tells attributes and next hops apart",
  "Two path attributes of any kinds, two lists of routes or two next hops for which {} prints the same text are equal; every attribute other than ATOMIC_AGGREGATE is printed with the name of its kind.",
  "every pair of attributes of any kinds, attribute sets nested to any depth included; every pair of route lists of any families; every pair of next hops",
  "All pairs of values; a text may be ambiguous only between values nobody thought of comparing.",
  ["src/message/attributes/*.rs: Display", "src/afi/mod.rs: BgpAddrs Display, BgpAddr Display"])
p("What the buffer held before does not show in what is encoded",
  "The octets an encoder reports, or the way it fails, depend on the value, the session and the size of the buffer, and not on what an earlier message left in the buffer; so the octets sent for a message never contain pieces of an earlier one.",
  "every value of every encodable type, well-formed or not, every session, every two buffers of the same size",
  "All pairs of buffers; a test usually encodes into a fresh buffer of zeros, where octets that are reported but never written look like zeros.",
  ["src/afi/*.rs: encode_to", "src/message/attributes/*.rs: encode_to", "src/message/update/mod.rs: encode_to", "src/message/open.rs: encode_to", "src/lib.rs: BgpCapability::fill_buffer, send_message_buf, prepare_message_buf", "src/bmp/*.rs: encode_to"])
p("What is read of a message that was cut off is part of the message",
  "If octets are accepted as the routes of a family, as an UPDATE or as an OPEN message, and are also accepted with more octets behind them, then what was read first is the beginning of what is read then: the same withdrawn routes, attributes, AS number, hold time and router id, and the announced routes or capabilities read first come first and unchanged. A message that was cut off never yields routes or capabilities that are not in the whole message.",
  "every octet string and every continuation of it, every family, every session",
  "All messages and all places at which they may be cut off.",
  ["src/afi/mod.rs: BgpAddrs::decode_from", "src/message/update/mod.rs: decode_from", "src/message/open.rs: decode_from", "src/message/notification.rs: decode_from"])
p("The error that asks for a larger buffer goes away with a larger buffer",
  "For every value there is a size of buffer from which on encoding always has the same outcome, and that outcome is not the error that the buffer is too small: it is success with one number of octets, or an error of another kind, or a panic. A program that enlarges its buffer on that error and tries again stops.",
  "every value of every encodable type, well-formed or not, every session, every buffer of any size and contents",
  "All sizes of buffers; a retry loop that never ends is not seen with a few sizes.",
  ["src/afi/*.rs: encode_to", "src/afi/flowspec.rs: BgpFlowSpec::encode_to", "src/message/attributes/*.rs: encode_to", "src/message/update/mod.rs: encode_to", "src/message/open.rs: encode_to", "src/lib.rs: BgpCapability::fill_buffer, prepare_message_buf", "src/bmp/*.rs: encode_to"])
p("A build without overflow checks does what one with them does, except where that one crashes",
  "Whatever reading or writing messages, attributes, routes and headers, or asking a prefix about its addresses, returns in a build with overflow checks, value or error, it returns in a build without them too; the builds differ only on inputs that make the checked one panic. The decoders end in both.",
  "every function with arithmetic that can overflow, every input, every session, every buffer",
  "All inputs; tests run with overflow checks on, users run release builds, and the two are never compared on the inputs that matter.",
  ["src/lib.rs: decode_message_head, prepare_message_buf, send_message_buf", "src/afi/*.rs: extract_bits_from, set_bits_to, decode_from, encode_to, in_subnet, range_first, range_last, contains", "src/message/**/*.rs: decode_from, encode_to"])
p("What is read and written without overflow checks where a checked build crashes",
  "Without overflow checks, the bits of labels and route distinguishers are taken off a prefix length modulo 256, a message length below 19 is read as a body of up to 65535 octets, and a message of more than 65535 octets is announced and sent with its length modulo 65536. Exactly those routes are read that this arithmetic gives, plain IPv4 and IPv6 routes never crash, and a route that is read only because of it takes more octets than its length announces.",
  "every octet string, the NLRI of every family in every session, every UPDATE and BMP message, every history of BMP messages, every label stack, every length of a message",
  "All length octets with all label stacks; what wraps around depends on both.",
  ["src/afi/mod.rs: decode_bgpitems_from, encode_bgpitems_to, Labeled, WithRd", "src/afi/ipv4.rs, src/afi/ipv6.rs: extract_bits_from, set_bits_to", "src/lib.rs: decode_message_head, prepare_message_buf, send_message_buf"])
p("Asking a prefix about its addresses never crashes a build without overflow checks, and the answers are right",
  "Without overflow checks, the first and last address of a prefix, the test whether an address is in it and the test whether a prefix contains another return for every prefix length, and for lengths within the width of the address the answers are those of the set of addresses that the prefix covers.",
  "every IPv4, IPv6 and MAC prefix with every prefix length, every address",
  "All addresses and all 256 prefix lengths; the shift amounts wrap around at the width of the word.",
  ["src/afi/ipv4.rs, src/afi/ipv6.rs, src/afi/mac.rs: in_subnet, range_first, range_last, contains, norm_subnet, host_mask"])
p("Different keys feed different data to a hasher",
  "Two routes, route lists, capabilities, OPEN messages or path attributes feed the same data to a hasher exactly if cmp says they are equal, that is if they are the same value up to label stacks; this also holds inside longer keys, whatever data goes before and after, so a compound key is not confused with another one whose parts are split differently.",
  "All pairs of values of every hashable kind of the crate, nested attribute sets of any depth, and any data fed before and after.",
  "Collisions by construction (fields hashed without a length or a variant mark) show only for special pairs of values; tests compare a few.",
  ["src/afi/*.rs: derived Hash", "src/afi/mod.rs: Labeled Hash, WithPathId Hash, MplsLabels Hash", "src/message/attributes/*.rs: derived Hash", "src/message/attributes/aspath.rs: BgpAS Hash", "src/lib.rs: BgpCapability"])
p("What a decode that fails leaves in the message object",
  "If decoding into a message object fails, with an error or a panic, its contents afterwards are determined: an UPDATE object keeps its announced prefixes, has the withdrawn prefixes of the message if these were read, and has the attributes of the message up to the first one that is not read appended to those it had; an OPEN object is unchanged if the message is too short or of another version and otherwise has nothing of its old contents left; a NOTIFICATION object is unchanged. So an OPEN or NOTIFICATION object may be used again after a failure; an UPDATE object that is used again carries attributes of the failed message.",
  "every object contents before the call, every octets, every session, every outcome",
  "All places at which decoding can stop; tests look at objects after successful calls.",
  ["src/message/update/mod.rs: BgpUpdateMessage::decode_from", "src/message/open.rs: BgpOpenMessage::decode_from", "src/message/notification.rs: BgpNotificationMessage::decode_from"])
p("A value built with a constructor is sent as the arguments of the constructor",
  "An attribute, AS path, community list, prefix, VPN route, MDT or VPLS route built with the constructors of the crate is put on the wire as flags, type code, length and the arguments in their order; a list built from a vector holds every member of the vector once, in ascending order; a list made with new() is empty; a route made labeled without labels is sent like the unlabeled route; the default values are what they are documented as.",
  "every argument of every constructor, in every session that carries the attribute; AS paths of 1 to 255 numbers with 32-bit AS numbers; every vector of communities that fits an attribute",
  "All arguments; a swapped or dropped argument shows only if both differ, and vectors may hold members in any order and number.",
  ["src/afi/mod.rs: BgpRD::new, MplsLabels::fromvec, Labeled::new, Labeled::new_nl, WithRd::new, WithPathId::new, BgpAddrs::new", "src/afi/mdt.rs: BgpMdtV4::new, BgpMdtV6::new, Default", "src/afi/vpls.rs: BgpL2::new", "src/message/attributes/*.rs: new, from, from_vec"])
p("What the kind of an error says, and what it prints",
  "An OPEN refused with another error than InsufficientBufferSize is refused with the same error whatever octets follow; an OPEN of less than ten octets and a BMP header of less than five are refused with InsufficientBufferSize, another version with Static. A message header is only ever refused with Static, a NOTIFICATION exactly if it has less than two octets, with Static. An UPDATE that ends before its attributes is refused with InsufficientBufferSize, one that ends within them with ProtocolError. Errors print as BgpError and their text, so that they print alike exactly if the texts are the same.",
  "every octet string, every object and session, every continuation, every error text",
  "All continuations of all refused inputs.",
  ["src/error.rs: BgpError, Display", "src/message/open.rs: BgpOpenMessage::decode_from", "src/message/notification.rs: BgpNotificationMessage::decode_from", "src/message/update/mod.rs: BgpUpdateMessage::decode_from", "src/lib.rs: decode_message_head", "src/bmp/mod.rs: BmpMessageHeader::decode_from"])

p("A monitoring station reads the messages a monitored router sent, from end to end",
  "A router encodes BMP messages one after the other, each behind a common header with its length, and a station reads the stream with one session object: it gets exactly the messages sent, in order, whatever peers come up and go down in between. A message that is not accepted does not change where the next one begins.",
  "every list of messages that can be sent, every sequence of peer-ups, peer-downs and routes of any peers, every OPEN in a peer-up; every stream of framed messages for the second part",
  "Histories of any length: how a route is read depends on all the peer-ups and peer-downs before it.",
  ["src/bmp/mod.rs: BMPSession::decode_from, BmpMessage::encode_to, BmpMessageHeader", "src/bmp/msgrmon.rs: BmpMessageRouteMonitoring", "src/bmp/msgpeer.rs: BmpMessagePeerUp, BmpMessagePeerDown", "src/bmp/bmputl.rs: From<&BmpMessagePeerHeader> for BgpSessionParams", "src/lib.rs: From<&BgpOpenMessage> for BgpSessionParams"])

p("Two programs that use the library understand each other, and a broken connection never yields part of a message",
  "Two programs open a session with the library (each sends its OPEN, reads the other's and settles the session with it) and then send KEEPALIVE, UPDATE and NOTIFICATION messages from a buffer that is used again and again: the other end reads exactly the messages that were said, in order. If the connection breaks after any octet, it has read exactly the messages that had come in full, sees a clean end exactly if it broke between two messages, and an error otherwise.",
  "every two sessions, every history of messages the session allows, every buffer contents, every octet at which the connection breaks",
  "Histories and crash points of any number; the reading end depends on both OPENs.",
  ["src/lib.rs: prepare_message_buf, recv_message_head, decode_message_head, match_caps, open_message", "src/message/open.rs, src/message/update/mod.rs, src/message/notification.rs, src/message/keepalive.rs: encode_to, decode_from"])

p("A table keyed by received routes holds the routes in force",
  "A program keeps a BTreeMap with routes as keys; for every UPDATE it receives it removes the withdrawn routes and inserts the announced ones with the attributes. After every history the table has exactly the routes that were announced and not withdrawn since, each once, as announced last (with its labels and attributes). Routes are the same if BGP says so: path identifier, route distinguisher and the bits of the prefix count, labels and the bits behind the prefix do not; for EVPN the Ethernet segment and the gateway of MAC and prefix routes do not.",
  "every history of UPDATE messages, every kind of prefix with and without path identifiers, labels and route distinguishers, EVPN routes",
  "All histories; a route that is not replaced or not withdrawn shows only after two messages that write it differently.",
  ["src/afi/ipv4.rs, src/afi/ipv6.rs: from_bits, derived Ord", "src/afi/mod.rs: Labeled, WithRd, WithPathId Ord", "src/afi/evpn.rs: derived Ord", "src/message/update/mod.rs: BgpUpdateMessage::decode_from"])

p("The order of capabilities does not matter, and matching again changes nothing",
  "match_caps with the same peer capabilities again changes nothing at all. Two peers that list the same capabilities, in any order and number, and the same AddPath entries are matched alike; two sessions that list their own capabilities in another order keep the same ones and agree on AS numbers and on path identifiers for every family.",
  "every session, every two capability lists that say the same, every permutation of the own capabilities",
  "All permutations of lists of any length; the order matters only for particular combinations of entries.",
  ["src/lib.rs: BgpSessionParams::match_caps, match_addpath_caps, check_caps, find_addpath, check_addpath_send, check_addpath_receive, check_capability"])

p("Exactly which OPEN and BMP messages come back from the wire unchanged",
  "An OPEN comes back unchanged from encode_to and decode_from if and only if its AS number has two octets, all its capabilities can be put on the wire (none of them an FQDN capability, no value above 255 octets) and the buffer has room. A received OPEN can be sent on if and only if it has no FQDN capability. A BMP peer-up comes back if and only if both its OPENs can and no address is IPv6 within ::/96; a peer-down if and only if its address is not; a termination if and only if its text is UTF-8 of up to 65535 octets; an initiation if and only if moreover it has no system description and name; a route monitoring message if and only if the address is not in ::/96 and its UPDATE comes back in the session of the peer header and fits; statistics reports and route mirroring can not be sent.",
  "every OPEN and BMP message, every buffer and its contents, every object decoded into",
  "Both directions range over all messages; that nothing else comes back (also not by the length wrapping around) is a claim on all values.",
  ["src/message/open.rs: BgpOpenMessage::encode_to, decode_from, BgpCapability", "src/bmp/mod.rs: BmpMessage::encode_to, decode_from", "src/bmp/msginit.rs, src/bmp/msgterm.rs, src/bmp/msgpeer.rs, src/bmp/msgrmon.rs", "src/lib.rs: BgpSessionParams::prepare_message_buf"])

p("The parts of an UPDATE are read independently of one another",
  "A path attribute is read the same whatever attributes stand before or behind it and whatever routes the message carries. The same attributes in another order are read as the same attributes in that order, and if no type occurs twice all accessors give the same answers (RFC 4271 section 5); a message that is refused is refused in every order. A message with many routes is read as messages with some of the routes each, and a table kept from the messages ends up the same.",
  "every UPDATE, every session, every permutation of the attributes, every way to split the routes over messages",
  "All permutations and all splits of messages of any length; one test fixes one order.",
  ["src/message/update/mod.rs: BgpUpdateMessage::decode_from, get_attr", "src/message/attributes/mod.rs: BgpAttrItem::decode_from", "src/afi/mod.rs: decode_bgpitems_from, decode_pathid_bgpitems_from"])

p("Short reads, short writes, interruptions and failures of the connection",
  "However a reader or writer cuts the octets into pieces and however often its calls are interrupted, receiving a message header, sending a message, reading a history of messages and the example program do the same as with the octets as a whole. If a call fails, the octets sent are the first octets of the messages, once and in order, and the messages read are the first ones of those sent; the caller gets an error, never a part of a message, another message or a panic caused by the failure. Two ends of a session that agree on its parameters hear exactly what got through as a whole.",
  "every reader and writer: all schedules of short reads, short writes, interruptions, closed and failing calls in both directions; all histories of messages",
  "The schedules of a connection are unbounded and not under the control of a test.",
  ["src/lib.rs: BgpSessionParams::recv_message_head, send_message_buf", "src/error.rs: From<std::io::Error> for BgpError", "examples/bgpdumper.rs: start_active, lifecycle, main"])

p("The outcome of encoding, for every value",
  "Encoding an UPDATE, a path attribute or a collection of NLRI into a buffer with enough room has one outcome, determined by the value and the session alone, for every value whether or not it can be put on the wire: certain octets, an error, or a panic. The octets are the wire form of the value except: prefixes of families other than that of the session are left out of the message; the octets of AGGREGATOR are counted but not written; a label goes out as its last 20 bits; the length octet of a prefix is reduced where there are more than ten labels; an EVPN prefix route for IPv6 goes without its gateway; a VPLS item goes without its last two octets; multicast VPN routes of types 3 to 7 and long flow specifications go with other lengths.",
  "all UPDATE messages, path attributes and collections of NLRI, all sessions, all buffers that are large enough",
  "The values that cannot be put on the wire are as many as the others, of every shape, and no test lists them all.",
  ["src/message/update/mod.rs: BgpUpdateMessage::encode_to", "src/message/attributes/mod.rs: BgpAttrItem::encode_to, encode_bgpattr", "src/afi/mod.rs: BgpAddrs::encode_to, encode_bgpitems_to, encode_long_bgpitems_to, encode_pathid_bgpitems_to", "src/afi/evpn.rs, src/afi/flowspec.rs, src/afi/mvpn.rs, src/afi/vpls.rs, src/afi/mdt.rs: encode_to, set_bits_to, pack_to"])

p("The outcome of encoding OPEN and BMP messages and of sending, for every value",
  "Encoding an OPEN, NOTIFICATION or BMP message, putting a message header in front of a body and sending the message each have one outcome in buffers with enough room, determined by the value alone, for every value: certain octets, an error, or a panic. An OPEN is refused exactly if a restart time or stale time does not fit its field; a host name goes out without its length and with two octets that are not written; lengths above 255 are reduced to an octet. Of a body of 65536 octets or more only the octets beyond the last multiple of 65536 are counted, and as many from its beginning are sent; there is a panic if the length so reduced leaves no room for the header. The texts of a BMP initiation are all sent with the same type, and statistics reports and route mirroring panic.",
  "all OPEN, NOTIFICATION and BMP messages, all message types and bodies, all buffers that are large enough",
  "There is no bound on the number of capabilities, the lengths of names and texts and the size of a body, and the lengths wrap around only for large ones.",
  ["src/message/open.rs: BgpOpenMessage::encode_to", "src/lib.rs: BgpCapability::fill_buffer, BgpSessionParams::prepare_message_buf, send_message_buf", "src/message/notification.rs: BgpNotificationMessage::encode_to", "src/bmp/mod.rs: BmpMessage::encode_to", "src/bmp/msgrmon.rs, src/bmp/msgpeer.rs, src/bmp/msginit.rs, src/bmp/msgterm.rs: encode_to"])

p("The outcome of encoding and sending without overflow checks, for every value",
  "In a build without overflow checks, encoding any collection of NLRI, attribute, UPDATE or BMP message, putting a message header in front of a body and sending it each have one outcome in buffers with enough room, determined by the value alone, for every value. Where a build with overflow checks does not panic the outcome is the same. A list of unicast prefixes panics exactly if a length is from 33 (IPv6: 129) to 248; a length of 249 or more is sent as the length octet alone, which no reader accepts, and in a FlowSpec rule 32 octets of whatever is in the buffer go out after it. A body whose length leaves 65517 or more over a multiple of 65536 goes out as fewer than 19 octets of the header.",
  "all collections of NLRI, attributes, UPDATE and BMP messages, all sessions, all message types and bodies, all buffers that are large enough",
  "Tests run with overflow checks on; the wrapped values appear only for lengths no test uses, and there is no bound on the number of items.",
  ["src/afi/mod.rs: BgpAddrs::encode_to", "src/afi/ipv4.rs, src/afi/ipv6.rs: to_bits", "src/afi/flowspec.rs: encode_to", "src/message/update/mod.rs: BgpUpdateMessage::encode_to", "src/message/attributes/mod.rs: BgpAttrItem::encode_to", "src/lib.rs: BgpSessionParams::prepare_message_buf, send_message_buf", "src/bmp/mod.rs: BmpMessage::encode_to"])

p("Exactly which prefixes come back from the wire without overflow checks",
  "Sent and read by builds without overflow checks, a list of prefixes of any kind (unicast, labelled, VPN, MDT), with or without path identifiers, comes back unchanged exactly if every address has at most 32 or 128 bits (MDT for IPv6: 126) and no set octets behind its prefix, and every label stack is one that can be delimited and at none of its labels the bits that are left are a multiple of 256. What comes back with overflow checks also comes back without them, and more does: VPNv6 host routes with three labels and MDT prefixes of IPv6 from 64 bits on, on which a build with overflow checks panics. Labels are lost where the bits reach a multiple of 256, such as those of an IPv4 route of 16 bits from the tenth on.",
  "all lists of prefixes of all kinds, with and without path identifiers, all buffers that are large enough",
  "Tests run with overflow checks on. Whether the two wrapped computations cancel depends on the number of labels, which has no bound.",
  ["src/afi/mod.rs: encode_bgpitems_to, decode_bgpitems_from, encode_pathid_bgpitems_to, decode_pathid_bgpitems_from, MplsLabels, Labeled, WithRd", "src/afi/ipv4.rs, src/afi/ipv6.rs: to_bits, from_bits", "src/afi/mdt.rs: extract_bits_from, set_bits_to"])

p("Exactly which collections, attributes and messages come back from the wire without overflow checks",
  "Sent and read by builds without overflow checks, in any session: a collection of NLRI comes back unchanged exactly if it is of the family, its items are ones that come back, and it has path identifiers exactly if the session expects them in the octets sent. The items are prefixes as in C119; EVPN routes with up to 31 labels (ten with overflow checks) and the other EVPN routes, MVPN routes and flow specifications as with overflow checks; no VPLS route. An attribute comes back exactly if its NLRI do and its next hop is of the kind of the family, or it is one that comes back with overflow checks. An UPDATE comes back exactly if its two sections and all its attributes do, and the withdrawn prefixes and the attributes each take at most 65535 octets. What comes back with overflow checks also comes back without.",
  "all collections of all families, all attributes, all UPDATE messages, all sessions, all buffers that are large enough",
  "Tests run with overflow checks on. The claim is an equivalence over all values that can be built, and whether a value comes back depends on the octets of all parts before it.",
  ["src/afi/mod.rs: BgpAddrs::encode_to, BgpAddrs::decode_from", "src/afi/evpn.rs: encode_to, decode_from", "src/afi/flowspec.rs: encode_to, decode_from", "src/message/attributes/multiproto.rs: BgpMPUpdates, BgpMPWithdraws", "src/message/update/mod.rs: encode_to, decode_from"])

p("Exactly which BMP messages come back from the wire without overflow checks",
  "Sent and read by builds without overflow checks: a route-monitoring message comes back unchanged exactly if the peer address can be told apart in its field, the UPDATE comes back (C120) in the session of the peer header, and its octets are at most 65516; of longer ones, only the beginning is sent, and it is never read as the same message. Peer-up, peer-down, initiation and termination messages come back exactly if they do with overflow checks; statistics reports and route mirroring never. What comes back with overflow checks also comes back without; some route-monitoring messages come back only without.",
  "all BMP messages, all buffers that are large enough",
  "Tests run with overflow checks on. Lengths are reduced modulo 65536 on both sides; that no message is read as the same one from a part of its octets can not be tested for all.",
  ["src/bmp/mod.rs: BmpMessage::encode_to, BmpMessage::decode_from", "src/bmp/msgrmon.rs: encode_to, decode_from", "src/bmp/msgpeer.rs: encode_to, decode_from", "src/message/mod.rs: prepare_message_buf, decode_message_head"])

p("Exactly what comes back when the two ends do not agree about the session",
  "A message sent with one set of session parameters and read with another comes back unchanged exactly under these conditions: its prefixes are of the reader's session, and there are none if the sender's session is of the other address family; NEXT_HOP is of the family both ends assume; ORIGINATOR_ID is of the sender's family and, if it is IPv6, the reader's is IPv6 too; AS paths are empty, or both ends use 32-bit AS numbers, or, by coincidence, a path of a single number whose upper half equals the segment header is sent with 16-bit and read with 32-bit numbers; all other attributes depend on the reader only. No other parameters of the sender matter. A different width of AS numbers is never noticed: the path is read without error as a different one.",
  "all pairs of session parameters, all messages, all buffers that are large enough",
  "The combinations of two sets of parameters and a message are unlimited; tests use the same parameters on both ends.",
  ["src/message/update/mod.rs: encode_to, decode_from", "src/message/attributes/aspath.rs: encode_to, decode_from", "src/message/attributes/nexthop.rs", "src/message/attributes/originatorid.rs"])

p("Without overflow checks, too, what is decoded holds no more than the octets it was decoded from",
  "In a build without overflow checks, where length arithmetic wraps instead of stopping, the routes, attributes, labels, communities, AS numbers, capabilities and texts in what is decoded are still together no more than the octets they were decoded from, for NLRI of every family, attributes, UPDATE messages and BMP messages; attribute sets are nested at most once in seven octets; a message object that is used again holds no more than all messages it was used for; and the table of a BMP session, after any history, no more than the octets of the history. So no peer can make a release build allocate out of proportion to what it sends.",
  "all octet sequences, all session parameters, all address families, all histories of a BMP session",
  "The lengths at which the arithmetic wraps, and the ways to combine them in one message, cannot be enumerated; a single combination that reads the same octets twice would be enough.",
  ["src/afi/mod.rs: MplsLabels::extract_bits_from, Labeled, WithRd, decode_bgpitems_from", "src/message/update/mod.rs: decode_from", "src/bmp/mod.rs: BMPSession"])

p("How a monitoring station reads the messages about one peer does not depend on the messages about other peers",
  "A station reads all BMP messages of a router with one session object. For every history, the results for the messages about one peer (the same 24 octets of distinguisher and address) are exactly those of reading only the messages about this peer: messages about other peers, garbage, and messages that fail, in any number and any interleaving, change nothing. In builds with and without overflow checks.",
  "all histories of octet sequences (well-formed or not), all peers, all interleavings, both builds",
  "The interleavings of messages about many peers are unbounded in number; a table that confuses two peers in a single constellation would read routes with the wrong parameters.",
  ["src/bmp/mod.rs: BMPSession::decode_from, decode_rm, BmpMessagePeerHeader"])

p("A monitoring station that joined late or lost messages is in step again with the next peer-up or peer-down of a peer",
  "Two stations with whatever different histories read all later messages about a peer alike from any peer-up or peer-down of this peer on; after a peer-down, as if nothing had ever been read. A message that is neither a peer-up nor a peer-down (also garbage and messages on which decoding fails) may be lost or repeated without any effect on what is read later, any message may be repeated, and neighbouring messages about different peers may change places. In builds with and without overflow checks.",
  "all pairs of histories, all octet sequences, all continuations, both builds",
  "It quantifies over two unbounded histories and an unbounded continuation; state that survives in some corner of the table shows only in a particular combination.",
  ["src/bmp/mod.rs: BMPSession::decode_from, decode_rm"])

p("Without overflow checks, too, the parts of an UPDATE are read independently and routes one by one",
  "In a build without overflow checks: octets that are read to their end as routes, followed by octets that are read as routes, are read as the routes one behind the other, exactly if the session takes all to have path identifiers or all not to (always, if it does not guess); what is read of octets that were cut off is the beginning of what is read of all, under the corresponding condition; each attribute of an UPDATE is read by itself, so the order of attributes does not matter; and an UPDATE with many routes is read as two with some of them each. A label stack that runs beyond the announced length of its route never changes how the routes before and behind it are read.",
  "all octet sequences, families, session parameters, attribute lists and their permutations",
  "The wrapped lengths of one route decide where the next one begins; the combinations of routes, and the places to cut, are unbounded.",
  ["src/afi/mod.rs: MplsLabels::extract_bits_from, Labeled, WithRd, decode_bgpitems_from", "src/message/update/mod.rs: decode_from"])

p("A BMP stream sent or read by a build without overflow checks",
  "A router and a monitoring station, each with or without overflow checks: what a router with checks sends, one without sends octet for octet; a station without checks cuts any stream of octets into as many messages as one with checks, and up to the first message on which the latter crashes gets the same result for each; of a stream of framed messages it reads the i-th as exactly what its octets say for the parameters that the messages before leave its peer with; if the connection breaks it has exactly the messages that came completely, and an error if one came in part; and a list of messages that can be sent is read as that list, whatever the builds at the two ends.",
  "all octet streams, all lists of framed messages, all positions in them, all places where the connection can break, all lists of messages that can be sent, all combinations of builds",
  "Streams and histories are unbounded, and a wrapped length in one message changes how all later ones are read.",
  ["src/bmp/mod.rs: BMPSession::decode_from, BmpMessageHeader, BmpMessage::encode_to", "src/bmp/msgpeer.rs: BmpMessagePeerDown::decode_from"])

p("What the buffer held before does not show in what a build without overflow checks encodes",
  "Also in a build without overflow checks, where lengths wrap instead of ending in a panic, the octets an encoder reports, or the way it fails, depend on the value, the session and the size of the buffer, and not on what an earlier message left in the buffer; neither do the octets handed to the socket, even where the length in the message header wraps.",
  "every collection of NLRI, attribute, UPDATE and BMP message, well-formed or not, every session, every two buffers of the same size",
  "All pairs of buffers of all sizes; and tests run with overflow checks, where the values that wrap end in a panic.",
  ["src/afi/mod.rs: BgpAddrs::encode_to", "src/afi/flowspec.rs: encode_to_fs, get_store_size", "src/message/update/mod.rs: encode_to", "src/lib.rs: BgpSessionParams::send_message_buf, prepare_message_buf", "src/bmp/*.rs: encode_to"])

out = os.path.join(os.path.dirname(__file__), "..", "properties.jsonl")
with open(out, "w") as f:
    for x in P: f.write(json.dumps(x) + "\n")
print(len(P))
