# zettabgp: formal model and proofs in Lean 4

## 1. What is here

* `properties.jsonl` - the English properties (C01...), written by `tools/gen_properties.py`.
* `lean/Verif/Basic.lean` - the outcome monad `Res`, byte buffers and slice operations.
* `lean/Verif/Model/*.lean` - the model, function by function. Each definition cites the file and lines it models.
* `lean/Verif/Spec/*.lean` - small specifications written from the RFC wire formats and the English properties.
* `lean/Verif/Lemmas/*.lean` - helper lemmas.
* `lean/Verif/Props/*.lean` - the property theorems `Zbgp.Props.Cnn_...`, each with an `example` beside it that meets its
  hypotheses with a concrete case.
* `MANIFEST.json` - property, status, theorem names, note; written by `tools/gen_manifest.py` from the theorem names and
  `tools/notes.json`.
* `seeded/LOG.jsonl` - what happened to the theorems when the model was edited the way a bug would change the program.
* This file is `tools/design_head.md` followed by tables that `tools/gen_design.py` fills in.

## 2. How the code is modelled

* `u8/u16/u32/u64/u128` are `BitVec n`; `as` casts are `setWidth`. `usize` is `Nat`: all `usize` sums are of buffer positions and
  lengths, which are far below 2^64. A subtraction below zero is a panic.
* Byte slices and `Vec<u8>` are `List (BitVec 8)`. A `&mut [u8]` parameter becomes an argument and a returned buffer, `&mut self` an
  argument and a returned value. What an encoder leaves in the buffer when it returns `Err` is not modelled.
* `Ipv4Addr`/`Ipv6Addr` are `BitVec 32`/`BitVec 128`; a `String` is a list of characters, a Rust `String` taken from the wire is its
  bytes with a UTF-8 test.
* The result type is `Res a = ok a | err e | panic | hang`. `err` is `Result::Err`; `panic` is every Rust panic: slice or index out
  of range, `unwrap` on nothing, `unimplemented!`, `clone_from_slice` length mismatch, arithmetic overflow. Overflow is
  modelled as in a build with overflow checks. A theorem that concludes `= ok ..` therefore also holds for release builds
  (no overflowing operation was executed); a theorem that exhibits a panic by overflow holds for builds with overflow checks
  and says so. `Verif/Model/Into.lean` has `decode_from` of UPDATE, OPEN and NOTIFICATION a
  second time, with the object after a call that fails. `Verif/Model/Release.lean` and `ReleaseBmp.lean` have every function whose arithmetic can overflow a second time, for both kinds of
  build: C102 shows that they agree unless the checked one panics, C103 and C104 what the other does then. `hang` is a loop that goes on for ever: loops are recursion with fuel of at least the buffer length, the model
  answers `hang` when it is used up, and the theorems show that it never is (C06, C41, C59 and the list decoders).
* `BgpError` keeps its constructors, not its message text; how errors with their texts print is modelled apart (Model/Error.lean).
* `BTreeSet<T>` is the strictly ascending list of its members, `BTreeMap<K,V>` a sorted association list, both with the
  behaviour the standard library documents (insert replaces, iteration ascends).
* Traits (`BgpItem`, `BgpAddrItem`, `FSOperItem`, `Display`, orderings) are type classes, their `impl`s instances. The derived
  `PartialOrd`/`Ord` of structs and enums are the lexicographic orders that Rust defines.
* The recursion of `ATTR_SET` inside `ATTR_SET` is unbounded in the model; the stack depth of a real thread is not modelled.

## 3. Trusted base

* Lean 4.33.0's kernel.
* The axioms `propext`, `Classical.choice`, `Quot.sound`. Section 7 lists which of them each theorem depends on. There are no
  others: no `sorry`, no axiom of our own, no `native_decide`, no `bv_decide`.
* The transcription of the Rust source in `Verif/Model`, and the reading of the English in `Verif/Spec`.
* The behaviour of `std` functions that the model states itself: number formatting and parsing, `Ipv4Addr`/`Ipv6Addr` `Display` and
  `FromStr` (`Verif/Model/Text.lean`, `Verif/Model/Display.lean`: dotted quads, RFC 5952 compression as `core::net` does it), slices,
  `BTreeSet`/`BTreeMap`, `str::split`, `String::from_utf8`, derived orderings
  (`derive(PartialOrd)` compares field by field with `partial_cmp` and stops at the first answer other than `Some(Equal)`;
  `derive(Hash)` feeds the discriminant and the fields in order to the hasher, a list its length first).
* The documented behaviour of `serde`, its derive macros and a self-describing text format such as JSON, as stated in the first
  half of `Verif/Model/Serde.lean` (which visitor method a format calls, unknown fields, externally tagged enums).
* Not part of the model and not trusted: the Rust compiler, the operating system, the network.

## 4. What is modelled and what is not

Modelled, all under `src`:

* `util.rs`, `lib.rs` (capabilities, session parameters, header reader and writer, capability matching), `error.rs` as constructors.
* `afi/`: IPv4, IPv6, MAC and mixed prefixes, route distinguishers, label stacks, `Labeled`/`WithRd`/`WithPathId`, all item list
  decoders and encoders, EVPN, MVPN, VPLS, MDT, FlowSpec, `BgpAddrs` with its families, orderings, containment and ranges.
* `message/`: OPEN, NOTIFICATION, UPDATE, all path attributes, multiprotocol attributes, update helper functions.
* `bmp/`: all messages, the session table.
* Texts: `Display` and `FromStr` of communities, route distinguishers, prefixes, MAC addresses; `Display` of routes, AS numbers,
  extended and large communities, notifications.
* The comparisons and hashes, hand-written and derived, of all routes, attributes, capabilities and OPEN messages
  (`Verif/Model/Order.lean`, `Verif/Model/Derived.lean`).
* `examples/bgpdumper.rs`, with the connection as the octets that go in and out (`Verif/Model/Dumper.lean`), and with the calls of
  `read` and `write` of the connection (`Verif/Model/Io.lean`). `read_exact` and `write_all` are modelled as the default methods of the standard library.
* The `Debug` text of every public type, derived or written by hand, without the alternate flag: the helpers of `std::fmt`
  (`debug_struct`, `debug_tuple`, `debug_list`, `debug_set`, `escape_debug`) are modelled with it (`Verif/Model/Debug.lean`); the
  two Unicode tables `escape_debug` looks into are arbitrary.
* The `Display` text of attributes, route lists and next hops (`Verif/Model/AttrDisplay.lean`).
* The `serde` implementations, hand-written and derived, of all attributes, NLRI and prefixes.

Not modelled:

* Those `Display` implementations that are not listed above; the alternate form of `Debug`; the texts of errors.
* Sockets, threads and timers, other than by what the calls of `read` and `write` return.
* The `log` calls.
* Time, memory and stack use.

## 5. What the proofs found

Where the code violates a property, the negation is proved for a concrete case or, more often, the exact set of cases is
characterised, and the strongest true variant is proved in a theorem with the suffix `_partial`.

| where | what happens | theorem |
|---|---|---|
| message header | a length field below 19 panics (subtraction overflow); bodies above 65516 octets panic or are announced as short ones | C02_head_can_panic, C03_header_write_wraps |
| OPEN | FQDN capability does not come back; parameters above 255 octets wrap the length octet | C08_fqdn_does_not_round_trip, C09_open_length_wraps |
| decoding into used objects | UPDATE keeps the old attributes, a two-octet NOTIFICATION keeps the old data | C11_update_keeps_old_attributes, C11_notification_keeps_old_data |
| prefix NLRI | length octets 249..255 panic; labelled and VPN prefixes panic on more inputs | C14_length_249_panics, C24_labeled_panics, C24_vpn_panics |
| prefixes | ranges of /0 panic, the last IPv6 address is left out; host bits are kept | C19_*, C17_same_length_host_bits |
| NLRI | exact conditions of acceptance and crash for all families | C80_nlri_read_exactly |
| attributes, UPDATE | exact conditions of acceptance and crash | C81_values_read_exactly, C81_updates_read_exactly |
| OPEN, NOTIFICATION, BMP | exact conditions of acceptance and crash | C82_open, C82_notification, C82_bmp, C82_bmp_session |
| families | capability codes of IPv4 multicast and labelled unicast are swapped | C26_ipv4_codes_swapped |
| AS numbers | the order is not lawful; k*65536 is displayed as k | C28_as_number_not_lawful, C77_as_text_wrong |
| AS_PATH | only empty paths and single-segment 32-bit paths are read correctly | C30_correct_iff, C29_as16_header_becomes_asn |
| AGGREGATOR | never written; octets are reported that were not written | C33_aggregator_lost, C32_aggregator_not_written |
| attributes | exact crash conditions; trailing octets accepted; both AGGREGATOR widths accepted in every session | C36_crash_iff, C72_trailing_octets |
| UPDATE | exact crash conditions; attribute section length wraps | C41_crash_iff, C40_attribute_length_wraps |
| MP_REACH_NLRI | VPN next hop length ignored, a 48-octet next hop crashes; IPv6 FlowSpec always rejected | C73_fails, C44_flowspec6_rejected |
| AddPath | own direction ignored; second capability ignored | C46_own_direction_ignored, C47_second_addpath_ignored, C48_second_addpath_survives, C61_direction_ignored |
| EVPN, MVPN | IPv6 prefix routes and MVPN types 3 to 7 are not carried; MVPN texts with IPv6 are ambiguous | C49_ipv6_prefix_not_carried, C50_types_3_to_7_never_carried, C75_mvpn_text_fails |
| VPLS | two octets too few are reported | C51_reported_length_short |
| MDT | IPv6 prefixes of 64 bits and more panic | C52_mdt6_long_prefix_panics |
| FlowSpec | wrong lengths, misaligned prefixes, panics on large values | C53_* |
| BMP | addresses in ::/96 become IPv4; Initiation loses the types; IPv4 addresses clear the rest of the buffer; crashes | C58_peer_up_addresses, C57_initiation_loses_types, C56_rest_is_cleared, C59_crashes |
| short buffers | many encoders panic instead of returning an error | C63_panics, C63_prefixes_panic |
| texts | type-1 route distinguishers do not parse back; bad prefix lengths and MAC texts are accepted | C66_fails, C69_fails, C71_fails |
| route distinguishers | type 2 is never displayed as AS number and number; a text with an AS number above 65535 becomes another route distinguisher | C83_as4_text_fails, C83_rd_parse_fails |
| multicast test | reserved IPv4 addresses (240.0.0.0/4) count as multicast | C84_multicast_fails |
| serde | FlowSpec rules are serialised but no document is ever deserialised to one, so attributes with rules do not come back; a missing path identifier is reported as a missing `rd` | C85_flowspec_fails, C86_wrong_field_named |
| routes as keys | `partial_cmp` (so `<`, `<=`) says nothing of equal VPLS and most EVPN routes, and of PMSI tunnels with equal flags and type | C88_vpls_partial_cmp, C88_evpn_partial_cmp, C89_pmsi_partial_cmp |
| attributes as keys | AS paths with AS n and AS n*65536 are == but hash differently and are ordered | C89_eq_and_cmp_disagree |
| MAC prefixes | are sorted from the last byte, so what a prefix contains is not contiguous in sorted tables | C90_mac_not_contiguous |
| route distinguisher texts | parts behind the second number are ignored (`1:2:x`), one number alone is accepted | C91_rd_texts |
| sending on | received VPLS routes, MVPN routes of types 3-7, most FlowSpec rules, AGGREGATOR, PMSI tunnels, attribute sets and 16-bit AS paths can not be sent on | C92_collections_exactly, C92_messages_exactly |
| matching AddPath | one-way offers leave the two ends with different ideas of path identifiers, and UPDATEs are misread without an error | C94_one_way_offers_misread, C94_send_only_misread |
| fuzzy path identifiers | are on by default: without AddPath on either side, lists that begin with two default routes are misread | C94_guess_misreads |
| the example program | takes what the peer offers to receive for its own, so it misreads plain prefixes; an OPEN of more than 4096 octets and the end of the connection bring it down | C95_one_way_peer_misread, C95_large_open_panics, C95_close_panics |
| `Display` of tunnels and next hops | the opaque value of an mLDP tunnel and a zero route distinguisher are not printed | C98_attribute_text_fails, C98_next_hop_text_fails |
| AGGREGATOR, FQDN capability | octets that an earlier message left in the buffer are sent: the value of every AGGREGATOR, the last two octets of every FQDN capability | C99_aggregator_leaks, C99_fqdn_leaks, C99_attribute_iff, C99_open_iff |
| messages that are cut off | an OPEN cut off between parameters is accepted with the capabilities that are left; the first octet of NOTIFICATION data is read as the whole; in a session that guesses, the first octet of a path identifier is read as a default route | C100_open_cut, C100_notification_fails, C100_guessing_fails |
| FlowSpec components over 4094 octets | are answered with `InsufficientBufferSize` on buffers of every size, so a program that enlarges its buffer never stops | C101_flowspec_iff, C101_update_fails |
| builds without overflow checks | label and distinguisher bits wrap around: an item that announces 8 bits is read as a VPNv6 host route; messages over 65535 octets are sent cut off, at 65536 octets not at all; a header with length 0 announces 65517 octets | C103_made_up_vpnv6_route, C103_large_message_lost, C103_header_read_exactly, C103_bmp_update_length_below_19 |
| builds without overflow checks | the first address of a/0 is a; no address is in the IPv6 default route | C104_default_route_first, C104_ipv6_default_route_empty |
| UPDATE objects after a failure | keep the attributes of the message that failed, which then come before those of the next message decoded into the object; the announced prefixes stay those of an earlier message | C106_update, C106_update_again, C106_update_not_unchanged |
| default values | the group of a default IPv6 MDT route is fe00::, which is not a multicast address (ff00::/8) | C107_defaults |
| labeled routes without labels | are sent like unlabeled ones, so the receiver takes the prefix for labels | C107_no_labels |
| kinds of errors | a header or NOTIFICATION that is only too short is refused with `Static`, an UPDATE that ends within its attributes with `ProtocolError`; a capability longer than its parameter with `InsufficientBufferSize`, which no further octets cure | C108_header, C108_notification, C108_update, C108_open_insufficient_is_final |
| route monitoring of a peer that is up | is encoded with 4-octet AS numbers and the transport of the peer's address, but a session object reads it with the peer's OPEN and IPv4 transport; without 4-octet AS numbers in that OPEN every AS path, and for an IPv6 peer every prefix, comes back as another | C109_two_octet_peer_misread, C109_ipv6_peer_misread |
| two ends that offer AddPath in different directions | one sends with path identifiers and the other reads without them: `10.0.0.0/8` with identifier 0 is heard as four default routes and `10.0.0.0/8`, and no error shows, from the OPENs to the next KEEPALIVE | C110_misheard |
| prefixes with bits set behind their length | are different keys: announced as `10.0.0.0/7` and withdrawn as `11.0.0.0/7` (RFC 4271 4.3: such bits are irrelevant) the route stays in a table for ever | C111_trailing_bits |
| a labeled route that is announced again with other labels | is the same key, so that `BTreeMap::insert` keeps the old labels | C111_stale_labels |
| an EVPN MAC route that moves to another Ethernet segment | is another key, although RFC 7432 7.2 makes the segment no part of it: both stay in the table | C111_evpn_moved |
| a peer that sends two AddPath capabilities, or a family twice | is matched by the first one: the same capabilities in another order settle another session | C112_order_matters |
| OPEN messages with an FQDN capability, received or built | never come back: what is received can not be sent on | C113_received, C113_open_exactly |
| an UPDATE with one attribute that is refused and one that crashes the program | which of the two happens depends on the order of the attributes | C114_refused_fails_order |
| sessions made by `BgpSessionParams::new` (path identifiers are guessed) | the same routes in one message and in two are read differently: the guess looks at the whole list | C114_split_fails_guessing |
| a build without overflow checks, and a BMP peer-down whose NOTIFICATION announces fewer than 19 octets | 65517 octets more are taken for it; if they are there the peer is down | C103_peer_down_length_below_19 |
| a read or write that fails for the moment only (a timeout) after part of a message | the octets that were read are gone, those that were written stay: trying again is refused by the reader | C115_read_again_misreads, C115_send_again_misreads |
| prefixes with a length above 32 (128), which constructors and texts accept | `range_first`, `range_last` and, for another such prefix, `contains` stop the program | C17_contains_exactly, C18_contains_exactly, C19_impossible_lengths |
| an UPDATE whose announced or withdrawn prefixes are not of the family of the session | the prefixes are left out, the encoding succeeds | C116_other_families_vanish |
| a label of 2^20 or more | another label is sent: the last 20 bits | C116_large_labels |
| two EVPN prefix routes for IPv6 that differ in the gateway | the same octets are sent for both | C116_gateway_lost |
| a body of 65536 octets or more | its first octets are sent as a whole message of the length modulo 65536 | C117_long_body |
| two BMP initiations with the same texts in different fields | the same octets are sent for both | C117_initiation_texts |
| a unicast prefix of 249 bits or more, without overflow checks | sent as its length octet alone; readers panic or report an error | C118_oversized_prefix_sent |
| a FlowSpec prefix of 249 bits or more, without overflow checks | 32 octets of the buffer that were never written are sent | C118_flowspec_sends_buffer_contents |
| a body of 65517 to 65535 octets, without overflow checks | fewer than 19 octets of the header are sent, perhaps none | C118_long_body |
| a VPNv6 route of 121 to 128 bits with three labels, or an IPv6 MDT route of 64 bits or more | a build with overflow checks panics; without them it is sent and comes back | C119_vpnv6_three_labels, C119_mdt_ipv6 |
| a labelled IPv4 route of 16 bits with ten or more labels, without overflow checks | sent, and read as something else | C119_ten_labels_lost |
| EVPN routes of types 1 and 2 with 11 to 31 labels | come back only without overflow checks | C120_evpn_labels |
| two ends with a different width of AS numbers | an AS path is read without error as a path of another length | C122_paths_silent, C122_paths |
## 6. The properties

RT: encoding writes exactly the octets of the specification and nothing else, and decoding them gives the value back.
TOT: case analysis of every step, no panic and no endless loop. NEG: the code violates the property, see the note.

| id | property | modelled | proof | status | note |
|---|---|---|---|---|---|
| C01 | BGP message header round trip | lib.rs | RT for the 19-octet header | proved | Header writer and reader are inverse for every buffer, type and body length up to 65516. |
| C02 | Message header is validated and never crashes the reader | lib.rs, message/mod.rs | decision logic, NEG | partial | Rejection proved for every byte string. The no-panic half fails in the code for length fields below 19 (C02_head_can_panic); totality proved for length fields of at least 19. |
| C03 | Header writer refuses what it cannot represent | lib.rs | RT, NEG above 65516 octets | partial | Holds for bodies up to 65516 octets. The code violates it above: 65536 octets are announced as 19, 65517 panics (C03_header_write_wraps). |
| C04 | A stream of messages keeps its framing | lib.rs, message/mod.rs | RT, induction over the message history | proved | Induction over the message history, with arbitrary junk in the send buffers. |
| C05 | OPEN round trip | lib.rs, message/open.rs | RT, induction over the capability list | proved | All encodable OPEN messages, any sufficient buffer, any previous object. |
| C06 | OPEN decoding never crashes | lib.rs, message/open.rs | TOT, induction over the remaining octets | proved | Every byte string. |
| C07 | Unknown capabilities are skipped, known ones survive | lib.rs, message/open.rs | induction over a TLV list specification | proved | Every interleaving, spread over any number of optional parameters. |
| C08 | Capability TLV round trip | lib.rs | RT per capability, NEG for FQDN | partial | All capabilities except FQDN; FQDN is violated by the code (C08_fqdn_does_not_round_trip). |
| C09 | OPEN announces the length of its optional parameters correctly | message/open.rs | RT, NEG above 255 octets | partial | Holds for parameters up to 255 octets; the code wraps modulo 256 beyond (C09_open_length_wraps). |
| C10 | NOTIFICATION round trip and totality | message/notification.rs | RT and TOT | proved | Round trip, totality and rejection of short buffers. |
| C11 | Decoding does not depend on what the message object held before | message/notification.rs, message/open.rs, message/update/mod.rs | independence of the old object, NEG | partial | OPEN in full; NOTIFICATION except for two-octet bodies, where the code keeps old data (C11_notification_keeps_old_data); UPDATE into objects without attributes, in others the code keeps the old attributes (C11_update_keeps_old_attributes). |
| C12 | IPv4 prefix NLRI round trip | afi/ipv4.rs, afi/mod.rs | RT, induction over the list, bit-level specification | proved | Every list of valid IPv4 prefixes; the decoded prefixes are in network form (host bits cleared up to the last sent octet, see C12_ipv4_network_form). |
| C13 | IPv6 prefix NLRI round trip | afi/ipv6.rs, afi/mod.rs | as C12 | proved | Same for IPv6. |
| C14 | Unicast NLRI decoding is total | afi/ipv4.rs, afi/ipv6.rs, afi/mod.rs | TOT, NEG for length octets from 249 | partial | Partial: the decoder panics on a prefix length octet of 249..255 (overflow of the u8 sum bits+7), shown by C14_length_249_panics; totality is proved for every buffer in which no such octet is read as a length. Which buffers crash is exact in C80_items_read_exactly. |
| C15 | NLRI lists compose | afi/mod.rs | The item loops: an item is read the same with more octets behind it, so a run over the first part goes on over the second. For the families through the relational reading of C80 (every constructor), for encoding from the octets each family writes. | proved | C15_encode_append and C15_decode_append: every NLRI kind that goes through the bit-length item loop. C15_families_encode and C15_families_decode: all thirty kinds of route lists, with and without path identifiers (VPLS lists, which do not come back from the wire, only for decoding). |
| C16 | AddPath NLRI round trip | afi/mod.rs | RT, induction | proved | Every BgpItem kind with the lawful codec, every path identifier. |
| C17 | IPv4 prefix containment is inclusion of address sets | afi/ipv4.rs | set inclusion over all addresses, NEG with host bits | partial | Partial: a prefix value may carry host bits that the code does not clear on construction. C17_contains_exactly gives the answer for every pair of values, with impossible lengths too; C17_wrong_exactly says exactly where it is not inclusion: same length, different host bits. Never wrongly yes (C17_contains_sound). |
| C18 | IPv6 prefix containment is inclusion of address sets | afi/ipv6.rs | as C17 | partial | As C17, for IPv6 (C18_contains_exactly, C18_wrong_exactly). |
| C19 | Subnet range bounds | afi/ipv4.rs, afi/ipv6.rs, afi/mac.rs | membership over all addresses, NEG | partial | Partial: range_first of IPv4 /0 and range_first and in_subnet of IPv6 /0 panic, IPv6 in_subnet leaves out the last address; all shown by theorems, everything else proved. |
| C20 | Containment of mixed families | afi/mod.rs | case analysis | proved | Mixed families never contain each other; same-family reduces to C17/C18. |
| C21 | Route distinguisher round trip | afi/mod.rs | RT in both directions | proved | All 2^64 route distinguishers. |
| C22 | MPLS label stack round trip | afi/mod.rs | RT, induction over the label stack | proved | Every label stack that RFC 3107 allows (non-empty, 20-bit labels, no reserved bottom marker before the end, at most 10 labels). |
| C23 | Labeled and VPN NLRI round trip | afi/mod.rs | RT, induction over the list | proved | Labeled, VPN and labeled VPN NLRI for both families, every list. |
| C24 | Labeled and VPN NLRI decoding is total | afi/mod.rs | TOT under a guard, NEG | partial | Partial: inputs on which the code panics are shown by C24_labeled_panics and C24_vpn_panics; totality proved outside them. Which inputs crash is exact in C80_nlri_read_exactly. |
| C25 | Address family dispatch is coherent | afi/mod.rs | dispatch table, RT lifted to the sum of families | proved | All 30 NLRI collections and all (AFI, SAFI) pairs and byte strings. The round trip of whole collections excludes the item kinds that C49-C53 show not to round trip. |
| C26 | Capability and NLRI codes agree | afi/mod.rs, lib.rs | table, NEG for two codes | partial | Negative for two of the seventeen capabilities: the codes of IPv4 multicast and IPv4 labeled unicast are swapped (C26_ipv4_codes_swapped); the other fifteen are proved. |
| C27 | MPLS labels do not take part in identity | afi/mod.rs | order laws | proved | Labels never take part in ==, cmp or hash; the VPLS partial_cmp disagreement is stated separately. |
| C28 | Hand-written orderings are lawful | afi/mod.rs, bmp/bmputl.rs, message/attributes/aspath.rs | order laws for all ordered types, NEG for AS numbers | partial | Partial: AS numbers are ordered by an inconsistent relation (C28_as_number_not_lawful); every other ordered type is lawful. |
| C29 | AS path round trip | message/attributes/aspath.rs | RT, NEG in 16-bit sessions | partial | Encoding holds in both widths; the round trip holds with 32-bit AS numbers and fails for every non-empty path in 16-bit sessions (C29_as16_header_becomes_asn). |
| C30 | AS path segments are parsed | message/attributes/aspath.rs | exact characterisation, NEG | partial | C30_correct_iff says exactly which AS_PATHs are read correctly: no segment, or one segment with 32-bit AS numbers. The code violates the property for all others (C30_two_segments_misread is an instance). |
| C31 | AS path decoding is total | message/attributes/aspath.rs | TOT | proved | All byte strings, all paths, all buffers. |
| C32 | Path attribute framing | message/attributes/mod.rs | frame lemmas, NEG | partial | The header claim holds for every attribute. The frame claim leaves out AGGREGATOR, VPLS and IPv6 EVPN type 5, for which the code violates it (C32_aggregator_not_written, C32_overwrites_behind). |
| C33 | Path attribute round trip | message/attributes/*.rs, message/attributes/mod.rs | RT per attribute, NEG | partial | All attributes named but AGGREGATOR, which is lost for every value (C33_aggregator_lost), and AS paths in 16-bit sessions (C29). ATOMIC_AGGREGATE is shown to round trip the address the library puts in it, which RFC 4271 does not have. |
| C34 | Unknown attributes are transparent | message/attributes/mod.rs, message/attributes/unknown.rs | RT for unknown attributes | proved | All unassigned codes, all flags, all values that fit the length field. |
| C35 | Community lists are sets | message/attributes/community.rs, message/attributes/extcommunity.rs | exact octets | proved | All three kinds of lists. Well-formed means a whole number of elements; for extended communities any value. |
| C36 | Attribute decoding never crashes | message/attributes/*.rs, message/attributes/mod.rs | exact crash conditions by structural and fuel induction | partial | C36_crash_iff is exact: the values that crash are those of ValueCrash, for every session, code, flags and value, with attribute sets nested to any depth; no value loops for ever. The code violates the property (C36_crashes). |
| C37 | Extended community helpers | message/attributes/extcommunity.rs | bit fields | proved | All addresses, AS numbers, numbers and 64-bit values, with the octets of both kinds of route target. |
| C38 | Community text round trip | message/attributes/community.rs | texts as character lists | proved | Proved for all 2^32 communities, with what the texts are. Number parsing, splitting and trimming of core are modelled (Model/Text). |
| C39 | UPDATE round trip | message/update/mod.rs | RT, sections | partial | Messages of parts that round trip on their own (C29, C33, C44 say which do not); octets of prefixes that are not sent come back as zero. |
| C40 | UPDATE length fields are exact | message/update/mod.rs | section lengths, NEG | partial | C40_every_message: for every message, with AGGREGATOR and with NLRI of which the encoder misreports the size too, and every buffer, what the two length fields hold. Code violates it when the last attribute takes the section over 65535 octets: the length wraps (C40_attribute_length_wraps); C40_exactly: it is right if and only if the attributes have at most 65535 octets. |
| C41 | UPDATE decoding never crashes | message/update/mod.rs | exact crash conditions, no hang | partial | Endless loops are excluded for every input. Crashes are characterised exactly (C41_crash_iff), by a specification (UpdateCrash) that refers to no decoder; the code violates the property (C41_crashes). |
| C42 | UPDATE sections are delimited | message/update/mod.rs | section decomposition | proved | In full: the decoder accepts exactly the messages made of three delimited sections, each read from its own octets as C80 and C81 specify. |
| C43 | First attribute wins in accessors | message/update/mod.rs | list of attributes | proved | In full, for the eight accessors. |
| C44 | Multiprotocol reach/unreach round trip | message/attributes/multiproto.rs | RT over all families, NEG | partial | Holds for all families that round trip but IPv6 FlowSpec MP_REACH_NLRI, which is always rejected. Three constructors build attributes with a next hop of the wrong family (C44_ipv4_next_hop_of_ipv6). |
| C45 | AddPath detection | afi/mod.rs, message/update/mod.rs, util.rs | decision logic; inversion of the exact reading of UPDATE messages for the statement about messages | proved | C45_messages carries the decision through to whole UPDATE messages: the NLRI fields of the message and those of MP_REACH/MP_UNREACH are read in the form the capabilities announce. |
| C46 | AddPath negotiation directions | lib.rs | decision logic, NEG | partial | Peer direction and family proved; the own direction is ignored by the code (C46_own_direction_ignored). Full statement proved for sessions that offer both directions. |
| C47 | Capability matching is an intersection | lib.rs | list functions, NEG | partial | Non-AddPath part and AS4 in full; the AddPath part for peers with one AddPath capability, the code ignores further ones (C47_second_addpath_ignored). |
| C48 | Capability removal | lib.rs | list functions, NEG | partial | Other kinds are kept for every list; removal and idempotence proved except for AddPath when the list has several AddPath capabilities (C48_second_addpath_survives). |
| C49 | EVPN route round trip | afi/evpn.rs | RT, induction over lists, NEG | partial | Lists of all route types, exact wire bytes. Type 5 routes for IPv6 prefixes are excluded: the code does not carry them (C49_ipv6_prefix_not_carried). |
| C50 | MVPN route round trip | afi/mvpn.rs | RT, NEG | partial | Types 1 and 2 in both transport modes. What is sent for every type is exact (C50_mvpn_sent); for types 3 to 7 it is never read back and, with addresses of the session's family, always refused (C50_types_3_to_7_never_carried). |
| C51 | VPLS NLRI round trip | afi/mod.rs, afi/vpls.rs | RT, NEG | partial | Decoding of lists in full. The encoder reports two octets less per item than it writes, so what it reports never decodes (C51_reported_length_short). The address without label block (BgpL2): C51_l2_decode_exactly, C51_l2_encode_exactly. |
| C52 | MDT NLRI round trip | afi/mdt.rs | RT, NEG | partial | IPv4 in full; IPv6 for prefix lengths up to 63, longer ones overflow the length octet (C52_mdt6_long_prefix_panics). |
| C53 | FlowSpec NLRI round trip | afi/flowspec.rs | RT, NEG | partial | Operator components whose announced length is right, and single prefix components. The code violates the property otherwise (C53_two_small_values_lost, C53_large_value_panics, C53_prefix_misaligns, C53_vpn_prefix_panics). |
| C54 | FlowSpec operator round trip | afi/flowspec.rs | RT for every operator and value | proved | All flags, all values, all lists, both operator kinds. |
| C55 | MAC address conversions | afi/mac.rs | RT, NEG | partial | Partial: MAC comparison is lawful but is not the order of the integer value (C55_order_is_not_integer_order). |
| C56 | BMP header and per-peer header round trip | bmp/bmputl.rs, bmp/mod.rs | RT, NEG | partial | Common header for version 3 and lengths below 2^32 (others: C56_common_header_other). Per-peer header: exact octets and result for all values; it round trips exactly for addresses outside ::/96. The code clears the whole buffer behind the header of an IPv4 peer (C56_rest_is_cleared). |
| C57 | BMP initiation and termination round trip | bmp/msginit.rs, bmp/msgterm.rs | RT, induction over TLVs, NEG | partial | Termination in full. Initiation: decoding of any TLV sequence; round trip without system description and name; the code writes all three strings with type 0, so other messages come back changed (C57_initiation_loses_types). |
| C58 | BMP peer up, peer down and route monitoring round trip | bmp/msgpeer.rs, bmp/msgrmon.rs | RT over embedded messages, NEG | partial | Round trip for all messages with addresses outside ::/96, given that the embedded BGP messages round trip; discharged from C05, C10 and C39. Addresses in ::/96 come back as IPv4 (C58_peer_up_addresses). |
| C59 | BMP decoding never crashes | bmp/mod.rs | exact crash conditions, no hang | partial | No endless loop on any input, and an exact characterisation of the inputs that panic (Spec.BmpCrash); the code violates the property on those (C59_crashes). |
| C60 | BMP session table follows the message history | bmp/mod.rs | refinement to an abstract map, induction over histories | proved | Invariant over all histories, BTreeMap by its documented contract (sorted association list). |
| C61 | Route monitoring uses the monitored session's parameters | bmp/mod.rs, lib.rs | invariant over histories, NEG | partial | Parameters after every history. Path ids: exact for peers that announce both directions or none for each family; the code looks at the receive bit of the peer's OPEN where the send bit is meant (C61_direction_ignored). |
| C62 | Encoders stay inside the bytes they report | afi/mod.rs, bmp/**, message/**, util.rs | frame lemmas for every encoder, NEG | partial | Length: every encoder. Frame: every encoder but VPLS routes, EVPN prefix routes (type 5) with an IPv6 prefix and AGGREGATOR; BMP on buffers up to 65535 octets, where IPv4 addresses clear the rest of the buffer. The code violates the property for those (C62_vpls_writes_behind, C62_not_framed, C62_long_update_wraps). Without overflow checks the same holds of NLRI, path attributes and UPDATE messages (C62_release_frame_partial), with the same exceptions (C62_release_not_framed); the size of the buffer is kept by all of them and by BMP messages (C62_release_buffer_size_kept). |
| C63 | Short buffers give errors, not crashes, when encoding | afi/mod.rs, message/**, util.rs | short buffers, exact where possible, NEG | partial | Never success on a short buffer (all encoders with a specified encoding). Error, not panic, for addresses, NOTIFICATION, communities, attribute values, message header, capabilities, flowspec, BMP common and per-peer header, Termination, peer-down; exact characterisation for OPEN, for path attributes and for whole UPDATE messages (multiprotocol NLRI of every family: prefixes, multicast VPN, EVPN and flow specifications): at which sizes the encoder panics and at which it returns an error (C63_update_exact); the same for BMP peer-up, route monitoring and initiation messages. The code violates the property elsewhere: prefix lists always panic on short buffers, attributes on buffers without room for the header, OPEN at capability boundaries, BMP information elements, UPDATE on buffers below two bytes; PMSI_TUNNEL, ATTR_SET, BMP statistics and mirroring panic on every buffer. |
| C64 | Decoders report what they consumed | afi/mod.rs, bmp/**, lib.rs | locality lemmas for every decoder, NEG | partial | Reported length inside the input and independence of what follows, for prefix NLRI of every kind with and without path ids, VPLS, RD, capabilities, FlowSpec operator components, BMP headers, information elements, peer-up, peer-down, route monitoring; consumption of lists, Initiation, Termination. The code violates it for EVPN/MVPN routes longer than their content (octets read but not reported) and for FlowSpec prefix components (one octet too many reported). Decoders that report no length are not covered. |
| C65 | Network byte order primitives | util.rs | byte order | proved | All widths and all values. |
| C66 | Route distinguisher text round trip | afi/mod.rs | texts as character lists, NEG | partial | Round trip proved for every RD whose type is not 1. The code violates it for type 1: such an RD is displayed with a dotted address and its text is always refused (C66_fails). |
| C67 | Encoding does not depend on spare room | afi/mod.rs, bmp/**, message/**, util.rs | extension lemmas for every encoder, NEG | partial | All BGP encoders, and BMP encoders without IPv4 addresses. BMP encoders with an IPv4 address clear the spare room (proved, C67_bmp_v4). Without overflow checks the same holds, with the same exception (C67_release_size_independent_partial). |
| C68 | Prefix text round trip | afi/ipv4.rs, afi/ipv6.rs, afi/mac.rs, afi/mdt.rs, afi/mod.rs | texts, RFC 5952 compression | proved | All values of all prefix kinds; the IPv4/IPv6 parsers and Display of core are modelled (Model/Text). |
| C69 | Prefix texts with a bad length are refused | afi/ipv4.rs, afi/ipv6.rs, afi/mac.rs | texts, NEG | partial | The code violates it: whatever stands behind the slash is accepted (C69_fails), text that is no number becomes the full length (C69_fails_bad_length), lengths up to 255 are taken as they are. Proved: decimal lengths below 256 are taken literally, and IPv4 texts need a canonical address. |
| C70 | Community list texts | message/attributes/community.rs | texts, induction over the parts | proved | Any number of parts, any separators. |
| C71 | MAC texts that are no MAC address are refused | afi/mac.rs | texts, NEG | partial | The code violates it: every text with a hexadecimal digit is accepted, other characters are skipped and only the last twelve digits count (C71_fails). Proved: texts without a hexadecimal digit are refused. |
| C72 | Attribute values are read as the RFCs define them | message/attributes/aggregatoras.rs, message/attributes/attrset.rs, message/attributes/mod.rs, message/attributes/multiproto.rs, message/attributes/pmsitunnelattr.rs | if and only if per attribute | partial | If and only if, for every session and value. The code accepts octets behind the value of ORIGIN, NEXT_HOP, MED, LOCAL_PREF, CONNECTOR and CLUSTER_LIST (C72_trailing_octets), an address in ATOMIC_AGGREGATE, and for AGGREGATOR both widths in every session. |
| C73 | NLRI of MP_REACH_NLRI start behind the next hop field | message/attributes/multiproto.rs | wire specification of the field, NEG | partial | All families without route distinguishers in the next hop. For VPN families the length byte is ignored (C73_vpn_length_ignored); the 48-byte next hop of RFC 4659 crashes the decoder (C73_fails). |
| C74 | EVPN texts identify the route | afi/evpn.rs | injectivity by unique parsing | proved | Injectivity for all five route types and all label stacks; the text starts with type and route distinguisher. |
| C75 | Multicast VPN texts identify the route | afi/mvpn.rs | as C74, NEG | partial | Proved for routes with IPv4 addresses only and for the types 1 and 2 with any addresses. The code violates it with IPv6: source 1::2:3, group 4::5 and source 1::2, group 3:4::5 have the same text (C75_mvpn_text_fails). |
| C76 | Texts of prefixes, VPN next hops, VPLS routes and FlowSpec operators identify them | afi/flowspec.rs, afi/ipv4.rs, afi/ipv6.rs, afi/mod.rs, afi/vpls.rs | as C74 | proved | Injectivity for each prefix family with and without labels, route distinguisher, path identifier; for VPLS exactly the labels are not shown. |
| C77 | AS numbers are displayed in decimal | message/attributes/aspath.rs | exact, NEG | partial | Holds for 0 and all numbers that are not a multiple of 65536; AS k*65536 is displayed as k (C77_as_text_wrong, C77_as_text_fails). |
| C78 | Notification texts | message/notification.rs | table and injectivity | proved | Exact text for every code and subcode; injective. |
| C79 | Extended and large community texts | message/attributes/community.rs, message/attributes/extcommunity.rs | exact characterisation of equal texts | partial | Exact: equal texts iff equal or one of three pairs (import route targets transitive and not, reserved octets of encapsulation and of EVPN layer 2 attributes). So the full property fails for extended communities (C79_ext_community_text_fails); proved for large communities. |
| C80 | NLRI of every family are read exactly as specified | afi/evpn.rs, afi/flowspec.rs, afi/ipv4.rs, afi/ipv6.rs, afi/mdt.rs, afi/mod.rs, afi/mvpn.rs, afi/vpls.rs | exact reading relations (acceptance, result, octets taken, crash) for every decoder, composed by induction over the list of items | proved | Exact for all families, sessions and octets: AddrsRead, AddrsCrash and an error otherwise; also for every kind of item on its own. |
| C81 | Attribute values and UPDATE messages are read exactly as specified | message/attributes/*.rs, message/attributes/mod.rs, message/update/mod.rs | exact reading relations for every attribute, nested sets by induction on the length of the value, composed with C80 to whole messages | proved | Exact for all type codes, sessions and octets: ValueRead, ValueCrash and an error otherwise; likewise UpdateRead and UpdateCrash for whole messages. The specifications use only data types. |
| C82 | OPEN, NOTIFICATION and BMP messages are read exactly as specified | bmp/*.rs, bmp/mod.rs, message/notification.rs, message/open/mod.rs | exact reading relations for capabilities, parameters, TLVs and embedded messages by induction on their lists; composed with C81 for the UPDATE messages and with the table of the session (C60) for the parameters | proved | Specifications OpenRead, NotificationRead (Spec/OpenReads.lean) and BmpRead, BmpCrash (Spec/Bmp.lean) use the data types of the model only; UTF-8 is RFC 3629 and is proved to be what the model of std::str::from_utf8 accepts. |
| C83 | Route distinguisher texts are those of RFC 4364 | afi/mod.rs | wire octets, halves and texts related by arithmetic; injectivity of decimal numbers for the negative parts | partial | Types 0 and 1 are displayed as RFC 4364 writes them, texts with a two-octet AS number are parsed so. The code violates the property otherwise: no route distinguisher of type 2 is displayed so (C83_as4_text_fails), texts with an address are refused and texts with a larger AS number are taken for another route distinguisher (C83_rd_parse_fails). |
| C84 | Tests for multicast, zero and empty, and fresh messages | afi/evpn.rs, afi/ipv4.rs, afi/ipv6.rs, afi/mod.rs, message/open.rs | arithmetic on the leading octet; case analysis over the families; exact encodings of the fresh messages | partial | All but the IPv4 multicast test, which the code also answers with yes for the reserved addresses 240.0.0.0 to 255.255.255.254 (C84_multicast_partial is exact, C84_multicast_fails). |
| C85 | Serialised attributes and routes are read back | afi/flowspec.rs, afi/mod.rs, message/attributes/mod.rs | codecs per type shown to invert each other; mutual induction over attribute sets and lists; fuel shown not to matter (deN_stable) | partial | The serde model (Model/Serde.lean) assumes the documented behaviour of serde, its derive macros and a JSON-like format: part of the trusted base. Violated: BgpFlowSpec's Deserialize calls deserialize_enum with a visitor that has visit_map but no visit_enum, so no document is accepted; proved for every document, and for every attribute that carries a rule at any depth. Everything else round-trips (C85_attributes_partial, C85_nlri_partial, C85_values), and C85_iff_no_rule says so exactly. |
| C86 | Exactly which documents the hand-written deserialisers accept | afi/mod.rs | case analysis of the loop over the fields of a map, for every document | partial | The acceptance of documents is proved exactly. Violated: WithPathId reports missing fields under the names of WithRd's fields (src/afi/mod.rs:1374-1375). |
| C87 | What serialised values look like, and that they are told apart | afi/flowspec.rs, afi/mod.rs, message/attributes/mod.rs | the round trip for everything without FlowSpec rules; for the rest a left inverse and mutual induction | proved | C87_flowspec_map shows that the unused visit_map method would read every rule back. SetsListed only says that a BTreeSet is listed in order. |
| C88 | Routes of every family are lawful keys | afi/*.rs, afi/evpn.rs, afi/flowspec.rs, afi/mod.rs, afi/mvpn.rs, afi/vpls.rs | a class of comparison laws closed under products, sums, lists and views; every derive is a view of such a composition | partial | Everything except partial_cmp, which answers None for == VPLS routes, == EVPN routes of the types 1, 2 and 5 and lists that begin with such routes (C88_vpls_partial_cmp, C88_evpn_partial_cmp, C88_lists_partial_cmp: exactly which). Assumes that derive(PartialOrd) compares lexicographically by partial_cmp of the fields. |
| C89 | Path attributes are lawful keys | message/attributes/aspath.rs, message/attributes/attrset.rs, message/attributes/mod.rs, message/attributes/pmsitunnelattr.rs | as C88; mutual recursion of attribute sets by induction on size; general characterisation of the disagreement | partial | Total order and hash proved for all attributes; == agrees with cmp for attributes without AS numbers that are non-zero multiples of 65536 (C89_plain_keys_partial); for the others it does not (C89_eq_and_cmp_disagree). partial_cmp: C89_partial_cmp, C89_pmsi_partial_cmp. |
| C90 | Sorted tables group routes | afi/evpn.rs, afi/ipv4.rs, afi/ipv6.rs, afi/mac.rs, message/attributes/mod.rs | arithmetic on the leading bits; case analysis over the kinds; NEG for MAC prefixes | partial | Proved for IPv4 and IPv6 prefixes in network form and for the order of kinds. False for MAC prefixes, which are sorted from the last byte of the address (C90_mac_not_contiguous). |
| C91 | Exactly which texts are accepted, and for which values | afi/ipv4.rs, afi/ipv6.rs, afi/mac.rs, afi/mdt.rs, afi/mod.rs, message/attributes/community.rs | grammars written as relations, if and only if with the parsers by induction over the text | proved | If and only if, for every text, with the lenient cases that the library accepts written into the grammar (see C69, C71): a length that is no number below 256 is taken for the full length, parts behind a second / or a third : are not looked at, anything with a hexadecimal digit is a MAC address. The parsers of Ipv4Addr, Ipv6Addr and integers are those of std as modelled in Model/Text.lean. |
| C92 | What was received can be sent on unchanged | afi/mod.rs, message/attributes/*.rs, message/update/mod.rs | the exact description of what is read gives normal form; the other direction from the octets the encoders write in any buffer (extension to long buffers), with sizes counted; NEG for VPLS, MVPN types 3-7, FlowSpec, AGGREGATOR, PMSI, attribute sets, 16-bit AS paths | partial | Proved for what Relayable and AttrRelayable describe, in every buffer with room, and the description is exact (C92_collections_exactly, C92_messages_exactly): received VPLS routes, MVPN routes of types 3-7, FlowSpec rules with wrong announced lengths or prefixes, AGGREGATOR, PMSI tunnels, attribute sets, AS paths in 16-bit sessions and originators of the other family are not sent on as they were. |
| C93 | Exactly which NLRI and which UPDATE messages come back unchanged | afi/mod.rs, message/attributes/*.rs, message/update/mod.rs | both directions of C92 without the assumption that the value was received | proved | Exact: if and only if, over every buffer. The conditions are those of C39 and C35. |
| C94 | Two speakers that exchanged OPENs understand each other | lib.rs, message/open.rs, message/update/mod.rs | what is found after matching is computed for any lists by induction; OPEN and UPDATE round trips, encoders depend only on transport and AS width; NEG for one-way AddPath offers and for guessing receivers | partial | Partial: the two ends agree on the width of AS numbers always, on path identifiers exactly if the offers of the two sides are complementary (C94_addpath_agreement), which one-way offers are not (C94_one_way_offers_misread, C94_send_only_misread). With agreement every message arrives (C94_conversation_partial). Sessions made with new() guess path identifiers and can misread (C94_guess_misreads). |
| C95 | The example program prints what the peer sends | examples/bgpdumper.rs, lib.rs | relation on octet streams that says what is printed, refinement of the loop both ways by induction on the stream; NEG for one-way offers of the peer, large OPENs, closed connections | partial | Partial: what the program prints and how it ends is proved exactly for every octet stream (C95_start, C95_dumps). It panics when the connection is closed, on OPENs of more than 4096 octets and on length fields below 19, and misreads the prefixes of peers that only offer to receive path identifiers. |
| C96 | What is decoded holds no more than the octets it was decoded from | afi/mod.rs, bmp/mod.rs, message/attributes/attrset.rs, message/attributes/mod.rs, message/open.rs, message/update/mod.rs | entries counted on the exact read relations: every item takes at least as many octets as it holds, by induction on lists and on the octets of nested attribute sets; both bounds are reached | proved | The number of entries of all lists in a value is counted (Spec/Volume.lean), not octets of memory. C96_nlri_reached and C96_nesting_reached show that the bounds are met: the depth of attribute sets, with which the decoder calls itself, is limited by the octets only (8192 in one attribute). A reused UPDATE object keeps all attributes it ever read (C11), which C96_update_reused counts. |
| C97 | What Debug prints tells values apart | afi/*.rs, bmp/*.rs, examples/bgpdumper.rs, lib.rs, message/attributes/*.rs, message/notification.rs, message/open.rs, message/update/mod.rs | the structure a Debug impl hands to the formatter as a tree; the printed text splits in only one way (mutual induction over trees, escapes of strings cannot hold a bare quote), then injectivity of the trees type by type | proved | For every pair of values; strings must be UTF-8, as Rust guarantees (what is received is proved to be). The Unicode tables of the standard library are parameters of the theorems. |
| C98 | What Display prints tells attributes and next hops apart | afi/mod.rs, message/attributes/*.rs | each kind begins with another word (decided on the words), then splitting at separators that the texts of numbers and addresses do not hold, and C97 for what is printed with {:?}; exact set of exceptions; NEG for mLDP tunnels and zero route distinguishers | partial | Exact: two attributes have the same text iff they are equal or are mLDP tunnels that differ only in the opaque value; two next hops (other than multicast VPN routes, see C75) iff they are equal up to a zero route distinguisher; two NOTIFICATIONs iff they are equal. |
| C99 | What the buffer held before does not show in what is encoded | afi/*.rs, bmp/*.rs, lib.rs, message/attributes/*.rs, message/open.rs, message/update/mod.rs | two runs of an encoder on buffers that agree on a set of positions are related step by step: the results agree on that set and on the octets reported (a type class with an instance per encoder, induction over lists); exact condition for attributes and OPEN; NEG for AGGREGATOR and the FQDN capability | partial | Proved for every encoder and all values, except: the AGGREGATOR attribute (nothing is written but 2 or 4 octets are reported) and the FQDN capability (two octets fewer are written than are reported). For both the leak is proved for every message that has one (C99_aggregator_leaks, C99_fqdn_leaks), and the property is characterised exactly for attributes and OPEN messages. |
| C100 | What is read of a message that was cut off is part of the message | afi/mod.rs, message/notification.rs, message/open.rs, message/update/mod.rs | from the exact reading specifications (C80, C81, C82): each item has one reading, which does not change with octets behind it; induction over the items of the shorter field; exact set of exceptions for NLRI; NEG for guessed path identifiers and NOTIFICATION data | partial | Proved for NLRI of all families and UPDATE in sessions that do not guess at path identifiers (and in the others once five octets are there), with the exact exceptions otherwise, and for OPEN without conditions. Fails with guessing (the first octet of a path identifier is read as the default route) and for NOTIFICATION data of two octets. An OPEN cut off between parameters is accepted, because its length octet is not looked at. |
| C101 | The error that asks for a larger buffer goes away with a larger buffer | afi/*.rs, afi/flowspec.rs, bmp/*.rs, lib.rs, message/attributes/*.rs, message/open.rs, message/update/mod.rs | compositional: each writing step has one outcome on all buffers above some size, and so have its compositions; exact set of exceptions for FlowSpec components; NEG for UPDATE messages with one | partial | Proved for OPEN, NOTIFICATION, KEEPALIVE and message headers, for all attributes, UPDATE and BMP messages without an oversized FlowSpec component, and exactly for FlowSpec components: one that the library counts as more than 4094 octets is answered with 'insufficient buffer size' on every buffer (C101_flowspec_iff, C101_update_fails). The converse, that other errors are final, is false (C101_other_errors_fail). |
| C102 | A build without overflow checks does what one with them does, except where that one crashes | afi/*.rs, lib.rs, message/**/*.rs | simulation: every function is written once with the arithmetic of the build as a parameter; induction over the loops shows that either the checked run panics or both results are equal; the checked copy is proved equal to the model | proved | The model has both builds: Build.checked (equal to the rest of the model, C102_checked_is_the_model) and Build.release. Covers header, NLRI of all families, attributes, UPDATE, BMP and containment; OPEN and NOTIFICATION have no arithmetic that can overflow. |
| C103 | What is read and written without overflow checks where a checked build crashes | afi/ipv4.rs, afi/ipv6.rs, afi/mod.rs, lib.rs | exact characterisation (iff) of list decoders by induction, with the length taken modulo 256 in a small relation; exact header reader; general witnesses for made-up routes and lost messages; collections of all families from the exact readings of each kind of route; attribute values, UPDATE and BMP messages by composing the exact readings of their parts, and the table of a BMP session by induction on the history | proved | Exact for the header, for the NLRI of every family in a session (C103_collections_read_exactly), for attribute values and whole UPDATE messages (C103_updates_read_exactly), and for BMP messages read by themselves or by a session object after every history (C103_bmp_read_exactly). C103_bmp_update_length_below_19 and C103_peer_down_length_below_19: what a length below 19 does. |
| C104 | Asking a prefix about its addresses never crashes a build without overflow checks, and the answers are right | afi/ipv4.rs, afi/ipv6.rs, afi/mac.rs | bit arithmetic with shift amounts modulo the width; NEG for default routes | partial | Missing because false: default routes. Without overflow checks the first address of a/0 is a, and in_subnet of the IPv6 default route is false for every address (a checked build crashes on both). |
| C105 | Different keys feed different data to a hasher | afi/*.rs, afi/mod.rs, lib.rs, message/attributes/*.rs, message/attributes/aspath.rs | The data fed to a hasher by pairs, sums, options and lists is shown to be prefix-free and to determine the value up to `cmp` (a type class with an instance for every type), by induction on nested attribute sets; with the characterisation of `cmp` of C88 and C89 this gives an iff with the identity of the value. | proved | HashesBy and HashesFully in Spec/Derived.lean. The discriminant of an enum is fed to the hasher as the way to the variant in the model instead of one number, and a string with its length; C105_strings shows that the end mark std uses for strings keeps them apart as well. That values which are == feed the same data is C28, C88 and C89 (false for AS numbers that are multiples of 65536). |
| C106 | What a decode that fails leaves in the message object | message/notification.rs, message/open.rs, message/update/mod.rs | `decode_from` of the three messages is modelled a second time with the object after the call (Model/Into.lean); that both agree is a theorem. Invariants of the attribute and capability loops by induction on the part that is read, with existence and uniqueness of the longest such part, give an iff with the specification Spec/Left.lean. | proved | Exact for all three messages. That an UPDATE object carries attributes of a failed message into the next is part of the property as stated and shown by C106_update_not_unchanged. |
| C107 | A value built with a constructor is sent as the arguments of the constructor | afi/mdt.rs, afi/mod.rs, afi/vpls.rs, message/attributes/*.rs | The constructors are modelled in Model/Construct.lean. What is written follows from the encoders' theorems of C12, C33 and C51 with the constructor's fields put in, and is stated with literal octets and the arguments only; ascending lists by the order of communities. | proved | all constructors with arguments that reach the wire, including FlowSpec operators and lists, EVPN identifiers and MAC addresses; the constructors that are plain empty lists are covered by C107_defaults |
| C108 | What the kind of an error says, and what it prints | bmp/mod.rs, error.rs, lib.rs, message/notification.rs, message/open.rs, message/update/mod.rs | Case analysis of the decoders; that an error of an OPEN is final by induction on its parameters and capabilities, showing that octets behind a parameter are not looked at while it is read. | proved | error kinds of the message frames and of OPEN; kinds inside attributes and multiprotocol routes are not distinguished |
| C109 | A monitoring station reads the messages a monitored router sent, from end to end | bmp/bmputl.rs, bmp/mod.rs, bmp/msgpeer.rs, bmp/msgrmon.rs, lib.rs | The loops of the router and of the station, which are the user's, are in the specification and use the modelled encoders and decoders. Invariant: the table of the session object holds exactly the peer-ups in force after the messages so far. Induction on the list of messages, with the round trips of C39 and C56 to C58 for one message. The two ways in which it fails are proved for every peer-up. | partial | Violated: a route-monitoring message is always encoded with 4-octet AS numbers and the transport of the peer's address, but read with the OPEN of the peer-up and IPv4 transport: paths of peers without 4-octet AS numbers (C109_two_octet_peer_misread, every path) and prefixes of IPv6 peers (C109_ipv6_peer_misread) come back as others. For all other messages the stream comes back (C109_stream_partial); framing holds in full, also for a connection that breaks after any octet (C109_framing, C109_break). |
| C110 | Two programs that use the library understand each other, and a broken connection never yields part of a message | lib.rs, message/open.rs, message/update/mod.rs, message/notification.rs, message/keepalive.rs | The two programs' loops, which are the user's, are in the specification Spec/Dialogue.lean and call the modelled encoders, decoders and header functions. Induction on the history: the stream is the concatenation of framed messages, and cutting it inside a frame stops the reader at the header or at the body. The opening joins this with the theorems on settling sessions (C94). | partial | Violated where the ends offer AddPath in different directions: the library takes both offers as one bit, the sender puts path identifiers the reader does not look for, and other routes are read without an error (C110_misheard). For sessions whose ends agree per family on path identifiers (C94 says when) every history is heard as said, and a break after any octet cuts between messages (C110_history_partial, C110_break_partial, C110_dialogue_partial). Missing: fuzzy path identifiers, which guess. |
| C111 | A table keyed by received routes holds the routes in force | afi/evpn.rs, afi/ipv4.rs, afi/ipv6.rs, afi/mod.rs, message/update/mod.rs | The program and BTreeMap (entries as a list, keys compared with cmp) are in the specification Spec/Table.lean, next to RFC identities of routes and what is in force after a history. Induction on the history from its end, with the invariant that no two keys are the same route; for prefixes in network form cmp says Equal exactly for the same route (from C88). The ways in which it fails are proved for all values. | partial | Violated in three ways, each proved for all values: bits behind the prefix length are part of the key, so that a withdrawal that writes them differently withdraws nothing (C111_trailing_bits); a route announced again with other labels keeps the old ones in the table (C111_stale_labels); a MAC route that moves to another Ethernet segment is there twice (C111_evpn_moved). For prefixes in network form and EVPN routes that stay the table is right after every history; without labels the entries are exactly the routes in force. |
| C112 | The order of capabilities does not matter, and matching again changes nothing | lib.rs | closed form of match_caps (kept capabilities, AS4 flag, number); matching is idempotent entry by entry; find in a list with each family once is invariant under the order of the list; the entry found after matching depends on the own lists only through which families occur | partial | Full for matching again (C112_again) and for the own order (C112_own_order, with one AS4 number; C112_two_as_numbers shows what two do). Partial for the peer's order: it matters if the peer sends several AddPath capabilities or lists a family twice (C112_order_matters). |
| C113 | Exactly which OPEN and BMP messages come back from the wire unchanged | bmp/mod.rs, bmp/msginit.rs, bmp/msgterm.rs, bmp/msgpeer.rs, bmp/msgrmon.rs, lib.rs, message/open.rs | From left to right by inversion: what is read is characterised (C12, C91), so the values have the form the readers give; capabilities are compared from the front, where an FQDN capability would shift the rest. The octets of BGP messages inside BMP are recovered from the buffer through the u16 length field; a length that wraps is excluded by counting octets (the capabilities read from r octets take at most 2r). From right to left by the round trips C05, C57, C58. | proved | C113_open_exactly and C113_peer_up, C113_peer_down, C113_initiation, C113_termination, C113_route_monitoring_any_buffer are equivalences without hypotheses, for buffers of every size. C113_received and C113_bmp_received: what was received and can be sent on. |
| C114 | The parts of an UPDATE are read independently of one another | afi/mod.rs, message/attributes/mod.rs, message/update/mod.rs | From the exact form of what decode_from reads (C12, C63): the attributes are read one by one, so a permutation of the octets is a permutation of what is read; accessors find the same attribute where types are distinct. Splitting uses that the routes read from joined octets are the joined routes (C15). | partial | C114_each_by_itself is an equivalence for every session; C114_any_order and C114_accessors_any_order cover messages that are read. A message that is not read is not read in any order (C114_refused_any_order_partial), but whether the program returns an error or stops depends on the order (C114_refused_fails_order). Splitting holds in sessions that do not guess path identifiers (C114_split_partial, C114_table_partial) and fails in those that do (C114_split_fails_guessing). |
| C115 | Short reads, short writes, interruptions and failures of the connection | error.rs, examples/bgpdumper.rs, lib.rs | A connection is its octets and a list of what the next calls do (Verif/Model/Io.lean). Induction on the calls gives exactly when read_exact and write_all succeed and what got through; induction on the messages lifts this to histories and to the example program, with C110 for the two ends. | proved | C115_read_exactly and C115_write_exactly are exact for every schedule. C115_two_ends is for two ends that agree on the parameters of the session (C94), as the property says. That a failed call cannot be repeated is C115_read_again_misreads, C115_send_again_misreads. |
| C116 | The outcome of encoding, for every value | afi/evpn.rs, afi/flowspec.rs, afi/mvpn.rs, afi/vpls.rs, afi/mdt.rs, afi/mod.rs, message/attributes/mod.rs, message/update/mod.rs | A table of outcomes (Verif/Spec/Outcome.lean) for items, collections, attributes and messages. Every encoder is shown to have the outcome of the table without any hypothesis on the value; induction on the lists of items and of attributes, with the position in the buffer as parameter. | proved | C116_nlri, C116_attribute and C116_update have no hypothesis on the value. C116_one_outcome says that the outcome is unique, C116_wire_form that it is the wire form for messages that can be put on the wire; the other theorems are what the table says where something else is sent. Exactly how much room is enough is C63. |
| C117 | The outcome of encoding OPEN and BMP messages and of sending, for every value | bmp/mod.rs, bmp/msgrmon.rs, bmp/msgpeer.rs, bmp/msginit.rs, bmp/msgterm.rs, lib.rs, message/notification.rs, message/open.rs | The table of outcomes continued (Verif/Spec/OutcomeMsg.lean) for capabilities, OPEN, messages with their header and BMP. Encoders that are given a position are shown to come to their end at every position and are put one behind the other; induction on the capabilities. | proved | C117_open, C117_notification and C117_bmp have no hypothesis on the value; C117_message and C117_send take the outcome of the body, which C116_update and C117_open give for every UPDATE and OPEN. C116_one_outcome says that outcomes are unique. The room needed is C63. |
| C118 | The outcome of encoding and sending without overflow checks, for every value | afi/flowspec.rs, afi/ipv4.rs, afi/ipv6.rs, afi/mod.rs, bmp/mod.rs, lib.rs, message/attributes/mod.rs, message/update/mod.rs | The tables of outcomes of C116 and C117 have the build as a parameter. Prefixes and flow specifications are done for the wrapped arithmetic; everything that does no arithmetic on octets comes from the checked build by simulation; the rest of the proofs are the same for both builds. | proved | C118_nlri, C118_attribute, C118_update and C118_bmp have no hypothesis on the value. OPEN and NOTIFICATION messages are the same in both builds (C117_open, C117_notification apply to both). |
| C119 | Exactly which prefixes come back from the wire without overflow checks | afi/ipv4.rs, afi/ipv6.rs, afi/mdt.rs, afi/mod.rs | Which prefixes come back is a specification of its own (Verif/Spec/Returns.lean). What is sent is C118, what is read is C103; the two are put together by induction on the label stack, the kind of prefix and the list. | proved | C119_prefixes and C119_path_ids have no hypothesis on the values. Stated for the lists of each kind, which is what BgpAddrs::encode_to and decode_from call; other families (VPLS, EVPN, MVPN, FlowSpec) are covered by C119_not_fewer only. |
| C120 | Exactly which collections, attributes and messages come back from the wire without overflow checks | afi/evpn.rs, afi/flowspec.rs, afi/mod.rs, message/attributes/multiproto.rs, message/update/mod.rs | Which values come back is a specification of its own (Verif/Spec/ReturnsMsg.lean). What is sent is C118, what is read is C103; put together for each family, then for attribute values, lists of attributes and messages. MVPN and flow specifications are shown to be sent and read the same way in both builds where they come back in one, and C93 is used. That the length of the attributes is reduced modulo 65536 does not lead to another reading is shown by induction on the attributes: their headers are prefix-free. | proved | C120_collections, C120_values and C120_messages have no hypothesis on the values; the buffers are those from some size on. |
| C121 | Exactly which BMP messages come back from the wire without overflow checks | bmp/mod.rs, bmp/msgpeer.rs, bmp/msgrmon.rs, message/mod.rs | The messages that come back are a specification of its own (Verif/Spec/ReturnsBmp.lean). What is sent is C118, what is read is C103. An UPDATE is read as it was sent from the beginning of its octets only if this is all of them: by induction on the attributes and on the prefixes of the session. For OPEN messages of a peer-up the number of octets the capabilities take when sent is at most twice that of those read, which rules out all lengths that wrap around; then both builds do the same and C113 is used. | proved | C121_messages has no hypothesis on the message; the buffers are those from some size on. |
| C122 | Exactly what comes back when the two ends do not agree about the session | message/attributes/aspath.rs, message/attributes/nexthop.rs, message/attributes/originatorid.rs, message/update/mod.rs | The condition is a specification of its own for two sets of parameters (Verif/Spec/Between.lean). What is sent is C118 for the sender, what is read is C103 for the reader. For all attributes but three the octets do not depend on the sender's parameters, so that C120 of the reader applies; AS paths by counting octets. Messages by induction on the attributes as for C120. With overflow checks, by comparing the two builds part by part: where the checked one does not panic they write and read the same, and the routes for which neither end panics are the well-formed ones. | proved | Exact in both builds: without overflow checks the condition is MessageBetween; with them it is MessageBetween and that no prefix or route in the message is of those the checks fire for (C122_checked, C122_checked_agree). AS paths are exact for both (C122_paths). |
| C123 | Without overflow checks, too, what is decoded holds no more than the octets it was decoded from | afi/mod.rs, bmp/mod.rs, message/update/mod.rs | The measures of C96 on what C103 says a build without overflow checks reads (Wrap relations): labels by induction on the stack, lists of items by induction, attributes by strong induction on the length of the value, the BMP table by induction on the history. | proved | The counterpart of C96 for builds without overflow checks. The bound on NLRI is reached in both builds (C96_nlri_reached, C102). |
| C124 | How a monitoring station reads the messages about one peer does not depend on the messages about other peers | bmp/mod.rs | Induction on the history from its end: the parameters for a message are those of the last peer-up with its distinguisher and address that no peer-down followed (C60), such messages have the same 24 octets, and the session object matters for a message only by these parameters. | proved | Peers are told apart by distinguisher and address only (C124_octets): type, flags, AS number and router id do not count. |
| C125 | A monitoring station that joined late or lost messages is in step again with the next peer-up or peer-down of a peer | bmp/mod.rs | What a history leaves for a peer is its last peer-up (C60); appending a message changes it as a two-line recurrence says, and each part follows from the recurrence by induction on the continuation. | proved | What a lost peer-up costs is C61 (the parameters of the per-peer header are used until the next one). |
| C126 | Without overflow checks, too, the parts of an UPDATE are read independently and routes one by one | afi/mod.rs, message/update/mod.rs | Each reading relation of C103 keeps what it reads when octets are added behind (class WrapGoesOn, by induction on label stacks); lists of items by induction; UPDATE by the injectivity of its framing, as in C114. | proved | The counterpart of C15, C100 and C114. In sessions that guess at path identifiers (as new makes them) joining and cutting fail exactly where the guesses differ. |
| C127 | A BMP stream sent or read by a build without overflow checks | bmp/mod.rs, bmp/msgpeer.rs | Framing and breaks by induction on the list of messages, as in C109; the two builds by induction on the stream from the simulation of one session step; what is read from the exact reading relations of C103 after every history. | partial | The counterpart of C109, partial for the same reason: route monitoring of IPv6 peers and of peers without 4-octet AS numbers is misread. C127_parts shows how the two builds part after a message on which only one crashes. |
| C128 | What the buffer held before does not show in what a build without overflow checks encodes | afi/flowspec.rs, afi/mod.rs, bmp/*.rs, lib.rs, message/update/mod.rs | The relational method of C99 (two runs on two buffers of the same size agree on every octet written) repeated for the encoders of a build without overflow checks; the exceptions characterised exactly. | partial | Violated by the code: besides AGGREGATOR and the FQDN capability (C99), a FlowSpec prefix of 249 bits or more sends octets of the old contents (C128_flowspec4_iff, C128_flowspec_iff). The partial theorem is for all other values. |

## 7. Axioms

From `#print axioms`, for the theorems of MANIFEST.json (all in the namespace `Zbgp.Props`).

**none**: C27_labels_not_in_identity, C84_multicast_fails, C95_keepalive

**propext**: C26_stale_time_refused, C39_sections, C46_own_direction_ignored, C47_second_addpath_ignored, C48_second_addpath_survives, C84_empty, C86_with_rd, C86_labeled, C86_with_path_id, C86_origin, C105_strings, C118_send_panics_with_the_body

**propext, Classical.choice, Quot.sound**: C01_header_round_trip, C01_header_write_succeeds, C03_header_write_partial, C03_header_write_wraps, C04_stream_framing, C05_open_round_trip, C06_open_decode_total, C07_unknown_caps_skipped, C08_capability_round_trip_partial, C08_fqdn_does_not_round_trip, C09_open_length_partial, C09_open_length_wraps, C10_notification_round_trip, C10_notification_total, C11_notification_history_free_partial, C12_ipv4_nlri_round_trip, C12_ipv4_network_form, C13_ipv6_nlri_round_trip, C14_ipv4_total_partial, C14_ipv6_total_partial, C14_length_249_panics, C14_ipv4_rejects, C14_ipv6_rejects, C14_consumes_all, C15_families_decode, C15_families_encode, C15_encode_append, C15_decode_append, C15_families_exactly, C16_addpath_round_trip, C17_contains_is_inclusion_partial, C17_contains_sound, C17_same_length_host_bits, C17_contains_exactly, C17_wrong_exactly, C18_contains_is_inclusion_partial, C18_contains_sound, C18_same_length_host_bits, C18_contains_exactly, C18_wrong_exactly, C19_ipv4_range_partial, C19_ipv4_default_route_panics, C19_ipv6_range_partial, C19_ipv6_last_address_excluded, C19_ipv6_default_route_panics, C19_mac_range, C19_impossible_lengths, C20_contains_returns, C20_mac_contains_is_inclusion, C20_mac_contains_exactly, C21_rd_round_trip, C21_rd_decode, C22_label_stack_round_trip, C23_labeled_vpn_round_trip, C24_labeled_total_partial, C24_vpn_total_partial, C25_decoder_family, C25_families_accepted, C25_collection_round_trip, C27_vpls_partial_cmp_disagrees, C28_lawful_orderings_partial, C28_as_number_order_partial, C29_aspath_encode, C29_aspath_round_trip_partial, C29_as16_header_becomes_asn, C30_single_segment_partial, C30_correct_iff, C30_two_segments_misread, C31_aspath_total, C32_header, C32_framing_partial, C32_contents, C32_too_long, C32_aggregator_not_written, C33_attribute_round_trip_partial, C33_named_attributes, C33_aggregator_lost, C33_no_encoder, C34_unknown_transparent, C35_decode_set, C35_order_irrelevant, C35_encode_round_trip, C36_attribute_decode_total_partial, C36_unreach_decode_total, C36_crash_iff, C37_ext_community_helpers, C38_community_text, C38_community_parts, C39_update_round_trip_partial, C40_every_message, C40_exactly, C40_lengths_partial, C40_withdrawn_too_long, C40_attributes_too_long, C40_attribute_length_wraps, C41_never_hangs, C41_crash_iff, C41_total_partial, C42_sections, C42_independent, C42_one_reading, C44_unreach_round_trip, C44_reach_round_trip_partial, C44_flowspec6_rejected, C45_addpath_exactly_when, C45_plain_not_misread, C45_addpath_read, C45_messages, C47_match_caps, C49_evpn_round_trip_partial, C50_mvpn_round_trip_partial, C50_mvpn_sent, C50_types_3_to_7_never_carried, C51_vpls_decode_partial, C51_vpls_encode_partial, C51_reported_length_short, C51_l2_decode_exactly, C51_l2_encode_exactly, C52_mdt4_round_trip, C52_mdt6_round_trip_partial, C53_flowspec_ops_round_trip_partial, C53_flowspec_prefix_round_trip_partial, C54_operator_round_trip, C54_operator_list_round_trip, C55_mac_conversions, C55_mac_compare_partial, C56_common_header_partial, C56_common_header_other, C56_peer_header_partial, C56_rest_is_cleared, C57_termination_round_trip, C57_initiation_decode, C57_initiation_as_written, C57_initiation_round_trip_partial, C57_initiation_loses_types, C58_peer_up_partial, C58_open_embeds, C58_peer_up_of_opens_partial, C58_peer_up_addresses, C58_peer_down_partial, C58_route_monitoring_partial, C58_update_embeds, C59_no_hang_partial, C59_decode_returns_iff_partial, C60_session_table, C60_others_change_nothing, C60_results, C61_parameters, C61_path_ids_partial, C61_direction_ignored, C62_frame_partial, C62_bmp_partial, C62_vpls_writes_behind, C62_not_framed, C62_long_update_wraps, C62_release_buffer_size_kept, C62_release_frame_partial, C62_release_not_framed, C63_attribute_room, C63_update_exact, C63_peer_up_exact, C63_route_monitoring_exact, C63_initiation_exact, C63_never_ok_partial, C63_errors_partial, C63_more_errors_partial, C63_prefixes_panic, C63_attributes_exact, C63_open_exact, C63_panics, C64_local_partial, C64_lists_partial, C64_routes_partial, C64_flowspec_partial, C64_fails_flowspec, C65_set_get, C65_get_set, C65_addresses, C65_slices, C66_rd_text_partial, C66_fails, C67_release_size_independent_partial, C67_size_independent_partial, C67_bmp_v4, C68_prefix_text, C68_v4_display, C68_text_injective, C69_prefix_length_partial, C69_fails, C69_fails_bad_length, C69_address_partial, C70_list_text, C70_list_round_trip, C71_mac_text_partial, C71_fails, C72_fixed_values_partial, C72_trailing_octets, C72_atomic_aggregate, C72_originator_id, C72_cluster_list_partial, C72_pmsi_tunnel, C72_attr_set, C72_mp_reach, C73_next_hop_field_partial, C73_vpn_length_ignored, C74_evpn_text_identifies, C74_evpn_text_start, C75_mvpn_text_identifies_partial, C75_mvpn_text_ad_partial, C75_mvpn_text_fails, C76_rd_text_identifies, C76_prefix_text_identifies, C76_vpn_nexthop_text_identifies, C76_vpls_text, C76_vpls_site_text_identifies, C76_flowspec_operator_text_identifies, C77_as_text_partial, C77_as_text_wrong, C77_as_text_fails, C78_notification_text, C78_notification_text_identifies, C79_ext_community_text, C79_ext_community_text_fails, C79_route_target_text, C79_large_community_text, C79_large_community_text_identifies, C80_nlri_read_exactly, C80_items_read_exactly, C80_reading_is_unambiguous, C81_values_read_exactly, C81_updates_read_exactly, C81_reading_is_unambiguous, C82_open, C82_notification, C82_bmp, C82_bmp_session, C82_parameters_unique, C83_rd_text_partial, C83_as4_text_fails, C83_rd_parse_partial, C83_rd_parse_fails, C84_multicast_partial, C84_zero, C84_fresh_messages, C85_attributes_partial, C85_nlri_partial, C85_values, C85_flowspec_fails, C85_iff_no_rule, C86_net, C86_missing_partial, C86_wrong_field_named, C86_short_sequence, C87_attribute_names, C87_parts, C87_injective, C87_flowspec_map, C88_full_keys, C88_wrapped_keys, C88_labeled_keys_partial, C88_vpls_partial_cmp, C88_evpn_partial_cmp, C88_lists_partial_cmp, C89_attributes_partial, C89_plain_keys_partial, C89_eq_and_cmp_disagree, C89_pmsi_partial_cmp, C89_partial_cmp, C90_kinds, C90_ipv4_subnets_contiguous_partial, C90_ipv6_subnets_contiguous_partial, C91_prefix_texts, C91_net_texts, C91_community_texts, C91_list_texts, C91_texts_unambiguous, C92_collections_partial, C92_collections_exactly, C92_messages_partial, C92_messages_exactly, C93_collections, C93_messages, C94_negotiated, C94_as_width, C94_addpath_agreement, C94_both_directions_partial, C94_conversation_partial, C95_start, C95_dumps, C95_session_partial, C95_one_way_peer_misread, C95_large_open_panics, C95_close_panics, C95_hello, C96_nlri, C96_nlri_reached, C96_attribute, C96_nesting, C96_nesting_reached, C96_update, C96_update_reused, C96_open, C96_bmp, C96_bmp_table, C97_routes, C97_attribute, C97_update, C97_notification, C97_open, C97_session, C97_bmp, C97_open_received, C97_bmp_received, C97_one_line, C97_dumper, C98_attribute_text_iff, C98_attribute_text_partial, C98_attribute_text_fails, C98_attribute_kinds, C98_routes_text, C98_next_hop_text_iff, C98_next_hop_text_fails, C98_notification_text, C98_flowspec_text, C99_ignores_old_partial, C99_sent, C99_fqdn_leaks, C99_open_iff, C99_attribute_iff, C99_aggregator_leaks, C100_collections_partial, C100_collections_iff, C100_update_partial, C100_open, C100_open_cut, C100_notification_fails, C101_flowspec_iff, C101_flowspec6_iff, C101_flowspecVpn_iff, C101_collections_partial, C101_attributes_partial, C101_update_partial, C101_session, C101_bmp_partial, C101_update_fails, C102_decoders_end, C103_header_read_exactly, C103_header_write_wraps, C103_large_message_lost, C103_prefixes_read_exactly, C103_collections_read_exactly, C103_updates_read_exactly, C103_plain_nlri_return, C103_made_up_items_overrun, C103_made_up_vpnv6_route, C103_encoders_wrap, C103_bmp_update_length_below_19, C103_bmp_read_exactly, C103_peer_down_length_below_19, C104_containment_returns, C104_first_address_exactly, C104_same_as_checked_partial, C104_default_route_first, C104_ipv6_default_route_empty, C105_full_keys, C105_wrapped_keys, C105_labeled_keys, C106_same_outcome, C106_update, C106_update_again, C106_update_keeps, C106_open, C106_open_again, C106_notification, C107_attributes, C107_as_path, C107_community_lists, C107_vpn_route, C107_mdt_l2, C107_defaults, C107_flowspec_operators, C107_flowspec_lists, C107_evpn_mac_nexthop, C107_mac_flowspec6, C107_session_key, C108_display, C108_notification, C108_open, C108_open_insufficient_is_final, C108_update, C109_framing, C109_break, C109_stream_partial, C109_two_octet_peer_misread, C109_ipv6_peer_misread, C109_read_exactly, C110_history_partial, C110_break_partial, C110_dialogue_partial, C110_misheard, C111_table_partial, C111_plain_table_partial, C111_evpn_table_partial, C111_trailing_bits, C111_evpn_moved, C112_own_order, C113_peer_up, C113_peer_down, C113_initiation, C113_termination, C113_route_monitoring, C113_bmp_received, C113_open_exactly, C113_received, C113_route_monitoring_any_buffer, C114_each_by_itself, C114_any_order, C114_accessors_any_order, C114_refused_any_order_partial, C114_split_partial, C114_table_partial, C114_split_exactly, C115_read_exactly, C115_write_exactly, C115_recv_head, C115_send, C115_pieces, C115_failing, C115_two_ends, C115_dumper_pieces, C115_dumper_failing, C115_read_again_misreads, C115_dumper_open_fails, C115_keepalives, C116_any_buffer, C116_more_than_the_buffer, C116_nlri, C116_attribute, C116_update, C116_one_outcome, C116_wire_form, C116_other_families_vanish, C116_aggregator_lost, C116_gateway_lost, C116_large_labels, C116_vpls_cut, C117_any_buffer, C117_open, C117_open_wire_form, C117_open_refused, C117_notification, C117_message, C117_send, C117_long_body, C117_bmp, C117_initiation_texts, C118_nlri, C118_attribute, C118_update, C118_bmp, C118_message, C118_send, C118_same_without_panic, C118_unicast_panics_exactly, C118_oversized_prefix_sent, C118_flowspec_sends_buffer_contents, C118_long_body, C119_prefixes, C119_path_ids, C119_vpnv6_three_labels, C119_mdt_ipv6, C119_ten_labels_lost, C120_collections, C120_values, C120_messages, C120_evpn_labels, C120_never, C121_messages, C121_same, C121_more, C122_messages, C122_checked, C122_values, C122_checked_agree, C122_paths, C122_paths_silent, C122_never, C123_nlri, C123_attribute, C123_update, C123_update_reused, C123_bmp, C123_bmp_table, C124_one_peer, C124_interleavings, C124_next, C124_one_peer_release, C124_interleavings_release, C124_octets, C125_in_step, C125_forgotten, C125_lost, C125_repeated, C125_swapped, C125_in_step_release, C125_forgotten_release, C125_lost_release, C125_repeated_release, C125_swapped_release, C126_split_exactly, C126_joined_exactly, C126_joined, C126_cut_off_exactly, C126_each_by_itself, C126_any_order, C126_split, C126_update_cut_off, C127_framing, C127_read_exactly, C127_break, C127_stream_partial, C127_two_octet_peer_misread, C127_parts, C128_ignores_old_partial, C128_sent, C128_update_sent, C128_flowspec4_iff, C128_flowspec_iff, C128_attribute_iff

**propext, Quot.sound**: C02_head_rejects, C02_head_total_partial, C02_head_can_panic, C11_open_history_free, C11_notification_keeps_old_data, C11_update_appends, C11_update_history_free_partial, C11_update_keeps_old_attributes, C20_mixed_families, C23_labeled_vpn_identical, C24_labeled_panics, C24_vpn_panics, C25_reported_code, C25_unknown_rejected, C26_capability_codes_partial, C26_ipv4_codes_swapped, C28_as_number_inconsistent, C28_as_number_not_lawful, C32_overwrites_behind, C36_crashes, C41_crashes, C43_accessors, C44_ipv4_next_hop_of_ipv6, C45_receives_iff, C46_addpath_directions_partial, C46_addpath_directions_bidirectional_partial, C47_match_addpath_partial, C48_remove_keeps_others, C48_remove_capability_partial, C48_remove_addpath_all, C49_ipv6_prefix_not_carried, C50_types_3_to_7_not_carried, C50_sent_is_wire_iff, C52_mdt6_long_prefix_panics, C53_two_small_values_lost, C53_large_value_panics, C53_prefix_misaligns, C53_vpn_prefix_panics, C54_value_minimal, C55_order_is_not_integer_order, C59_crashes, C62_buffer_size_kept, C64_fails_routes, C73_fails, C90_mac_not_contiguous, C91_rd_texts, C94_one_way_offers_misread, C94_send_only_misread, C94_guess_misreads, C100_guessing_fails, C101_other_errors_fail, C102_decoders_agree, C102_encoders_agree, C102_containment_agrees, C102_bmp_agrees, C102_checked_is_the_model, C103_size_difference, C106_update_not_unchanged, C107_no_labels, C108_header, C108_bmp_header, C111_watch, C111_stale_labels, C112_again, C112_peer_order_partial, C112_order_matters, C112_two_as_numbers, C113_not_sent, C114_refused_fails_order, C114_split_fails_guessing, C115_send_again_misreads, C119_not_fewer, C120_not_fewer, C121_not_fewer, C122_agree, C127_both_builds, C127_no_crash, C127_sent
