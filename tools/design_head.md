# zettabgp: formal model and proofs in Lean 4

## 1. What is here

* `properties.jsonl` - the English properties (C01...), written by `tools/gen_properties.py`.
* `lean/Verif/Basic.lean` - the outcome monad `Res`, byte buffers and slice operations.
* `lean/Verif/Model/*.lean` - the model, function by function. Each definition cites the file and lines it models.
* `lean/Verif/Spec/*.lean` - small specifications written from the RFC wire formats and the English properties.
* `lean/Verif/Lemmas/*.lean` - helper lemmas.
* `lean/Verif/Props/*.lean` - the property theorems `Zbgp.Props.Cnn_...`, each with an `example` beside it that meets its
  hypotheses with a concrete case.
* `MANIFEST.json` - property, status, theorem names, note; written by `tools/gen_manifest.py` from the theorem names and
  `tools/notes.json`.
* `seeded/LOG.jsonl` - what happened to the theorems when the model was edited the way a bug would change the program.
* This file is `tools/design_head.md` followed by tables that `tools/gen_design.py` fills in.

## 2. How the code is modelled

* `u8/u16/u32/u64/u128` are `BitVec n`; `as` casts are `setWidth`. `usize` is `Nat`: all `usize` sums are of buffer positions and
  lengths, which are far below 2^64. A subtraction below zero is a panic.
* Byte slices and `Vec<u8>` are `List (BitVec 8)`. A `&mut [u8]` parameter becomes an argument and a returned buffer, `&mut self` an
  argument and a returned value. What an encoder leaves in the buffer when it returns `Err` is not modelled.
* `Ipv4Addr`/`Ipv6Addr` are `BitVec 32`/`BitVec 128`; a `String` is a list of characters, a Rust `String` taken from the wire is its
  bytes with a UTF-8 test.
* The result type is `Res a = ok a | err e | panic | hang`. `err` is `Result::Err`; `panic` is every Rust panic: slice or index out
  of range, `unwrap` on nothing, `unimplemented!`, `clone_from_slice` length mismatch, arithmetic overflow. Overflow is
  modelled as in a build with overflow checks. A theorem that concludes `= ok ..` therefore also holds for release builds
  (no overflowing operation was executed); a theorem that exhibits a panic by overflow holds for builds with overflow checks
  and says so. `Verif/Model/Into.lean` has `decode_from` of UPDATE, OPEN and NOTIFICATION a
  second time, with the object after a call that fails. `Verif/Model/Release.lean` and `ReleaseBmp.lean` have every function whose arithmetic can overflow a second time, for both kinds of
  build: C102 shows that they agree unless the checked one panics, C103 and C104 what the other does then. `hang` is a loop that goes on for ever: loops are recursion with fuel of at least the buffer length, the model
  answers `hang` when it is used up, and the theorems show that it never is (C06, C41, C59 and the list decoders).
* `BgpError` keeps its constructors, not its message text; how errors with their texts print is modelled apart (Model/Error.lean).
* `BTreeSet<T>` is the strictly ascending list of its members, `BTreeMap<K,V>` a sorted association list, both with the
  behaviour the standard library documents (insert replaces, iteration ascends).
* Traits (`BgpItem`, `BgpAddrItem`, `FSOperItem`, `Display`, orderings) are type classes, their `impl`s instances. The derived
  `PartialOrd`/`Ord` of structs and enums are the lexicographic orders that Rust defines.
* The recursion of `ATTR_SET` inside `ATTR_SET` is unbounded in the model; the stack depth of a real thread is not modelled.

## 3. Trusted base

* Lean 4.33.0's kernel.
* The axioms `propext`, `Classical.choice`, `Quot.sound`. Section 7 lists which of them each theorem depends on. There are no
  others: no `sorry`, no axiom of our own, no `native_decide`, no `bv_decide`.
* The transcription of the Rust source in `Verif/Model`, and the reading of the English in `Verif/Spec`.
* The behaviour of `std` functions that the model states itself: number formatting and parsing, `Ipv4Addr`/`Ipv6Addr` `Display` and
  `FromStr` (`Verif/Model/Text.lean`, `Verif/Model/Display.lean`: dotted quads, RFC 5952 compression as `core::net` does it), slices,
  `BTreeSet`/`BTreeMap`, `str::split`, `String::from_utf8`, derived orderings
  (`derive(PartialOrd)` compares field by field with `partial_cmp` and stops at the first answer other than `Some(Equal)`;
  `derive(Hash)` feeds the discriminant and the fields in order to the hasher, a list its length first).
* The documented behaviour of `serde`, its derive macros and a self-describing text format such as JSON, as stated in the first
  half of `Verif/Model/Serde.lean` (which visitor method a format calls, unknown fields, externally tagged enums).
* Not part of the model and not trusted: the Rust compiler, the operating system, the network.

## 4. What is modelled and what is not

Modelled, all under `src`:

* `util.rs`, `lib.rs` (capabilities, session parameters, header reader and writer, capability matching), `error.rs` as constructors.
* `afi/`: IPv4, IPv6, MAC and mixed prefixes, route distinguishers, label stacks, `Labeled`/`WithRd`/`WithPathId`, all item list
  decoders and encoders, EVPN, MVPN, VPLS, MDT, FlowSpec, `BgpAddrs` with its families, orderings, containment and ranges.
* `message/`: OPEN, NOTIFICATION, UPDATE, all path attributes, multiprotocol attributes, update helper functions.
* `bmp/`: all messages, the session table.
* Texts: `Display` and `FromStr` of communities, route distinguishers, prefixes, MAC addresses; `Display` of routes, AS numbers,
  extended and large communities, notifications.
* The comparisons and hashes, hand-written and derived, of all routes, attributes, capabilities and OPEN messages
  (`Verif/Model/Order.lean`, `Verif/Model/Derived.lean`).
* `examples/bgpdumper.rs`, with the connection as the octets that go in and out (`Verif/Model/Dumper.lean`), and with the calls of
  `read` and `write` of the connection (`Verif/Model/Io.lean`). `read_exact` and `write_all` are modelled as the default methods of the standard library.
* The `Debug` text of every public type, derived or written by hand, without the alternate flag: the helpers of `std::fmt`
  (`debug_struct`, `debug_tuple`, `debug_list`, `debug_set`, `escape_debug`) are modelled with it (`Verif/Model/Debug.lean`); the
  two Unicode tables `escape_debug` looks into are arbitrary.
* The `Display` text of attributes, route lists and next hops (`Verif/Model/AttrDisplay.lean`).
* The `serde` implementations, hand-written and derived, of all attributes, NLRI and prefixes.

Not modelled:

* Those `Display` implementations that are not listed above; the alternate form of `Debug`; the texts of errors.
* Sockets, threads and timers, other than by what the calls of `read` and `write` return.
* The `log` calls.
* Time, memory and stack use.

## 5. What the proofs found

Where the code violates a property, the negation is proved for a concrete case or, more often, the exact set of cases is
characterised, and the strongest true variant is proved in a theorem with the suffix `_partial`.

| where | what happens | theorem |
|---|---|---|
| message header | a length field below 19 panics (subtraction overflow); bodies above 65516 octets panic or are announced as short ones | C02_head_can_panic, C03_header_write_wraps |
| OPEN | FQDN capability does not come back; parameters above 255 octets wrap the length octet | C08_fqdn_does_not_round_trip, C09_open_length_wraps |
| decoding into used objects | UPDATE keeps the old attributes, a two-octet NOTIFICATION keeps the old data | C11_update_keeps_old_attributes, C11_notification_keeps_old_data |
| prefix NLRI | length octets 249..255 panic; labelled and VPN prefixes panic on more inputs | C14_length_249_panics, C24_labeled_panics, C24_vpn_panics |
| prefixes | ranges of /0 panic, the last IPv6 address is left out; host bits are kept | C19_*, C17_same_length_host_bits |
| NLRI | exact conditions of acceptance and crash for all families | C80_nlri_read_exactly |
| attributes, UPDATE | exact conditions of acceptance and crash | C81_values_read_exactly, C81_updates_read_exactly |
| OPEN, NOTIFICATION, BMP | exact conditions of acceptance and crash | C82_open, C82_notification, C82_bmp, C82_bmp_session |
| families | capability codes of IPv4 multicast and labelled unicast are swapped | C26_ipv4_codes_swapped |
| AS numbers | the order is not lawful; k*65536 is displayed as k | C28_as_number_not_lawful, C77_as_text_wrong |
| AS_PATH | only empty paths and single-segment 32-bit paths are read correctly | C30_correct_iff, C29_as16_header_becomes_asn |
| AGGREGATOR | never written; octets are reported that were not written | C33_aggregator_lost, C32_aggregator_not_written |
| attributes | exact crash conditions; trailing octets accepted; both AGGREGATOR widths accepted in every session | C36_crash_iff, C72_trailing_octets |
| UPDATE | exact crash conditions; attribute section length wraps | C41_crash_iff, C40_attribute_length_wraps |
| MP_REACH_NLRI | VPN next hop length ignored, a 48-octet next hop crashes; IPv6 FlowSpec always rejected | C73_fails, C44_flowspec6_rejected |
| AddPath | own direction ignored; second capability ignored | C46_own_direction_ignored, C47_second_addpath_ignored, C48_second_addpath_survives, C61_direction_ignored |
| EVPN, MVPN | IPv6 prefix routes and MVPN types 3 to 7 are not carried; MVPN texts with IPv6 are ambiguous | C49_ipv6_prefix_not_carried, C50_types_3_to_7_never_carried, C75_mvpn_text_fails |
| VPLS | two octets too few are reported | C51_reported_length_short |
| MDT | IPv6 prefixes of 64 bits and more panic | C52_mdt6_long_prefix_panics |
| FlowSpec | wrong lengths, misaligned prefixes, panics on large values | C53_* |
| BMP | addresses in ::/96 become IPv4; Initiation loses the types; IPv4 addresses clear the rest of the buffer; crashes | C58_peer_up_addresses, C57_initiation_loses_types, C56_rest_is_cleared, C59_crashes |
| short buffers | many encoders panic instead of returning an error | C63_panics, C63_prefixes_panic |
| texts | type-1 route distinguishers do not parse back; bad prefix lengths and MAC texts are accepted | C66_fails, C69_fails, C71_fails |
| route distinguishers | type 2 is never displayed as AS number and number; a text with an AS number above 65535 becomes another route distinguisher | C83_as4_text_fails, C83_rd_parse_fails |
| multicast test | reserved IPv4 addresses (240.0.0.0/4) count as multicast | C84_multicast_fails |
| serde | FlowSpec rules are serialised but no document is ever deserialised to one, so attributes with rules do not come back; a missing path identifier is reported as a missing `rd` | C85_flowspec_fails, C86_wrong_field_named |
| routes as keys | `partial_cmp` (so `<`, `<=`) says nothing of equal VPLS and most EVPN routes, and of PMSI tunnels with equal flags and type | C88_vpls_partial_cmp, C88_evpn_partial_cmp, C89_pmsi_partial_cmp |
| attributes as keys | AS paths with AS n and AS n*65536 are == but hash differently and are ordered | C89_eq_and_cmp_disagree |
| MAC prefixes | are sorted from the last byte, so what a prefix contains is not contiguous in sorted tables | C90_mac_not_contiguous |
| route distinguisher texts | parts behind the second number are ignored (`1:2:x`), one number alone is accepted | C91_rd_texts |
| sending on | received VPLS routes, MVPN routes of types 3-7, most FlowSpec rules, AGGREGATOR, PMSI tunnels, attribute sets and 16-bit AS paths can not be sent on | C92_collections_exactly, C92_messages_exactly |
| matching AddPath | one-way offers leave the two ends with different ideas of path identifiers, and UPDATEs are misread without an error | C94_one_way_offers_misread, C94_send_only_misread |
| fuzzy path identifiers | are on by default: without AddPath on either side, lists that begin with two default routes are misread | C94_guess_misreads |
| the example program | takes what the peer offers to receive for its own, so it misreads plain prefixes; an OPEN of more than 4096 octets and the end of the connection bring it down | C95_one_way_peer_misread, C95_large_open_panics, C95_close_panics |
| `Display` of tunnels and next hops | the opaque value of an mLDP tunnel and a zero route distinguisher are not printed | C98_attribute_text_fails, C98_next_hop_text_fails |
| AGGREGATOR, FQDN capability | octets that an earlier message left in the buffer are sent: the value of every AGGREGATOR, the last two octets of every FQDN capability | C99_aggregator_leaks, C99_fqdn_leaks, C99_attribute_iff, C99_open_iff |
| messages that are cut off | an OPEN cut off between parameters is accepted with the capabilities that are left; the first octet of NOTIFICATION data is read as the whole; in a session that guesses, the first octet of a path identifier is read as a default route | C100_open_cut, C100_notification_fails, C100_guessing_fails |
| FlowSpec components over 4094 octets | are answered with `InsufficientBufferSize` on buffers of every size, so a program that enlarges its buffer never stops | C101_flowspec_iff, C101_update_fails |
| builds without overflow checks | label and distinguisher bits wrap around: an item that announces 8 bits is read as a VPNv6 host route; messages over 65535 octets are sent cut off, at 65536 octets not at all; a header with length 0 announces 65517 octets | C103_made_up_vpnv6_route, C103_large_message_lost, C103_header_read_exactly, C103_bmp_update_length_below_19 |
| builds without overflow checks | the first address of a/0 is a; no address is in the IPv6 default route | C104_default_route_first, C104_ipv6_default_route_empty |
| UPDATE objects after a failure | keep the attributes of the message that failed, which then come before those of the next message decoded into the object; the announced prefixes stay those of an earlier message | C106_update, C106_update_again, C106_update_not_unchanged |
| default values | the group of a default IPv6 MDT route is fe00::, which is not a multicast address (ff00::/8) | C107_defaults |
| labeled routes without labels | are sent like unlabeled ones, so the receiver takes the prefix for labels | C107_no_labels |
| kinds of errors | a header or NOTIFICATION that is only too short is refused with `Static`, an UPDATE that ends within its attributes with `ProtocolError`; a capability longer than its parameter with `InsufficientBufferSize`, which no further octets cure | C108_header, C108_notification, C108_update, C108_open_insufficient_is_final |
| route monitoring of a peer that is up | is encoded with 4-octet AS numbers and the transport of the peer's address, but a session object reads it with the peer's OPEN and IPv4 transport; without 4-octet AS numbers in that OPEN every AS path, and for an IPv6 peer every prefix, comes back as another | C109_two_octet_peer_misread, C109_ipv6_peer_misread |
| two ends that offer AddPath in different directions | one sends with path identifiers and the other reads without them: `10.0.0.0/8` with identifier 0 is heard as four default routes and `10.0.0.0/8`, and no error shows, from the OPENs to the next KEEPALIVE | C110_misheard |
| prefixes with bits set behind their length | are different keys: announced as `10.0.0.0/7` and withdrawn as `11.0.0.0/7` (RFC 4271 4.3: such bits are irrelevant) the route stays in a table for ever | C111_trailing_bits |
| a labeled route that is announced again with other labels | is the same key, so that `BTreeMap::insert` keeps the old labels | C111_stale_labels |
| an EVPN MAC route that moves to another Ethernet segment | is another key, although RFC 7432 7.2 makes the segment no part of it: both stay in the table | C111_evpn_moved |
| a peer that sends two AddPath capabilities, or a family twice | is matched by the first one: the same capabilities in another order settle another session | C112_order_matters |
| OPEN messages with an FQDN capability, received or built | never come back: what is received can not be sent on | C113_received, C113_open_exactly |
| an UPDATE with one attribute that is refused and one that crashes the program | which of the two happens depends on the order of the attributes | C114_refused_fails_order |
| sessions made by `BgpSessionParams::new` (path identifiers are guessed) | the same routes in one message and in two are read differently: the guess looks at the whole list | C114_split_fails_guessing |
| a build without overflow checks, and a BMP peer-down whose NOTIFICATION announces fewer than 19 octets | 65517 octets more are taken for it; if they are there the peer is down | C103_peer_down_length_below_19 |
| a read or write that fails for the moment only (a timeout) after part of a message | the octets that were read are gone, those that were written stay: trying again is refused by the reader | C115_read_again_misreads, C115_send_again_misreads |
| prefixes with a length above 32 (128), which constructors and texts accept | `range_first`, `range_last` and, for another such prefix, `contains` stop the program | C17_contains_exactly, C18_contains_exactly, C19_impossible_lengths |
| an UPDATE whose announced or withdrawn prefixes are not of the family of the session | the prefixes are left out, the encoding succeeds | C116_other_families_vanish |
| a label of 2^20 or more | another label is sent: the last 20 bits | C116_large_labels |
| two EVPN prefix routes for IPv6 that differ in the gateway | the same octets are sent for both | C116_gateway_lost |
| a body of 65536 octets or more | its first octets are sent as a whole message of the length modulo 65536 | C117_long_body |
| two BMP initiations with the same texts in different fields | the same octets are sent for both | C117_initiation_texts |
| a unicast prefix of 249 bits or more, without overflow checks | sent as its length octet alone; readers panic or report an error | C118_oversized_prefix_sent |
| a FlowSpec prefix of 249 bits or more, without overflow checks | 32 octets of the buffer that were never written are sent | C118_flowspec_sends_buffer_contents |
| a body of 65517 to 65535 octets, without overflow checks | fewer than 19 octets of the header are sent, perhaps none | C118_long_body |
| a VPNv6 route of 121 to 128 bits with three labels, or an IPv6 MDT route of 64 bits or more | a build with overflow checks panics; without them it is sent and comes back | C119_vpnv6_three_labels, C119_mdt_ipv6 |
| a labelled IPv4 route of 16 bits with ten or more labels, without overflow checks | sent, and read as something else | C119_ten_labels_lost |
| EVPN routes of types 1 and 2 with 11 to 31 labels | come back only without overflow checks | C120_evpn_labels |
| two ends with a different width of AS numbers | an AS path is read without error as a path of another length | C122_paths_silent, C122_paths |
