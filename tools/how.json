{
 "C01": "RT for the 19-octet header",
 "C02": "decision logic, NEG",
 "C03": "RT, NEG above 65516 octets",
 "C04": "RT, induction over the message history",
 "C05": "RT, induction over the capability list",
 "C06": "TOT, induction over the remaining octets",
 "C07": "induction over a TLV list specification",
 "C08": "RT per capability, NEG for FQDN",
 "C09": "RT, NEG above 255 octets",
 "C10": "RT and TOT",
 "C11": "independence of the old object, NEG",
 "C12": "RT, induction over the list, bit-level specification",
 "C13": "as C12",
 "C14": "TOT, NEG for length octets from 249",
 "C15": "The item loops: an item is read the same with more octets behind it, so a run over the first part goes on over the second. For the families through the relational reading of C80 (every constructor), for encoding from the octets each family writes.",
 "C16": "RT, induction",
 "C17": "set inclusion over all addresses, NEG with host bits",
 "C18": "as C17",
 "C19": "membership over all addresses, NEG",
 "C20": "case analysis",
 "C21": "RT in both directions",
 "C22": "RT, induction over the label stack",
 "C23": "RT, induction over the list",
 "C24": "TOT under a guard, NEG",
 "C25": "dispatch table, RT lifted to the sum of families",
 "C26": "table, NEG for two codes",
 "C27": "order laws",
 "C28": "order laws for all ordered types, NEG for AS numbers",
 "C29": "RT, NEG in 16-bit sessions",
 "C30": "exact characterisation, NEG",
 "C31": "TOT",
 "C32": "frame lemmas, NEG",
 "C33": "RT per attribute, NEG",
 "C34": "RT for unknown attributes",
 "C35": "exact octets",
 "C36": "exact crash conditions by structural and fuel induction",
 "C37": "bit fields",
 "C38": "texts as character lists",
 "C39": "RT, sections",
 "C40": "section lengths, NEG",
 "C41": "exact crash conditions, no hang",
 "C42": "section decomposition",
 "C43": "list of attributes",
 "C44": "RT over all families, NEG",
 "C45": "decision logic; inversion of the exact reading of UPDATE messages for the statement about messages",
 "C46": "decision logic, NEG",
 "C47": "list functions, NEG",
 "C48": "list functions, NEG",
 "C49": "RT, induction over lists, NEG",
 "C50": "RT, NEG",
 "C51": "RT, NEG",
 "C52": "RT, NEG",
 "C53": "RT, NEG",
 "C54": "RT for every operator and value",
 "C55": "RT, NEG",
 "C56": "RT, NEG",
 "C57": "RT, induction over TLVs, NEG",
 "C58": "RT over embedded messages, NEG",
 "C59": "exact crash conditions, no hang",
 "C60": "refinement to an abstract map, induction over histories",
 "C61": "invariant over histories, NEG",
 "C62": "frame lemmas for every encoder, NEG",
 "C63": "short buffers, exact where possible, NEG",
 "C64": "locality lemmas for every decoder, NEG",
 "C65": "byte order",
 "C66": "texts as character lists, NEG",
 "C67": "extension lemmas for every encoder, NEG",
 "C68": "texts, RFC 5952 compression",
 "C69": "texts, NEG",
 "C70": "texts, induction over the parts",
 "C71": "texts, NEG",
 "C72": "if and only if per attribute",
 "C73": "wire specification of the field, NEG",
 "C74": "injectivity by unique parsing",
 "C75": "as C74, NEG",
 "C76": "as C74",
 "C77": "exact, NEG",
 "C78": "table and injectivity",
 "C79": "exact characterisation of equal texts",
 "C80": "exact reading relations (acceptance, result, octets taken, crash) for every decoder, composed by induction over the list of items",
 "C81": "exact reading relations for every attribute, nested sets by induction on the length of the value, composed with C80 to whole messages",
 "C82": "exact reading relations for capabilities, parameters, TLVs and embedded messages by induction on their lists; composed with C81 for the UPDATE messages and with the table of the session (C60) for the parameters",
 "C83": "wire octets, halves and texts related by arithmetic; injectivity of decimal numbers for the negative parts",
 "C84": "arithmetic on the leading octet; case analysis over the families; exact encodings of the fresh messages",
 "C85": "codecs per type shown to invert each other; mutual induction over attribute sets and lists; fuel shown not to matter (deN_stable)",
 "C86": "case analysis of the loop over the fields of a map, for every document",
 "C87": "the round trip for everything without FlowSpec rules; for the rest a left inverse and mutual induction",
 "C88": "a class of comparison laws closed under products, sums, lists and views; every derive is a view of such a composition",
 "C89": "as C88; mutual recursion of attribute sets by induction on size; general characterisation of the disagreement",
 "C90": "arithmetic on the leading bits; case analysis over the kinds; NEG for MAC prefixes",
 "C91": "grammars written as relations, if and only if with the parsers by induction over the text",
 "C92": "the exact description of what is read gives normal form; the other direction from the octets the encoders write in any buffer (extension to long buffers), with sizes counted; NEG for VPLS, MVPN types 3-7, FlowSpec, AGGREGATOR, PMSI, attribute sets, 16-bit AS paths",
 "C93": "both directions of C92 without the assumption that the value was received",
 "C94": "what is found after matching is computed for any lists by induction; OPEN and UPDATE round trips, encoders depend only on transport and AS width; NEG for one-way AddPath offers and for guessing receivers",
 "C95": "relation on octet streams that says what is printed, refinement of the loop both ways by induction on the stream; NEG for one-way offers of the peer, large OPENs, closed connections",
 "C96": "entries counted on the exact read relations: every item takes at least as many octets as it holds, by induction on lists and on the octets of nested attribute sets; both bounds are reached",
 "C97": "the structure a Debug impl hands to the formatter as a tree; the printed text splits in only one way (mutual induction over trees, escapes of strings cannot hold a bare quote), then injectivity of the trees type by type",
 "C98": "each kind begins with another word (decided on the words), then splitting at separators that the texts of numbers and addresses do not hold, and C97 for what is printed with {:?}; exact set of exceptions; NEG for mLDP tunnels and zero route distinguishers",
 "C99": "two runs of an encoder on buffers that agree on a set of positions are related step by step: the results agree on that set and on the octets reported (a type class with an instance per encoder, induction over lists); exact condition for attributes and OPEN; NEG for AGGREGATOR and the FQDN capability",
 "C100": "from the exact reading specifications (C80, C81, C82): each item has one reading, which does not change with octets behind it; induction over the items of the shorter field; exact set of exceptions for NLRI; NEG for guessed path identifiers and NOTIFICATION data",
 "C101": "compositional: each writing step has one outcome on all buffers above some size, and so have its compositions; exact set of exceptions for FlowSpec components; NEG for UPDATE messages with one",
 "C102": "simulation: every function is written once with the arithmetic of the build as a parameter; induction over the loops shows that either the checked run panics or both results are equal; the checked copy is proved equal to the model",
 "C103": "exact characterisation (iff) of list decoders by induction, with the length taken modulo 256 in a small relation; exact header reader; general witnesses for made-up routes and lost messages; collections of all families from the exact readings of each kind of route; attribute values, UPDATE and BMP messages by composing the exact readings of their parts, and the table of a BMP session by induction on the history",
 "C104": "bit arithmetic with shift amounts modulo the width; NEG for default routes",
 "C105": "The data fed to a hasher by pairs, sums, options and lists is shown to be prefix-free and to determine the value up to `cmp` (a type class with an instance for every type), by induction on nested attribute sets; with the characterisation of `cmp` of C88 and C89 this gives an iff with the identity of the value.",
 "C106": "`decode_from` of the three messages is modelled a second time with the object after the call (Model/Into.lean); that both agree is a theorem. Invariants of the attribute and capability loops by induction on the part that is read, with existence and uniqueness of the longest such part, give an iff with the specification Spec/Left.lean.",
 "C107": "The constructors are modelled in Model/Construct.lean. What is written follows from the encoders' theorems of C12, C33 and C51 with the constructor's fields put in, and is stated with literal octets and the arguments only; ascending lists by the order of communities.",
 "C108": "Case analysis of the decoders; that an error of an OPEN is final by induction on its parameters and capabilities, showing that octets behind a parameter are not looked at while it is read.",
 "C109": "The loops of the router and of the station, which are the user's, are in the specification and use the modelled encoders and decoders. Invariant: the table of the session object holds exactly the peer-ups in force after the messages so far. Induction on the list of messages, with the round trips of C39 and C56 to C58 for one message. The two ways in which it fails are proved for every peer-up.",
 "C110": "The two programs' loops, which are the user's, are in the specification Spec/Dialogue.lean and call the modelled encoders, decoders and header functions. Induction on the history: the stream is the concatenation of framed messages, and cutting it inside a frame stops the reader at the header or at the body. The opening joins this with the theorems on settling sessions (C94).",
 "C111": "The program and BTreeMap (entries as a list, keys compared with cmp) are in the specification Spec/Table.lean, next to RFC identities of routes and what is in force after a history. Induction on the history from its end, with the invariant that no two keys are the same route; for prefixes in network form cmp says Equal exactly for the same route (from C88). The ways in which it fails are proved for all values.",
 "C112": "closed form of match_caps (kept capabilities, AS4 flag, number); matching is idempotent entry by entry; find in a list with each family once is invariant under the order of the list; the entry found after matching depends on the own lists only through which families occur",
 "C113": "From left to right by inversion: what is read is characterised (C12, C91), so the values have the form the readers give; capabilities are compared from the front, where an FQDN capability would shift the rest. The octets of BGP messages inside BMP are recovered from the buffer through the u16 length field; a length that wraps is excluded by counting octets (the capabilities read from r octets take at most 2r). From right to left by the round trips C05, C57, C58.",
 "C114": "From the exact form of what decode_from reads (C12, C63): the attributes are read one by one, so a permutation of the octets is a permutation of what is read; accessors find the same attribute where types are distinct. Splitting uses that the routes read from joined octets are the joined routes (C15).",
 "C115": "A connection is its octets and a list of what the next calls do (Verif/Model/Io.lean). Induction on the calls gives exactly when read_exact and write_all succeed and what got through; induction on the messages lifts this to histories and to the example program, with C110 for the two ends.",
 "C116": "A table of outcomes (Verif/Spec/Outcome.lean) for items, collections, attributes and messages. Every encoder is shown to have the outcome of the table without any hypothesis on the value; induction on the lists of items and of attributes, with the position in the buffer as parameter.",
 "C117": "The table of outcomes continued (Verif/Spec/OutcomeMsg.lean) for capabilities, OPEN, messages with their header and BMP. Encoders that are given a position are shown to come to their end at every position and are put one behind the other; induction on the capabilities.",
 "C118": "The tables of outcomes of C116 and C117 have the build as a parameter. Prefixes and flow specifications are done for the wrapped arithmetic; everything that does no arithmetic on octets comes from the checked build by simulation; the rest of the proofs are the same for both builds.",
 "C119": "Which prefixes come back is a specification of its own (Verif/Spec/Returns.lean). What is sent is C118, what is read is C103; the two are put together by induction on the label stack, the kind of prefix and the list.",
 "C120": "Which values come back is a specification of its own (Verif/Spec/ReturnsMsg.lean). What is sent is C118, what is read is C103; put together for each family, then for attribute values, lists of attributes and messages. MVPN and flow specifications are shown to be sent and read the same way in both builds where they come back in one, and C93 is used. That the length of the attributes is reduced modulo 65536 does not lead to another reading is shown by induction on the attributes: their headers are prefix-free.",
 "C121": "The messages that come back are a specification of its own (Verif/Spec/ReturnsBmp.lean). What is sent is C118, what is read is C103. An UPDATE is read as it was sent from the beginning of its octets only if this is all of them: by induction on the attributes and on the prefixes of the session. For OPEN messages of a peer-up the number of octets the capabilities take when sent is at most twice that of those read, which rules out all lengths that wrap around; then both builds do the same and C113 is used.",
 "C122": "The condition is a specification of its own for two sets of parameters (Verif/Spec/Between.lean). What is sent is C118 for the sender, what is read is C103 for the reader. For all attributes but three the octets do not depend on the sender's parameters, so that C120 of the reader applies; AS paths by counting octets. Messages by induction on the attributes as for C120. With overflow checks, by comparing the two builds part by part: where the checked one does not panic they write and read the same, and the routes for which neither end panics are the well-formed ones.",
 "C123": "The measures of C96 on what C103 says a build without overflow checks reads (Wrap relations): labels by induction on the stack, lists of items by induction, attributes by strong induction on the length of the value, the BMP table by induction on the history.",
 "C124": "Induction on the history from its end: the parameters for a message are those of the last peer-up with its distinguisher and address that no peer-down followed (C60), such messages have the same 24 octets, and the session object matters for a message only by these parameters.",
 "C125": "What a history leaves for a peer is its last peer-up (C60); appending a message changes it as a two-line recurrence says, and each part follows from the recurrence by induction on the continuation.",
 "C126": "Each reading relation of C103 keeps what it reads when octets are added behind (class WrapGoesOn, by induction on label stacks); lists of items by induction; UPDATE by the injectivity of its framing, as in C114.",
 "C127": "Framing and breaks by induction on the list of messages, as in C109; the two builds by induction on the stream from the simulation of one session step; what is read from the exact reading relations of C103 after every history.",
 "C128": "The relational method of C99 (two runs on two buffers of the same size agree on every octet written) repeated for the encoders of a build without overflow checks; the exceptions characterised exactly."
}