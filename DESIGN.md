# Formal model of osmo-iuh: design

All statements are about a Lean 4 model of the C code in `/repo`, written by
reading that code.  The code itself is never built or run here.

## 1. Trusted base

* Lean 4.33.0's kernel.
* Axioms: every property theorem depends on at most `propext`,
  `Classical.choice`, `Quot.sound` (`#print axioms`, checked by `vcheck`).  No
  own axioms, no `sorry`, no `native_decide`, no `bv_decide`.  Statements about
  whole (finite) tables are decided by kernel evaluation (`decide +kernel`).
* The faithfulness of the model: each definition cites the file and lines it
  models, and every simplification is stated in that comment.  All results that
  the project's own tests record (`/repo/tests/test-{ranap,hnbap,helpers}.ok`) are
  recomputed by the model (`Props/Vectors.lean`, `Props/Aper.lean`,
  `Props/Factory*.lean`).
* The behaviour of external libraries, listed in section 3.
* Tables transcribed by scripts, all of them in `Verif/Gen`:
  * `RanapTypes`, `RuaTypes`, `HnbapTypes`, `SabpTypes`: the type descriptors
    `asn_DEF_*` in `/repo/src/{ranap,rua,hnbap,sabp}/*.c` (kind, members,
    optionality, PER constraints).  Extension additions that the descriptors
    list after the extension mark of a SEQUENCE are dropped.
  * `RanapIes`, `RuaIes`, `HnbapIes`, `SabpIes`: the tables that
    `asn1tostruct.py` extracts from `*-PDU-Contents.asn`, computed with the
    script's own regular expressions.  What these take from a text is modelled in
    `Model/AsnToStruct.lean` (C116); that the model gives these tables for the text of
    the four modules is proved (C117).
  * `TextRua`, `TextHnbap`, `TextSabp`, `TextRanap*`: the lines of `*-PDU-Contents.asn`
    as they are; `TextConstants`, `TextProcs`: the same for `*-Constants.asn` and
    `RANAP-PDU-Descriptions.asn`; `TextNames`: the numbers of identifiers (proved to be those
    of `TextConstants`, `C117_numbers`), and which descriptor belongs to the name of a type (proved to be
    the one of that name, `C119_used`).
    `TextLit` is notation for them.
  * `AsnIes`: the same object sets read with an ASN.1 tokenizer (used only as
    specification in C64).  That a reader written in Lean (`Spec/AsnReader.lean`) finds the
    same in the text is proved (`C64_specification`).
  * `RanapTypesMore`, ..., `SabpTypesMore`: the remaining type descriptors, which
    no message table uses.
  * `AsnRanap`, `AsnRua`, `AsnHnbap`, `AsnSabp`, `AsnTable`, `AsnNamed`, `AsnNames`: the types of the ASN.1
    specifications (`*-IEs.asn`, `*-PDU-Contents.asn`, `*-CommonDataTypes.asn`),
    with parameterized containers expanded (used only as specification in C93 to C95).
    That a reader written in Lean (`Spec/AsnTypes.lean`) finds the same types, names and types
    of elements in the text is proved (`C93_specification`, `C93_all_types`,
    `C93_element_types`), and also that the descriptors above are the types it finds in the
    modules they were generated from (C119), so that an error in the transcription of the
    descriptors would have to agree with an error in the C code.
    `AsnNames` also has the names in the headers and descriptors.
  * `TextTypes*`, `TextFlat`: the lines of the other modules; `AsnTypes*`: their assignments in
    the form of the reader (proved).
  * `RanapProcs`: the elementary procedures of `RANAP-PDU-Descriptions.asn`
    (used only as specification; proved to be those of the text, `C45_procedures`).
  * `Causes`: the `value_string` tables and the enumerations of causes.
* The APER codec.  `aper_encode`, `aper_decode`, `ANY_fromType_aper` and
  `ANY_to_type_aper` belong to the asn1c skeletons (libasn1c, not in `/repo`).
  The model (`Model/Aper.lean`) is X.691 ALIGNED, basic, for the types that
  occur.  That libasn1c conforms to it is an assumption; it was compared with
  the messages recorded in `/repo/tests/*.ok` (`Props/Aper.lean`).

### What is modelled

| file in /repo/src | modelled | not modelled |
|---|---|---|
| iu_helpers.c | all functions | - |
| ranap_common.c | `ranap_cause_str`, `ranap_parse_lai`, `ranap_ip_from_transp_layer_addr`, `_ranap_gen_msg`, `ranap_generate_*`, `ranap_new_ie`, log names (tables), `*_fromlist` | `ranap_set_log_area` |
| ranap_common_cn.c, ranap_common_ran.c | all functions | - |
| ranap_msg_factory.c | all exported functions | - |
| rua_common.c | `rua_cause_str`, `_rua_gen_msg`, `rua_generate_*`, `rua_new_ie` | log area |
| rua_msg_factory.c | all functions | - |
| hnbap_common.c, sabp_common.c | cause and procedure names; generated functions; `hnbap_generate_*`, `sabp_generate_*` (`Model/Generate.lean`) | log area |
| iu_client.c | all functions (`ranap_iu_init` in `Model/IuInit.lean`, indications without user data in `Model/IuL2.lean`) | logging, `ranap_iu_add_asn1_log` |
| iu_client_vty.c | all commands and the config writer | the command tree of libosmovty |
| iu_client.c with ranap_common_cn.c, ranap_msg_factory.c | `Model/Linked.lean`: members the client reads from decoded structures, arguments it passes to generators | - |
| generated `*_ies_defs.h`, `*_decoder.c`, `*_encoder.c` | all encode, decode and free functions, generically over the tables; what a failed allocation or a failed `xer` print does (`Model/Scarce.lean`) | the text printed |
| ../asn1/utils/asn1tostruct.py | l. 127-159, from the text of a module to the tables of elements (`Model/AsnToStruct.lean`); l. 44-103 and the names formed in l. 183-546 (`Model/AsnToC.lean`); l. 161-570 are the generated functions above | lists of containers (l. 136-139), debug output |
| ../tests/hnb-test.c, hnb-test-rua.c, hnb-test-ranap.c | the HNB emulator (`Model/Hnb.lean`): received messages, NAS, output queue, console commands; messages above the size of the receive buffer (`Model/HnbRecv.lean`); memory of received messages (`Model/HnbMem.lean`) | options, logging, memory of messages to be sent and of channels |

Not modelled at all: the rest of `/repo/tests` (unit tests, whose recorded
messages are used as examples; `dummy_cn_sua.c`, which is not built), memory
exhaustion outside the encoders, decoders, message generators and the Iu client
(`Model/Scarce.lean` and `Model/ScarceRab.lean` have the former, `Model/ScarceIu.lean`
what the client does then, `Model/ScarceRec.lean` the client's own allocations, `Model/ScarceAll.lean` all of them together), concurrency (the library is single threaded),
signals.

## 2. Modelling conventions

* Octets are `BitVec 8`, other fixed width C integers `BitVec 16/32` where
  wrap-around or bit selection matters, `Nat`/`Int` otherwise.
* A C function which may run into undefined behaviour or an assertion returns
  `Res`, with the distinct outcome `Res.fault f` (out-of-bounds access,
  NULL dereference, use after free, failed assertion, wrong union member).
  Nothing is assumed away: preconditions appear as hypotheses of the theorems
  that exclude `fault`, and violations as theorems that exhibit it.
* Heap objects whose lifetime matters (UE contexts, RNC records) have a handle
  (`Nat`) that is never reused; dereferencing a dead handle is `fault`.
* `llist_for_each_entry_safe` is modelled with its saved next pointer: if the
  saved element is freed by the loop body (through a user callback), the next
  iteration is `fault`.
* User callbacks are parameters (`Env`): arbitrary functions from the whole
  model state (hence from the history) to a return code and a list of
  re-entrant API calls.  Theorems quantify over them.
* The SCCP layer below is a parameter giving the return code of each primitive.
  It is assumed not to re-enter the library from `osmo_sccp_user_sap_down`.
* Logging is not modelled, except `*_cause_str`.  Memory exhaustion is
  modelled in `Model/Scarce.lean`, `Model/ScarceRab.lean`, `Model/ScarceIu.lean` (C120-C126), `Model/ScarceRec.lean` (C128) and
  `Model/ScarceAll.lean` (C129) only:
  there the outcome of every attempt to allocate or to print is given by an
  oracle over which the theorems quantify.  Everywhere else talloc/CALLOC
  succeed.  Leaks on failure are not in these.

## 3. Assumed behaviour of external code

| function | assumption |
|---|---|
| `osmo_bcd2char`, `osmo_char2bcd` | `0..9 <-> '0'..'9'`, `10..15 <-> 'A'..'F'` (also `a..f` on input), other characters give 0 |
| `osmo_load16be/store16be/htonl/ntohs` | big-endian load/store; host is little-endian |
| `osmo_plmn_from_bcd` | TS 24.008 10.5.1.3 digit order |
| `osmo_rai_cmp`, `osmo_lai_cmp`, `osmo_rnc_id_cmp`, `osmo_mnc_cmp` | 0 iff all fields equal; the 3-digit flag only matters for MNC < 100 |
| `gprs_rai_to_osmo` | field-wise copy |
| `osmo_sccp_addr_cmp`, `osmo_sccp_addr_ri_cmp` | compare PC/SSN presence and value; by routing indicator |
| `osmo_sccp_addr_dump` | a function of the address (parameter) |
| `asn1str_to_u8/u16/u24`, `asn1bitstr_to_u32` | big-endian load of the first octets; too short input is `fault` |
| `asn1_u24_to_bitstring`, `asn1_u32_to_str` | big-endian, low 24 / 32 bits |
| `msgb_put` | aborts when the tailroom is exceeded |
| `ANY_fromType_aper`, `ANY_to_type_aper`, `aper_encode/decode` | X.691 ALIGNED, basic, as in `Model/Aper.lean`; `aper_encode_to_buffer` fails (-1) iff the value does not fit its type or the buffer is too small; on failure `failed_type` is not NULL |
| the same, memory | `ANY_fromType_aper` allocates the buffer of the value iff it succeeds; `ASN_SEQUENCE_ADD` allocates the array of a list with the first element; `ASN_STRUCT_FREE*` frees all a structure points to; `asn_set_empty` frees the array only |
| the same, without memory (C120-C125) | `ANY_fromType_aper` returns NULL or -1, decoding returns an error; a failed `ASN_SEQUENCE_ADD` leaves the list as it was; the array of a list grows at 0 elements to 4 and then doubles; `asn_set_add` adds nothing to a NULL list, and no NULL element; `OCTET_STRING_fromBuf` and `BIT_STRING_fromBuf` leave the string as it was (the latter also does nothing if it is NULL), and one without a buffer is either encoded as empty or refused (both are covered) |
| `xer_fprint` | -1 iff the output cannot be written to |
| `inet_ntop` | textual form of four octets (parameter) |
| `asn1bitstr_to_u24` | big-endian value of 24 bits; anything else violates its assertion |
| `osmo_wqueue_enqueue`, `osmo_wqueue_bfd_cb` | queue with the limit given; the oldest message is written when the socket has room |
| `tlv_parse`, `osmo_auth_gen_vec2` | arbitrary functions (parameters of the emulator) |
| `gsm48_hdr_pdisc`, `gsm48_hdr_msg_type` | lower 4, lower 6 bits (mobility management) |
| `osmo_sccp_user_bind`, `osmo_sccp_local_addr_by_instance` | NULL if the subsystem number has a user already; no effect if the instance has no point code |
| `osmo_sccp_user_sap_down`, `osmo_sccp_tx_*` without a user | dereference it |
| SCCP | sets the layer 2 pointer of all indications but N-CONNECT.ind, where a null pointer stands for no data (what happens otherwise: C110) |
| SCCP, the gateway (C101 only) | pass the RANAP messages of a connection on unchanged and in order, with any delay |
| `snprintf` | truncating, always NUL terminated |

## 4. Layout

* `Verif/Basic.lean` outcome type, state monad, Hoare rules
* `Verif/Model/*.lean` the model, function by function
* `Verif/Spec/*.lean` small independent specifications
* `Verif/Proofs/*.lean` helper lemmas
* `Verif/Props/*.lean` the property theorems with non-vacuity examples
* `Verif/Gen/*.lean` transcribed tables

## 5. Plan per property

* **C01** IMSI encode/decode round trip: functions over lists; induction over digit pairs
* **C02** ranap_bcd_decode stays inside its output buffer: writes recorded with an overflow outcome; exact characterisation of the safe (out_len, input) pairs. Expected FALSE for odd out_len: witness + `_partial`
* **C03** ranap_bcd_decode output format: prefix/alphabet/terminator theorem by induction
* **C04** ranap_imsi_encode stays inside its output buffer: expected FALSE (out_len unused): exact characterisation, witness, `_partial`; the two callers' buffers checked separately
* **C05** TBCD layout and injectivity of IMSI encoding: nibble layout by index; injectivity
* **C06** Transport layer address round trip: encode/decode as list functions; case analysis
* **C07** Acceptance set of ranap_transp_layer_addr_decode2: iff-characterisation of acceptance; reads recorded with out-of-bounds outcome
* **C08** RTP port round trip: all ports via BitVec lemma
* **C09** GTP TEI round trip: BitVec lemma
* **C10** Old and new address decoders agree: expected FALSE (IPv6, odd lengths): witness + agreement set `_partial`
* **C11** IPv4 extraction accepts what the library encodes: expected FALSE (20-octet X.213 rejected): witness + raw case `_partial`
* **C12** Location area parsing: iff-characterisation + nibble spec
* **C13** One PLMN, one meaning: expected FALSE for 3-digit MNC: witness + 2-digit `_partial`; exact agreement set
* **C14** RNC registry integrity: state machine invariant over all op lists
* **C15** Area to RNC mapping is last-writer-wins: refinement to a map spec
* **C16** NEW_AREA event iff the mapping changed: step theorem relative to the map spec
* **C17** CS paging reaches exactly the RNCs serving the LAI: filter characterisation of the emitted commands
* **C18** PS paging reaches the one RNC serving the RAI: needs invariant C14
* **C19** Paging return value counts transmitted pages: expected FALSE: witness + `_partial` (when all accepted)
* **C20** Legacy CS paging finds areas registered without RAC: expected FALSE: witness + `_partial`
* **C21** Legacy PS paging decision: decision theorem
* **C22** One context per SCCP connection: invariant under an SCCP discipline on the op list
* **C23** Uplink NAS goes to the context of its connection: trace theorem
* **C24** No use of freed contexts: total correctness (no fault) of every run, by Hoare rules
* **C25** LINK_INVALIDATED handler may free any context: expected FALSE: witness environment reaching fault
* **C26** Every connection request is confirmed first: trace theorem, per step
* **C27** Initial UE message after an empty connection request: commutation with ops on other connections + equality of results
* **C28** Data on unknown connections is ignored: step equality
* **C29** N-DISCONNECT.ind invalidates the context once: step theorem
* **C30** Freeing a context releases everything exactly once: step theorem + continuation invariant
* **C31** Release with notification as documented: expected FALSE (notification switched off): proof that NO event ever arrives
* **C32** A released context is eventually reclaimed: expected FALSE: timeout never frees; proof + witness
* **C33** Release timer: step theorem + invariant
* **C34** Iu Release Request is answered with Iu Release Command: step theorem
* **C35** N-PCSTATE decision: finite decision table x list characterisation
* **C36** N-NOTICE decision: same
* **C37** RESET is acknowledged to its sender: step theorem
* **C38** Initial UE acceptance: iff theorem
* **C39** Peer cannot crash the core network side: expected FALSE (NAS > 256, missing SAI, ...): exact crash set, witness, `_partial`
* **C40** Direct transfer location information: decision theorem
* **C41** Connections do not interfere: frame theorem
* **C42** CO receive: callback iff decoded, everything freed once: dispatch tables + alloc/free bookkeeping
* **C43** CL receive: handler is only called with decoded contents: expected FALSE: witness + `_partial`
* **C44** Receiving leaks nothing: expected FALSE for CN CO on decode failure: witness + `_partial`
* **C45** Dispatch tables decode the right message: table equality with TS 25.413 / PDU-Descriptions; expected FALSE for two CL successful outcomes
* **C46** IE container round trip: generic encoder/decoder over IE tables; instantiate for all tables
* **C47** IE decoding is order independent and last-one-wins: generic list induction
* **C48** Unknown elements are handled per criticality: expected FALSE: exact behaviour proved
* **C49** Missing mandatory elements are rejected: expected FALSE: exact behaviour proved
* **C50** Presence masks are distinct and fit: `decide +kernel` over all tables
* **C51** Error Indication carries what it was given: expected FALSE with rnc_id: witness + `_partial`
* **C52** Reset and Reset Acknowledge contents: decode of generated structure
* **C53** Direct Transfer contents: same
* **C54** Security Mode Command contents: same, all masks
* **C55** Paging contents: same
* **C56** RAB assignment carries id, address and port/TEI: same
* **C57** Documented byte order of RAB assignment addresses: expected FALSE (host order): witness
* **C58** RUA wrapping preserves the RANAP payload and context: same as 52, plus consumption count
* **C59** RUA context ids are not aliased: expected FALSE above 2^24: witness + `_partial`
* **C60** Generated messages are never silently empty: expected FALSE: witness with oversized payload + `_partial`
* **C61** Cause strings: tables; expected collisions in truncated strings: exact set
* **C62** VTY configuration round trip: config writer/reader model; all settings
* **C63** NAS buffers: two counters in the client model; exact count of lost buffers per history; expected FALSE
* **C64** Elements of the specification: comparison of two readings of the ASN.1 sources; expected FALSE; exact list of lost elements
* **C65** Remaining message generators: as C52
* **C66** Generated messages are understood: composition of the generators with the receive functions
* **C67** RUA message functions leave nothing behind: allocation trace; expected FALSE
* **C68** Criticality: comparison with the procedure table, for all arguments; expected FALSE for RUA
* **C69** Names: comparison of the tables with the enumerations; expected FALSE
* **C70** Decoded values: induction over the types of the codec model
* **C71** What the client sees: equivalence between octets and what `Spec/Linked.lean` reads off the elements
* **C72** Exactly the fatal octets: the client linked with the library (`Model/Linked.lean`), equivalence in reachable states
* **C73** Transmit functions: composition with the generators and the RAN receive function
* **C74**, **C75** Uplink: composition of generators, receive function and client; expected to hold for short NAS PDUs only
* **C76** Iu Release Request: from octets to octets
* **C77** RESET: from octets to octets; expected FALSE for RNC-IDs above 4095
* **C78** Paging: composition of C17, C18 and C55
* **C79** Encode functions: induction over the rows of a table
* **C80** Generate functions: composition of the codec with the message wrapping, for all types; expected FALSE for long messages
* **C81** Memory of the message generators: second model of them with the heap (`Model/FactoryMem.lean`), shown to return the same messages; exact number of lost blocks per call; expected FALSE on failure paths
* **C82** RANAP inside RUA: lengths of the generated messages, composed with C58; expected FALSE at the upper end
* **C83** HNB emulator `tests/hnb-test*.c` (`Model/Hnb.lean`): exactly which messages and commands kill it, for all histories; expected FALSE that none does
* **C84** HNB emulator, replies: identity, authentication, security mode, release; octets in, octets out
* **C85** HNB emulator: replies on the connection of the request; expected FALSE with two channels
* **C86** HNB emulator: connection ids; expected FALSE after 65536 channels
* **C87** HNB emulator: acceptance is only reported when the gateway accepted; expected FALSE for rejects
* **C88** HNB emulator: output queue, by induction over histories; expected FALSE when it is full
* **C89** HNB emulator: HNBAP requests are understood by the receiver
* **C90** HNB emulator: the channel command; expected FALSE for the IMSI
* **C91** Outcome octets become events of the client
* **C92** HNB emulator and Iu client together, over any gateway that passes RANAP messages on
* **C93** Types of the specification against types of the descriptors: equality of the whole tables by kernel evaluation, hence equality of coding for all values; the exceptions with their exact behaviour
* **C94** Messages with extensions: coding of the message type of the specification, decoded with the type of the code, for all elements and extensions
* **C95** Lists of items: the same for list types; expected FALSE for more than one item
* **C96** No amplification: a measure on decoded values (`Verif/Spec/Size.lean`), a lower bound on the bits every type takes
  and an upper bound on cells per bit by induction on types; checked for all tables, then summed over the elements of a message.
* **C97** What is left allocated: the decoder loop is related to two counts over the list of elements (`Verif/Spec/Leak.lean`),
  `owners` and `replaced`, by induction with the number of already held blocks that later elements will replace
  (`Verif/Proofs/IeLeak.lean`); the replay of the trace then has exactly that many live blocks.
* **C98** Paging end to end: the registration made by the emulator's connection request (C86, C92) is the last one of its area
  and RNC in the history, so C15, C17 and C18 say where the page goes; C55, C58 and C87 say that it arrives
* **C99** Ends of messages: every decoder of the APER model returns the same for the bits it has consumed followed by any
  others (`Local`, by induction over the types); with the round trip this gives the prefixes, too
* **C100** Setup: `ranap_iu_init` with the SCCP instances of the program as state, histories of setups and operations; an
  invariant says what the setups so far have left; the client that is set up well is shown equal to `Iu.step`
* **C101** A whole session: emulator, client and the two directions of a gateway as a transition system with interleaving
  (`Verif/Spec/Session.lean`), other traffic of the client between the moves. Each side's reaction to each message is proved
  from the models (C34, C58, C84, C92); the session itself has twenty configurations, closed under all moves; other traffic
  does not touch the connection (C41)
* **C102** RESET end to end: what the emulator sends (C90) decoded by the client and answered (C37, C52, C58), and what the
  emulator does with a connectionless message that is no paging (C83, C87)
* **C103** Transport associations: what the decoder can yield (`decode_shaped`), then the reader on each of it
* **C104** Parallel sessions: a system of k emulators and gateways and one client (Spec/Parallel); by induction over the schedule each
  session goes through a schedule of C101, moves of the others being other traffic for it
* **C105** RAB assignments: the parameters as a record with names (Spec/Rab), its place in the encoding, equality with what is decoded;
  the relation is shown to be functional
* **C106** Conditional elements: the conditions in the comments of the ASN.1 specification, read off the messages of C58 and C65
* **C107** Requests to SCCP: the phases of a connection after Q.711 (Spec/Dialogue) run along the history of primitives; an invariant
  ties the phase to contexts and cached requests, by induction over the history and the atomic steps of an operation
* **C108** Connections left alone: the same invariant, and an equivalence for each operation (first message refused, or left alone before)
* **C109** Memory of the client: a counter of blocks in the state of the client, changed where the code allocates and frees; invariant over all atomic steps that it is the number of records; the records of RNCs and areas are as many as different ones were registered (C14, C15)
* **C110** Indications without user data: the four cases of `sccp_sap_up` with optional user data (`Model/IuL2.lean`) compared with the model of the client; expected FALSE
* **C111** A RESET ends the connections of the RNC that sent it: step theorem about N-UNITDATA.ind with a RESET, compared with the contexts of the RNC it names; expected FALSE
* **C112** A message that was accepted can be passed on: composition of decode, encode and generate functions over all tables; expected FALSE (bounds, missing mandatory elements, 1024 octets); exact condition, idempotence
* **C113** A context says where its connection comes from: per atomic step of a path, then per operation (the one that opens a context is the one with an acceptable Initial UE Message), then per history
* **C114** Each message of the gateway is handled by the HNB emulator as one message: small model of sctp_recvmsg above `Hnb.step`; expected FALSE (2048 octets); exact behaviour for longer messages with C99
* **C115** The HNB emulator frees what it decodes: trace of allocations as for C44/C97, threaded through the emulator's handlers (`Model/HnbMem.lean`); expected FALSE; exact number of blocks for each kind of message
* **C116** Every element written in the ASN.1 text gets into the generated functions: model of Python's regular expressions (greedy repetitions with backtracking, leftmost match, findall) and the three expressions of the script; grammar of object sets as specification; expected FALSE; exact set of elements found
* **C117** The message functions of the four protocols are those of their ASN.1 modules: the lines of the four files as lists of characters; matching on the beginning of a text with three results (no, yes, more text needed) and its soundness; the kernel evaluates part by part; comparison with the tables of `Verif/Gen/*Ies.lean`
* **C118** In the generated code every element has a member and every optional element a presence constant of its own: the names the script forms from those in a module; lower-casing as an invariant of lowerFirstCamelWord; the list of defined presence constants by induction over the rows; the kernel evaluates the conditions on the tables of the four modules
* **C119** The C types are those of the ASN.1 modules they were generated from: a reader for ASN.1 types written in Lean (tokens, parser, parameterized types, classes and numbers), evaluated by the kernel on the text of the modules; what an expression stands for is an inductive relation, which gives one type at most; the table of descriptors is derived in an order in which each type uses only those in front of it, with a search by numbers that is proved to be the search by names
* **C120** When memory runs out, making or reading a message fails cleanly: oracle for the outcome of every attempt, in the order of the attempts; induction over the table of elements; refinement to the model without failures
* **C121** Debug output does not change the messages: the oracle of C120, with the writes as one kind of attempt
* **C122** When memory runs out, wrapping a message into RUA fails cleanly: the oracle of C120
* **C123** A Security Mode Command demands what it was asked to demand, even when memory runs out: the oracle of C120 in the loops over the masks; the elements of what is returned are a sublist, and so are the algorithms
* **C124** When memory runs out, every function that makes a message of RANAP fails cleanly: the functions with parts once more, each allocation an attempt of the oracle of C120 (`Model/ScarceRab.lean`); refinement to the model without failures
* **C125** A RAB assignment asks for the RAB it was to ask for, even when memory runs out: a relation for what is left of a value when something is taken away (`Spec/Part.lean`); it does not increase the size of the encoding; rule for composing what the functions yield in all worlds
* **C126** The Iu client survives when memory runs out while it makes a message: the client of `Model/Linked.lean` above the functions of C124 (`Model/ScarceIu.lean`); a relation between two clients that differ in the making of messages, kept by every function of the client
* **C127** A string that is no IMSI is not taken for somebody's IMSI: a specification of the character that is read in place of each character; the octets determine the characters read, and the message determines the octets (uniqueness of decoding)
* **C128** The Iu client survives when memory for its own records is missing: a model with six Booleans for each operation (`Model/ScarceRec.lean`); a relation between the two clients, which differ in the number of NAS buffers left behind only, kept by every function, and the needs of each message by cases
* **C129** Missing memory never corrupts the Iu client: the clients of C126 and C128 together, with other memory at every operation (`Model/ScarceAll.lean`); every operation ends the process or goes near the state that some client with memory goes to, so that the invariants of C14, C22 and C109 are kept; a client in between, that makes a message if either of two clients does, shows that nothing but NULL messages ends it in another way
* **C130** One message in, at most one message out: counts of messages and of calls of the user in the observable history (`Spec/IuAmount.lean`); every function of the client has a budget for both, which add up along its statements (`Proofs/IuAmount.lean`); what users send is charged to the call. For N-NOTICE and N-PCSTATE, whose loops visit many contexts: each context is visited once, since removals and switched flags only shrink what lies behind the position of the loop (`Proofs/IuAmountLink.lean`).
* **C131** The HNB emulator sends only what it is told or asked to send: from the exact effect of each step (`Proofs/HnbRun.lean`), by induction over the history
* **C132** What the Iu client says of its own accord is the answer that was asked for: a predicate on what is appended to the trace, carried through each handler; the release answer goes to the connection of the context, which the invariant ties to the primitive
* **C133** The user of the Iu client hears only what was received: a predicate on the calls of the user that are appended to the trace, carried through each handler as in C132; calls of the API call nobody (C130); the connection that the user is told is that of the primitive by the invariant of C22

## 6. Findings

Where the code does not do what the property says, the negation is proved with
a concrete witness (`*_violated`), and the rest as `*_partial`, mostly together
with an exact characterisation.

Iu client (`iu_client.c`):
* `ranap_iu_tx_release_free` (581-603) switches off the events of the context, so the release event that the documentation promises never arrives, and on timeout (148-152) the context is not freed (C31, C32).
* A `LINK_INVALIDATED` handler that frees another context of the same RNC makes the loops over all contexts (1011-1100) use freed memory (C25).
* A NAS PDU of more than 256 octets aborts the process (476, 527); so does an Initial UE Message without SAI; a RAB Assignment Response with an empty list is read out of bounds; an Iu Release Request without Cause is dereferenced (C39).
* An indication without user data (`l2h` NULL) is checked for in N-CONNECT.ind only; in N-DISCONNECT.ind, N-DATA.ind and N-UNITDATA.ind the octets are read from a null pointer (C110).
* A RESET of an RNC is acknowledged, but its contexts stay as they are and the user is not told; RESET RESOURCE is ignored (C111; TS 25.413 8.26, 8.27 ask for both).
* A message that was decoded cannot always be encoded again: numbers above their bound are accepted (HNB Register Reject with a back-off timer of 4095 of at most 3600); if a mandatory element is missing, the copy has one made of zeroed memory (Direct Transfer with an empty NAS-PDU) (C112).
* When the first message of a connection is rejected, the connection has been confirmed but is never disconnected, and the cached calling address is lost when the first message cannot be decoded (C27, C30). Nothing ends such a connection but the peer (C108).
* NAS buffers are lost when the location of a received message is not acceptable, and by `ranap_iu_tx` without destination (C63).
* Paging counts pages that SCCP refused (C19). Legacy CS paging never finds an area registered without RAC (stored as 0xff, looked up with 0) (C20).
* Freeing a context sends N-DISCONNECT.req also on a connection that the peer has disconnected (C30); no other request is ever made out of turn (C107).
* Linked with the real decoders and generators: exactly the messages listed in C72 kill the process, all of them can be sent by an RNC; API calls whose arguments have no message (invalid cause, IMSI missing or ill-sized) dereference NULL (C73). A NAS PDU of 257 to 1004 octets kills the receiver, a longer one is sent as an empty message (C74); in an Initial UE Message the limit is 966 octets (C75).
* A RESET whose RNC-ID is above 4095 passes the decoder but gets no acknowledge, since the generator then fails; a RESET without domain is acknowledged for CS (C77).
* `ranap_iu_init` (1262-1276) returns 0 although SCCP refused the subsystem number; the first transmission then dereferences NULL (C100).

When memory runs out, or the debug output cannot be written:
* The result of `ASN_SEQUENCE_ADD` is ignored in all generated encoders: if the list of elements cannot grow, the message is returned without the element, even a mandatory one (C120).
* `ranap_new_msg_common_id` and `ranap_new_msg_paging_cmd` write through the unchecked result of `CALLOC` for the IMSI and the TMSI (C120).
* `ranap_new_msg_sec_mod_cmd2` may return a Security Mode Command without some of the algorithms, or without integrity protection and encryption at all; without memory for an algorithm it writes through NULL (C123).
* The functions for RAB assignments and releases and for Reset Resource use most of their memory without looking whether there is any: they end the process by a NULL pointer, or return a request without RABs, a Reset Resource without items (C124), a request for speech without a guaranteed bit rate or for data with the uplink bit rate as the only one (C125).
* `ranap_imsi_encode` cannot refuse a string: every character that is neither a digit nor a letter a-f is sent as the digit 0, i.e. a message for somebody else is made; an `F` behind an IMSI of odd length disappears (C127).
* iu_client.c checks the result of no allocation of its own but that of an RNC record (by an assertion); `OSMO_ASSERT(ue)` (l. 494) comes too late, `ue_conn_ctx_alloc` has written through the pointer before: without memory the process ends (C128).
* All functions of iu_client.c that send a message use the result of the generator without a check, except the answer to a RESET: without memory the process ends; and what the generators return incomplete is sent (C126).
* With `asn1_xer_print` set and a closed standard output no message with an element can be made any more: a failed print counts as a failed element (C121).
* The functions of rua_msg_factory.c use the result of the generator without a check, and ignore whether the payload could be copied (C122).

Addresses and identities:
* `ranap_bcd_decode` writes beyond an odd sized buffer (C02); `ranap_imsi_encode` ignores its buffer size (C04): an IMSI of more than 32 digits overruns the heap block in Paging and Common ID.
* `ranap_parse_lai` and the Global RNC ID of the same PLMN disagree on the order of the digits of a 3-digit MNC (C13).
* Old and new address decoders disagree (C10, C11).
* `ranap_transp_assoc_decode` (iu_helpers.c:101) takes a GTP TEI for a port (C103).
* `ranap_new_msg_initial_ue` (ranap_msg_factory.c) makes a message for the PS domain without routing area code; `rua_new_disc` one with cause normal and no RANAP message (C106).

Receiving (`ranap_common_cn.c`, generated code):
* `ranap_cn_rx_cl` calls the handler with unsupported messages, undecoded (C43); `ranap_cn_rx_co` leaks when decoding fails; a repeated element leaks its predecessor (C44).
* Two connectionless successful outcomes are decoded as the wrong message; RAB Assignment is accepted as successful outcome (C45).
* Unknown elements reject the message whatever their criticality (C48); missing mandatory elements are accepted (C49).
* The simplified `RANAP-PDU.asn`, from which the descriptors are generated, has `SEQUENCE { ies SEQUENCE OF IE, ... }` where the specification has a list of containers. For one item the octets are the same, which hides the error: of two or more items (RABs, Iu signalling connections) all but the first are lost without notice (C95). Private messages lose an element, a redirection indication is not understood at all (C93). Protocol extensions are skipped (C94).
* `asn1tostruct.py` loses 32 elements of the specifications, among them the transparent containers of relocation and most of SABP (C64). The reason: an element spread over lines is skipped without a warning, and so is one whose closing brace stands behind a comment, as comments are cut together with the rest of their line; a comment behind the closing brace of a set would lose all of its elements (C116).
* `asn1tostruct.py` takes `id-` out of an identifier wherever it occurs, and does not look at capitals: elements of other modules could share a member or a presence constant (C118, C118_violated). Those of the four modules do not (C118_modules).

Sending:
* Error Indication: the presence bit of the Global RNC ID overwrites the others (C51).
* A message that does not fit its buffer of 1024 octets is returned as an empty message, not as NULL (C60); a Direct Transfer of more than 1004 octets.
* RAB Assignment: documentation and code disagree on the byte order of the address (C57).
* Paging cannot carry cause 0 (C55); Security Mode Command leaks when it returns NULL (C54); a NULL cause is dereferenced (C65).
* When an element cannot be encoded, the generated encode functions return without freeing the elements before it. A RESET with an RNC-ID above 4095 costs the receiver three blocks each time; so do a page with an IMSI of the wrong length, and a Security Mode Command that permits UEA0 (C81).
* RUA: NULL payload is dereferenced, the copy of the payload is leaked by every call (C67), criticality is "reject" where the specification says "ignore" (C68), context ids alias modulo 2^24 (C59), the limits of the payload are 1009, 997 and 992 octets (C58).

Names: several RUA/HNBAP cause strings coincide after truncation to 31 characters, `hnbap_cause_str` returns a stale string for an unknown group, HNBAP radio causes 14 and 15 have no name (C61, C69).

RANAP inside RUA: there are NAS PDUs for which a RANAP message can be generated, but not the RUA message around it, which is then empty (C82).

HNB emulator (`tests/hnb-test*.c`):
* A Security Mode Complete or Reject (read through the wrong member of a union; counted as a fault whatever the layout), a Location Updating Accept that is too short or has a mobile identity but no short network name, an MM Information with an empty name, and a UE Register Accept with an IMSI but no context id kill it; so does the command to register a UE whose IMSI is too short or too long (C83).
* All answers go to the CS channel opened last (C85); context ids repeat after 65536 channels (C86); without a channel nothing is answered (C84).
* The kind of an HNBAP message is not looked at: a Register Reject is reported as acceptance (C87).
* A message of more than 2048 octets is handled in parts, since `MSG_EOR` is not looked at (C114).
* The contents of a received PDU are never freed, and of a UE Register Accept without an IMSI none of the elements (C115).
* The 17th message waiting is lost (C88). The IMSI of the command "channel" is not used (C90).

VTY: the written configuration does not restore X.213 when the default of the application is raw IPv4 (C62).
