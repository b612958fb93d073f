{"id": "C01", "title": "IMSI encode/decode round trip", "statement": "Encoding a decimal IMSI string with ranap_imsi_encode and decoding the resulting octets with ranap_bcd_decode into a large enough buffer returns exactly the original string, NUL terminated, and the return values are the octet count and the string length plus one.", "quantifier": "every digit string of every length, every output buffer that is large enough", "why_tests_cant": "the existing test tries two IMSIs; odd/even lengths, filler nibble and arbitrary digits form an unbounded family", "anchors": ["src/iu_helpers.c: ranap_imsi_encode, ranap_bcd_decode"]}
{"id": "C02", "title": "ranap_bcd_decode stays inside its output buffer", "statement": "ranap_bcd_decode(out, out_len, in, in_len) never writes to out[i] with i >= out_len.", "quantifier": "every input octet string and every out_len", "why_tests_cant": "an off-by-one only shows for particular combinations of out_len parity and input length, and only under a memory checker", "anchors": ["src/iu_helpers.c: ranap_bcd_decode"]}
{"id": "C03", "title": "ranap_bcd_decode output format", "statement": "Whenever ranap_bcd_decode does not overrun its buffer, the output is a NUL terminated string of characters 0-9A-F, it is a prefix of the full digit sequence of the input up to the first 0xF high nibble, and the return value is its length plus one.", "quantifier": "every input octet string, every out_len", "why_tests_cant": "the truncation and filler rules interact for every length/content combination", "anchors": ["src/iu_helpers.c: ranap_bcd_decode"]}
{"id": "C04", "title": "ranap_imsi_encode stays inside its output buffer", "statement": "ranap_imsi_encode(out, out_len, in) never writes outside out[0..out_len-1].", "quantifier": "every digit string and every out_len", "why_tests_cant": "the out_len argument is not used by the code, so only long inputs with short buffers reveal it", "anchors": ["src/iu_helpers.c: ranap_imsi_encode"]}
{"id": "C05", "title": "TBCD layout and injectivity of IMSI encoding", "statement": "Octet i of the encoding holds digit 2i in the low nibble and digit 2i+1 (or filler 0xF past the end) in the high nibble, so two different digit strings never get the same octets.", "quantifier": "every pair of digit strings", "why_tests_cant": "collisions are a statement over all pairs of inputs", "anchors": ["src/iu_helpers.c: ranap_imsi_encode"]}
{"id": "C06", "title": "Transport layer address round trip", "statement": "An address encoded by ranap_new_transp_layer_addr is decoded by ranap_transp_layer_addr_decode2 to the same family and address octets, and uses_x213 reports the encoding flavour that was requested, for both IPv4 and IPv6.", "quantifier": "every IPv4/IPv6 address, both encodings", "why_tests_cant": "2^32 + 2^128 addresses; tests try a few", "anchors": ["src/iu_helpers.c: ranap_new_transp_layer_addr, ranap_transp_layer_addr_decode2"]}
{"id": "C07", "title": "Acceptance set of ranap_transp_layer_addr_decode2", "statement": "decode2 accepts a bit string iff it is 4 or 16 raw octets, or an X.213 NSAP (AFI 0x35) with ICP 0001 and 7 or 20 octets, or ICP 0000 and 20 octets; it never reads beyond the string, and on rejection uses_x213 is left untouched.", "quantifier": "every octet string of every length", "why_tests_cant": "arbitrary received octet strings; out of bounds reads are invisible to ordinary tests", "anchors": ["src/iu_helpers.c: ranap_transp_layer_addr_decode2"]}
{"id": "C08", "title": "RTP port round trip", "statement": "The transport information built by ranap_new_transp_info_rtp carries the port such that ranap_transp_assoc_decode returns it; port 0 is the only port that is rejected; a NULL or non port-shaped association is rejected.", "quantifier": "every port, every 4-octet binding id", "why_tests_cant": "all 65536 ports and all malformed associations", "anchors": ["src/iu_helpers.c: ranap_new_transp_info_rtp, ranap_transp_assoc_decode"]}
{"id": "C09", "title": "GTP TEI round trip", "statement": "The transport information built by ranap_new_transp_info_gtp carries the TEI as four big-endian octets (so reading it back as a big-endian 32-bit number gives the TEI) and the address as in C06.", "quantifier": "every TEI, every address, both encodings", "why_tests_cant": "2^32 TEIs", "anchors": ["src/iu_helpers.c: ranap_new_transp_info_gtp"]}
{"id": "C10", "title": "Old and new address decoders agree", "statement": "ranap_transp_layer_addr_decode (old API) returns the textual form of the address that ranap_transp_layer_addr_decode2 returns, and rejects what decode2 rejects.", "quantifier": "every octet string", "why_tests_cant": "the two decoders have different acceptance tests; disagreement only shows on particular lengths and prefixes", "anchors": ["src/iu_helpers.c: ranap_transp_layer_addr_decode, ranap_transp_layer_addr_decode2"]}
{"id": "C11", "title": "IPv4 extraction accepts what the library encodes", "statement": "ranap_ip_from_transp_layer_addr succeeds on every IPv4 transport layer address generated by ranap_new_transp_layer_addr and returns the same address irrespective of the encoding used.", "quantifier": "every IPv4 address, both encodings", "why_tests_cant": "a cross-function compatibility claim over all addresses", "anchors": ["src/ranap_common.c: ranap_ip_from_transp_layer_addr", "src/iu_helpers.c: ranap_new_transp_layer_addr"]}
{"id": "C12", "title": "Location area parsing", "statement": "ranap_parse_lai succeeds iff the PLMN identity has 3 octets, the LAC has 2 octets and the LAC is neither 0 nor 0xfffe; on success MCC, MNC and LAC are the values that TS 25.413 9.2.3.55 assigns to the octets, and the RAC is 0.", "quantifier": "every PLMN/LAC octet string of any length", "why_tests_cant": "attacker controlled lengths and all nibble combinations", "anchors": ["src/ranap_common.c: ranap_parse_lai"]}
{"id": "C13", "title": "One PLMN, one meaning", "statement": "The same three PLMN octets received in the LAI and in the Global-RNC-ID of an Initial UE Message are interpreted as the same MCC/MNC.", "quantifier": "all three-octet PLMN identities", "why_tests_cant": "the disagreement appears only for 3-digit MNCs", "anchors": ["src/ranap_common.c: ranap_parse_lai", "src/iu_client.c: iu_grnc_id_parse"]}
{"id": "C14", "title": "RNC registry integrity", "statement": "After any history, no two RNC records have the same RNC id, every routing area is recorded at most once over all RNCs, and a UE context's RNC reference always points to a live record.", "quantifier": "all histories of SCCP primitives, API calls, timer expiries and callback behaviours", "why_tests_cant": "requires all interleavings of registrations, moves and UE contexts", "anchors": ["src/iu_client.c: iu_rnc_register, iu_rnc_alloc, iu_rnc_lac_rac_find, ue_conn_ctx_alloc"]}
{"id": "C15", "title": "Area to RNC mapping is last-writer-wins", "statement": "After any history, a routing area is mapped to the RNC named in the most recent accepted Initial UE Message for that area, and that RNC's SCCP address is the one of its most recent accepted Initial UE Message; areas and RNCs are never forgotten.", "quantifier": "all histories", "why_tests_cant": "a refinement statement over all histories", "anchors": ["src/iu_client.c: iu_rnc_register"]}
{"id": "C16", "title": "NEW_AREA event iff the mapping changed", "statement": "An accepted Initial UE Message makes the library signal exactly one NEW_AREA event if it changes the routing-area-to-RNC mapping and none otherwise; the event names the RNC and the area, as LAC when no RAC was given and as RAC otherwise, and is delivered before the NAS message.", "quantifier": "all histories, all Initial UE messages", "why_tests_cant": "exactly-once signalling over all registry states", "anchors": ["src/iu_client.c: iu_rnc_register, global_iu_event_new_area"]}
{"id": "C17", "title": "CS paging reaches exactly the RNCs serving the LAI", "statement": "ranap_iu_page_cs2 sends exactly one paging command to every RNC that has at least one recorded area in the given LAI and none to any other RNC, and returns the number of these RNCs.", "quantifier": "all registry states, IMSIs, TMSIs and LAIs", "why_tests_cant": "RNC/area topologies are unbounded", "anchors": ["src/iu_client.c: ranap_iu_page_cs2"]}
{"id": "C18", "title": "PS paging reaches the one RNC serving the RAI", "statement": "In every reachable state ranap_iu_page_ps2 sends at most one paging command, to the RNC the routing area was last registered with, and returns 1 in that case and 0 otherwise.", "quantifier": "all reachable registry states, all RAIs", "why_tests_cant": "depends on the registry invariant over all histories", "anchors": ["src/iu_client.c: ranap_iu_page_ps2"]}
{"id": "C19", "title": "Paging return value counts transmitted pages", "statement": "The return value of ranap_iu_page_cs2/ps2 (amount of paged RNCs) is the number of paging commands the SCCP layer accepted.", "quantifier": "all registry states and all lower layer results", "why_tests_cant": "lower layer failures are not exercised by tests", "anchors": ["src/iu_client.c: ranap_iu_page_cs2, ranap_iu_page_ps2"]}
{"id": "C20", "title": "Legacy CS paging finds areas registered without RAC", "statement": "ranap_iu_page_cs(lac) pages some RNC whenever an RNC serving that LAC is recorded.", "quantifier": "all reachable registry states, all LACs", "why_tests_cant": "depends on how areas without RAC are recorded", "anchors": ["src/iu_client.c: ranap_iu_page_cs, iu_rnc_lac_rac_find_legacy, ranap_handle_co_initial_ue"]}
{"id": "C21", "title": "Legacy PS paging decision", "statement": "ranap_iu_page_ps returns 1 iff an RNC with a recorded area of that LAC and RAC exists and the lower layer accepted the single paging command sent to it; otherwise it returns 0, and it never sends more than one command.", "quantifier": "all registry states, LACs, RACs, lower layer results", "why_tests_cant": "all topologies and failures", "anchors": ["src/iu_client.c: iu_page, ranap_iu_page_ps"]}
{"id": "C22", "title": "One context per SCCP connection", "statement": "If the SCCP layer never indicates a new connection with an id that is still in use, then at all times no two UE contexts share a connection id, no two cached connection requests share one, and no id is in both sets.", "quantifier": "all histories satisfying the SCCP id discipline, all callback behaviours", "why_tests_cant": "an invariant over unbounded histories", "anchors": ["src/iu_client.c: sccp_sap_up, ue_conn_ctx_alloc, ue_conn_sccp_addr_add"]}
{"id": "C23", "title": "Uplink NAS goes to the context of its connection", "statement": "Each NAS PDU received on a connection is delivered exactly once, unmodified, with msg->dst being a live context whose conn_id is that connection's id; nothing is delivered for other connections.", "quantifier": "all histories, all payloads", "why_tests_cant": "message routing over all interleavings of connections", "anchors": ["src/iu_client.c: ranap_handle_co_dt, ranap_handle_co_initial_ue, sccp_sap_up"]}
{"id": "C24", "title": "No use of freed contexts", "statement": "If user callbacks and API callers only pass live contexts and a LINK_INVALIDATED handler frees at most the context it was called for, no execution dereferences a freed UE context, RNC record, timer or cached address, or a NULL message.", "quantifier": "all histories, all payloads, all such users", "why_tests_cant": "use-after-free needs particular list positions and re-entrant callbacks", "anchors": ["src/iu_client.c: handle_pcstate_ind, handle_notice_ind, ue_ctx_link_invalidated_free, ranap_iu_free_ue"]}
{"id": "C25", "title": "LINK_INVALIDATED handler may free any context", "statement": "When several UE contexts are invalidated together, the event handler may free any of the contexts (for instance all contexts of one subscriber) without breaking the library.", "quantifier": "all sets of contexts and handler behaviours", "why_tests_cant": "needs a handler that frees the next list element", "anchors": ["src/iu_client.c: handle_pcstate_ind, handle_notice_ind"]}
{"id": "C26", "title": "Every connection request is confirmed first", "statement": "Each N-CONNECT.ind is answered by exactly one N-CONNECT.resp for the same connection before any callback or other primitive results from it, whatever the payload.", "quantifier": "all states and payloads", "why_tests_cant": "malformed payloads and arbitrary states", "anchors": ["src/iu_client.c: sccp_sap_up, make_conn_resp"]}
{"id": "C27", "title": "Initial UE message after an empty connection request", "statement": "An empty N-CONNECT.ind followed by N-DATA.ind carrying the Initial UE Message leads to the same registry, context and NAS delivery as an N-CONNECT.ind carrying the message directly, using the calling address of the connection request, regardless of traffic on other connections in between.", "quantifier": "all states, payloads, addresses, and intermediate histories on other connections", "why_tests_cant": "needs arbitrary interleaved histories", "anchors": ["src/iu_client.c: sccp_sap_up, ue_conn_sccp_addr_add, ue_conn_sccp_addr_find, ue_conn_sccp_addr_del"]}
{"id": "C28", "title": "Data on unknown connections is ignored", "statement": "N-DATA.ind or N-DISCONNECT.ind for a connection id without context and without cached request changes nothing, invokes no callback, sends nothing and returns -1.", "quantifier": "all states and payloads", "why_tests_cant": "all states", "anchors": ["src/iu_client.c: sccp_sap_up"]}
{"id": "C29", "title": "N-DISCONNECT.ind invalidates the context once", "statement": "N-DISCONNECT.ind on a connection with a context delivers exactly one LINK_INVALIDATED event for that context (unless the user already freed it, or notifications are off), frees the context iff it was marked free-on-release, and removes any cached request for the id.", "quantifier": "all states, payloads, callback behaviours acting on that context", "why_tests_cant": "payload handling, re-lookup and release flags interact", "anchors": ["src/iu_client.c: sccp_sap_up, ue_ctx_link_invalidated_free"]}
{"id": "C30", "title": "Freeing a context releases everything exactly once", "statement": "ranap_iu_free_ue emits exactly one N-DISCONNECT.req for the context's connection, removes the context and its release timer, and nothing else changes; afterwards no timer expiry, primitive or event refers to that context again.", "quantifier": "all reachable states and all continuations", "why_tests_cant": "after-free behaviour over all continuations", "anchors": ["src/iu_client.c: ranap_iu_free_ue"]}
{"id": "C31", "title": "Release with notification as documented", "statement": "After ranap_iu_tx_release_free the user receives RANAP_IU_EVENT_IU_RELEASE when Release Complete arrives or the timeout expires (as iu_client.h documents), so that it can free the context.", "quantifier": "all histories following the call", "why_tests_cant": "needs the history: release, then complete or timeout", "anchors": ["src/iu_client.c: ranap_iu_tx_release_free, ue_conn_ctx_release_timeout_cb, global_iu_event", "include/osmocom/ranap/iu_client.h"]}
{"id": "C32", "title": "A released context is eventually reclaimed", "statement": "After ranap_iu_tx_release_free the context is freed by the library no later than when the release timeout expires.", "quantifier": "all histories following the call", "why_tests_cant": "leak over histories in which the peer never disconnects", "anchors": ["src/iu_client.c: ranap_iu_tx_release_free, ue_conn_ctx_release_timeout_cb"]}
{"id": "C33", "title": "Release timer", "statement": "ranap_iu_tx_release_free sends one Iu Release Command (default cause NAS normal release) and arms the context's timer with the requested timeout if the lower layer accepted it and with 0 otherwise; each context has at most one pending timer.", "quantifier": "all states, causes, timeouts, lower layer results", "why_tests_cant": "lower layer failures", "anchors": ["src/iu_client.c: ranap_iu_tx_release, ranap_iu_tx_release_free"]}
{"id": "C34", "title": "Iu Release Request is answered with Iu Release Command", "statement": "An Iu Release Request on a connection with a context results in exactly one Iu Release Command with the same cause on the same connection and in no state change or callback.", "quantifier": "all states and causes", "why_tests_cant": "all states", "anchors": ["src/iu_client.c: ranap_handle_co_iu_rel_req"]}
{"id": "C35", "title": "N-PCSTATE decision", "statement": "N-PCSTATE.ind invalidates UE contexts iff the signalling point is inaccessible or its SCCP is unavailable, unequipped or inaccessible (a contradictory pair counts as disconnected; congestion and availability invalidate nothing), and then exactly those contexts whose RNC has that point code and SSN RANAP.", "quantifier": "all pairs of status values, all registry states, all well behaved callbacks", "why_tests_cant": "the cross product of status values and topologies", "anchors": ["src/iu_client.c: handle_pcstate_ind"]}
{"id": "C36", "title": "N-NOTICE decision", "statement": "N-NOTICE.ind invalidates exactly the UE contexts of RNCs whose address equals the calling address (by routing indicator), and nothing if the return cause is subsystem or network congestion.", "quantifier": "all return causes, addresses, registry states, well behaved callbacks", "why_tests_cant": "topologies and causes", "anchors": ["src/iu_client.c: handle_notice_ind"]}
{"id": "C37", "title": "RESET is acknowledged to its sender", "statement": "A connectionless RESET results in exactly one RESET ACKNOWLEDGE unitdata to the calling address, with the same CN domain and the same Global-RNC-ID (present iff it was present), and in no other effect.", "quantifier": "all states, RESET contents, addresses", "why_tests_cant": "all contents", "anchors": ["src/iu_client.c: ranap_handle_cl_reset_req, cn_ranap_handle_cl"]}
{"id": "C38", "title": "Initial UE acceptance", "statement": "A first message on a connection creates a UE context iff it is an Initial UE Message with parseable LAI, Global-RNC-ID and a RAC that is absent or not 0xff; otherwise no context, registration, event or delivery happens.", "quantifier": "all first messages", "why_tests_cant": "all combinations of malformed elements", "anchors": ["src/iu_client.c: ranap_handle_co_initial_ue, cn_ranap_handle_co_initial"]}
{"id": "C39", "title": "Peer cannot crash the core network side", "statement": "No received SCCP primitive with any payload makes the process abort or access memory out of bounds.", "quantifier": "all payloads and states", "why_tests_cant": "adversarial payloads", "anchors": ["src/iu_client.c: ranap_handle_co_initial_ue, ranap_handle_co_dt, ranap_handle_co_rab_ass_resp"]}
{"id": "C40", "title": "Direct transfer location information", "statement": "For an uplink Direct Transfer the location passed to the user is present iff the LAI element is present (else NULL), its RAC is that of the RAC element or 0, the SAC is passed iff both LAI and SAI are present; an unparseable LAI suppresses the delivery.", "quantifier": "all Direct Transfer contents", "why_tests_cant": "presence combinations times contents", "anchors": ["src/iu_client.c: ranap_handle_co_dt"]}
{"id": "C41", "title": "Connections do not interfere", "statement": "Handling a primitive for one connection leaves the contexts, timers and cached requests of all other connections unchanged, provided callbacks only act on the context they are given.", "quantifier": "all states, primitives, such callbacks", "why_tests_cant": "noninterference over all states", "anchors": ["src/iu_client.c: sccp_sap_up"]}
{"id": "C42", "title": "CO receive: callback iff decoded, everything freed once", "statement": "ranap_cn_rx_co and ranap_ran_rx_co call the handler iff the PDU decodes and its (direction, procedure) is supported, exactly once and with the decoder's output; after a successful decode exactly the structures that were decoded are freed, once.", "quantifier": "all byte strings", "why_tests_cant": "decode and free tables must agree for every procedure", "anchors": ["src/ranap_common_cn.c: ranap_cn_rx_co, ranap_cn_rx_co_free", "src/ranap_common_ran.c: ranap_ran_rx_co, ranap_ran_rx_co_free"]}
{"id": "C43", "title": "CL receive: handler is only called with decoded contents", "statement": "ranap_cn_rx_cl calls the handler only for messages whose contents were decoded.", "quantifier": "all byte strings", "why_tests_cant": "unsupported procedures are rarely tested", "anchors": ["src/ranap_common_cn.c: ranap_cn_rx_cl, _cn_ranap_rx_cl"]}
{"id": "C44", "title": "Receiving leaks nothing", "statement": "After ranap_cn_rx_co, ranap_cn_rx_cl and ranap_ran_rx_co return, no ASN.1 allocation made for the received message is left, whether or not decoding succeeded.", "quantifier": "all byte strings", "why_tests_cant": "leaks appear on partially decodable messages only", "anchors": ["src/ranap_common_cn.c", "src/ranap_common_ran.c", "asn1/utils/asn1tostruct.py"]}
{"id": "C45", "title": "Dispatch tables decode the right message", "statement": "For each supported (direction, procedure code) the receive functions decode the message type that TS 25.413's elementary procedure table assigns to it.", "quantifier": "all directions and procedure codes", "why_tests_cant": "whole-table statement", "anchors": ["src/ranap_common_cn.c", "src/ranap_common_ran.c", "asn1/ranap/RANAP-PDU-Descriptions.asn"]}
{"id": "C46", "title": "IE container round trip", "statement": "For every message type, encoding an IE structure with the generated encoder and decoding the resulting container with the generated decoder returns the same presence mask and the same element values.", "quantifier": "all message types of RANAP, RUA, HNBAP and SABP, all presence masks and values", "why_tests_cant": "hundreds of generated functions times all presence combinations", "anchors": ["asn1/utils/asn1tostruct.py", "asn1/ranap/RANAP-PDU-Contents.asn", "asn1/rua/RUA-PDU-Contents.asn", "asn1/hnbap/HNBAP-PDU-Contents.asn", "asn1/sabp/SABP-PDU-Contents.asn"]}
{"id": "C47", "title": "IE decoding is order independent and last-one-wins", "statement": "The result of decoding a container depends only on the set of elements when ids are distinct, and on the last occurrence when an id repeats.", "quantifier": "all containers", "why_tests_cant": "all permutations of all containers", "anchors": ["asn1/utils/asn1tostruct.py"]}
{"id": "C48", "title": "Unknown elements are handled per criticality", "statement": "A message with an unknown element of criticality ignore is accepted.", "quantifier": "all containers", "why_tests_cant": "all element ids", "anchors": ["asn1/utils/asn1tostruct.py"]}
{"id": "C49", "title": "Missing mandatory elements are rejected", "statement": "A message that lacks a mandatory element is not accepted by the generated decoders.", "quantifier": "all containers", "why_tests_cant": "all messages and omissions", "anchors": ["asn1/utils/asn1tostruct.py"]}
{"id": "C50", "title": "Presence masks are distinct and fit", "statement": "Within each message the presence bits of the optional elements are pairwise distinct and fit the 16 bit mask, and element ids within one message are pairwise distinct.", "quantifier": "all generated message types", "why_tests_cant": "whole-table statement over generated code", "anchors": ["asn1/utils/asn1tostruct.py", "asn1/*/*-PDU-Contents.asn"]}
{"id": "C51", "title": "Error Indication carries what it was given", "statement": "ranap_new_msg_error_ind generates a message whose cause, criticality diagnostics, CN domain and Global-RNC-ID elements are present iff the corresponding argument was given, with that value.", "quantifier": "all 16 presence combinations, all values", "why_tests_cant": "presence combinations times values", "anchors": ["src/ranap_msg_factory.c: ranap_new_msg_error_ind"]}
{"id": "C52", "title": "Reset and Reset Acknowledge contents", "statement": "ranap_new_msg_reset/reset2/reset_ack/reset_resource produce messages whose decoded elements equal their arguments (Global-RNC-ID present iff given).", "quantifier": "all arguments", "why_tests_cant": "all arguments", "anchors": ["src/ranap_msg_factory.c: ranap_new_msg_reset2, ranap_new_msg_reset_ack, ranap_new_msg_reset_resource"]}
{"id": "C53", "title": "Direct Transfer contents", "statement": "ranap_new_msg_dt yields, for a NAS string of up to 1004 octets, a Direct Transfer whose NAS-PDU equals the input octets and whose SAPI is 3 iff the argument is 3 and 0 otherwise, and no other optional element.", "quantifier": "all NAS strings, all SAPI values", "why_tests_cant": "all values", "anchors": ["src/ranap_msg_factory.c: ranap_new_msg_dt"]}
{"id": "C54", "title": "Security Mode Command contents", "statement": "ranap_new_msg_sec_mod_cmd2 returns a message iff both masks select at least one algorithm and none but 1 and 2 (the UEA mask only matters with a ciphering key) and the key status is valid; it then permits exactly the selected algorithms in ascending order, carries IK, and carries encryption information with CK iff CK was given.", "quantifier": "all masks, keys and key status values", "why_tests_cant": "65536 mask pairs times keys", "anchors": ["src/ranap_msg_factory.c: ranap_new_msg_sec_mod_cmd2, ranap_new_msg_sec_mod_cmd"]}
{"id": "C55", "title": "Paging contents", "statement": "ranap_new_msg_paging_cmd yields a paging message whose permanent identity is the TBCD encoding of the IMSI, with a temporary identity iff a TMSI was given (P-TMSI for PS, TMSI for CS, big-endian), and a paging cause iff the cause is non-zero.", "quantifier": "all arguments", "why_tests_cant": "all arguments", "anchors": ["src/ranap_msg_factory.c: ranap_new_msg_paging_cmd"]}
{"id": "C56", "title": "RAB assignment carries id, address and port/TEI", "statement": "ranap_new_msg_rab_assign_voice/data yield exactly one RAB item with the given RAB id, and decoding its transport address and port / TEI gives the arguments, in both address encodings.", "quantifier": "all RAB ids, addresses, ports, TEIs, both encodings", "why_tests_cant": "all arguments", "anchors": ["src/ranap_msg_factory.c: ranap_new_msg_rab_assign_voice, ranap_new_msg_rab_assign_data"]}
{"id": "C57", "title": "Documented byte order of RAB assignment addresses", "statement": "rtp_ip/gtp_ip are taken in network byte order, as documented.", "quantifier": "all addresses", "why_tests_cant": "asymmetric addresses on little-endian hosts", "anchors": ["src/ranap_msg_factory.c: ranap_new_msg_rab_assign_voice, ranap_new_msg_rab_assign_data"]}
{"id": "C58", "title": "RUA wrapping preserves the RANAP payload and context", "statement": "rua_new_udt/conn/dt/disc carry the RANAP octets, CN domain and (except udt) the lower 24 bits of the context id, so that the receiver gets back exactly these values, for payloads of up to 1009 (udt), 997 (dt) and 992 octets (conn, disc), the most that fits into the message buffer; the RANAP element of a Disconnect is present iff the payload is non-empty; the input message is consumed exactly once.", "quantifier": "all payloads, domains, context ids", "why_tests_cant": "all arguments", "anchors": ["src/rua_msg_factory.c"]}
{"id": "C59", "title": "RUA context ids are not aliased", "statement": "Two different context ids passed to rua_new_conn/dt/disc yield different context id elements.", "quantifier": "all pairs of 32-bit context ids", "why_tests_cant": "aliasing appears only above 2^24", "anchors": ["src/rua_msg_factory.c"]}
{"id": "C60", "title": "Generated messages are never silently empty", "statement": "A non-NULL message returned by the RANAP/RUA message generators contains the complete encoded PDU.", "quantifier": "all arguments", "why_tests_cant": "encoder buffer exhaustion needs large payloads", "anchors": ["src/ranap_common.c: _ranap_gen_msg", "src/rua_common.c: _rua_gen_msg"]}
{"id": "C61", "title": "Cause strings", "statement": "ranap_cause_str, rua_cause_str and hnbap_cause_str never overrun their static buffers, and different known causes yield different strings.", "quantifier": "all cause values", "why_tests_cant": "whole-table statement with truncation", "anchors": ["src/ranap_common.c: ranap_cause_str", "src/rua_common.c: rua_cause_str", "src/hnbap_common.c: hnbap_cause_str"]}
{"id": "C62", "title": "VTY configuration round trip", "statement": "Executing the commands written by ranap_iu_vty_config_write on a freshly initialised process restores the address encoding, ASN.1 debug and XER print settings.", "quantifier": "all settings reachable by VTY commands", "why_tests_cant": "all command histories", "anchors": ["src/iu_client_vty.c"]}
{"id": "C63", "title": "NAS buffers are consumed", "statement": "Every NAS buffer handed to ranap_iu_tx, and every NAS buffer the Iu client allocates for a received message, is freed exactly once, whatever the functions return.", "quantifier": "all states and all arguments of the transmit functions", "why_tests_cant": "leaks on error returns are invisible to functional tests", "anchors": ["src/iu_client.c: ranap_iu_tx"]}
{"id": "C64", "title": "Every information element of the ASN.1 specification is known", "statement": "For every message, each information element that the ASN.1 specification lists for it has a member in the generated structure and is accepted by the generated decoder.", "quantifier": "all messages and information elements of the RANAP, RUA, HNBAP and SABP specifications in asn1/", "why_tests_cant": "a whole-specification statement; an omitted element shows only when a peer sends it", "anchors": ["asn1/utils/asn1tostruct.py", "asn1/ranap/RANAP-PDU-Contents.asn", "asn1/sabp/SABP-PDU-Contents.asn"]}
{"id": "C65", "title": "The remaining message generators carry exactly their arguments", "statement": "ranap_new_msg_common_id, initial_ue, iu_rel_cmd, iu_rel_compl, iu_rel_req, rab_rel_req and sec_mod_compl return for valid arguments a complete message with exactly the given values, and NULL for values the protocol cannot express.", "quantifier": "all arguments", "why_tests_cant": "all arguments", "anchors": ["src/ranap_msg_factory.c"]}
{"id": "C66", "title": "Generated messages are understood by the receive functions", "statement": "Every complete RANAP message the generators produce is accepted by the receive function of the peer, whose handler is called exactly once and sees exactly the elements put into the message.", "quantifier": "all messages a generator can produce", "why_tests_cant": "composition of two sides, for all arguments", "anchors": ["src/ranap_msg_factory.c", "src/ranap_common_ran.c: ranap_ran_rx_co", "src/ranap_common_cn.c: ranap_cn_rx_co, ranap_cn_rx_cl"]}
{"id": "C67", "title": "RUA message functions leave no memory behind", "statement": "After a call of rua_new_udt/conn/dt/disc nothing remains allocated but the returned message.", "quantifier": "all payloads, domains, context ids", "why_tests_cant": "a leak of the temporary copy of the payload is invisible to functional tests", "anchors": ["src/rua_msg_factory.c"]}
{"id": "C68", "title": "Messages carry the criticality of their procedure", "statement": "The criticality in every message produced by the RANAP and RUA message generators is the one the ASN.1 specification assigns to the procedure.", "quantifier": "all generators, all arguments", "why_tests_cant": "a statement about every message; tests compare only some of them with recorded octets", "anchors": ["src/ranap_msg_factory.c", "src/rua_msg_factory.c", "asn1/rua/RUA-PDU-Descriptions.asn", "asn1/ranap/RANAP-PDU-Descriptions.asn"]}
{"id": "C69", "title": "Every cause and procedure code has a name", "statement": "Every cause value and every procedure code the protocols define has a name in the string tables, so that logs never show a number for a defined value.", "quantifier": "all cause values of RANAP, RUA, HNBAP and SABP and all procedure codes of RANAP and SABP (the protocols with a table of procedure names)", "why_tests_cant": "whole-table statement; a missing name shows only when a peer sends that value", "anchors": ["src/ranap_common.c: ranap_cause_str", "src/rua_common.c: rua_cause_str", "src/hnbap_common.c: hnbap_cause_str", "src/sabp_common.c"]}
{"id": "C70", "title": "Decoded values have the form of their ASN.1 type", "statement": "Whatever octets are received, a value the decoder delivers has the form of its type: a string of fixed size has exactly that size, every mandatory component is there, an enumerated value or alternative is one the type has.", "quantifier": "all types of the protocols, all octet strings", "why_tests_cant": "every octet string a peer can send", "anchors": ["src/ranap/*.c (type descriptors)", "src/iu_client.c (which relies on it)"]}
{"id": "C71", "title": "The Iu client acts on exactly the elements of a received message", "statement": "The client sees a message iff the octets are a supported message whose elements are all known and valid, and then it sees the last element of each kind with the value that the octets encode, and no optional element that was not there.", "quantifier": "all octet strings on connections and in unitdata", "why_tests_cant": "all octet strings", "anchors": ["src/iu_client.c: cn_ranap_handle_co, cn_ranap_handle_co_initial, cn_ranap_handle_cl", "src/ranap_common_cn.c"]}
{"id": "C72", "title": "Exactly which octets kill the core network side", "statement": "Under proper use of the API, the process fails iff a peer sends one of these: on a connection with context a Direct Transfer with more than 256 octets of NAS PDU and no reserved LAC, an Iu Release Request without cause, a RAB Assignment Response with an empty list of set-up RABs; as first message an otherwise acceptable Initial UE Message without SAI or with more than 256 octets of NAS PDU.", "quantifier": "all octet strings, all histories, all users respecting the API rules", "why_tests_cant": "both directions quantify over every octet string and history", "anchors": ["src/iu_client.c", "src/ranap_common_cn.c", "src/ranap_msg_factory.c"]}
{"id": "C73", "title": "Transmit functions put their arguments on the wire", "statement": "ranap_iu_tx, ranap_iu_tx_release, ranap_iu_tx_sec_mode_cmd, ranap_iu_tx_common_id and ranap_iu_rab_act hand the SCCP layer exactly one N-DATA request on the connection of the context, whose octets the receive function of the RAN side decodes to exactly the arguments.", "quantifier": "all contexts in all reachable states, all arguments", "why_tests_cant": "composition of client, generator, codec and the peer's receive function, for all arguments", "anchors": ["src/iu_client.c: ranap_iu_tx, ranap_iu_tx_release, ranap_iu_tx_sec_mode_cmd, ranap_iu_tx_common_id, ranap_iu_rab_act", "src/ranap_msg_factory.c", "src/ranap_common_ran.c"]}
{"id": "C74", "title": "Uplink NAS arrives unchanged", "statement": "The octets of a Direct Transfer on a connection with context make the client deliver the NAS PDU in them, once, unchanged and with the location in the message; in particular every Direct Transfer the library generates arrives.", "quantifier": "all octet strings, all NAS PDUs, all reachable states", "why_tests_cant": "composition of generator, codec, receive function and client", "anchors": ["src/iu_client.c: ranap_handle_co_dt", "src/ranap_msg_factory.c: ranap_new_msg_dt"]}
{"id": "C75", "title": "Initial UE Messages of the library arrive", "statement": "An Initial UE Message generated by the library and sent in a connection request creates a context and delivers NAS PDU and location.", "quantifier": "all arguments of ranap_new_msg_initial_ue, all reachable states", "why_tests_cant": "composition of generator, codec, receive function and client", "anchors": ["src/iu_client.c: ranap_handle_co_initial_ue", "src/ranap_msg_factory.c: ranap_new_msg_initial_ue"]}
{"id": "C76", "title": "Iu Release Request octets are answered with Iu Release Command octets", "statement": "The octets of any Iu Release Request with a cause, on a connection with context, are answered with exactly one message: the octets of an Iu Release Command with the same cause on the same connection.", "quantifier": "all octet strings, all causes including extension values, all reachable states", "why_tests_cant": "all octet strings and states", "anchors": ["src/iu_client.c: cn_ranap_handle_co", "src/ranap_msg_factory.c: ranap_new_msg_iu_rel_cmd"]}
{"id": "C77", "title": "RESET octets are answered with RESET ACKNOWLEDGE octets", "statement": "The octets of any RESET are answered with exactly one message to the sender: the octets of a RESET ACKNOWLEDGE with the same CN domain and Global-RNC-ID.", "quantifier": "all octet strings, all states", "why_tests_cant": "all octet strings and states", "anchors": ["src/iu_client.c: ranap_handle_cl_reset_req", "src/ranap_msg_factory.c: ranap_new_msg_reset_ack"]}
{"id": "C78", "title": "Paging octets name the subscriber", "statement": "ranap_iu_page_cs2 and ranap_iu_page_ps2 send to every RNC that serves the area, and to no other, the octets of a Paging message with the right domain, the given IMSI and the given temporary identity.", "quantifier": "all valid IMSIs, all temporary identities, all areas, all reachable states", "why_tests_cant": "composition of registry, generator and codec", "anchors": ["src/iu_client.c: ranap_iu_page_cs2, ranap_iu_page_ps2", "src/ranap_msg_factory.c: ranap_new_msg_paging_cmd"]}
{"id": "C79", "title": "Exactly the valid structures are encoded", "statement": "The generated encode function of a message succeeds exactly if every mandatory element, and every optional element whose presence bit is set, has a value of its type; the elements it produces are these, with the ids and criticalities of the specification, in its order.", "quantifier": "all messages of RANAP, RUA, HNBAP and SABP, all structures", "why_tests_cant": "all structures of all messages", "anchors": ["asn1/utils/asn1tostruct.py", "src/ranap_common.c: ranap_new_ie", "src/rua_common.c: rua_new_ie", "src/hnbap_common.c: hnbap_new_ie", "src/sabp_common.c: sabp_new_ie"]}
{"id": "C80", "title": "Generate functions return complete messages", "statement": "Each generate function of RANAP, RUA, HNBAP and SABP returns NULL or a complete message, which is decoded to the same kind of message, procedure code, criticality and contents.", "quantifier": "all thirteen functions, all types and values, all procedure codes and criticalities", "why_tests_cant": "all types and values", "anchors": ["src/ranap_common.c: ranap_generate_initiating_message, ranap_generate_successful_outcome, ranap_generate_unsuccessful_outcome, ranap_generate_outcome", "src/rua_common.c: rua_generate_initiating_message, rua_generate_successful_outcome, rua_generate_unsuccessful_outcome", "src/hnbap_common.c: hnbap_generate_initiating_message, hnbap_generate_successful_outcome, hnbap_generate_unsuccessful_outcome", "src/sabp_common.c: sabp_generate_initiating_message, sabp_generate_successful_outcome, sabp_generate_unsuccessful_outcome"]}
{"id": "C81", "title": "Message generators leave no memory behind", "statement": "Whatever its arguments, a RANAP message generator frees everything it allocated except the message it returns, frees nothing twice and nothing it did not allocate.", "quantifier": "all functions of ranap_msg_factory.h, all arguments, all heaps, any number of calls", "why_tests_cant": "a leak shows only in long histories of calls with particular arguments; tests free nothing on failure paths", "anchors": ["src/ranap_msg_factory.c", "src/ranap_common.c: ranap_new_ie", "asn1/utils/asn1tostruct.py"]}
{"id": "C82", "title": "RANAP messages fit into RUA messages", "statement": "A RANAP message the library has generated can be put into the RUA message meant for it: Direct Transfers into RUA Direct Transfer or Disconnect, Initial UE Messages into RUA Connect; the receiver gets the NAS PDU out of both layers again.", "quantifier": "all NAS PDUs of all lengths, all context ids, both domains, all valid RNC ids", "why_tests_cant": "composition of two generators with limits of their own; the limits only show at particular lengths", "anchors": ["src/ranap_msg_factory.c: ranap_new_msg_dt, ranap_new_msg_initial_ue", "src/rua_msg_factory.c: rua_new_dt, rua_new_disc, rua_new_conn"]}
{"id": "C83", "title": "No message from the gateway kills the HNB emulator", "statement": "Whatever the gateway sends to the HNB emulator, and in whatever history of messages and console commands, the program neither accesses memory outside of its objects nor aborts.", "quantifier": "all octet strings, all histories of messages and commands, all behaviours of the TLV parser and the authentication library", "why_tests_cant": "all octet strings in all states; the crashing messages are well-formed ones nobody thought of", "anchors": ["tests/hnb-test.c: hnb_read_cb, hnb_test_rua_rx, hnb_test_hnbap_rx, hnb_test_nas_rx_dtap", "tests/hnb-test-rua.c", "tests/hnb-test-ranap.c"]}
{"id": "C84", "title": "The HNB emulator answers the requests of the core network", "statement": "Identity, authentication and security mode requests and Iu Release Commands for the UE are answered with the octets of exactly one message: the IMEISV, the response computed from the challenge, a Security Mode Complete with a permitted algorithm, an Iu Release Complete; other messages are not answered.", "quantifier": "all octet strings, all challenges, all reachable states", "why_tests_cant": "all octet strings and histories; composition of RUA, RANAP and NAS in both directions", "anchors": ["tests/hnb-test.c: hnb_test_nas_rx_mm, hnb_test_nas_rx_auth_req, hnb_test_rx_secmode_cmd, hnb_test_rx_iu_release", "tests/hnb-test-ranap.c: hnb_test_rua_dt_handle_ranap"]}
{"id": "C85", "title": "The HNB emulator answers on the connection of the request", "statement": "The answer of the HNB emulator to a message goes to the domain and context id the message came with.", "quantifier": "all octet strings, all histories with any number of channels", "why_tests_cant": "depends on the history of channels", "anchors": ["tests/hnb-test.c: hnb_test_tx_dt, chan", "tests/hnb-test-rua.c: hnb_test_rua_dt_handle"]}
{"id": "C86", "title": "Connections of the HNB emulator have different context ids", "statement": "Every channel command opens a connection with a context id of its own in the domain asked for.", "quantifier": "all histories of any length", "why_tests_cant": "a wrap-around shows only after 65536 commands", "anchors": ["tests/hnb-test.c: chan, gen_initue_lu"]}
{"id": "C87", "title": "The HNB emulator reports what the gateway said", "statement": "The HNB emulator reports acceptance of the registration with the RNC-ID given, acceptance of a UE with its IMSI and context id, and pages with their IMSI; it reports them only if the gateway has sent this message.", "quantifier": "all octet strings, all reachable states", "why_tests_cant": "all octet strings; rejections look like acceptances to code that does not check the kind of message", "anchors": ["tests/hnb-test.c: hnb_test_hnbap_rx, hnb_test_rx_hnb_register_acc, hnb_test_rx_ue_register_acc, hnb_test_rx_paging", "tests/hnb-test-ranap.c: hnb_test_rua_cl_handle_ranap"]}
{"id": "C88", "title": "Messages of the HNB emulator are sent once, in order, and complete", "statement": "What the HNB emulator has to send is sent, each message once and complete, in the order of the commands and answers; the number of messages waiting is bounded.", "quantifier": "all histories", "why_tests_cant": "quantifies over all interleavings of commands, received messages and room in the socket", "anchors": ["tests/hnb-test.c: hnb_write_cb, main"]}
{"id": "C89", "title": "HNBAP requests of the HNB emulator are understood", "statement": "The commands to register and deregister the HNB and to register a UE send complete HNBAP messages from which the receiver gets the identity, location and cell of the HNB, the cause, and the IMSI given.", "quantifier": "all states, all IMSIs of 5 to 16 digits", "why_tests_cant": "all IMSIs; composition of encoder and decoder", "anchors": ["tests/hnb-test.c: hnb_send_register_req, hnb_send_deregister_req, hnb_test_ue_register_tx"]}
{"id": "C90", "title": "The channel command uses its IMSI", "statement": "The command 'channel (cs|ps) lu imsi IMSI' sends an Initial UE Message with a Location Updating Request of the given IMSI, in the given domain; the command 'ranap reset' sends a Reset for the given domain.", "quantifier": "all reachable states, all IMSIs", "why_tests_cant": "all IMSIs and histories", "anchors": ["tests/hnb-test.c: chan, gen_initue_lu, ranap_reset"]}
{"id": "C91", "title": "Outcome messages become events", "statement": "Octets received on the connection of a context that are a Security Mode Complete, an Iu Release Complete or a RAB Assignment Response with a RAB make the Iu client call the event callback once, for this context, with the event of this message and the RAB id in it, if the user has installed it and notification is on for the context; all other connection-oriented messages but Direct Transfers and those that crash the client cause no callback at all.", "quantifier": "all octet strings, all histories of the client, all contexts", "why_tests_cant": "all octet strings in all states; spurious callbacks show only for messages nobody thought of", "anchors": ["src/iu_client.c: cn_ranap_handle_co, ranap_handle_co_rab_ass_resp, global_iu_event", "src/ranap_common_cn.c: ranap_cn_rx_co"]}
{"id": "C92", "title": "Iu client and HNB emulator understand each other end to end", "statement": "Over a gateway that passes RANAP messages on unchanged, the Location Updating Request of the HNB emulator reaches the user of the Iu client for a new context with the location of the emulator; an Identity Request or Authentication Request sent with the API of the client brings the Identity Response, or the response to this challenge, to the user; a Security Mode Command or release brings the event that it is complete.", "quantifier": "all NAS PDUs of up to 977 octets, all challenges, keys and causes, all histories of the client and of the emulator", "why_tests_cant": "composition of two programs with all their histories, and of encoders and decoders on three layers", "anchors": ["src/iu_client.c: ranap_iu_tx, ranap_iu_tx_sec_mode_cmd, ranap_iu_tx_release, cn_ranap_handle_co", "tests/hnb-test.c", "tests/hnb-test-ranap.c", "src/ranap_msg_factory.c", "src/rua_msg_factory.c"]}
{"id": "C93", "title": "Information elements are coded as the ASN.1 specification says", "statement": "For every type of the RANAP, RUA, HNBAP and SABP specifications the library encodes every value to the octets, and decodes all octets to the value, that aligned PER gives for the type as it is written in the specification; each information element of a message has the type the specification gives for it; names of components, alternatives and values stand for what they stand for in the specification.", "quantifier": "all types of the four specifications, all values, all octet strings", "why_tests_cant": "hundreds of types in generated descriptors, each with infinitely many values; a wrong bound or order shows only for the value that nobody tried", "anchors": ["src/ranap/*.c, src/rua/*.c, src/hnbap/*.c, src/sabp/*.c: asn_DEF_*", "include/osmocom/*/*.h", "asn1/*/*-IEs.asn, *-PDU-Contents.asn, *-CommonDataTypes.asn"]}
{"id": "C94", "title": "Messages with protocol extensions are understood", "statement": "A message that a peer encodes as the specification says, with any elements and any protocol extensions or none, is read as exactly its elements; extensions make no difference to anything the library does. What the library sends is, for a peer that decodes as the specification says, the message with exactly these elements and no extensions.", "quantifier": "all messages of the four protocols, all lists of elements, all extensions", "why_tests_cant": "peers of any later protocol version add extensions; the descriptors of the library have no place for them", "anchors": ["src/ranap/*.c, src/rua/*.c, src/hnbap/*.c, src/sabp/*.c: asn_DEF_* of messages", "asn1/*/*-PDU-Contents.asn", "asn1/*/*-PDU.asn"]}
{"id": "C95", "title": "All items of a list are seen", "statement": "Of a list of RABs, Iu signalling connection ids or other items in a RANAP message, encoded as the specification says, the library sees all items.", "quantifier": "all list types of the RANAP specification, all lists", "why_tests_cant": "lists with one item behave well; all lengths must be considered", "anchors": ["src/ranap/RANAP_ResetResourceList.c, RANAP_RAB-SetupOrModifiedList.c, RANAP_RAB-ReleaseList.c and 25 others", "asn1/ranap/RANAP-PDU-Contents.asn", "asn1/ranap/RANAP-PDU.asn"]}
{"id": "C96", "title": "What is decoded is not much larger than what was received", "statement": "Decoding never turns a small message into a large data structure: the number of objects in a decoded value of any type of the four protocols is at most 72 for each octet decoded plus a constant, the objects of all information elements of a message together, those that a later element replaces included, are at most 72 for each octet received, and octet strings together are never longer than the input. This holds for messages that are rejected in the end, too.", "quantifier": "all types and messages of RANAP, RUA, HNBAP and SABP, all octet strings", "why_tests_cant": "memory amplification needs the one input which combines the counts of nested lists; there is no end to the inputs to try", "anchors": ["asn1/utils/asn1tostruct.py: generated *_decode_*ies", "src/ranap/*.c, src/rua/*.c, src/hnbap/*.c, src/sabp/*.c: asn_DEF_*, asn_SPC_*", "src/ranap_common_cn.c: ranap_cn_rx_co, ranap_cn_rx_cl"]}
{"id": "C97", "title": "What a received message leaves allocated", "statement": "After one of the three RANAP receive functions has returned, exactly this is still allocated: nothing if the octets are not a PDU of a supported message; otherwise one block for each information element that owns memory and is replaced by a later one with the same id, counted up to the first unknown or invalid element; and, in the connection-oriented receive function of the core network side only, if there is such a bad element, one block for each element owning memory in front of it. Never is it more than one block for every two octets received.", "quantifier": "all octet strings", "why_tests_cant": "only some of the combinations of repeated, unknown and invalid elements leave something, each another amount", "anchors": ["src/ranap_common_cn.c: ranap_cn_rx_co, ranap_cn_rx_cl", "src/ranap_common_ran.c: ranap_ran_rx_co", "asn1/utils/asn1tostruct.py: generated *_decode_*ies and free functions"]}
{"id": "C98", "title": "Who has registered from an HNB is paged there", "statement": "Once the HNB emulator has opened a channel and its connection request has reached the Iu client through a gateway, and as long as no other RNC registers the same area and no other address the same RNC-ID, every later page by ranap_iu_page_cs2 in its location area or by ranap_iu_page_ps2 in its area, for a valid IMSI of up to 15 digits and with any TMSI, is sent to the address the request came from, and the octets sent, in any RUA Connectionless Transfer, make the emulator report a page for exactly this IMSI and do nothing else.", "quantifier": "all histories of the emulator and of the client before and after the registration, all IMSIs, TMSIs, SCCP addresses and connection ids", "why_tests_cant": "the page depends on everything any RNC has registered since, and two programs and three protocols have to agree on it", "anchors": ["src/iu_client.c: ranap_iu_page_cs2, ranap_iu_page_ps2, iu_rnc_register", "src/ranap_msg_factory.c: ranap_new_msg_paging_cmd", "src/rua_msg_factory.c: rua_new_udt", "tests/hnb-test.c: hnb_test_rx_paging", "tests/hnb-test-rua.c: hnb_test_rua_cl_handle", "tests/hnb-test-ranap.c: hnb_test_rua_cl_handle_ranap"]}
{"id": "C99", "title": "A message cut short is never accepted, and octets behind it make no difference", "statement": "Every PDU, message container and information element has a definite end. With fewer octets nothing is decoded, with more of them, whatever they are, the same value is. The RANAP receive functions do exactly the same, handler calls included, for a PDU with any octets behind it. Of a PDU that was encoded for any of the four protocols no proper prefix is decoded, and the RANAP receive functions refuse it with -1 and do nothing else. Octets behind a value inside of an information element make no difference either.", "quantifier": "all types, all octet strings, all lengths to which they are cut, all octets behind them", "why_tests_cant": "there are as many prefixes as octets, of every message there is; a decoder that reads ahead or takes a default at the end of the input misreads only some of them", "anchors": ["src/ranap_common_cn.c: ranap_cn_rx_co, ranap_cn_rx_cl", "src/ranap_common_ran.c: ranap_ran_rx_co", "asn1/utils/asn1tostruct.py: generated *_decode_*ies", "src/ranap/RANAP_RANAP-PDU.c", "src/rua/RUA_RUA-PDU.c", "src/hnbap/HNBAP_HNBAP-PDU.c", "src/sabp/SABP_SABP-PDU.c"]}
{"id": "C100", "title": "ranap_iu_init tells its caller whether the client can be used", "statement": "When ranap_iu_init has returned 0, the client can receive from and transmit to SCCP, and all other calls do what they are documented to do; when the SCCP instance has another user of the RANAP subsystem number, or the client was set up on it already, ranap_iu_init fails. Messages carry the local address of the instance.", "quantifier": "all sequences of calls of ranap_iu_init and of other operations, all SCCP instances with any users and with or without a point code", "why_tests_cant": "whether the client can be used depends on everything that was bound to SCCP before", "anchors": ["src/iu_client.c: ranap_iu_init, sccp_sap_up", "include/osmocom/ranap/iu_client.h: ranap_iu_init"]}
{"id": "C101", "title": "A location update is completed, whatever the order in which things happen", "statement": "The HNB emulator asks for a CS channel, a gateway passes the RANAP messages of both sides on unchanged, and a core network node with the Iu client answers: identity request, authentication, security mode command, location updating accept, MM information. Messages wait in the queue of the emulator and in both directions of the gateway; any of them may be taken next, and between any two moves the client may serve any other connection, send or receive anything else, or have timers expire. Then nothing in the session ever breaks; as long as a message waits something can be done; after at most twenty moves none waits; at all times the history of the connection at the client is a beginning of the expected one (accepted, Location Updating Request, identity, authentication, security mode complete, possibly TMSI reallocation complete, release command, released, closed), and in the end it is all of it and the context is freed.", "quantifier": "all schedules of the session and all other traffic of the client between the moves, all contents of the messages of the core network, all histories of emulator and client before, all connection ids", "why_tests_cant": "two programs and three queues can interleave in arbitrarily many ways, with arbitrary other traffic in between", "anchors": ["src/iu_client.c: sccp_sap_up, cn_ranap_handle_co, cn_ranap_handle_co_initial, ranap_iu_tx, ranap_iu_tx_sec_mode_cmd, ranap_iu_free_ue, global_iu_recv_cb, global_iu_event_cb", "tests/hnb-test.c: hnb_test_nas_rx_dtap, hnb_write_cb, chan", "tests/hnb-test-rua.c: hnb_test_rua_dt_handle", "tests/hnb-test-ranap.c: hnb_test_rua_dt_handle_ranap", "src/rua_msg_factory.c: rua_new_dt, rua_new_conn", "src/ranap_msg_factory.c"]}
{"id": "C102", "title": "A RESET of the HNB emulator is acknowledged", "statement": "The command 'ranap reset (cs|ps)' of the HNB emulator sends a message whose RANAP message a client of the library, in any state, answers with exactly one RESET ACKNOWLEDGE for the same domain, to the address it came from, doing nothing else; and in whatever RUA Connectionless Transfer the acknowledgement comes back, the emulator survives it and stays as it is.", "quantifier": "all states of the emulator and of the client, both domains, all addresses, all gateways that pass RANAP messages on unchanged", "why_tests_cant": "two programs, two protocol layers and the generated coders have to agree in every state", "anchors": ["tests/hnb-test.c: ranap_reset", "tests/hnb-test-rua.c: hnb_test_rua_cl_handle", "tests/hnb-test-ranap.c: hnb_test_rua_cl_handle_ranap", "src/iu_client.c: cn_ranap_handle_cl, ranap_handle_cl_reset_req", "src/ranap_msg_factory.c: ranap_new_msg_reset, ranap_new_msg_reset_ack", "src/rua_msg_factory.c: rua_new_udt"]}
{"id": "C103", "title": "Transport associations of the other side are read safely", "statement": "Given any transport association that was decoded from a received message, ranap_transp_assoc_decode returns, and accepts exactly the binding ids of RTP ports other than 0, yielding the port; a GTP TEI is never taken for a port.", "quantifier": "all octets that decode as an IuTransportAssociation", "why_tests_cant": "the peer chooses the alternative and all of its octets", "anchors": ["src/iu_helpers.c: ranap_transp_assoc_decode", "include/osmocom/ranap/iu_helpers.h: ranap_transp_assoc_decode", "asn1/ranap/RANAP-IEs.asn: IuTransportAssociation"]}
{"id": "C104", "title": "Any number of location updates at the same time are completed", "statement": "Any number of HNB emulators do a location update through gateways with one core network node that uses the Iu client, each on its own connection and each with messages of its own. Whoever moves next, and whatever else the client does in between, nothing breaks; as long as a message of an emulator waits anywhere, something can be done in its session; after at most twenty moves in each session none waits; at all times the history of every connection is a beginning of its own transcript, and in the end all of it, and no context is left.", "quantifier": "all numbers of emulators, all schedules, all contents of the messages, all other traffic, all histories before", "why_tests_cant": "the sessions share the client, its lists and its callbacks, and interleave in arbitrarily many ways", "anchors": ["src/iu_client.c: sccp_sap_up, cn_ranap_handle_co, cn_ranap_handle_co_initial, ue_conn_ctx_find, ranap_iu_tx, ranap_iu_tx_sec_mode_cmd, ranap_iu_free_ue", "tests/hnb-test.c: hnb_test_nas_rx_dtap, hnb_write_cb, chan", "tests/hnb-test-rua.c: hnb_test_rua_dt_handle"]}
{"id": "C105", "title": "RAB assignments ask for the same service whatever the arguments", "statement": "ranap_new_msg_rab_assign_voice asks for AMR speech at 12.2 kbit/s (all parameters, three subflows, user plane mode and version, NAS synchronisation indicator), ranap_new_msg_rab_assign_data for an IPv4 background bearer, for every RAB id, address, port or TEI; what the ASN.1 specification wants present under a condition is present, and the sizes of the subflows agree with each other, the SDU size and the bit rate. The message determines all of this.", "quantifier": "all RAB ids, addresses, ports, TEIs, both address encodings", "why_tests_cant": "the parameters are spread over an encoding of optional parts whose positions depend on the arguments", "anchors": ["src/ranap_msg_factory.c: ranap_new_msg_rab_assign_voice, ranap_new_msg_rab_assign_data, new_rab_par_voice, new_rab_par_data, new_sdu_par_item, new_alloc_ret_prio, new_upi, new_rab_nas_sync_ind", "asn1/ranap/RANAP-IEs.asn: RAB-Parameters, SDU-ParameterItem"]}
{"id": "C106", "title": "Conditional elements are present when their condition holds", "statement": "An Initial UE Message for the PS domain carries a routing area code, and a RUA Disconnect with cause normal carries a RANAP message, as the ASN.1 specification demands.", "quantifier": "all arguments of ranap_new_msg_initial_ue and rua_new_disc", "why_tests_cant": "conditions between elements that the encoder does not check", "anchors": ["src/ranap_msg_factory.c: ranap_new_msg_initial_ue", "src/rua_msg_factory.c: rua_new_disc", "asn1/ranap/RANAP-PDU-Contents.asn: InitialUE-MessageIEs", "asn1/rua/RUA-PDU-Contents.asn: DisconnectIEs"]}
{"id": "C107", "title": "Requests about a connection follow the rules of SCCP", "statement": "Whatever SCCP, the peers and the user do, the client makes the requests about a connection only when SCCP (ITU-T Q.711) allows them: every indicated connection is confirmed exactly once, data are sent and a disconnect is requested only for connections that are confirmed and have not ended.", "quantifier": "all histories of the client with all behaviours of the user in callbacks, all connection ids, also used again", "why_tests_cant": "the user may free contexts, send and request a release in any callback, and SCCP may end the connection at any time", "anchors": ["src/iu_client.c: sccp_sap_up, ranap_iu_free_ue, ue_ctx_link_invalidated_free, ranap_iu_tx, ranap_iu_tx_release_free, ue_conn_ctx_release_timeout_cb", "include/osmocom/ranap/iu_client.h: ranap_iu_free_ue"]}
{"id": "C108", "title": "No confirmed connection is left alone", "statement": "A connection that the client has confirmed and that has not ended has a context that the user knows, or its first message is still awaited.", "quantifier": "all histories of the client, all connection ids", "why_tests_cant": "a connection is left alone only by particular contents of its first message, and what becomes of it shows only over an unbounded time", "anchors": ["src/iu_client.c: sccp_sap_up, cn_ranap_handle_co_initial, ranap_handle_co_initial_ue, ue_conn_sccp_addr_find, ue_conn_sccp_addr_del"]}
{"id": "C109", "title": "The client keeps memory only for what it still knows", "statement": "The blocks the Iu client has allocated and not freed are, at any time, one for each context, each connection request whose first message is awaited, each RNC and each area: none is lost and none is freed that is still in use. It follows that connections that come and go leave nothing behind, and that the memory is determined by the connections in use and the RNCs and areas seen.", "quantifier": "all histories of the client with all behaviours of the user in callbacks", "why_tests_cant": "a lost block shows only over an unbounded number of connections, and connections can end in many ways", "anchors": ["src/iu_client.c: ue_conn_ctx_alloc, ranap_iu_free_ue, ue_conn_sccp_addr_add, ue_conn_sccp_addr_del, iu_rnc_alloc, iu_rnc_register"]}
{"id": "C110", "title": "Indications without user data are handled like those with empty user data", "statement": "Whether SCCP indicates a connection, its end, data or a unitdata without user data (no layer 2 pointer in the buffer) or with user data of no octets makes no difference to the Iu client.", "quantifier": "all states of the client, all indications with user data, all connection ids", "why_tests_cant": "what is missing is an attribute of the buffer, in every state and for every kind of indication", "anchors": ["src/iu_client.c: sccp_sap_up"]}
{"id": "C111", "title": "A RESET ends the connections of the RNC that sent it", "statement": "When an RNC reports that it starts afresh (RESET, or RESET RESOURCE for single connections), the contexts of this RNC end: the user of the client is told that they are of no use any more, or they are gone.", "quantifier": "all histories of the client, all RESET messages, all contexts", "why_tests_cant": "the effect is on all the contexts that exist at that moment, which depend on the history", "anchors": ["src/iu_client.c: ranap_handle_cl_reset_req, cn_ranap_handle_cl, sccp_sap_up", "src/ranap_common_cn.c: ranap_cn_rx_cl"]}
{"id": "C112", "title": "A message that was accepted can be passed on", "statement": "What the decode function of a message accepts, the encode and the generate function accept again (as a gateway does that passes messages on), and the next receiver reads the same message; passing it on once more gives the same octets.", "quantifier": "all messages of RANAP, RUA, HNBAP and SABP, all octets that are accepted", "why_tests_cant": "what is accepted and what can be encoded are decided by different code, over all contents of all messages", "anchors": ["asn1/utils/asn1tostruct.py: generated encode and decode functions", "src/ranap_common.c: ranap_generate_initiating_message", "src/hnbap_common.c: hnbap_generate_unsuccessful_outcome", "src/ranap_common_ran.c: ranap_ran_rx_co_decode2"]}
{"id": "C113", "title": "A context says where its connection comes from", "statement": "At any time the location and the RNC in a UE context are those of the Initial UE Message that opened its connection; no later message on any connection, no request of the user and nothing done in callbacks changes them, nor the connection, nor the identity of the RNC, as long as the context is there.", "quantifier": "all histories of the client with all behaviours of the user in callbacks, all contexts, connection ids used again included", "why_tests_cant": "a context lives through an unbounded history of messages on its own and on other connections, all of which share the code that fills it", "anchors": ["src/iu_client.c: ranap_handle_co_initial_ue, ue_conn_ctx_alloc, iu_rnc_register, ranap_handle_co_dt", "include/osmocom/ranap/iu_client.h: ranap_ue_conn_ctx"]}
{"id": "C114", "title": "Each message of the gateway is handled by the HNB emulator as one message", "statement": "What the HNB emulator does when a message arrives from the gateway is determined by the message as a whole, whatever its size: no part of it is taken for a message.", "quantifier": "all messages of at least one octet, all protocol numbers, all states of the emulator", "why_tests_cant": "only messages larger than the receive buffer are affected, and it must hold for all their contents", "anchors": ["tests/hnb-test.c: hnb_read_cb, hnb_test_hnbap_rx, hnb_test_rua_rx", "tests/hnb-test.h: IUH_MSGB_SIZE"]}
{"id": "C115", "title": "The HNB emulator frees what it decodes", "statement": "When the HNB emulator has handled a message of the gateway, nothing is left of the memory that decoding it allocated. (False: of every message that can be decoded at least the contents of its PDU are left; also the elements in front of a bad one, those of a UE Register Accept without an IMSI, and what the RANAP functions leave of the message inside.)", "quantifier": "every payload protocol, every sequence of octets, every state of the heap before, any number of messages", "why_tests_cant": "What is freed depends on the procedure, on the elements and on where the first bad one is; a test sees no leak.", "anchors": ["tests/hnb-test.c: hnb_test_hnbap_rx, hnb_test_rua_rx, hnb_test_rx_hnb_register_acc, hnb_test_rx_ue_register_acc", "tests/hnb-test-rua.c: hnb_test_rua_dt_handle, hnb_test_rua_cl_handle"]}
{"id": "C116", "title": "Every element written in the ASN.1 text gets into the generated functions", "statement": "From the text of an ASN.1 module the generator takes, for every set of information elements that is not one of extensions, a table with all elements of the set: identifier, criticality, type and presence, in their order. (False: an element whose words are spread over two lines is skipped silently, so is one whose closing brace stands behind a comment, and a comment behind the closing brace of a set loses the whole set.)", "quantifier": "every file: any number of object sets and elements, any names, any white space between words, any text between the sets", "why_tests_cant": "The regular expressions are tried on texts of any shape and length; a test checks only the files at hand, and what is skipped shows nowhere.", "anchors": ["asn1/utils/asn1tostruct.py: lines, iesDefs (l. 127-159)"]}
{"id": "C117", "title": "The message functions of the four protocols are those of their ASN.1 modules", "statement": "For each of RUA, HNBAP, SABP and RANAP the encoders and decoders know exactly the messages the generator finds in the text of the protocol's ASN.1 module, and of each message exactly the elements it finds, in the order of the text: with the number assigned to the identifier, the criticality and the type written there, and optional unless the text says mandatory.", "quantifier": "all lines of the four module files, all messages and elements in them", "why_tests_cant": "What the generator makes of 170 KB of text depends on regular expressions with backtracking; the tables are only ever seen through the functions generated from them, a test sees the elements it uses.", "anchors": ["asn1/rua/RUA-PDU-Contents.asn", "asn1/hnbap/HNBAP-PDU-Contents.asn", "asn1/sabp/SABP-PDU-Contents.asn", "asn1/ranap/RANAP-PDU-Contents.asn", "asn1/utils/asn1tostruct.py: iesDefs (l. 127-159)"]}
{"id": "C118", "title": "In the generated code every element has a member and every optional element a presence constant of its own", "statement": "In the C code generated for a message no two elements share a member of its structure or a presence constant, the constant used by the encoder, decoder and free function for an optional element is defined exactly once, with the bit of that element, and no function has two variables or parameters of the same name. This holds for every table whose names can be told apart without regard to capitals and in which \"id-\" occurs only at the beginning of an identifier, and for all messages of the four protocols; the presence constants and members in the hand-written code are those of the elements they are meant for.", "quantifier": "all tables of elements (names of any length), all messages of the four ASN.1 modules, all presence constants in the hand-written code", "why_tests_cant": "A shared member or constant still compiles in some cases (a macro defined again with another value, a variable that hides a parameter) and silently mixes up two elements; a test only sees the messages it builds.", "anchors": ["asn1/utils/asn1tostruct.py: lowerFirstCamelWord, getUniqueIENameForDefine (l. 44-103), l. 183-546", "src/Makefile.am: gen_*.stamp", "src/iu_client.c, src/ranap_msg_factory.c, src/rua_msg_factory.c: *_PRESENT"]}
{"id": "C119", "title": "The C types are those of the ASN.1 modules they were generated from", "statement": "Each type of the C code (kind, components in their order, which of them are optional, alternatives, values, bounds and sizes, extensibility) is the one defined under its name in the modules *-CommonDataTypes.asn, *-Constants.asn, *-IEs.asn and *-PDU.asn; the C code has exactly the types defined there. The generated encoders and decoders use for each element the type whose name the module of the messages gives, and for each message the one with the name formed from its object set. So the checked-in C code is neither out of date nor changed by hand in anything that shows in the octets.", "quantifier": "all 807 types of the four protocols, all elements and all object sets; through the types all values and all octets", "why_tests_cant": "The generated C code is checked in and no test compares it with the ASN.1 modules; a test encodes a few messages and would not notice a changed bound, a dropped alternative or a missing extension mark.", "anchors": ["src/ranap/*.c, src/rua/*.c, src/hnbap/*.c, src/sabp/*.c: asn_DEF_*", "asn1/*/*-PDU.asn, *-IEs.asn, *-CommonDataTypes.asn, *-Constants.asn", "src/Makefile.am: the rules with asn1c", "asn1/utils/asn1tostruct.py"]}
{"id": "C120", "title": "When memory runs out, making or reading a message fails cleanly", "statement": "If any allocation fails, a function that makes a RANAP, HNBAP, RUA or SABP message returns the message it would return otherwise, or NULL; it never returns a message that differs and never ends the process. A decoder returns -1 or the structure it would return otherwise.", "quantifier": "every message and all values of its elements, every message generator of RANAP without lists of RABs, every octet string received, every pattern of failing and succeeding allocations", "why_tests_cant": "A test would have to make each allocation fail in turn, in each function, for each set of elements present.", "anchors": ["asn1/utils/asn1tostruct.py: the encode and decode functions (ASN_SEQUENCE_ADD without a check)", "src/ranap_msg_factory.c: ranap_new_msg_*, new_*", "src/ranap_common.c: ranap_generate_*, src/hnbap_common.c, src/rua_common.c, src/sabp_common.c: *_new_ie, *_generate_*", "src/*/{ranap,rua,hnbap,sabp}_{encoder,decoder}.c"]}
{"id": "C121", "title": "Debug output does not change the messages", "statement": "Whether the debug output of the messages (asn1_xer_print) is on makes no difference to the messages that are made or decoded, also if the standard output is closed or full.", "quantifier": "every message of the four protocols, all values of its elements, every octet string received, every pattern of failing writes", "why_tests_cant": "Tests run with a standard output that can be written to; the effect depends on where the daemon is started.", "anchors": ["include/osmocom/ranap/ranap_common.h: asn1_xer_print", "src/ranap_common.c: ranap_new_ie", "src/hnbap_common.c: hnbap_new_ie", "src/rua_common.c: rua_new_ie", "src/sabp_common.c: sabp_new_ie", "src/ranap/ranap_decoder.c: xer_fprint"]}
{"id": "C122", "title": "When memory runs out, wrapping a message into RUA fails cleanly", "statement": "If any allocation fails, rua_new_udt, rua_new_conn, rua_new_dt and rua_new_disc return NULL or the message they would return otherwise.", "quantifier": "all four functions, all domains, contexts and payloads, every pattern of failing and succeeding allocations", "why_tests_cant": "A test would have to make each allocation fail in turn.", "anchors": ["src/rua_msg_factory.c: rua_new_udt, rua_new_conn, rua_new_dt, rua_new_disc", "src/rua_common.c: rua_generate_initiating_message, rua_new_ie"]}
{"id": "C123", "title": "A Security Mode Command demands what it was asked to demand, even when memory runs out", "statement": "Whatever allocation fails, ranap_new_msg_sec_mod_cmd2 returns NULL or the command with exactly the algorithms, keys and elements asked for. In particular it never returns a command that permits another algorithm, carries another key, or leaves out integrity protection or encryption.", "quantifier": "all keys, key statuses and masks of algorithms, every pattern of failing and succeeding allocations, debug output on or off", "why_tests_cant": "A test would have to make each allocation fail in turn, in all combinations, for all masks.", "anchors": ["src/ranap_msg_factory.c: ranap_new_msg_sec_mod_cmd2 (CALLOC, ASN_SEQUENCE_ADD, BIT_STRING_fromBuf without a check)", "src/ranap/ranap_encoder.c: ranap_encode_securitymodecommandies"]}
{"id": "C124", "title": "When memory runs out, every function that makes a message of RANAP fails cleanly", "statement": "If any allocation fails, each of the ranap_new_msg_* functions, including those for RAB assignments and releases and for Reset Resource, returns NULL or the message it would return otherwise.", "quantifier": "every ranap_new_msg_* function and all its arguments, every pattern of failing and succeeding allocations and prints, debug output on or off", "why_tests_cant": "A RAB assignment for speech makes some fifty allocations; a test would have to make each fail in turn, and in all combinations.", "anchors": ["src/ranap_msg_factory.c: ranap_new_msg_rab_assign_voice, ranap_new_msg_rab_assign_data, ranap_new_msg_rab_rel_req, ranap_new_msg_reset_resource, new_rab_par_voice, new_rab_par_data, new_sdu_par_item, new_format_info_pars, new_upi, assign_new_ra_id", "src/ranap_common.c: ranap_new_ie_pair", "src/iu_helpers.c: ranap_new_transp_layer_addr, ranap_new_transp_info_rtp, ranap_new_transp_info_gtp"]}
{"id": "C125", "title": "A RAB assignment asks for the RAB it was to ask for, even when memory runs out", "statement": "Whatever allocation fails, a RAB assignment request that is returned asks for exactly one RAB with the id, address, port or TEI given and with the parameters of the service; it never asks for a RAB with other parameters.", "quantifier": "all RAB ids, addresses, ports, TEIs and both address encodings, every pattern of failing and succeeding allocations, debug output on or off", "why_tests_cant": "The parameters are put together from some thirty allocations whose failures are not looked at; a test would need all combinations.", "anchors": ["src/ranap_msg_factory.c: ranap_new_msg_rab_assign_voice, ranap_new_msg_rab_assign_data, new_rab_par_voice, new_rab_par_data, new_sdu_par_item", "src/iu_helpers.c: ranap_new_transp_info_rtp, ranap_new_transp_info_gtp"]}
{"id": "C126", "title": "The Iu client survives when memory runs out while it makes a message", "statement": "If an allocation fails while the client makes a RANAP message (for a transmit function called by the user, for paging, or as an answer to what it receives), the process goes on, and no incomplete message is handed to the SCCP layer.", "quantifier": "every history, every next operation (API call, received primitive, timer), every behaviour of callbacks and of the SCCP layer, every pattern of failing and succeeding allocations and prints, debug output on or off", "why_tests_cant": "A test would have to make every single allocation of every operation fail, in every state of the client; callbacks may send messages too.", "anchors": ["src/iu_client.c: ranap_iu_tx, ranap_iu_tx_release, ranap_iu_tx_release_free, ranap_iu_tx_sec_mode_cmd, ranap_iu_tx_common_id, iu_tx_paging_cmd, ranap_handle_cl_reset_req, ranap_handle_co_iu_rel_req", "src/ranap_msg_factory.c: ranap_new_msg_dt, ranap_new_msg_iu_rel_cmd, ranap_new_msg_sec_mod_cmd, ranap_new_msg_common_id, ranap_new_msg_paging_cmd, ranap_new_msg_reset_ack"]}
{"id": "C127", "title": "A string that is no IMSI is not taken for somebody's IMSI", "statement": "A Common ID or Paging message that names a subscriber is made from the string of that subscriber's digits only: a string with any other character in it does not yield the message of a subscriber.", "quantifier": "every character string passed as IMSI, every valid IMSI (5 to 16 digits), every temporary identity, domain and paging cause; for the encoder: buffers of any size", "why_tests_cant": "256 values for each character of strings of any length; the interesting strings (a typing error, a letter f at the end, a terminator left in) are those a test does not list.", "anchors": ["src/iu_helpers.c: ranap_imsi_encode", "src/ranap_msg_factory.c: ranap_new_msg_common_id, ranap_new_msg_paging_cmd", "tests/hnb-test.c: hnb_test_ue_register_tx"]}
{"id": "C128", "title": "The Iu client survives when memory for its own records is missing", "statement": "Whichever allocations of the client fail (the answer to a connection request, the address kept for a connection, a NAS message, the records of an RNC, an area or a subscriber), the client survives every history that it survives with memory, and leaves what it leaves with memory.", "quantifier": "every history of SCCP primitives, expired timers and calls of the API, every combination of failing allocations at every operation of it, every decoder, SCCP layer and user callback that cannot see the number of buffers left behind", "why_tests_cant": "The combinations of failing allocations grow exponentially with the length of the history, and which of them matter depends on the RNCs and areas that are known.", "anchors": ["src/iu_client.c: ue_conn_ctx_alloc, ue_conn_sccp_addr_add, iu_rnc_alloc, iu_rnc_register, ranap_handle_co_initial_ue, ranap_handle_co_dt, make_conn_resp, sccp_sap_up"]}
{"id": "C129", "title": "Missing memory never corrupts the Iu client", "statement": "Whatever memory is missing whenever (for the records of the client, for the messages it makes, for decoding what it receives), as long as the process lives no RNC, area or context is there twice, every context belongs to a registered RNC, timers run for live contexts only, all memory taken is in use, and a connection has one context at most; and if the client is used properly, the process ends by a NULL pointer or an assertion, or by a message that ends it with memory, too: no context is used after it was freed.", "quantifier": "every history of SCCP primitives, expired timers and calls of the API, every combination of failing allocations at every operation of it, every SCCP layer and user callback that cannot see the number of buffers left behind", "why_tests_cant": "The combinations of failing allocations grow exponentially with the length of the history, and corruption shows only later, if at all.", "anchors": ["src/iu_client.c: ue_conn_ctx_alloc, ue_conn_sccp_addr_add, iu_rnc_alloc, iu_rnc_register, sccp_sap_up, handle_notice_ind, handle_pcstate_ind, ranap_iu_tx, ranap_iu_tx_release, ranap_iu_page_cs2", "src/ranap_msg_factory.c: ranap_new_msg_dt, ranap_new_msg_iu_rel_cmd, ranap_new_msg_sec_mod_cmd2, ranap_new_msg_paging_cmd"]}
{"id": "C130", "title": "One message in, at most one message out", "statement": "Whatever is received from SCCP or expires, the client sends at most one message in answer, besides what the user sends when called, and that only if it was an Iu Release Request or a RESET; a received message or an expired timer makes it call the user at most twice; the loss of a node, at most once for each context there, whatever the user does when called; and a call of the API sends one message at most, or one to each RNC that serves the paged area, and calls nobody. So a peer cannot use the client to multiply messages, and in a history no more messages are sent than there were operations.", "quantifier": "every state, every primitive with any octets, every expired timer, every call of the API, every SCCP layer, every user who sends at most k messages each time they are called, every history", "why_tests_cant": "The bound must hold for every input and every history, with any number of contexts and RNCs; tests see some inputs.", "anchors": ["src/iu_client.c: sccp_sap_up, cn_ranap_handle_co, cn_ranap_handle_cl, ranap_handle_cl_reset_req, ranap_handle_co_iu_rel_req, handle_notice_ind, handle_pcstate_ind, ranap_iu_page_cs2, ranap_iu_page_ps2, global_iu_event"]}
{"id": "C131", "title": "The HNB emulator sends only what it is told or asked to send", "statement": "Whatever happens to the HNB emulator, it adds at most one message to what it sends: on a command of the user, or as the answer to a message on RUA that asks for one, on the channel that is open. So in a history no more messages are sent than there were commands and RUA messages; before the user has opened a channel in the CS domain no message is answered; and an emulator that was told nothing sends nothing, whatever it receives.", "quantifier": "every history of messages, notifications, room in the socket, ends of connections and commands, with any octets, every contents of uninitialised memory and every function for the authentication response", "why_tests_cant": "It must hold for all octets that may be received and all histories; tests see some.", "anchors": ["tests/hnb-test.c: hnb_read_cb, hnb_write_cb, hnb_test_nas_rx_mm, hnb_test_nas_rx_auth_req, hnb_test_rx_secmode_cmd, hnb_test_rx_iu_release"]}
{"id": "C132", "title": "What the Iu client says of its own accord is the answer that was asked for", "statement": "When something is received or a timer expires, every message that the client sends is one that its user sends when called, or an answer that the received message asks for: an Iu Release Command with the cause of the Iu Release Request, on the connection that carried it, or a RESET ACKNOWLEDGE with the domain and the RNC of the RESET, to its sender. With a user who sends nothing when called, all that is sent is such an answer. A call of the API sends what it asks for only: its message on the connection of its context, or paging to RNCs that serve the area. So after any history every message ever sent is one that a call of the user asked for, made in the history or in a callback, or the answer to a message received.", "quantifier": "every reachable state, every primitive from SCCP with any octets, every timer, every call of the API, every history of them, every user behaviour in callbacks, every decoder and encoder outcome and every result of the SCCP provider", "why_tests_cant": "It must hold for all octets, all reachable states and all users; a test sees the messages of one exchange.", "anchors": ["src/iu_client.c: cn_ranap_handle_cl, ranap_handle_cl_reset_req, cn_ranap_handle_co, ranap_handle_co_iu_rel_req, sccp_sap_up, ranap_iu_tx_release"]}
{"id": "C133", "title": "The user of the Iu client hears only what was received", "statement": "Whatever happens, the user is called only for a reason, which is what has just happened. NAS is handed over only if the octets received decode to an Initial UE Message or a Direct Transfer with exactly that NAS-PDU, and the connection that the user is told is the connection of the primitive. The end of a security mode or release procedure and a RAB assignment are reported only for the connection on which their message was received, a release also when the release timer of that context expires; a lost link only on N-DISCONNECT of that connection, N-NOTICE or N-PCSTATE; a new area only on an Initial UE Message. So after any history every call of the user had its reason in the history.", "quantifier": "every reachable state, every primitive from SCCP with any octets, every timer, every call of the API, every history of them, every user behaviour in callbacks, every decoder and encoder outcome", "why_tests_cant": "It must hold for all octets, all histories and all users; a test sees what is delivered in one exchange.", "anchors": ["src/iu_client.c: ranap_handle_co_initial_ue, ranap_handle_co_dt, cn_ranap_handle_co, cn_ranap_handle_co_initial, sccp_sap_up, global_iu_event"]}
