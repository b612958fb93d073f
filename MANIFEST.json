{
 "claims": [
  {
   "property": "C01",
   "status": "proved",
   "theorems": [
    "Verif.Props.C01_imsi_round_trip"
   ],
   "note": ""
  },
  {
   "property": "C02",
   "status": "partial",
   "theorems": [
    "Verif.Props.C02_overrun_iff",
    "Verif.Props.C02_violated_every_odd_size",
    "Verif.Props.C02_violated",
    "Verif.Props.C02_bcd_decode_in_bounds_partial"
   ],
   "note": "The property is false of the code: exact overrun condition, violation for every odd buffer size, and the part that holds."
  },
  {
   "property": "C03",
   "status": "proved",
   "theorems": [
    "Verif.Props.C03_bcd_decode_format"
   ],
   "note": ""
  },
  {
   "property": "C04",
   "status": "partial",
   "theorems": [
    "Verif.Props.C04_overrun_iff",
    "Verif.Props.C04_violated_every_size",
    "Verif.Props.C04_violated",
    "Verif.Props.C04_imsi_encode_in_bounds_partial"
   ],
   "note": "The property is false of the code: exact overrun condition, violation for every size, and the part that holds."
  },
  {
   "property": "C05",
   "status": "proved",
   "theorems": [
    "Verif.Props.C05_tbcd_layout",
    "Verif.Props.C05_imsi_encode_injective"
   ],
   "note": ""
  },
  {
   "property": "C06",
   "status": "proved",
   "theorems": [
    "Verif.Props.C06_addr_round_trip",
    "Verif.Props.C06_unsupported_refused"
   ],
   "note": ""
  },
  {
   "property": "C07",
   "status": "proved",
   "theorems": [
    "Verif.Props.C07_decode2_accepts_iff",
    "Verif.Props.C07_format_iff"
   ],
   "note": ""
  },
  {
   "property": "C08",
   "status": "proved",
   "theorems": [
    "Verif.Props.C08_rtp_port_round_trip",
    "Verif.Props.C08_assoc_accepts_iff"
   ],
   "note": ""
  },
  {
   "property": "C09",
   "status": "proved",
   "theorems": [
    "Verif.Props.C09_gtp_tei_round_trip"
   ],
   "note": ""
  },
  {
   "property": "C10",
   "status": "partial",
   "theorems": [
    "Verif.Props.C10_violated",
    "Verif.Props.C10_violated_ipv6",
    "Verif.Props.C10_decoders_agree_ipv4_partial"
   ],
   "note": "False of the code for X.213 input to the old decoder; the agreeing part is proved."
  },
  {
   "property": "C11",
   "status": "partial",
   "theorems": [
    "Verif.Props.C11_violated_every_x213",
    "Verif.Props.C11_violated",
    "Verif.Props.C11_violated_byte_order",
    "Verif.Props.C11_ip_extraction_raw_partial"
   ],
   "note": "False of the code for every X.213 address; raw IPv4 part proved."
  },
  {
   "property": "C12",
   "status": "proved",
   "theorems": [
    "Verif.Props.C12_parse_lai"
   ],
   "note": ""
  },
  {
   "property": "C13",
   "status": "partial",
   "theorems": [
    "Verif.Props.C13_violated",
    "Verif.Props.C13_agreement_iff",
    "Verif.Props.C13_plmn_agreement_partial"
   ],
   "note": "False of the code; exact agreement condition proved."
  },
  {
   "property": "C14",
   "status": "proved",
   "theorems": [
    "Verif.Props.C14_registry_integrity"
   ],
   "note": ""
  },
  {
   "property": "C15",
   "status": "proved",
   "theorems": [
    "Verif.Props.C15_last_writer_wins",
    "Verif.Props.C15_address",
    "Verif.Props.C15_address_known",
    "Verif.Props.C15_address_exact",
    "Verif.Props.C15_registered",
    "Verif.Props.C15_never_forgotten"
   ],
   "note": ""
  },
  {
   "property": "C16",
   "status": "proved",
   "theorems": [
    "Verif.Props.C16_new_area",
    "Verif.Props.C16_new_area_history",
    "Verif.Props.C16_no_other_event"
   ],
   "note": ""
  },
  {
   "property": "C17",
   "status": "proved",
   "theorems": [
    "Verif.Props.C17_page_cs2"
   ],
   "note": ""
  },
  {
   "property": "C18",
   "status": "proved",
   "theorems": [
    "Verif.Props.C18_page_ps2"
   ],
   "note": ""
  },
  {
   "property": "C19",
   "status": "partial",
   "theorems": [
    "Verif.Props.C19_violated",
    "Verif.Props.C19_refused",
    "Verif.Props.C19_return_value_partial"
   ],
   "note": "False of the code: the count includes pagings the lower layer refused. What the count does mean is proved."
  },
  {
   "property": "C20",
   "status": "partial",
   "theorems": [
    "Verif.Props.C20_violated",
    "Verif.Props.C20_not_paged",
    "Verif.Props.C20_violated_always",
    "Verif.Props.C20_page_cs_partial"
   ],
   "note": "False of the code: the legacy function never finds an area registered without RAC. The part that holds is proved."
  },
  {
   "property": "C21",
   "status": "proved",
   "theorems": [
    "Verif.Props.C21_page_ps"
   ],
   "note": ""
  },
  {
   "property": "C22",
   "status": "proved",
   "theorems": [
    "Verif.Props.C22_one_context_per_connection"
   ],
   "note": ""
  },
  {
   "property": "C23",
   "status": "proved",
   "theorems": [
    "Verif.Props.C23_uplink_routing",
    "Verif.Props.C23_contexts_live"
   ],
   "note": ""
  },
  {
   "property": "C24",
   "status": "proved",
   "theorems": [
    "Verif.Props.C24_only_hazards",
    "Verif.Props.C24_no_use_after_free"
   ],
   "note": ""
  },
  {
   "property": "C25",
   "status": "partial",
   "theorems": [
    "Verif.Props.C25_violated",
    "Verif.Props.C25_sibling_freed",
    "Verif.Props.C25_own_context_partial"
   ],
   "note": "False of the code: freeing a sibling context inside the handler makes the loop use freed memory. Freeing the own context is safe."
  },
  {
   "property": "C26",
   "status": "proved",
   "theorems": [
    "Verif.Props.C26_confirmed_first"
   ],
   "note": ""
  },
  {
   "property": "C27",
   "status": "proved",
   "theorems": [
    "Verif.Props.C27_same_as_direct",
    "Verif.Props.C27_other_traffic"
   ],
   "note": ""
  },
  {
   "property": "C28",
   "status": "proved",
   "theorems": [
    "Verif.Props.C28_unknown_connection"
   ],
   "note": ""
  },
  {
   "property": "C29",
   "status": "proved",
   "theorems": [
    "Verif.Props.C29_invalidated_once",
    "Verif.Props.C29_with_data",
    "Verif.Props.C29_cached_request_dropped",
    "Verif.Props.C29_frees_iff_marked"
   ],
   "note": ""
  },
  {
   "property": "C30",
   "status": "proved",
   "theorems": [
    "Verif.Props.C30_free_ue",
    "Verif.Props.C30_handles_distinct",
    "Verif.Props.C30_never_again",
    "Verif.Props.C30_connection_silent"
   ],
   "note": ""
  },
  {
   "property": "C31",
   "status": "partial",
   "theorems": [
    "Verif.Props.C31_never_notified",
    "Verif.Props.C31_violated",
    "Verif.Props.C31_no_event",
    "Verif.Props.C31_release_complete_partial"
   ],
   "note": "False of the code: after ranap_iu_tx_release_free no event is ever delivered for the context. Without that call Release Complete gives exactly one event."
  },
  {
   "property": "C32",
   "status": "partial",
   "theorems": [
    "Verif.Props.C32_timeout_does_not_free",
    "Verif.Props.C32_violated",
    "Verif.Props.C32_still_there",
    "Verif.Props.C32_freed_on_disconnect_partial"
   ],
   "note": "False of the code: the timeout frees nothing. The context is freed when the peer disconnects."
  },
  {
   "property": "C33",
   "status": "proved",
   "theorems": [
    "Verif.Props.C33_release_timer",
    "Verif.Props.C33_one_timer"
   ],
   "note": ""
  },
  {
   "property": "C34",
   "status": "proved",
   "theorems": [
    "Verif.Props.C34_release_request"
   ],
   "note": ""
  },
  {
   "property": "C35",
   "status": "proved",
   "theorems": [
    "Verif.Props.C35_pcstate"
   ],
   "note": ""
  },
  {
   "property": "C36",
   "status": "proved",
   "theorems": [
    "Verif.Props.C36_notice"
   ],
   "note": ""
  },
  {
   "property": "C37",
   "status": "proved",
   "theorems": [
    "Verif.Props.C37_reset_ack",
    "Verif.Props.C37_others_ignored"
   ],
   "note": ""
  },
  {
   "property": "C38",
   "status": "proved",
   "theorems": [
    "Verif.Props.C38_no_other_context",
    "Verif.Props.C38_rejected",
    "Verif.Props.C38_accepted",
    "Verif.Props.C38_accepted_context"
   ],
   "note": ""
  },
  {
   "property": "C39",
   "status": "partial",
   "theorems": [
    "Verif.Props.C39_violated",
    "Verif.Props.C39_four_messages",
    "Verif.Props.C39_no_crash_partial"
   ],
   "note": "False of the code: four kinds of message abort or read out of bounds; every other message is handled."
  },
  {
   "property": "C40",
   "status": "proved",
   "theorems": [
    "Verif.Props.C40_location_info"
   ],
   "note": ""
  },
  {
   "property": "C41",
   "status": "proved",
   "theorems": [
    "Verif.Props.C41_no_interference"
   ],
   "note": ""
  },
  {
   "property": "C42",
   "status": "proved",
   "theorems": [
    "Verif.Props.C42_cn_co",
    "Verif.Props.C42_ran_co",
    "Verif.Props.C42_wire"
   ],
   "note": "The contents handed to the handler are stated element by element; the memory they hold is freed once (memory lost to repeated elements is the subject of C44)."
  },
  {
   "property": "C43",
   "status": "partial",
   "theorems": [
    "Verif.Props.C43_violated",
    "Verif.Props.C43_direct_transfer",
    "Verif.Props.C43_unknown_called",
    "Verif.Props.C43_known_partial"
   ],
   "note": "False of the code: every message ranap_cn_rx_cl does not know is handed to the handler with zeroed contents. For known messages the property is proved."
  },
  {
   "property": "C44",
   "status": "partial",
   "theorems": [
    "Verif.Props.C44_violated",
    "Verif.Props.C44_leaks",
    "Verif.Props.C44_no_bad_free_partial",
    "Verif.Props.C44_clean_partial",
    "Verif.Props.C44_delivered_leak_iff",
    "Verif.Props.C44_failed_leak_iff"
   ],
   "note": "False of the code for repeated elements (all three functions) and for messages ranap_cn_rx_co cannot decode. No double free for all inputs; exact leak conditions are proved."
  },
  {
   "property": "C45",
   "status": "partial",
   "theorems": [
    "Verif.Props.C45_violated",
    "Verif.Props.C45_exceptions",
    "Verif.Props.C45_confirmation_lost",
    "Verif.Props.C45_right_message_partial",
    "Verif.Props.C45_procedures"
   ],
   "note": "False of the code for three entries of the tables; proved for all others."
  },
  {
   "property": "C46",
   "status": "proved",
   "theorems": [
    "Verif.Props.C46_round_trip",
    "Verif.Props.C46_mask"
   ],
   "note": ""
  },
  {
   "property": "C47",
   "status": "proved",
   "theorems": [
    "Verif.Props.C47_last_wins",
    "Verif.Props.C47_only_last_matters",
    "Verif.Props.C47_order_independent"
   ],
   "note": ""
  },
  {
   "property": "C48",
   "status": "partial",
   "theorems": [
    "Verif.Props.C48_violated",
    "Verif.Props.C48_direct_transfer",
    "Verif.Props.C48_unknown_rejected",
    "Verif.Props.C48_accepts_iff"
   ],
   "note": "False of the code: an unknown element makes the whole message rejected whatever its criticality. The exact acceptance condition is proved."
  },
  {
   "property": "C49",
   "status": "partial",
   "theorems": [
    "Verif.Props.C49_violated",
    "Verif.Props.C49_empty_accepted",
    "Verif.Props.C49_absent_is_zero_partial"
   ],
   "note": "False of the code: no message with missing mandatory elements is rejected. A missing member is left zeroed."
  },
  {
   "property": "C50",
   "status": "proved",
   "theorems": [
    "Verif.Props.C50_presence_bits",
    "Verif.Props.C50_decoder_constant",
    "Verif.Props.C50_present_constant"
   ],
   "note": ""
  },
  {
   "property": "C51",
   "status": "partial",
   "theorems": [
    "Verif.Props.C51_violated",
    "Verif.Props.C51_with_rnc_id",
    "Verif.Props.C51_error_ind_partial"
   ],
   "note": "False of the code: with a Global-RNC-ID only the criticality diagnostics are sent. Without one the message carries exactly its arguments."
  },
  {
   "property": "C52",
   "status": "proved",
   "theorems": [
    "Verif.Props.C52_reset",
    "Verif.Props.C52_reset_no_cause",
    "Verif.Props.C52_reset_ack",
    "Verif.Props.C52_reset_resource",
    "Verif.Props.C52_reset_resource_refused"
   ],
   "note": ""
  },
  {
   "property": "C53",
   "status": "proved",
   "theorems": [
    "Verif.Props.C53_direct_transfer",
    "Verif.Props.C53_too_long"
   ],
   "note": "The exact limit of the NAS-PDU is part of the statement."
  },
  {
   "property": "C54",
   "status": "proved",
   "theorems": [
    "Verif.Props.C54_sec_mod_cmd",
    "Verif.Props.C54_sec_mod_cmd_both",
    "Verif.Props.C54_no_key"
   ],
   "note": ""
  },
  {
   "property": "C55",
   "status": "proved",
   "theorems": [
    "Verif.Props.C55_paging",
    "Verif.Props.C55_overrun"
   ],
   "note": "IMSIs of more than 32 digits overrun a buffer (C55_overrun); paging cause 0 means 'none', as the interface says."
  },
  {
   "property": "C56",
   "status": "proved",
   "theorems": [
    "Verif.Props.C56_voice",
    "Verif.Props.C56_data",
    "Verif.Props.C56_decoded",
    "Verif.Props.C56_port"
   ],
   "note": ""
  },
  {
   "property": "C57",
   "status": "partial",
   "theorems": [
    "Verif.Props.C57_violated",
    "Verif.Props.C57_iff",
    "Verif.Props.C57_data_iff"
   ],
   "note": "False of the code for most addresses: the octets of the argument are swapped; the exact condition is proved."
  },
  {
   "property": "C58",
   "status": "proved",
   "theorems": [
    "Verif.Props.C58_udt",
    "Verif.Props.C58_connect",
    "Verif.Props.C58_direct_transfer",
    "Verif.Props.C58_disconnect",
    "Verif.Props.C58_context_id",
    "Verif.Props.C58_consumed",
    "Verif.Props.C58_no_payload"
   ],
   "note": ""
  },
  {
   "property": "C59",
   "status": "partial",
   "theorems": [
    "Verif.Props.C59_violated",
    "Verif.Props.C59_context_element",
    "Verif.Props.C59_iff",
    "Verif.Props.C59_below_partial"
   ],
   "note": "False of the code: only the lower 24 bits of a context id are sent. The exact condition is proved."
  },
  {
   "property": "C60",
   "status": "partial",
   "theorems": [
    "Verif.Props.C60_violated",
    "Verif.Props.C60_empty_or_complete_partial",
    "Verif.Props.C60_when_empty_partial",
    "Verif.Props.C53_too_long",
    "Verif.Props.C60_rua_too_long"
   ],
   "note": "False of the code: a message that does not fit into the buffer is returned empty. Proved: messages are complete or empty, and which generators can return an empty one."
  },
  {
   "property": "C61",
   "status": "partial",
   "theorems": [
    "Verif.Props.C61_violated",
    "Verif.Props.C61_ranap_fits",
    "Verif.Props.C61_rua_fits",
    "Verif.Props.C61_hnbap_fits",
    "Verif.Props.C61_ranap_partial",
    "Verif.Props.C61_ranap_text",
    "Verif.Props.C61_rua_iff",
    "Verif.Props.C61_hnbap_iff"
   ],
   "note": "False of the code: two RUA and two HNBAP causes give the same string, cut off after 31 characters. The buffers are never overrun; RANAP strings differ; the exact pairs are proved for RUA and HNBAP."
  },
  {
   "property": "C62",
   "status": "proved",
   "theorems": [
    "Verif.Props.C62_round_trip",
    "Verif.Props.C62_reachable",
    "Verif.Props.C62_other_default"
   ],
   "note": "Abbreviated keywords, accepted by libosmovty, are not modelled."
  },
  {
   "property": "C63",
   "status": "partial",
   "theorems": [
    "Verif.Props.C63_violated",
    "Verif.Props.C63_received",
    "Verif.Props.C63_received_partial",
    "Verif.Props.C63_sent_exact",
    "Verif.Props.C63_sent_partial",
    "Verif.Props.C63_not_twice"
   ],
   "note": "False as stated: ranap_iu_tx without a destination and received messages with an unacceptable location lose the buffer. Proved: exactly one buffer per refused message, none otherwise; none lost on transmission with a destination; none freed twice."
  },
  {
   "property": "C64",
   "status": "partial",
   "theorems": [
    "Verif.Props.C64_violated",
    "Verif.Props.C64_known_iff",
    "Verif.Props.C64_accepted_partial",
    "Verif.Props.C64_lost_rejected",
    "Verif.Props.C64_nothing_more",
    "Verif.Props.C64_specification"
   ],
   "note": "False as stated: 32 of the 394 elements of the specifications are lost by asn1tostruct.py and make a message be rejected; the exact list is part of the theorem. Paired item sets (PROTOCOL-IES-PAIR), for which no functions are generated, are not covered."
  },
  {
   "property": "C65",
   "status": "proved",
   "theorems": [
    "Verif.Props.C65_common_id",
    "Verif.Props.C65_sec_mod_compl",
    "Verif.Props.C65_iu_rel_cmd",
    "Verif.Props.C65_iu_rel_compl",
    "Verif.Props.C65_iu_rel_req",
    "Verif.Props.C65_rab_rel_req",
    "Verif.Props.C65_null_cause",
    "Verif.Props.C65_initial_ue"
   ],
   "note": ""
  },
  {
   "property": "C66",
   "status": "proved",
   "theorems": [
    "Verif.Props.C66_ran_understands",
    "Verif.Props.C66_cn_understands",
    "Verif.Props.C66_cn_cl_understands",
    "Verif.Props.C66_direct_transfer"
   ],
   "note": ""
  },
  {
   "property": "C67",
   "status": "partial",
   "theorems": [
    "Verif.Props.C67_violated",
    "Verif.Props.C67_exact",
    "Verif.Props.C67_empty_disconnect_partial"
   ],
   "note": "False of the code: the copy of the payload is never freed."
  },
  {
   "property": "C68",
   "status": "partial",
   "theorems": [
    "Verif.Props.C68_violated",
    "Verif.Props.C68_ranap_partial"
   ],
   "note": "False of the code for RUA (reject instead of ignore); proved for RANAP."
  },
  {
   "property": "C69",
   "status": "partial",
   "theorems": [
    "Verif.Props.C69_violated",
    "Verif.Props.C69_all_but_two_partial"
   ],
   "note": "False of the code for the HNBAP radio network causes 14 and 15; proved for all others."
  },
  {
   "property": "C70",
   "status": "proved",
   "theorems": [
    "Verif.Props.C70_decoded_form"
   ],
   "note": "Form as in Spec/Shape.lean. Aligned PER does not check upper bounds within the width of a field, so a number may exceed its bound (an RNC-ID up to 65535)."
  },
  {
   "property": "C71",
   "status": "proved",
   "theorems": [
    "Verif.Props.C71_connection_oriented",
    "Verif.Props.C71_connectionless"
   ],
   "note": "Both are equivalences, over Spec/Linked.lean."
  },
  {
   "property": "C72",
   "status": "proved",
   "theorems": [
    "Verif.Props.C72_exactly_these_kill",
    "Verif.Props.C72_history"
   ],
   "note": "The client linked with receive functions, codec and generators. Equivalences: the listed messages do kill the process (C39 is violated by all of them), nothing else does."
  },
  {
   "property": "C73",
   "status": "partial",
   "theorems": [
    "Verif.Props.C73_violated",
    "Verif.Props.C73_nas",
    "Verif.Props.C73_nas_too_long",
    "Verif.Props.C73_release",
    "Verif.Props.C73_security_mode",
    "Verif.Props.C73_common_id",
    "Verif.Props.C73_rab_act",
    "Verif.Props.C73_invalid_arguments"
   ],
   "note": "False as stated. Proved for valid arguments and NAS PDUs of up to 1004 octets; longer ones are replaced by an empty message, arguments without a message (invalid cause, missing or ill-sized IMSI) kill the process; both are theorems."
  },
  {
   "property": "C74",
   "status": "partial",
   "theorems": [
    "Verif.Props.C74_violated",
    "Verif.Props.C74_uplink_octets",
    "Verif.Props.C74_direct_transfer"
   ],
   "note": "False as stated. Proved for NAS PDUs of up to 256 octets; 257 to 1004 octets kill the receiver, longer ones are sent as an empty message and lost; both are part of the theorem."
  },
  {
   "property": "C75",
   "status": "partial",
   "theorems": [
    "Verif.Props.C75_violated",
    "Verif.Props.C75_initial_ue"
   ],
   "note": "False as stated. C75_initial_ue is the exact answer for all lengths: up to 256 octets arrive, 257 to 966 octets kill the receiver, longer ones are sent as an empty message: the connection is accepted and nothing reaches the user."
  },
  {
   "property": "C76",
   "status": "proved",
   "theorems": [
    "Verif.Props.C76_release_request"
   ],
   "note": "A request without cause kills the process (C72)."
  },
  {
   "property": "C77",
   "status": "partial",
   "theorems": [
    "Verif.Props.C77_reset_partial",
    "Verif.Props.C77_unanswered",
    "Verif.Props.C77_violated",
    "Verif.Props.C77_reset_unanswered"
   ],
   "note": "False as stated: an RNC-ID above 4095, which the decoder accepts, gets no answer. Proved for all others; a RESET without the mandatory domain is acknowledged for the CS domain."
  },
  {
   "property": "C78",
   "status": "proved",
   "theorems": [
    "Verif.Props.C78_page_cs",
    "Verif.Props.C78_page_ps"
   ],
   "note": "For valid IMSIs; others: C55."
  },
  {
   "property": "C79",
   "status": "proved",
   "theorems": [
    "Verif.Props.C79_encodes_iff",
    "Verif.Props.C79_elements"
   ],
   "note": ""
  },
  {
   "property": "C80",
   "status": "partial",
   "theorems": [
    "Verif.Props.C80_violated",
    "Verif.Props.C80_empty",
    "Verif.Props.C80_generate",
    "Verif.Props.C80_decodes_partial",
    "Verif.Props.C80_round_trip"
   ],
   "note": "False as stated: a message of more than 1024 octets, or with a procedure code or criticality that does not exist, is returned empty instead of NULL. C80_generate says exactly when; all other messages are complete."
  },
  {
   "property": "C81",
   "status": "partial",
   "theorems": [
    "Verif.Props.C81_violated",
    "Verif.Props.C81_same_result",
    "Verif.Props.C81_leaves",
    "Verif.Props.C81_message_partial",
    "Verif.Props.C81_message_freed",
    "Verif.Props.C81_reset_ack",
    "Verif.Props.C81_reset_ack_again",
    "Verif.Props.C81_remote",
    "Verif.Props.C81_paging",
    "Verif.Props.C81_uea0",
    "Verif.Props.C81_bounded",
    "Verif.Props.C81_never"
   ],
   "note": "False of the code on failure paths: elements encoded before the one that cannot be encoded are lost. C81_leaves gives the exact number for all calls; nothing is lost if a message is returned; nothing is freed twice. A peer can use up memory with RESETs (C77_unanswered, C81_reset_ack_again)."
  },
  {
   "property": "C82",
   "status": "partial",
   "theorems": [
    "Verif.Props.C82_violated",
    "Verif.Props.C82_direct_transfer",
    "Verif.Props.C82_disconnect",
    "Verif.Props.C82_connect"
   ],
   "note": "False as stated: NAS PDUs of 978 to 1004 octets (973 in a Disconnect, 935 to 966 in an Initial UE Message) make a RANAP message that RUA cannot transport; the RUA message is then empty. The theorems are exact for all lengths."
  },
  {
   "property": "C83",
   "status": "partial",
   "theorems": [
    "Verif.Props.C83_violated",
    "Verif.Props.C83_exactly_these_kill",
    "Verif.Props.C83_history"
   ],
   "note": "False of the code: well-formed messages kill it. C83_exactly_these_kill is an equivalence: the messages and commands listed in Spec/Hnb.lean (Kills), and no others."
  },
  {
   "property": "C84",
   "status": "partial",
   "theorems": [
    "Verif.Props.C84_violated",
    "Verif.Props.C84_answers_partial",
    "Verif.Props.C84_silent",
    "Verif.Props.C84_identity",
    "Verif.Props.C84_authentication",
    "Verif.Props.C84_security_mode",
    "Verif.Props.C84_release"
   ],
   "note": "False as stated: without a CS channel, or with 16 messages waiting, there is no answer. Proved otherwise; what has no answer gets none."
  },
  {
   "property": "C85",
   "status": "partial",
   "theorems": [
    "Verif.Props.C85_violated",
    "Verif.Props.C85_latest_channel",
    "Verif.Props.C85_no_channel"
   ],
   "note": "False of the code: all answers go to the CS channel opened last (C85_latest_channel, exact)."
  },
  {
   "property": "C86",
   "status": "partial",
   "theorems": [
    "Verif.Props.C86_violated",
    "Verif.Props.C86_numbers",
    "Verif.Props.C86_distinct_partial"
   ],
   "note": "False of the code after 65536 channels; proved up to there. C86_numbers gives the context id for all histories."
  },
  {
   "property": "C87",
   "status": "partial",
   "theorems": [
    "Verif.Props.C87_violated",
    "Verif.Props.C87_registered",
    "Verif.Props.C87_ue_registered",
    "Verif.Props.C87_paging",
    "Verif.Props.C87_nothing_else_partial"
   ],
   "note": "False of the code: a Register Reject is reported as acceptance. All reports are characterised exactly (C87_nothing_else_partial)."
  },
  {
   "property": "C88",
   "status": "partial",
   "theorems": [
    "Verif.Props.C88_violated",
    "Verif.Props.C88_bounded",
    "Verif.Props.C88_complete",
    "Verif.Props.C88_order",
    "Verif.Props.C88_prefix",
    "Verif.Props.C88_drains"
   ],
   "note": "False of the code when 16 messages are waiting: the next is lost without notice. Order, completeness and the bound are proved for all histories."
  },
  {
   "property": "C89",
   "status": "proved",
   "theorems": [
    "Verif.Props.C89_register",
    "Verif.Props.C89_deregister",
    "Verif.Props.C89_ue_register"
   ],
   "note": "IMSIs of another length abort the program (C83)."
  },
  {
   "property": "C90",
   "status": "partial",
   "theorems": [
    "Verif.Props.C90_violated",
    "Verif.Props.C90_fixed_imsi_partial",
    "Verif.Props.C90_reset",
    "Verif.Props.C86_numbers"
   ],
   "note": "False of the code: the IMSI of the command is not used, the request always contains 262420123456789."
  },
  {
   "property": "C91",
   "status": "proved",
   "theorems": [
    "Verif.Props.C91_events"
   ],
   "note": "Direct Transfers: C74; messages that crash the client: C72."
  },
  {
   "property": "C92",
   "status": "proved",
   "theorems": [
    "Verif.Props.C92_location_update",
    "Verif.Props.C92_identity",
    "Verif.Props.C92_authentication",
    "Verif.Props.C92_security_mode",
    "Verif.Props.C92_release"
   ],
   "note": "The emulator must have a CS channel and room for a message (C84). The gateway is anything that passes the octets of the RANAP messages on."
  },
  {
   "property": "C93",
   "status": "partial",
   "theorems": [
    "Verif.Props.C93_violated",
    "Verif.Props.C93_same_coding_partial",
    "Verif.Props.C93_elements",
    "Verif.Props.C93_names",
    "Verif.Props.C93_redirection",
    "Verif.Props.C93_private",
    "Verif.Props.C93_specification",
    "Verif.Props.C93_specification_unique",
    "Verif.Props.C93_all_types",
    "Verif.Props.C93_element_types"
   ],
   "note": "False of the code for 5 of 646 types (and for lists, C95): RedirectionIndication is not understood in either direction, private messages lose an element, one item contains a list. That the types and names of the specification are what is written in the modules is proved (C93_specification, C93_all_types, C93_element_types); the types of the C code are transcribed by a script (compare C119). DirectTransferInformationList-RANAP-RelocInf has no C type (its element is among the lost ones of C64)."
  },
  {
   "property": "C94",
   "status": "proved",
   "theorems": [
    "Verif.Props.C94_read",
    "Verif.Props.C94_sent",
    "Verif.Props.C94_ignored"
   ],
   "note": "The contents of extensions are lost, as C94_ignored says; for private messages see C93."
  },
  {
   "property": "C95",
   "status": "partial",
   "theorems": [
    "Verif.Props.C95_violated",
    "Verif.Props.C95_first_partial",
    "Verif.Props.C95_one",
    "Verif.Props.C95_lost",
    "Verif.Props.C95_in_message"
   ],
   "note": "False of the code: exactly the first item of a list is seen, the others are lost without notice. Lists of one item are coded as specified, both ways. RAB-SetupOrModifyList (pairs) is coded as specified and belongs to C93."
  },
  {
   "property": "C96",
   "status": "proved",
   "theorems": [
    "Verif.Props.C96_value",
    "Verif.Props.C96_octets",
    "Verif.Props.C96_message",
    "Verif.Props.C96_structure",
    "Verif.Props.C96_pdu"
   ],
   "note": "Counted are the objects of the result; memory that the decoder uses for itself while it runs is not modelled."
  },
  {
   "property": "C97",
   "status": "proved",
   "theorems": [
    "Verif.Props.C97_cn_connection_oriented",
    "Verif.Props.C97_cn_connectionless",
    "Verif.Props.C97_ran_connection_oriented",
    "Verif.Props.C97_other",
    "Verif.Props.C97_owner",
    "Verif.Props.C97_split",
    "Verif.Props.C97_bounded"
   ],
   "note": "A block stands for everything that one element owns (C44)."
  },
  {
   "property": "C98",
   "status": "proved",
   "theorems": [
    "Verif.Props.C98_page_arrives",
    "Verif.Props.C98_paged_where_registered"
   ],
   "note": "The address must have a text of its own (osmo_sccp_addr_dump, by which the code compares addresses). Longer IMSIs: see C87 and C55. ranap_iu_page_cs and ranap_iu_page_ps: see C19-C21."
  },
  {
   "property": "C99",
   "status": "proved",
   "theorems": [
    "Verif.Props.C99_end",
    "Verif.Props.C99_sent",
    "Verif.Props.C99_behind",
    "Verif.Props.C99_cut_short",
    "Verif.Props.C99_contents",
    "Verif.Props.C99_elements"
   ],
   "note": "That aper_decode (libasn1c) does not look at what follows the value is part of its model (Verif/Model/Aper.lean)."
  },
  {
   "property": "C100",
   "status": "partial",
   "theorems": [
    "Verif.Props.C100_violated",
    "Verif.Props.C100_partial",
    "Verif.Props.C100_bound",
    "Verif.Props.C100_address",
    "Verif.Props.C100_unusable",
    "Verif.Props.C100_unusable_reset"
   ],
   "note": "False of the code: ranap_iu_init returns 0 although the SCCP layer refused it, and the first transmission kills the program. C100_bound says exactly when the client is connected; C100_partial shows that it then is the client of all other theorems."
  },
  {
   "property": "C101",
   "status": "proved",
   "theorems": [
    "Verif.Props.C101_nothing_breaks",
    "Verif.Props.C101_goes_on",
    "Verif.Props.C101_in_order",
    "Verif.Props.C101_completes",
    "Verif.Props.C101_can_complete"
   ],
   "note": "The messages of the core network fit into RUA messages (977 octets) and are not among those that kill the emulator (C83). Other traffic of the client must be survived by it (C14, C72) and must not be the loss of the SCCP link. Callbacks act on the context they are given."
  },
  {
   "property": "C102",
   "status": "proved",
   "theorems": [
    "Verif.Props.C102_acknowledged"
   ],
   "note": "That the emulator may get a RESET ACKNOWLEDGE with other contents: C83, C87."
  },
  {
   "property": "C103",
   "status": "partial",
   "theorems": [
    "Verif.Props.C103_violated",
    "Verif.Props.C103_partial"
   ],
   "note": "False of the code: it does not look at the alternative, so a GTP TEI whose lower half is zero is accepted as a port. C103_partial says exactly what is accepted; every decoded association is survived."
  },
  {
   "property": "C104",
   "status": "proved",
   "theorems": [
    "Verif.Props.C104_nothing_breaks",
    "Verif.Props.C104_goes_on",
    "Verif.Props.C104_nobody_is_stuck",
    "Verif.Props.C104_in_order",
    "Verif.Props.C104_completes",
    "Verif.Props.C104_can_complete"
   ],
   "note": "The assumptions of C101, for each session; the connection ids are different. Proved by projection: a move in one session is other traffic for the others."
  },
  {
   "property": "C105",
   "status": "proved",
   "theorems": [
    "Verif.Props.C105_voice",
    "Verif.Props.C105_data",
    "Verif.Props.C105_proper",
    "Verif.Props.C105_sizes",
    "Verif.Props.C105_determined"
   ],
   "note": "Whether the values are those TS 26.102 recommends is not judged."
  },
  {
   "property": "C106",
   "status": "partial",
   "theorems": [
    "Verif.Props.C106_violated",
    "Verif.Props.C106_rac_iff",
    "Verif.Props.C106_ranap_iff",
    "Verif.Props.C106_partial"
   ],
   "note": "False of the code: the routing area code is never there, and a Disconnect without RANAP message still has cause normal. The two theorems with iff say exactly when the conditions hold."
  },
  {
   "property": "C107",
   "status": "partial",
   "theorems": [
    "Verif.Props.C107_violated",
    "Verif.Props.C107_only_after_end",
    "Verif.Props.C107_partial",
    "Verif.Props.C107_confirmed",
    "Verif.Props.C107_context"
   ],
   "note": "False of the code: when SCCP has ended a connection, its context is freed with a disconnect request for it. C107_only_after_end says that nothing else is ever wrong; C107_partial is the property for connections that SCCP does not end. SCCP is assumed not to indicate a connection with an id in use."
  },
  {
   "property": "C108",
   "status": "partial",
   "theorems": [
    "Verif.Props.C108_violated",
    "Verif.Props.C108_exact",
    "Verif.Props.C108_partial",
    "Verif.Props.C108_forever"
   ],
   "note": "False of the code: a connection whose first message is refused is confirmed and never ended. C108_exact says when a connection is left alone, step by step."
  },
  {
   "property": "C109",
   "status": "proved",
   "theorems": [
    "Verif.Props.C109_exact",
    "Verif.Props.C109_registry",
    "Verif.Props.C109_history",
    "Verif.Props.C109_nothing_left",
    "Verif.Props.C109_idle"
   ],
   "note": "Buffers of NAS messages are counted separately (C63), what the generators of messages lose in C81. RNCs and areas are kept for ever. C109_history and C109_nothing_left assume that SCCP does not indicate a connection with an id in use."
  },
  {
   "property": "C110",
   "status": "partial",
   "theorems": [
    "Verif.Props.C110_violated",
    "Verif.Props.C110_exact",
    "Verif.Props.C110_partial"
   ],
   "note": "False of the code: only connection requests are checked for it. C110_exact says when a null pointer is read. Whether SCCP makes such indications is not known here; all other properties assume that it does so for connection requests only."
  },
  {
   "property": "C111",
   "status": "partial",
   "theorems": [
    "Verif.Props.C111_violated",
    "Verif.Props.C111_contexts_stay",
    "Verif.Props.C111_partial",
    "Verif.Props.C111_reset_resource"
   ],
   "note": "False of the code: a RESET is acknowledged (C37) but no context is touched and the user is told nothing (C111_contexts_stay); so the property holds only of an RNC without contexts (C111_partial). RESET RESOURCE has no effect at all."
  },
  {
   "property": "C112",
   "status": "partial",
   "theorems": [
    "Verif.Props.C112_violated",
    "Verif.Props.C112_copied_iff",
    "Verif.Props.C112_same_message_partial",
    "Verif.Props.C112_invented",
    "Verif.Props.C112_copy_of_copy"
   ],
   "note": "False of the code: numbers above their bound are accepted and cannot be encoded, a mandatory element that is missing is made up from zeroed memory (C112_invented), and messages of more than 1024 octets become empty. C112_copied_iff says exactly when there is a copy, C112_same_message_partial that it is read as the same message if nothing mandatory was missing."
  },
  {
   "property": "C113",
   "status": "proved",
   "theorems": [
    "Verif.Props.C113_origin",
    "Verif.Props.C113_unchanged"
   ],
   "note": "C113_origin assumes that SCCP does not indicate a connection with an id in use; C113_unchanged does not. A location reported in a later Direct Transfer is passed to the user (C40) but not recorded, see the example."
  },
  {
   "property": "C114",
   "status": "partial",
   "theorems": [
    "Verif.Props.C114_violated",
    "Verif.Props.C114_partial",
    "Verif.Props.C114_longer"
   ],
   "note": "False of the code: the flag MSG_EOR is not looked at, so a message of more than 2048 octets is handled in parts. C114_partial: it holds up to 2048 octets. C114_longer: the beginning of a longer HNBAP or RUA message never has an effect, the rest is taken for messages of its own."
  },
  {
   "property": "C115",
   "status": "partial",
   "theorems": [
    "Verif.Props.C115_partial",
    "Verif.Props.C115_violated",
    "Verif.Props.C115_direct_transfer",
    "Verif.Props.C115_connectionless",
    "Verif.Props.C115_register",
    "Verif.Props.C115_ue_register",
    "Verif.Props.C115_other",
    "Verif.Props.C115_every",
    "Verif.Props.C115_sum"
   ],
   "note": "False of the code (C115_violated): the PDU is never freed. The exact number of blocks left is proved for every kind of message, at least one per PDU and at most one plus one per two octets, added up over any number of messages."
  },
  {
   "property": "C116",
   "status": "partial",
   "theorems": [
    "Verif.Props.C116_partial",
    "Verif.Props.C116_violated",
    "Verif.Props.C116_comment",
    "Verif.Props.C116_source",
    "Verif.Props.C116_set",
    "Verif.Props.C116_module"
   ],
   "note": "False of the code (C116_violated, C116_comment). Exact: with sets written `name CLASS ::= { ... }` and the line end right behind the closing brace, the tables have exactly the elements written on one line."
  },
  {
   "property": "C117",
   "status": "proved",
   "theorems": [
    "Verif.Props.C117_messages",
    "Verif.Props.C117_element",
    "Verif.Props.C117_nothing_else",
    "Verif.Props.C117_numbers"
   ],
   "note": "The lines of the files are in Verif/Gen/Text*.lean; the kernel evaluates the model of the generator on them, in parts that are put together by a lemma. What the names of types stand for is a table (Verif/Gen/TextNames.lean)."
  },
  {
   "property": "C118",
   "status": "partial",
   "theorems": [
    "Verif.Props.C118_violated",
    "Verif.Props.C118_members_partial",
    "Verif.Props.C118_constants_partial",
    "Verif.Props.C118_modules",
    "Verif.Props.C118_bits",
    "Verif.Props.C118_sound",
    "Verif.Props.C118_hand_written"
   ],
   "note": "False of the script for all modules (C118_violated: id-Paid-Up and id-PaUp share a member), proved under the condition Clear, which all messages of the four modules meet (C118_modules)."
  },
  {
   "property": "C119",
   "status": "proved",
   "theorems": [
    "Verif.Props.C119_generated",
    "Verif.Props.C119_unique",
    "Verif.Props.C119_used"
   ],
   "note": "Additions behind the extension mark of a SEQUENCE (one type has one) are left out on both sides. TypesOf says, by an inductive relation, that each name stands for what is written in its assignment; that this leaves only one type for each name is C119_unique."
  },
  {
   "property": "C120",
   "status": "partial",
   "theorems": [
    "Verif.Props.C120_plan",
    "Verif.Props.C120_violated",
    "Verif.Props.C120_crash",
    "Verif.Props.C120_partial",
    "Verif.Props.C120_sufficient",
    "Verif.Props.C120_kept",
    "Verif.Props.C120_elements",
    "Verif.Props.C120_none_or_message",
    "Verif.Props.C120_any_sufficient",
    "Verif.Props.C120_decode"
   ],
   "note": "False of the code: if the list of elements cannot grow, the element is left out and the message returned without it, even a mandatory one (C120_violated); without memory for the copy of an IMSI or a TMSI the process ends (C120_crash). C120_kept: in no case anything but a part of the elements in their order. C120_partial: the claim, where neither of the two fails. What libasn1c does when an allocation fails within it is an assumption (DESIGN.md 3)."
  },
  {
   "property": "C121",
   "status": "partial",
   "theorems": [
    "Verif.Props.C121_violated",
    "Verif.Props.C121_off",
    "Verif.Props.C121_writable_partial",
    "Verif.Props.C121_closed",
    "Verif.Props.C121_decode"
   ],
   "note": "False of the code: the functions that make an element return NULL if the element cannot be printed, so with a closed standard output no message with an element is made (C121_closed, exact). While it is off, or the output can be written to, there is no difference; decoding never depends on it."
  },
  {
   "property": "C122",
   "status": "partial",
   "theorems": [
    "Verif.Props.C122_violated",
    "Verif.Props.C122_crash",
    "Verif.Props.C122_empty",
    "Verif.Props.C122_partial",
    "Verif.Props.C122_sufficient"
   ],
   "note": "False of the code: the result of rua_generate_initiating_message is used without a check, so without memory for the PDU or its buffer the process ends (C122_crash); the copy of the payload is not checked either: if an OCTET STRING without a buffer is encoded as an empty one, the message is sent with an empty payload (C122_empty). C122_partial: the claim where none of these fails. Both behaviours of the encoder for such a string are covered (parameter lax)."
  },
  {
   "property": "C123",
   "status": "partial",
   "theorems": [
    "Verif.Props.C123_violated",
    "Verif.Props.C123_nothing_demanded",
    "Verif.Props.C123_one_missing",
    "Verif.Props.C123_asked_for",
    "Verif.Props.C123_crash",
    "Verif.Props.C123_partial",
    "Verif.Props.C123_sufficient"
   ],
   "note": "False of the code: if the lists cannot grow, algorithms or whole elements are left out; the extreme is a command with the key status only. Without memory for an algorithm the process ends. C123_partial: in no case another algorithm, another key or another key status; what is returned decodes to a part of what was asked for."
  },
  {
   "property": "C124",
   "status": "partial",
   "theorems": [
    "Verif.Props.C124_violated",
    "Verif.Props.C124_lost",
    "Verif.Props.C124_crash",
    "Verif.Props.C124_partial",
    "Verif.Props.C124_sufficient"
   ],
   "note": "False of the code: a Reset Resource without items and a RAB Release Request without RABs are returned (C124_lost), and without memory for the first part of a RAB the process ends (C124_crash). C124_partial: the claim for all functions, if only such attempts fail whose failure the code looks at (Noticed)."
  },
  {
   "property": "C125",
   "status": "partial",
   "theorems": [
    "Verif.Props.C125_violated",
    "Verif.Props.C125_no_guarantee",
    "Verif.Props.C125_one_rate",
    "Verif.Props.C125_improper",
    "Verif.Props.C125_voice_partial",
    "Verif.Props.C125_data_partial",
    "Verif.Props.C125_part"
   ],
   "note": "False of the code: one failure is enough for a request for speech without a guaranteed bit rate, or for data with a single bit rate, that of the uplink (C125_no_guarantee, C125_one_rate), which are not what the specification permits (C125_improper). What holds: the request asks for no RAB, or for one with the right id, user plane, address, and port or TEI, and its parameters are a part of the right ones: nothing is altered, added or put in another order (C125_voice_partial, C125_data_partial; C125_part on what a part is)."
  },
  {
   "property": "C126",
   "status": "partial",
   "theorems": [
    "Verif.Props.C126_violated",
    "Verif.Props.C126_crash",
    "Verif.Props.C126_no_buffers",
    "Verif.Props.C126_release_crash",
    "Verif.Props.C126_lost",
    "Verif.Props.C126_reset",
    "Verif.Props.C126_partial",
    "Verif.Props.C126_sufficient"
   ],
   "note": "False of the code: the client uses NULL for a message (C126_crash, C126_no_buffers: every operation that would send one ends the process; C126_release_crash), and hands over a release command without its mandatory cause if the list of elements cannot grow (C126_lost). What holds: if only such allocations fail whose failure the generators look at, the process ends, or a RESET is not answered, or everything is as with memory and complete (C126_partial); a RESET does not end the process (C126_reset)."
  },
  {
   "property": "C127",
   "status": "partial",
   "theorems": [
    "Verif.Props.C127_violated",
    "Verif.Props.C127_octets",
    "Verif.Props.C127_read_as",
    "Verif.Props.C127_common_id",
    "Verif.Props.C127_paging",
    "Verif.Props.C127_ue_register",
    "Verif.Props.C127_somebody_else",
    "Verif.Props.C127_partial"
   ],
   "note": "False of the code: every character that is neither a digit nor a letter a-f is sent as the digit 0 (C127_violated, C127_somebody_else), and an F behind an IMSI of odd length disappears. C127_octets, C127_common_id and C127_paging say for every string and every IMSI exactly when the one is taken for the other; among digit strings there is no confusion (C127_partial)."
  },
  {
   "property": "C128",
   "status": "partial",
   "theorems": [
    "Verif.Props.C128_violated",
    "Verif.Props.C128_exact",
    "Verif.Props.C128_history",
    "Verif.Props.C128_partial",
    "Verif.Props.C128_ends",
    "Verif.Props.C128_sufficient",
    "Verif.Props.C128_unaffected",
    "Verif.Props.C128_connect"
   ],
   "note": "False of the code: no result of an allocation is checked, except that of an RNC by an assertion, so that the process ends (C128_violated). C128_exact and C128_history say exactly when it does not: if and only if there is memory for what each operation needs; what is then left is the same as with memory (C128_partial). C128_ends: it ends by a NULL pointer or the assertion, in no other way."
  },
  {
   "property": "C129",
   "status": "proved",
   "theorems": [
    "Verif.Props.C129_consistent",
    "Verif.Props.C129_connections",
    "Verif.Props.C129_ends",
    "Verif.Props.C129_operation",
    "Verif.Props.C129_effect",
    "Verif.Props.C129_sufficient"
   ],
   "note": "Every operation of a history has its own memory (Model/ScarceAll.lean), in all worlds of C120-C126 and all supplies of C128. A received message for which there is no memory is one that cannot be decoded (C120_decode). Messages that end the process with memory are those of C72 (Kills). C129_effect: an operation that is survived does what it does with memory, but for NAS buffers and the answer to a RESET. There may be memory for a RAB Assignment Response but not for its first item (iu_client.c:629): then the user is not told of it."
  },
  {
   "property": "C130",
   "status": "proved",
   "theorems": [
    "Verif.Props.C130_sends",
    "Verif.Props.C130_asked",
    "Verif.Props.C130_answers",
    "Verif.Props.C130_tells",
    "Verif.Props.C130_links",
    "Verif.Props.C130_bound",
    "Verif.Props.C130_api",
    "Verif.Props.C130_history",
    "Verif.Props.C130_users"
   ],
   "note": "Messages are N-DATA.req and N-UNITDATA.req; confirmations and disconnects are not counted. N-NOTICE and N-PCSTATE: one call of the user at most for each context concerned, whatever the user does (C35, C36 say which, for users who act on their own context)."
  },
  {
   "property": "C131",
   "status": "proved",
   "theorems": [
    "Verif.Props.C131_reason",
    "Verif.Props.C131_history",
    "Verif.Props.C131_unopened",
    "Verif.Props.C131_silent"
   ],
   "note": "What is sent or waits to be sent; that it is sent in order is C88."
  },
  {
   "property": "C132",
   "status": "proved",
   "theorems": [
    "Verif.Props.C132_own",
    "Verif.Props.C132_history",
    "Verif.Props.C132_api",
    "Verif.Props.C132_users",
    "Verif.Props.C132_complete",
    "Verif.Props.C132_silent_user"
   ],
   "note": "How many messages are sent is C130; that the answer is sent is C34 and C37."
  },
  {
   "property": "C133",
   "status": "proved",
   "theorems": [
    "Verif.Props.C133_heard",
    "Verif.Props.C133_history",
    "Verif.Props.C133_nas"
   ],
   "note": "The converse, that what is received is reported, is C23, C38, C74 and C91; which contexts lose their link is C29, C35 and C36."
  }
 ]
}