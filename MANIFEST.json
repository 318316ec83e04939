{
 "claims": [
  {
   "property": "C01",
   "status": "proved",
   "theorems": [
    "Ofpstr.C01_get_token_lossless"
   ],
   "note": ""
  },
  {
   "property": "C02",
   "status": "proved",
   "theorems": [
    "Ofpstr.C02_get_token_head",
    "Ofpstr.C02_body_start"
   ],
   "note": ""
  },
  {
   "property": "C03",
   "status": "proved",
   "theorems": [
    "Ofpstr.C03_token_ends_outside_brackets",
    "Ofpstr.C03_token_read_whole"
   ],
   "note": ""
  },
  {
   "property": "C04",
   "status": "proved",
   "theorems": [
    "Ofpstr.C04_rules_end",
    "Ofpstr.C04_groups_end",
    "Ofpstr.C04_multipart_end",
    "Ofpstr.C04_match_parsers_end",
    "Ofpstr.C04_get_token_progress"
   ],
   "note": "get_token consumes a character of every non-empty string; str2oxm, str2oxmid, str2dict, str2mod, str2bucket, str2group and the three text2mp* functions end on every text."
  },
  {
   "property": "C05",
   "status": "proved",
   "theorems": [
    "Ofpstr.C05_parse_func_call",
    "Ofpstr.C05_parse_func_bare",
    "Ofpstr.C05_parse_func_unclosed"
   ],
   "note": ""
  },
  {
   "property": "C06",
   "status": "proved",
   "theorems": [
    "Ofpstr.C06_split_listing",
    "Ofpstr.C06_split_join",
    "Ofpstr.C06_split_no_empty"
   ],
   "note": ""
  },
  {
   "property": "C07",
   "status": "proved",
   "theorems": [
    "Ofpstr.C07_parseInt_decimal",
    "Ofpstr.C07_parseInt_hex",
    "Ofpstr.C07_fmt_decimal"
   ],
   "note": ""
  },
  {
   "property": "C08",
   "status": "proved",
   "theorems": [
    "Ofpstr.C08_parseInt_syntax",
    "Ofpstr.C08_parseInt_error"
   ],
   "note": ""
  },
  {
   "property": "C09",
   "status": "partial",
   "theorems": [
    "Ofpstr.C09_field_header_partial",
    "Ofpstr.C09_ct_label_refuted"
   ],
   "note": "every field name except nxm_ct_label, for which the library writes length 4 instead of 16 (C09_ct_label_refuted)"
  },
  {
   "property": "C10",
   "status": "partial",
   "theorems": [
    "Ofpstr.C10_ids_inverse_partial",
    "Ofpstr.C10_ip_frag_refuted"
   ],
   "note": "every list of names except nxm_ip_frag, whose id prints as nxm_icmp_type (C10_ip_frag_refuted)"
  },
  {
   "property": "C11",
   "status": "proved",
   "theorems": [
    "Ofpstr.C11_uint_value"
   ],
   "note": ""
  },
  {
   "property": "C12",
   "status": "partial",
   "theorems": [
    "Ofpstr.C12_oxm_roundtrip_partial",
    "Ofpstr.C12_lossy_refuted",
    "Ofpstr.C12_registers_refuted",
    "Ofpstr.C12_values_refuted",
    "Ofpstr.C12_roundtrip_iff_partial"
   ],
   "note": "The identity is false of the code; exactly which lists come back is C64. The lossy fields and values are refuted, the registers for all values."
  },
  {
   "property": "C13",
   "status": "partial",
   "theorems": [
    "Ofpstr.C13_match_concat_partial",
    "Ofpstr.C13_trailing_comma_refuted",
    "Ofpstr.C13_open_bracket_refuted",
    "Ofpstr.C13_empty_value_refuted"
   ],
   "note": "for parts that are read to the end and whose last item is not cut short; the three refutations show why the side conditions are needed"
  },
  {
   "property": "C14",
   "status": "proved",
   "theorems": [
    "Ofpstr.C14_match_tlvs",
    "Ofpstr.C14_match_walk",
    "Ofpstr.C14_long_value"
   ],
   "note": "includes the exception: C14_long_value shows the wrong length byte for payloads over 255 bytes"
  },
  {
   "property": "C15",
   "status": "proved",
   "theorems": [
    "Ofpstr.C15_match_read",
    "Ofpstr.C15_no_equals",
    "Ofpstr.C15_unknown_field",
    "Ofpstr.C15_unread_value"
   ],
   "note": ""
  },
  {
   "property": "C16",
   "status": "partial",
   "theorems": [
    "Ofpstr.C16_prefix_meaning",
    "Ofpstr.C16_prefix_zero_partial",
    "Ofpstr.C16_prefix_refuted"
   ],
   "note": "false of the code: /n is read as the address 0.0.0.n (C16_prefix_meaning says what it means for every n); holds for n = 0 only. C68 says for all fields which texts are masks and what they mean."
  },
  {
   "property": "C17",
   "status": "partial",
   "theorems": [
    "Ofpstr.C17_prefix_full_partial",
    "Ofpstr.C17_prefix_refuted"
   ],
   "note": "false of the code: every n below 128 raises struct.error; holds for n = 128. C68 says which texts are IPv6 masks and what they mean."
  },
  {
   "property": "C18",
   "status": "proved",
   "theorems": [
    "Ofpstr.C18_ipv4",
    "Ofpstr.C18_every_address"
   ],
   "note": ""
  },
  {
   "property": "C19",
   "status": "proved",
   "theorems": [
    "Ofpstr.C19_ipv6_roundtrip",
    "Ofpstr.C19_ipv6_text"
   ],
   "note": ""
  },
  {
   "property": "C20",
   "status": "proved",
   "theorems": [
    "Ofpstr.C20_mac_notations",
    "Ofpstr.C20_mac_printed"
   ],
   "note": ""
  },
  {
   "property": "C21",
   "status": "proved",
   "theorems": [
    "Ofpstr.C21_port_text",
    "Ofpstr.C21_port_printed"
   ],
   "note": ""
  },
  {
   "property": "C22",
   "status": "proved",
   "theorems": [
    "Ofpstr.C22_hex"
   ],
   "note": ""
  },
  {
   "property": "C23",
   "status": "partial",
   "theorems": [
    "Ofpstr.C23_ssid_roundtrip_partial",
    "Ofpstr.C23_ssid_refuted",
    "Ofpstr.C23_bracket_refuted"
   ],
   "note": "plain SSIDs up to 76 bytes; every other byte is refuted one by one. C64 says exactly which SSIDs come back."
  },
  {
   "property": "C24",
   "status": "partial",
   "theorems": [
    "Ofpstr.C24_radiotap_roundtrip_partial",
    "Ofpstr.C24_vht_refuted",
    "Ofpstr.C24_le_value",
    "Ofpstr.C24_signed_value"
   ],
   "note": "all radiotap fields but VHT values/masks with a zero user part (C24_vht_refuted) and an empty fhss value. C64 says exactly which values come back."
  },
  {
   "property": "C25",
   "status": "proved",
   "theorems": [
    "Ofpstr.C25_decoders_end",
    "Ofpstr.C25_unknown_class",
    "Ofpstr.C25_unknown_experimenter",
    "Ofpstr.C25_short_experimenter"
   ],
   "note": ""
  },
  {
   "property": "C26",
   "status": "partial",
   "theorems": [
    "Ofpstr.C26_no_argument",
    "Ofpstr.C26_argument_partial",
    "Ofpstr.C26_output",
    "Ofpstr.C26_set_nw_ttl_refuted",
    "Ofpstr.C26_junk_rejected",
    "Ofpstr.C26_push_junk_refuted"
   ],
   "note": "all standard actions but set_nw_ttl, which lacks its three pad bytes (C26_set_nw_ttl_refuted); trailing text after the number of a push/pop action is dropped instead of rejected (C26_push_junk_refuted). C69 says exactly which texts are actions and what they mean."
  },
  {
   "property": "C27",
   "status": "partial",
   "theorems": [
    "Ofpstr.C27_length_true_partial",
    "Ofpstr.C27_alignment_refuted"
   ],
   "note": "length field true for everything accepted; aligned except set_nw_ttl and note (C27_alignment_refuted)"
  },
  {
   "property": "C28",
   "status": "partial",
   "theorems": [
    "Ofpstr.C28_roundtrip_partial",
    "Ofpstr.C28_empty_refuted"
   ],
   "note": "Proved for non-empty lists of actions that can be written back; refuted for the empty list. C61 shows that no other lists come back."
  },
  {
   "property": "C29",
   "status": "proved",
   "theorems": [
    "Ofpstr.C29_set_field"
   ],
   "note": ""
  },
  {
   "property": "C30",
   "status": "proved",
   "theorems": [
    "Ofpstr.C30_actions_end",
    "Ofpstr.C30_instructions_end",
    "Ofpstr.C30_zero_length_action",
    "Ofpstr.C30_zero_length_instruction"
   ],
   "note": "All messages: if every length field on the walk is non-zero the decoders end; a zero length on an unknown type never ends (C30_zero_length_*). C85_actions and C85_instructions say exactly which bytes are printed for ever."
  },
  {
   "property": "C31",
   "status": "partial",
   "theorems": [
    "Ofpstr.C31_bare_word_partial",
    "Ofpstr.C31_empty_call_refuted"
   ],
   "note": "Bare words are proved; the call form name() of the same actions is refuted (C31_empty_call_refuted). C80 says which exception each other text raises."
  },
  {
   "property": "C32",
   "status": "proved",
   "theorems": [
    "Ofpstr.C32_header"
   ],
   "note": ""
  },
  {
   "property": "C33",
   "status": "proved",
   "theorems": [
    "Ofpstr.C33_fields",
    "Ofpstr.C33_keys",
    "Ofpstr.C33_key_texts"
   ],
   "note": ""
  },
  {
   "property": "C34",
   "status": "partial",
   "theorems": [
    "Ofpstr.C34_roundtrip_partial",
    "Ofpstr.C34_flags_refuted"
   ],
   "note": "flow-mods whose flags are below 32 and whose matches and actions are Lossless; other flag bits are dropped (C34_flags_refuted), lossy parts see C12 and C49 C72 says exactly which flow-mods come back."
  },
  {
   "property": "C35",
   "status": "proved",
   "theorems": [
    "Ofpstr.C35_instructions",
    "Ofpstr.C35_words"
   ],
   "note": ""
  },
  {
   "property": "C36",
   "status": "proved",
   "theorems": [
    "Ofpstr.C36_order",
    "Ofpstr.C36_permutation"
   ],
   "note": ""
  },
  {
   "property": "C37",
   "status": "partial",
   "theorems": [
    "Ofpstr.C37_after_instruction",
    "Ofpstr.C37_match_after_actions",
    "Ofpstr.C37_unknown_instruction",
    "Ofpstr.C37_unknown_action",
    "Ofpstr.C37_stray_equals",
    "Ofpstr.C37_unknown_key",
    "Ofpstr.C37_trailing_separator_partial",
    "Ofpstr.C37_rule_separator",
    "Ofpstr.C37_trailing_separator_refuted"
   ],
   "note": "all misplaced words; trailing separator proved except behind an unclosed bracket, which swallows it (C37_trailing_separator_refuted). C81_trailing says which exception separators at the end raise."
  },
  {
   "property": "C38",
   "status": "proved",
   "theorems": [
    "Ofpstr.C38_words",
    "Ofpstr.C38_printed"
   ],
   "note": ""
  },
  {
   "property": "C39",
   "status": "partial",
   "theorems": [
    "Ofpstr.C39_message",
    "Ofpstr.C39_header",
    "Ofpstr.C39_word_texts",
    "Ofpstr.C39_sections_partial",
    "Ofpstr.C39_no_bucket",
    "Ofpstr.C39_sections_refuted"
   ],
   "note": "The accepted texts and their messages are characterized exactly (C39_message), the header and the bucket lengths hold of every accepted text. 'One bucket per @bucket section' holds of the sections that have a word; empty sections give no bucket, separators at the end and words without @bucket give one (C39_sections_refuted)."
  },
  {
   "property": "C40",
   "status": "partial",
   "theorems": [
    "Ofpstr.C40_roundtrip_partial",
    "Ofpstr.C40_lossy_refuted"
   ],
   "note": "The round trip holds of all group-mods whose buckets are not blank, have no weight outside select groups and have actions that can be written back, the last one at least one. C40_lossy_refuted shows a well-formed message lost for each of the other conditions. C74 says exactly which group-mods come back."
  },
  {
   "property": "C41",
   "status": "partial",
   "theorems": [
    "Ofpstr.C41_refuted",
    "Ofpstr.C41_recreate_partial"
   ],
   "note": "False as stated, for every message: group2extra returns the key group_id, which str2group does not take (C41_refuted). Without that key the message is recreated whenever C40 holds. C74_recreate_exact says exactly when."
  },
  {
   "property": "C42",
   "status": "partial",
   "theorems": [
    "Ofpstr.C42_roundtrip_partial",
    "Ofpstr.C42_lossy_refuted"
   ],
   "note": "Proved for non-empty replies of lossless descriptions. Missing, and false (C42_lossy_refuted): no entries, weights outside select groups, a blank bucket before another one, actions that cannot be written back. C75 says exactly which replies come back."
  },
  {
   "property": "C43",
   "status": "partial",
   "theorems": [
    "Ofpstr.C43_roundtrip_iff",
    "Ofpstr.C43_roundtrip_partial",
    "Ofpstr.C43_lossy_refuted"
   ],
   "note": "Proved exactly when it holds (C43_roundtrip_iff): the reply has an entry and every entry is lossless. False otherwise (C43_lossy_refuted): no entries, group ids ALL and ANY, entries with nothing but a group id."
  },
  {
   "property": "C44",
   "status": "partial",
   "theorems": [
    "Ofpstr.C44_seen",
    "Ofpstr.C44_roundtrip_partial",
    "Ofpstr.C44_roundtrip_iff",
    "Ofpstr.C44_empty_refuted"
   ],
   "note": "Round trip of flow statistics replies proved exactly when it holds (C44_roundtrip_iff: as many rows as entries can be seen in the text, masks are canonical, actions are printable). False in general: an entry list that prints as nothing comes back as one zero entry (C44_empty_refuted)."
  },
  {
   "property": "C45",
   "status": "partial",
   "theorems": [
    "Ofpstr.C45_refuted",
    "Ofpstr.C45_built_refuted",
    "Ofpstr.C45_request_partial"
   ],
   "note": "False: mpflow2text raises on every byte string that is not a reply (C45_refuted), so on every request text2mpflow builds (C45_built_refuted). The encoding of requests is proved exactly (C45_request_partial). C71 says exactly which texts are requests and what they mean."
  },
  {
   "property": "C46",
   "status": "partial",
   "theorems": [
    "Ofpstr.C46_flow_partial",
    "Ofpstr.C46_desc_partial",
    "Ofpstr.C46_group_partial",
    "Ofpstr.C46_refuted"
   ],
   "note": "Proved: lines that encode alone are together one message with all the bodies, exactly as long as that message is shorter than 65536 bytes; beyond, NameError (C46_*_partial). The splitting into several messages is false of the code (C46_refuted). C82 says which exception each other text raises."
  },
  {
   "property": "C47",
   "status": "partial",
   "theorems": [
    "Ofpstr.C47_group_stats_end",
    "Ofpstr.C47_flow_end_partial",
    "Ofpstr.C47_desc_end_partial",
    "Ofpstr.C47_flow_refuted",
    "Ofpstr.C47_desc_refuted"
   ],
   "note": "Group statistics end on every byte string. Flow statistics and group descriptions end when no length field on the way is 0, and do not end otherwise (C47_flow_refuted for every entry of length 0, C47_desc_refuted). The byte strings on which they do not end are exactly those of C78_flow_stats_error and C78_group_desc_error with loops. C85_flow_stats and C85_group_desc say exactly which bytes are printed for ever."
  },
  {
   "property": "C48",
   "status": "proved",
   "theorems": [
    "Ofpstr.C48_header"
   ],
   "note": "an unknown or bracketed word can also give nothing, see C31"
  },
  {
   "property": "C49",
   "status": "partial",
   "theorems": [
    "Ofpstr.C49_roundtrip_partial",
    "Ofpstr.C49_lossy_refuted",
    "Ofpstr.C49_reg_load2_refuted"
   ],
   "note": "Proved for every action outside the listed lossy ones; each lossy kind is refuted by a witness. C61 shows the list to be exact."
  },
  {
   "property": "C50",
   "status": "partial",
   "theorems": [
    "Ofpstr.C50_reg_move",
    "Ofpstr.C50_reg_move_width",
    "Ofpstr.C50_reg_move_print_partial",
    "Ofpstr.C50_reg_move_print_refuted",
    "Ofpstr.C50_multipath_partial",
    "Ofpstr.C50_multipath_wide_refuted",
    "Ofpstr.C50_multipath_print",
    "Ofpstr.C50_output_reg_iff",
    "Ofpstr.C50_output_reg_64_refuted",
    "Ofpstr.C50_output_reg_refuted",
    "Ofpstr.C50_output_reg_forms_refuted",
    "Ofpstr.C50_output_reg_print",
    "Ofpstr.C50_output_reg2_print",
    "Ofpstr.C50_bundle_load_iff",
    "Ofpstr.C50_bundle_load_wire",
    "Ofpstr.C50_bundle_load_refuted",
    "Ofpstr.C50_bundle_load_print"
   ],
   "note": "reg_move keeps its ranges for every field and text; multipath up to 64 bits; output_reg, output_reg2 and bundle_load are characterised exactly and refuted (width reduced modulo 64, upper bound stored as width, 64-bit whole fields refused)"
  },
  {
   "property": "C51",
   "status": "partial",
   "theorems": [
    "Ofpstr.C51_key",
    "Ofpstr.C51_cookie",
    "Ofpstr.C51_instruction",
    "Ofpstr.C51_arguments",
    "Ofpstr.C51_overwritten_refuted",
    "Ofpstr.C51_bucket",
    "Ofpstr.C51_group_id",
    "Ofpstr.C51_group_arguments",
    "Ofpstr.C51_multipath",
    "Ofpstr.C51_bundle_load",
    "Ofpstr.C51_output_reg",
    "Ofpstr.C51_reg_move",
    "Ofpstr.C51_cnt_ids",
    "Ofpstr.C51_set_tunnel",
    "Ofpstr.C51_set_tunnel64_refuted",
    "Ofpstr.C51_resubmit",
    "Ofpstr.C51_resubmit_table",
    "Ofpstr.C51_bundle",
    "Ofpstr.C51_learn",
    "Ofpstr.C51_learn_immediate_refuted"
   ],
   "note": "flow keys, cookie, instruction arguments, standard and Nicira actions, groups and buckets; refuted: a key overwritten later is not checked, immediates of learn are cut, small numbers of set_tunnel64 are written with four bytes. C79 to C82 say which exception every text raises that is refused."
  },
  {
   "property": "C52",
   "status": "partial",
   "theorems": [
    "Ofpstr.C52_messages_partial",
    "Ofpstr.C52_messages_iff",
    "Ofpstr.C52_refuted",
    "Ofpstr.C52_truncated_refuted"
   ],
   "note": "Proved exactly when msgs yields the messages of the stream: when reads cut only between messages and after headers (C52_messages_iff). False of every stream for other reads (C52_refuted, C52_truncated_refuted). C84_message says what is yielded for all reads."
  },
  {
   "property": "C53",
   "status": "partial",
   "theorems": [
    "Ofpstr.C53_outcome_partial",
    "Ofpstr.C53_refuted",
    "Ofpstr.C53_never_failed_refuted",
    "Ofpstr.C53_ends"
   ],
   "note": "False of every reply sequence: errors are never reported (C53_refuted, C53_never_failed_refuted). Proved: success exactly when a barrier reply comes, failure when the connection closes before (C53_outcome_partial), and the wait always ends. C84 says how the wait ends for every stream and all reads."
  },
  {
   "property": "C54",
   "status": "partial",
   "theorems": [
    "Ofpstr.C54_flows_partial",
    "Ofpstr.C54_groups_partial",
    "Ofpstr.C54_closed",
    "Ofpstr.C54_undecodable_partial",
    "Ofpstr.C54_reserved_refuted"
   ],
   "note": "Proved for streams read at message parts, flags 0 or 1 and decodable parts, with the behaviour on closed connections and undecodable parts. A reserved flag on the last part makes the loop go on (C54_reserved_refuted). C84_dump says exactly when a dump succeeds and what it prints, for every stream and all reads."
  },
  {
   "property": "C55",
   "status": "proved",
   "theorems": [
    "Ofpstr.C55_flow_commands",
    "Ofpstr.C55_group_commands",
    "Ofpstr.C55_dump_requests",
    "Ofpstr.C55_unknown"
   ],
   "note": "For every command word, argument list and peer."
  },
  {
   "property": "C56",
   "status": "partial",
   "theorems": [
    "Ofpstr.C56_layout_iff",
    "Ofpstr.C56_struct_partial",
    "Ofpstr.C56_set_tunnel_refuted",
    "Ofpstr.C56_set_tunnel64_refuted",
    "Ofpstr.C56_set_tunnel_print",
    "Ofpstr.C56_learn_refuted"
   ],
   "note": "Exact: the layout agrees iff not (set_tunnel/set_tunnel64 with a nonzero id, or learn with a load or an immediate value); these are refuted for all ids (C56_set_tunnel_refuted, C56_set_tunnel64_refuted) and by witness (C56_learn_refuted). Standard actions are covered by C26; note has no fixed size."
  },
  {
   "property": "C57",
   "status": "partial",
   "theorems": [
    "Ofpstr.C57_reg_load_mask_partial",
    "Ofpstr.C57_reg_load_whole_partial",
    "Ofpstr.C57_reg_load_big",
    "Ofpstr.C57_reg_load_zero",
    "Ofpstr.C57_reg_load_refuted"
   ],
   "note": "Proved for contiguous masks up to 64 bits with values inside the mask and for whole fields up to 64 bits; zero masks and values over 64 bits are refused; holes, outside bits, wide ranges, experimenter fields and trailing text are refuted by witness."
  },
  {
   "property": "C58",
   "status": "partial",
   "theorems": [
    "Ofpstr.C58_reg_load2",
    "Ofpstr.C58_reg_load2_error",
    "Ofpstr.C58_reg_load2_empty",
    "Ofpstr.C58_reg_load2_refuted"
   ],
   "note": "Proved for every text; false only in that text after the first field=value is dropped (C58_reg_load2_refuted)."
  },
  {
   "property": "C59",
   "status": "partial",
   "theorems": [
    "Ofpstr.C59_prints",
    "Ofpstr.C59_ssid_refuted"
   ],
   "note": "Exact: every valid list prints unless it has a masked SSID of zero bytes, and then IndexError is raised."
  },
  {
   "property": "C60",
   "status": "partial",
   "theorems": [
    "Ofpstr.C60_accepted",
    "Ofpstr.C60_reprint_partial",
    "Ofpstr.C60_mask_refuted",
    "Ofpstr.C60_long_refuted"
   ],
   "note": "The sizes are proved for every accepted text; the reprinted text means the same except for masks of fields that have none (C60_mask_refuted), values over the length byte (C60_long_refuted) and the lossy fields of C12. C64 and C68 say exactly which texts are read and which matches come back."
  },
  {
   "property": "C61",
   "status": "proved",
   "theorems": [
    "Ofpstr.C61_action_exact",
    "Ofpstr.C61_list_exact"
   ],
   "note": "Byte strings that are not plain text (notes and SSIDs) are outside the quantifier."
  },
  {
   "property": "C62",
   "status": "proved",
   "theorems": [
    "Ofpstr.C62_actions",
    "Ofpstr.C62_instructions",
    "Ofpstr.C62_matches",
    "Ofpstr.C62_ids"
   ],
   "note": ""
  },
  {
   "property": "C63",
   "status": "proved",
   "theorems": [
    "Ofpstr.C63_newlines",
    "Ofpstr.C63_exact",
    "Ofpstr.C63_lossless",
    "Ofpstr.C63_mixed_refuted"
   ],
   "note": "binascii is part of the trusted base; the model was compared with it on random bytes."
  },
  {
   "property": "C64",
   "status": "proved",
   "theorems": [
    "Ofpstr.C64_roundtrip_iff"
   ],
   "note": ""
  },
  {
   "property": "C65",
   "status": "proved",
   "theorems": [
    "Ofpstr.C65_group_prints",
    "Ofpstr.C65_group_builds",
    "Ofpstr.C65_group_roundtrip_iff",
    "Ofpstr.C65_desc",
    "Ofpstr.C65_desc_default"
   ],
   "note": "Printing, building and the exact round trip of requests; requests for all groups come back as requests for group 0, group=any is refused."
  },
  {
   "property": "C66",
   "status": "proved",
   "theorems": [
    "Ofpstr.C66_forms",
    "Ofpstr.C66_cnt_ids",
    "Ofpstr.C66_cnt_ids_value",
    "Ofpstr.C66_cnt_ids_junk_refuted",
    "Ofpstr.C66_missing",
    "Ofpstr.C66_call_only",
    "Ofpstr.C66_table_refuted",
    "Ofpstr.C66_separator_refuted",
    "Ofpstr.C66_output_reg_refuted"
   ],
   "note": "Side findings with witnesses: resubmit_table=PORT:TABLE is always refused, standard actions take any separator for the =, output_reg=field swallows the next word, cnt_ids ignores junk behind its numbers."
  },
  {
   "property": "C67",
   "status": "proved",
   "theorems": [
    "Ofpstr.C67_action_exact",
    "Ofpstr.C67_list_exact",
    "Ofpstr.C67_plain",
    "Ofpstr.C67_ssid_valid"
   ],
   "note": "The exact form of C61 without the restriction to plain byte strings."
  },
  {
   "property": "C68",
   "status": "proved",
   "theorems": [
    "Ofpstr.C68_match",
    "Ofpstr.C68_one",
    "Ofpstr.C68_value"
   ],
   "note": "For whole match texts (loop), single items (loop=False) and one field.  The connection-tracking label is read as a number of four bytes."
  },
  {
   "property": "C69",
   "status": "proved",
   "theorems": [
    "Ofpstr.C69_action",
    "Ofpstr.C69_rest",
    "Ofpstr.C69_unique",
    "Ofpstr.C69_refused",
    "Ofpstr.C69_call",
    "Ofpstr.C69_plain",
    "Ofpstr.C69_set_nothing",
    "Ofpstr.C69_bundle_no_field"
   ],
   "note": "C69_action is the iff for whole texts; C69_call and C69_plain give it for each form; C69_unique and C69_rest say that the grammar is a function to an end of the text."
  },
  {
   "property": "C70",
   "status": "proved",
   "theorems": [
    "Ofpstr.C70_flow",
    "Ofpstr.C70_flow_unique",
    "Ofpstr.C70_flow_refused",
    "Ofpstr.C70_flow_command",
    "Ofpstr.C70_group",
    "Ofpstr.C70_group_unique",
    "Ofpstr.C70_group_command"
   ],
   "note": "C70_flow and C70_group are the iffs; C70_flow_unique and C70_group_unique say that there is one reading; the _command theorems give the exception when a number does not fit."
  },
  {
   "property": "C71",
   "status": "proved",
   "theorems": [
    "Ofpstr.C71_flow",
    "Ofpstr.C71_flow_unique",
    "Ofpstr.C71_flow_counters",
    "Ofpstr.C71_desc",
    "Ofpstr.C71_desc_unique",
    "Ofpstr.C71_desc_request",
    "Ofpstr.C71_group",
    "Ofpstr.C71_group_unique",
    "Ofpstr.C71_group_request",
    "Ofpstr.C71_silent",
    "Ofpstr.C71_desc_junk"
   ],
   "note": "C71_flow, C71_desc, C71_group are the iffs for replies (C71_flow for all types); the _request theorems are the iffs for other types; C71_silent shows texts of which parts are left out."
  },
  {
   "property": "C72",
   "status": "proved",
   "theorems": [
    "Ofpstr.C72_flow_exact",
    "Ofpstr.C72_flags",
    "Ofpstr.C72_lossless"
   ],
   "note": "C72_flow_exact is the iff; C72_flags says what comes back when only flags are lost; C72_lossless shows that the flow-mods of C34 are among those that survive."
  },
  {
   "property": "C73",
   "status": "proved",
   "theorems": [
    "Ofpstr.C73_flow_stats_exact",
    "Ofpstr.C73_lossless"
   ],
   "note": "C73_flow_stats_exact is the iff; C73_lossless shows that the replies of C44 are among those that come back."
  },
  {
   "property": "C74",
   "status": "proved",
   "theorems": [
    "Ofpstr.C74_group_exact",
    "Ofpstr.C74_lossless",
    "Ofpstr.C74_recreate_exact"
   ],
   "note": "C74_group_exact is the iff; C74_recreate_exact says the same of the keywords of group2extra without the group id; C74_lossless shows that the group-mods of C40 are among those that come back."
  },
  {
   "property": "C75",
   "status": "proved",
   "theorems": [
    "Ofpstr.C75_group_desc_exact",
    "Ofpstr.C75_lossless",
    "Ofpstr.C75_of_group"
   ],
   "note": "C75_group_desc_exact is the iff; C75_lossless shows that the replies of C42 are among those that come back, C75_of_group that the group-mods of C74 do as descriptions."
  },
  {
   "property": "C76",
   "status": "proved",
   "theorems": [
    "Ofpstr.C76_match",
    "Ofpstr.C76_match_error",
    "Ofpstr.C76_entry",
    "Ofpstr.C76_entry_error",
    "Ofpstr.C76_field",
    "Ofpstr.C76_entry_one",
    "Ofpstr.C76_ids",
    "Ofpstr.C76_ids_error",
    "Ofpstr.C76_id",
    "Ofpstr.C76_id_error"
   ],
   "note": "C76_match and C76_match_error are the two iffs; C76_entry, C76_entry_error for loop=False, C76_field for one field, C76_entry_one that an entry has one text or one exception, C76_ids, C76_ids_error, C76_id, C76_id_error for lists of headers."
  },
  {
   "property": "C77",
   "status": "proved",
   "theorems": [
    "Ofpstr.C77_actions",
    "Ofpstr.C77_actions_error",
    "Ofpstr.C77_action",
    "Ofpstr.C77_action_error",
    "Ofpstr.C77_stuck",
    "Ofpstr.C77_standard",
    "Ofpstr.C77_nicira"
   ],
   "note": "C77_actions and C77_actions_error are the two iffs, C77_action and C77_action_error for loop=False, C77_standard and C77_nicira for the body of one action, C77_stuck for the bytes on which the code does not end."
  },
  {
   "property": "C78",
   "status": "proved",
   "theorems": [
    "Ofpstr.C78_instructions",
    "Ofpstr.C78_instructions_error",
    "Ofpstr.C78_instruction",
    "Ofpstr.C78_instruction_error",
    "Ofpstr.C78_flow_mod",
    "Ofpstr.C78_flow_mod_error",
    "Ofpstr.C78_group",
    "Ofpstr.C78_group_error",
    "Ofpstr.C78_bucket",
    "Ofpstr.C78_flow_stats",
    "Ofpstr.C78_flow_stats_error",
    "Ofpstr.C78_group_desc",
    "Ofpstr.C78_group_desc_error",
    "Ofpstr.C78_group_stats",
    "Ofpstr.C78_group_stats_error"
   ],
   "note": "Two iffs for each function, one for texts and one for exceptions: C78_instructions, C78_instruction (loop=False), C78_flow_mod, C78_bucket, C78_group, C78_flow_stats, C78_group_desc, C78_group_stats."
  },
  {
   "property": "C79",
   "status": "proved",
   "theorems": [
    "Ofpstr.C79_match_error",
    "Ofpstr.C79_one_error",
    "Ofpstr.C79_value",
    "Ofpstr.C79_one_way",
    "Ofpstr.C79_key_error",
    "Ofpstr.C79_ends"
   ],
   "note": "C79_match_error and C79_one_error are the iffs, C79_value the one for a single field; C79_one_way joins them with C68. Prefix lengths of IPv6 addresses so far below zero that Python runs out of memory count as struct.error."
  },
  {
   "property": "C80",
   "status": "proved",
   "theorems": [
    "Ofpstr.C80_action_error",
    "Ofpstr.C80_one_way",
    "Ofpstr.C80_call",
    "Ofpstr.C80_plain",
    "Ofpstr.C80_brackets",
    "Ofpstr.C80_hash",
    "Ofpstr.C80_call_kinds",
    "Ofpstr.C80_plain_kinds"
   ],
   "note": "C80_action_error is the iff, C80_call and C80_plain the one for a known name with its arguments; C80_one_way joins them with C69. A width in learn so large that Python runs out of memory counts as struct.error."
  },
  {
   "property": "C81",
   "status": "proved",
   "theorems": [
    "Ofpstr.C81_rule_error",
    "Ofpstr.C81_flow_error",
    "Ofpstr.C81_one_way",
    "Ofpstr.C81_same",
    "Ofpstr.C81_unknown",
    "Ofpstr.C81_late",
    "Ofpstr.C81_trailing",
    "Ofpstr.C81_group_error",
    "Ofpstr.C81_group_one_way",
    "Ofpstr.C81_group_same",
    "Ofpstr.C81_group_bucket",
    "Ofpstr.C81_group_other"
   ],
   "note": "C81_rule_error, C81_flow_error and C81_group_error are the iffs; C81_one_way and C81_group_one_way join them with C70."
  },
  {
   "property": "C82",
   "status": "proved",
   "theorems": [
    "Ofpstr.C82_flow_error",
    "Ofpstr.C82_flow_one_way",
    "Ofpstr.C82_flow_long",
    "Ofpstr.C82_flow_first",
    "Ofpstr.C82_desc_error",
    "Ofpstr.C82_desc_request",
    "Ofpstr.C82_desc_one_way",
    "Ofpstr.C82_desc_long",
    "Ofpstr.C82_desc_first",
    "Ofpstr.C82_group_error",
    "Ofpstr.C82_group_request",
    "Ofpstr.C82_group_one_way",
    "Ofpstr.C82_group_long",
    "Ofpstr.C82_group_first",
    "Ofpstr.C82_only_long"
   ],
   "note": "C82_flow_error, C82_desc_error, C82_group_error and the two C82_..._request are the iffs; C82_..._one_way join them with C71, C82_..._long say when NameError is raised."
  },
  {
   "property": "C83",
   "status": "proved",
   "theorems": [
    "Ofpstr.C83_tcp",
    "Ofpstr.C83_unix",
    "Ofpstr.C83_error",
    "Ofpstr.C83_first",
    "Ofpstr.C83_plain",
    "Ofpstr.C83_no_dots",
    "Ofpstr.C83_name",
    "Ofpstr.C83_wild",
    "Ofpstr.C83_run",
    "Ofpstr.C83_hello"
   ],
   "note": "C83_tcp, C83_unix and C83_error are the iffs; C83_plain is the usual address, C83_wild shows wrong addresses that are accepted."
  },
  {
   "property": "C84",
   "status": "proved",
   "theorems": [
    "Ofpstr.C84_message",
    "Ofpstr.C84_run",
    "Ofpstr.C84_one_way",
    "Ofpstr.C84_command_line",
    "Ofpstr.C84_result",
    "Ofpstr.C84_success",
    "Ofpstr.C84_dump"
   ],
   "note": "C84_run is the iff with the relation of Spec/CliRun.lean, C84_one_way says the relation is a function, C84_command_line joins it with C83; C84_success, C84_result and C84_dump say when a run ends well or with Result."
  },
  {
   "property": "C85",
   "status": "proved",
   "theorems": [
    "Ofpstr.C85_actions",
    "Ofpstr.C85_instructions",
    "Ofpstr.C85_flow_mod",
    "Ofpstr.C85_group_mod",
    "Ofpstr.C85_flow_stats",
    "Ofpstr.C85_group_desc",
    "Ofpstr.C85_always",
    "Ofpstr.C85_zero",
    "Ofpstr.C85_texts",
    "Ofpstr.C85_own_action",
    "Ofpstr.C85_own_flow",
    "Ofpstr.C85_own_group",
    "Ofpstr.C85_own_multipart"
   ],
   "note": "An iff for each printer (C85_actions to C85_group_desc) with the places of Spec/Endless.lean, given by numbers (C85_zero); C85_always for the printers that always end; C85_own_* for what is read from texts. That every text is read in the end is C04."
  }
 ]
}
