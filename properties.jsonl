{"id": "C01", "title": "Tokenising loses nothing", "statement": "get_token(s) returns (head, body, rest) with head+body+rest == s, for every string s.", "quantifier": "every string", "why_tests_cant": "a test samples a few strings; bracket nesting and separator mixes are unbounded", "anchors": ["ofpstr/util.py:get_token", "ofpstr/util.py:scan_paren"]}
{"id": "C02", "title": "Tokeniser head is exactly the leading separator", "statement": "The head returned by get_token is: white space, one '=', white space when the string starts with optional white space and '='; otherwise the maximal leading run of white space and commas. So the body never starts with a separator.", "quantifier": "every string", "why_tests_cant": "needs all mixes and lengths of separators", "anchors": ["ofpstr/util.py:get_token"]}
{"id": "C03", "title": "Tokens end only at separators outside brackets", "statement": "The body returned by get_token contains no separator and no '=' outside brackets, and if anything is left after it, what is left starts with a separator or '='; so commas and '=' inside (), {}, [], <> never split a token.", "quantifier": "every string, any bracket nesting depth", "why_tests_cant": "nesting depth is unbounded", "anchors": ["ofpstr/util.py:get_token", "ofpstr/util.py:scan_paren", "ofpstr/util.py:is_delimiter"]}
{"id": "C04", "title": "Every text parser terminates", "statement": "get_token consumes at least one character of every non-empty string, so str2oxm, str2oxmid, str2dict, str2mod, str2bucket, str2group, text2mp* finish on every input (with a result or an exception).", "quantifier": "every string", "why_tests_cant": "non-termination cannot be observed by a finite test, and all strings must be covered", "anchors": ["ofpstr/util.py:get_token", "ofpstr/oxm.py:str2oxm", "ofpstr/oxm.py:str2oxmid", "ofpstr/ofp4.py:str2dict", "ofpstr/ofp4.py:str2bucket", "ofpstr/ofp4.py:str2group", "ofpstr/ofp4.py:text2mpflow"]}
{"id": "C05", "title": "Function-style tokens are taken apart exactly", "statement": "parse_func(name + '(' + args + ')') == (name, args) for every bracket-free name and bracket-balanced args (same for {}, [], <>), parse_func of a bracket-free string gives (s, None), and text after the closing bracket is rejected with AssertionError.", "quantifier": "every name and balanced argument text", "why_tests_cant": "nesting depth and length are unbounded", "anchors": ["ofpstr/util.py:parse_func", "ofpstr/util.py:scan_paren"]}
{"id": "C06", "title": "split gives back the list it was joined from", "statement": "split(sep.join(tokens)) == tokens for every list of non-empty separator-free bracket-free tokens and every non-empty separator run; it never returns an empty token.", "quantifier": "every token list", "why_tests_cant": "unbounded lists", "anchors": ["ofpstr/util.py:split"]}
{"id": "C07", "title": "Integer text parses to the number that was printed", "statement": "parseInt applied to the text printed by {:d} (any integer, also negative), {:#x} and zero-padded {:#0wx} (any natural number) followed by any text that does not start with a digit of that base (nor, after a decimal number, with x or X) returns the number and exactly the printed length.", "quantifier": "every integer, every padding width, every continuation", "why_tests_cant": "infinitely many numbers", "anchors": ["ofpstr/util.py:parseInt", "ofpstr/util.py:longest"]}
{"id": "C08", "title": "parseInt number syntax", "statement": "For every accepted string parseInt returns the value of its longest digit prefix in the base selected by the prefix (0x/0X: 16, 0 followed by an octal digit with at least 3 characters: 8, otherwise 10, '-' : negative decimal) and the length consumed; it raises ValueError exactly when the digit run is empty.", "quantifier": "every string", "why_tests_cant": "infinitely many strings", "anchors": ["ofpstr/util.py:parseInt"]}
{"id": "C09", "title": "Every match field name is encoded with the right OXM header", "statement": "For every supported field name, str2oxmid(name, has_mask=False) is the OXM/NXM header of the OpenFlow/Nicira/Stratos definition: class, field number, value length (plus the experimenter id for Stratos fields).", "quantifier": "every supported field name", "why_tests_cant": "the whole name table, against an independently written table", "anchors": ["ofpstr/oxm.py:_str2bin", "ofpstr/oxm.py:header", "ofpstr/oxm.py:str2oxmid"]}
{"id": "C10", "title": "Field names and OXM ids are inverse", "statement": "oxmid2str(str2oxmid(text)) == text for every comma-separated list of supported field names (the exceptions are listed: nxm_ip_frag), with or without mask bit.", "quantifier": "every list of field names", "why_tests_cant": "lists are unbounded", "anchors": ["ofpstr/oxm.py:str2oxmid", "ofpstr/oxm.py:oxmid2str"]}
{"id": "C11", "title": "Integer match fields carry the number, big endian", "statement": "name=v and name=v/m for an integer field of n bytes encode v and m in n big-endian bytes after the header, reduced modulo 256^n; nothing else is emitted.", "quantifier": "every integer field, every value and mask", "why_tests_cant": "values are unbounded", "anchors": ["ofpstr/oxm.py:uint_str2bin"]}
{"id": "C12", "title": "Binary match to text and back is the identity", "statement": "For every sequence of well-formed OXM TLVs of supported fields m, str2oxm(oxm2str(m)) == (m, length of the text): decoding to text and encoding again gives the same bytes and consumes all the text. Fields for which the library loses information are listed with a counterexample each.", "quantifier": "every list of well-formed TLVs, every value and mask", "why_tests_cant": "values and list lengths are unbounded", "anchors": ["ofpstr/oxm.py:str2oxm", "ofpstr/oxm.py:oxm2str"]}
{"id": "C13", "title": "A match list is the concatenation of its parts", "statement": "If str2oxm accepts a (completely) and b, then str2oxm(a+','+b) gives the concatenated bytes and the full length, so matches compose and the order is preserved.", "quantifier": "every pair of accepted match texts", "why_tests_cant": "unbounded texts", "anchors": ["ofpstr/oxm.py:str2oxm"]}
{"id": "C14", "title": "Encoded matches are well-formed TLVs", "statement": "Whatever str2oxm returns is a sequence of TLVs whose length byte equals the number of bytes that follow the 4-byte header, so a switch can walk it; (the one exception: hexadecimal/SSID payloads longer than one length byte can express).", "quantifier": "every accepted text", "why_tests_cant": "unbounded texts", "anchors": ["ofpstr/oxm.py:str2oxm", "ofpstr/oxm.py:header"]}
{"id": "C15", "title": "Invalid match text is rejected, never half-read", "statement": "str2oxm raises on an unknown field name, on a missing '=', and on a value followed by unread characters; text that was not consumed is always reported by the returned length.", "quantifier": "every string", "why_tests_cant": "unbounded texts", "anchors": ["ofpstr/oxm.py:str2oxm"]}
{"id": "C16", "title": "IPv4 prefix notation means the prefix mask", "statement": "ipv4_src=a.b.c.d/n has the mask with the n leading bits set (README 'ipv4_src=192.168.1.0/24').", "quantifier": "every IPv4 field, address and prefix length", "why_tests_cant": "all addresses and lengths", "anchors": ["ofpstr/oxm.py:ipv4_str2bin"]}
{"id": "C17", "title": "IPv6 prefix notation means the prefix mask", "statement": "ipv6_src=addr/n has the mask with the n leading bits set.", "quantifier": "every IPv6 field, address and prefix length", "why_tests_cant": "all addresses and lengths", "anchors": ["ofpstr/oxm.py:ipv6_str2bin"]}
{"id": "C18", "title": "IPv4 addresses and dotted masks round-trip", "statement": "For every 4-byte address and every 4-byte mask (not only contiguous ones) the printed match parses back to the same bytes.", "quantifier": "all 2^32 addresses x 2^32 masks", "why_tests_cant": "too many to enumerate", "anchors": ["ofpstr/oxm.py:ipv4_str2bin", "ofpstr/oxm.py:ipv4_bin2str"]}
{"id": "C19", "title": "IPv6 addresses round-trip through :: compression", "statement": "For every 16-byte address and mask the printed (zero-compressed, possibly IPv4-mapped) match parses back to the same bytes.", "quantifier": "all 2^128 addresses and masks", "why_tests_cant": "too many to enumerate", "anchors": ["ofpstr/oxm.py:ipv6_str2bin", "ofpstr/oxm.py:ipv6_bin2str"]}
{"id": "C20", "title": "All MAC notations mean the same address", "statement": "aa:bb:cc:dd:ee:ff, aa-bb-..., aabb.ccdd.eeff and aabbccddeeff in any letter case encode the same six bytes, with or without a mask, and print in the colon form.", "quantifier": "every 6-byte address and mask", "why_tests_cant": "2^48 addresses", "anchors": ["ofpstr/oxm.py:mac_str2bin", "ofpstr/oxm.py:mac_bin2str"]}
{"id": "C21", "title": "Port names and numbers agree", "statement": "A reserved port name in lower or upper case encodes the OpenFlow reserved number (truncated to 16 bit for nxm_in_port), any other number that fits is encoded as is, a number that does not fit is rejected; printing uses the name exactly for the reserved numbers.", "quantifier": "every port field and number", "why_tests_cant": "2^32 numbers", "anchors": ["ofpstr/util.py:ofpp", "ofpstr/oxm.py:port_str2bin", "ofpstr/oxm.py:port_bin2str"]}
{"id": "C22", "title": "Hexadecimal fields keep value and mask aligned", "statement": "name=hex/hexmask emits value and mask of equal length: the shorter one is padded with zero bytes at its end, and the header length counts both.", "quantifier": "every value and mask byte string", "why_tests_cant": "unbounded byte strings", "anchors": ["ofpstr/oxm.py:hex_str2bin", "ofpstr/oxm.py:hex_bin2str"]}
{"id": "C23", "title": "SSID text round-trips", "statement": "A dot11_ssid match (value, optional mask) printed as text parses back to the same bytes.", "quantifier": "every SSID byte string and mask", "why_tests_cant": "unbounded byte strings; quoting rules depend on every byte and position", "anchors": ["ofpstr/oxm.py:ssid_str2bin", "ofpstr/oxm.py:ssid_bin2str"]}
{"id": "C24", "title": "Radiotap fields round-trip", "statement": "Every radiotap field (little-endian integers, rate, channel, signed dBm, mcs, ampdu_status, vht) printed as text parses back to the same bytes.", "quantifier": "every value and mask of every radiotap field", "why_tests_cant": "values up to 2^64 and products of them", "anchors": ["ofpstr/oxm.py:le_str2bin", "ofpstr/oxm.py:rate_str2bin", "ofpstr/oxm.py:ch_str2bin", "ofpstr/oxm.py:comp_str2bin", "ofpstr/oxm.py:vht_str2bin", "ofpstr/oxm.py:s8_str2bin"]}
{"id": "C25", "title": "oxm2str terminates on every byte string", "statement": "oxm2str and oxmid2str finish (with text or an exception) on arbitrary bytes; unknown classes and experimenters are printed as '?' and skipped by their length.", "quantifier": "every byte string", "why_tests_cant": "arbitrary wire input", "anchors": ["ofpstr/oxm.py:oxm2str", "ofpstr/oxm.py:oxmid2str"]}
{"id": "C26", "title": "Standard actions have the OpenFlow 1.3 wire format", "statement": "str2act of each standard action name with argument gives type, length, argument and padding as in the OpenFlow 1.3 action structures, for every argument that fits, and rejects arguments that do not fit.", "quantifier": "every action, every argument value", "why_tests_cant": "arguments range over 2^32 values", "anchors": ["ofpstr/ofp4.py:str2act", "ofpstr/ofp4.py:action_uint_str2act", "ofpstr/ofp4.py:action_output_str2act", "ofpstr/ofp4.py:action_push_str2act", "ofpstr/ofp4.py:action_generic_str2act"]}
{"id": "C27", "title": "Every encoded action is 8-byte aligned and its length field is true", "statement": "The length field of each action str2act emits equals the number of bytes emitted and is a multiple of 8.", "quantifier": "every accepted action text", "why_tests_cant": "unbounded texts", "anchors": ["ofpstr/ofp4.py:str2act", "ofpstr/ofp4.py:action_uint_str2act", "ofpstr/nx.py:action_qp_str2act", "ofpstr/nx.py:_nxast_str2act"]}
{"id": "C28", "title": "Binary action lists to text and back is the identity", "statement": "For every list of well-formed actions, act2str gives text which, used inside @apply/@write, encodes to the same bytes.", "quantifier": "every action list", "why_tests_cant": "unbounded lists", "anchors": ["ofpstr/ofp4.py:act2str", "ofpstr/ofp4.py:str2act", "ofpstr/ofp4.py:str2dict"]}
{"id": "C29", "title": "set_ actions wrap the match encoding", "statement": "set_<field>=v and set_<field>(v) both encode an OFPAT_SET_FIELD action holding exactly the bytes str2oxm gives for <field>=v, zero-padded to a multiple of 8, length field included.", "quantifier": "every field and value", "why_tests_cant": "unbounded values", "anchors": ["ofpstr/ofp4.py:str2act"]}
{"id": "C30", "title": "Action decoding terminates", "statement": "act2str and inst2str finish on every byte string whose action/instruction length fields are non-zero; (a zero length makes them loop forever).", "quantifier": "every byte string", "why_tests_cant": "non-termination is not observable by a test", "anchors": ["ofpstr/ofp4.py:act2str", "ofpstr/ofp4.py:inst2str"]}
{"id": "C31", "title": "Argument-less function style", "statement": "README spells pop_queue() and exit(): name() must mean the action without arguments.", "quantifier": "every action name", "why_tests_cant": "all names", "anchors": ["ofpstr/ofp4.py:str2act", "ofpstr/util.py:parse_func"]}
{"id": "C32", "title": "Flow-mod header is right", "statement": "str2mod(s, command, xid) starts with version 4, type 14, the true total length of the message, and the given xid; command byte as given.", "quantifier": "every accepted rule, every command and xid", "why_tests_cant": "unbounded texts", "anchors": ["ofpstr/ofp4.py:str2mod"]}
{"id": "C33", "title": "Flow-mod fields carry what the text says, defaults otherwise", "statement": "Each fixed field of the flow-mod is the value of the last key=value in the text that sets it, or the default of the command (delete commands have other defaults).", "quantifier": "every accepted rule", "why_tests_cant": "unbounded texts", "anchors": ["ofpstr/ofp4.py:str2dict", "ofpstr/ofp4.py:str2mod"]}
{"id": "C34", "title": "Flow-mod to text and back is the identity", "statement": "str2mod(mod2str(m), **mod2extra(m)) == m for every well-formed flow-mod m.", "quantifier": "every well-formed flow-mod: any fields, match list, instruction list", "why_tests_cant": "unbounded structure", "anchors": ["ofpstr/ofp4.py:str2mod", "ofpstr/ofp4.py:mod2str", "ofpstr/ofp4.py:mod2extra"]}
{"id": "C35", "title": "Instructions are encoded in the order written, with OpenFlow layouts", "statement": "@goto, @metadata, @write, @apply, @clear, @meter give the OpenFlow instruction structures with true lengths, in text order; actions belong to the nearest preceding @apply/@write.", "quantifier": "every instruction list and arguments", "why_tests_cant": "unbounded lists", "anchors": ["ofpstr/ofp4.py:str2dict", "ofpstr/ofp4.py:inst2str"]}
{"id": "C36", "title": "Order of flow keys does not matter", "statement": "Permuting independent fixed keys (cookie, table, priority, timeouts, buffer, out_port, out_group, flags) of a rule does not change the message.", "quantifier": "every rule and permutation", "why_tests_cant": "unbounded permutations and values", "anchors": ["ofpstr/ofp4.py:str2dict"]}
{"id": "C37", "title": "Misplaced words are rejected", "statement": "A match after an instruction, an action after @goto/@metadata/@clear/@meter, an unknown @word, an unknown action, and a trailing separator make str2dict raise.", "quantifier": "every text with such a word", "why_tests_cant": "unbounded texts", "anchors": ["ofpstr/ofp4.py:str2dict"]}
{"id": "C38", "title": "Flow flags", "statement": "Any list of the five flag words sets exactly the union of their bits, and a flags value below 32 prints as exactly the words of its set bits.", "quantifier": "every list of flag words, every flags value", "why_tests_cant": "unbounded lists", "anchors": ["ofpstr/ofp4.py:str2dict", "ofpstr/ofp4.py:_fixed"]}
{"id": "C39", "title": "Group-mod header and buckets", "statement": "str2group emits version 4, type 15, true length, xid, command, type and group id, followed by one bucket per @bucket section with its true length.", "quantifier": "every accepted group text", "why_tests_cant": "unbounded texts", "anchors": ["ofpstr/ofp4.py:str2group", "ofpstr/ofp4.py:str2bucket"]}
{"id": "C40", "title": "Group-mod to text and back is the identity", "statement": "str2group(group2str(m), command, xid) == m for every well-formed group-mod.", "quantifier": "every well-formed group-mod", "why_tests_cant": "unbounded bucket lists", "anchors": ["ofpstr/ofp4.py:str2group", "ofpstr/ofp4.py:group2str", "ofpstr/ofp4.py:bucket2str"]}
{"id": "C41", "title": "group2extra gives the arguments that recreate the message", "statement": "str2group(group2str(m), **group2extra(m)) is accepted and equals m.", "quantifier": "every well-formed group-mod", "why_tests_cant": "all messages", "anchors": ["ofpstr/ofp4.py:group2extra", "ofpstr/ofp4.py:str2group"]}
{"id": "C42", "title": "Group description replies round-trip", "statement": "text2mpgroupdesc(mpgroupdesc2text(m)) == m for every well-formed OFPMP_GROUP_DESC reply.", "quantifier": "every well-formed reply", "why_tests_cant": "unbounded lists", "anchors": ["ofpstr/ofp4.py:text2mpgroupdesc", "ofpstr/ofp4.py:mpgroupdesc2text"]}
{"id": "C43", "title": "Group statistics replies round-trip", "statement": "text2mpgroup(mpgroup2text(m)) == m for every well-formed OFPMP_GROUP reply.", "quantifier": "every well-formed reply, all counters", "why_tests_cant": "64-bit counters and unbounded lists", "anchors": ["ofpstr/ofp4.py:text2mpgroup", "ofpstr/ofp4.py:mpgroup2text"]}
{"id": "C44", "title": "Flow statistics replies round-trip", "statement": "text2mpflow(mpflow2text(m)) == m for every well-formed OFPMP_FLOW reply.", "quantifier": "every well-formed reply, all counters", "why_tests_cant": "64-bit counters and unbounded lists", "anchors": ["ofpstr/ofp4.py:text2mpflow", "ofpstr/ofp4.py:mpflow2text"]}
{"id": "C45", "title": "Flow statistics requests decode", "statement": "mpflow2text of a request produced by text2mpflow(type=18) gives text.", "quantifier": "every request", "why_tests_cant": "all requests", "anchors": ["ofpstr/ofp4.py:mpflow2text_one"]}
{"id": "C46", "title": "Large multipart replies are split", "statement": "When the entries exceed one message, text2mp* emit several messages whose bodies concatenate to all entries, each with true length below 65536, all but the last with the MORE flag.", "quantifier": "every entry list", "why_tests_cant": "needs very large inputs; unbounded", "anchors": ["ofpstr/ofp4.py:text2mpflow", "ofpstr/ofp4.py:text2mpgroupdesc", "ofpstr/ofp4.py:text2mpgroup"]}
{"id": "C47", "title": "Multipart walkers terminate", "statement": "mpflow2text, mpgroupdesc2text, mpgroup2text finish on every byte string (a zero entry length in a flow reply makes mpflow2text loop forever).", "quantifier": "every byte string", "why_tests_cant": "non-termination is not observable by a test", "anchors": ["ofpstr/ofp4.py:mpflow2text", "ofpstr/ofp4.py:mpgroupdesc2text", "ofpstr/ofp4.py:mpgroup2text"]}
{"id": "C48", "title": "Nicira action headers are right", "statement": "Every Nicira action str2act emits has type 0xffff, vendor 0x2320, the subtype of its name and a true length field; all but note are padded to 8 bytes.", "quantifier": "every Nicira action and argument", "why_tests_cant": "unbounded arguments", "anchors": ["ofpstr/nx.py:_nxast_hdr", "ofpstr/nx.py:_fix_act_len", "ofpstr/nx.py:_pad8"]}
{"id": "C49", "title": "Nicira actions round-trip", "statement": "For each Nicira action (cnt_ids, reg_load, reg_load2, reg_move, resubmit, resubmit_table, set_tunnel, set_tunnel64, pop_queue, exit, note, multipath, bundle, bundle_load, output_reg, output_reg2, learn) text printed by act2str encodes to the same bytes.", "quantifier": "every argument value", "why_tests_cant": "values unbounded", "anchors": ["ofpstr/nx.py:_str2act", "ofpstr/nx.py:_act2str"]}
{"id": "C50", "title": "Bit ranges keep offset and width", "statement": "field[a:b] in reg_move, multipath, bundle_load, output_reg, output_reg2 is stored as offset a and width b-a, and printed back as [a:b].", "quantifier": "every field and every valid range", "why_tests_cant": "all ranges", "anchors": ["ofpstr/nx.py:get_bits", "ofpstr/nx.py:action_bundle_load_str2act", "ofpstr/nx.py:action_output_reg_str2act"]}
{"id": "C51", "title": "Out-of-range numbers are refused, never truncated silently, in fixed-width slots", "statement": "Numbers given for table, priority, timeouts, cookie, buffer, out_port, out_group, goto, meter, metadata, action arguments that do not fit their wire width (or are negative) make the encoder raise instead of sending another number.", "quantifier": "every integer", "why_tests_cant": "unbounded", "anchors": ["ofpstr/ofp4.py:str2mod", "ofpstr/ofp4.py:str2dict", "ofpstr/ofp4.py:action_uint_str2act"]}
{"id": "C52", "title": "CLI frames the byte stream into messages", "statement": "msgs(sock) yields exactly the OpenFlow messages of the stream, however the transport splits it into reads.", "quantifier": "every message sequence and every segmentation", "why_tests_cant": "all segmentations", "anchors": ["ofpstr/cli.py:msgs"]}
{"id": "C53", "title": "CLI reports a rejected modification", "statement": "If the switch answers the flow/group modification (xid 2) with OFPT_ERROR before the barrier reply, the command fails; otherwise it succeeds at the barrier reply.", "quantifier": "every reply sequence", "why_tests_cant": "all reply interleavings", "anchors": ["ofpstr/cli.py:ofctl"]}
{"id": "C54", "title": "CLI dumps all parts of a multipart reply", "statement": "dump-flows/dump-groups print every part of the reply, ignore unrelated messages and stop exactly at the part without MORE flag.", "quantifier": "every reply sequence", "why_tests_cant": "all interleavings", "anchors": ["ofpstr/cli.py:ofctl"]}
{"id": "C55", "title": "CLI sends what the command names", "statement": "After a hello, add-flow, mod-flow, mod-flow-strict, del-flow, del-flow-strict, add-group, mod-group, del-group send the modification of their arguments with the OpenFlow number of that command and xid 2, then a barrier request with xid 3; dump-flows and dump-groups send a request for everything; a rule that does not parse and an unknown command send nothing more than the hello.", "quantifier": "every command word, every argument list, every peer", "why_tests_cant": "all texts and all peers", "anchors": ["ofpstr/cli.py:ofctl"]}
{"id": "C56", "title": "Nicira actions have the structures of nicira-ext.h", "statement": "Every Nicira action is written with sub-type, members, offsets, padding and size of its structure in Open vSwitch's nicira-ext.h, and such a structure is printed as the text that yields it again.", "quantifier": "every well-formed Nicira action, all member values", "why_tests_cant": "The test vectors were produced by the library itself, so a misplaced member is consistent on both sides; and members have up to 64 bits.", "anchors": ["ofpstr/nx.py:_nxast_hdr", "ofpstr/nx.py:action_set_tunnel_str2act", "ofpstr/nx.py:action_learn_str2act"]}
{"id": "C57", "title": "reg_load stores the masked bits", "statement": "reg_load(field=value/mask) loads exactly the bits that the mask selects: offset is the first one of the mask, width the number of its ones, the value is shifted accordingly; without mask the whole field is loaded; a mask that is no bit range, or a value that does not fit, is refused.", "quantifier": "every field, value, mask and text that str2oxm reads as that", "why_tests_cant": "All values and masks of up to 128 bits.", "anchors": ["ofpstr/nx.py:action_reg_load_str2act"]}
{"id": "C58", "title": "reg_load2 carries the match entry of its argument", "statement": "reg_load2(text) carries exactly the bytes that the same text means as a match, padded to a multiple of eight; a text that is no match is refused with the same error.", "quantifier": "every argument text", "why_tests_cant": "All texts.", "anchors": ["ofpstr/nx.py:action_reg_load_str2act"]}
{"id": "C59", "title": "Every well-formed match can be printed", "statement": "oxm2str gives a text, never an exception, for every sequence of well-formed TLVs of supported fields, also those whose text does not lead back to the same bytes.", "quantifier": "all lists of well-formed TLVs", "why_tests_cant": "All values, masks and lengths of all fields in all combinations.", "anchors": ["ofpstr/oxm.py:oxm2str", "ofpstr/oxm.py:ssid_bin2str"]}
{"id": "C60", "title": "Accepted match text has a normal form with the same meaning", "statement": "If str2oxm accepts a text, the bytes are a list of matches with values and masks of the sizes of their fields, and oxm2str prints them as a text that str2oxm reads as the same bytes.", "quantifier": "every text that str2oxm accepts", "why_tests_cant": "All texts, with all spellings of numbers, addresses and separators.", "anchors": ["ofpstr/oxm.py:str2oxm", "ofpstr/oxm.py:oxm2str", "ofpstr/oxm.py:uint_bin2str"]}
{"id": "C61", "title": "Exactly the lossless actions come back from their text", "statement": "A well-formed action is printed as a text that parses to the same bytes if and only if it is one of the named lossless ones, alone and in a list under @apply; all others are printed as a text that is refused or means other bytes, or are not printed.", "quantifier": "all well-formed actions and lists of actions whose byte strings are plain text", "why_tests_cant": "A test shows one lossy action; that there are no others needs all values of all fields of all actions.", "anchors": ["ofpstr/ofp4.py:act2str", "ofpstr/ofp4.py:str2act", "ofpstr/ofp4.py:str2dict"]}
{"id": "C62", "title": "A list is printed item by item", "statement": "act2str, inst2str, oxm2str and oxmid2str print the first item as they do with loop=False, then a comma and the text of the bytes from the length of the first item on; a rest too short for a header is dropped, and the first exception is that of the whole.", "quantifier": "all byte strings, well-formed or not", "why_tests_cant": "All byte strings, with wrong lengths and trailing rests.", "anchors": ["ofpstr/ofp4.py:act2str", "ofpstr/ofp4.py:inst2str", "ofpstr/oxm.py:oxm2str", "ofpstr/oxm.py:oxmid2str"]}
{"id": "C63", "title": "Quoted-printable text gives the bytes back, up to the style of newlines", "statement": "Writing bytes as quoted-printable text and reading the text gives the bytes with every newline in the style of the first one, so it gives the same bytes exactly if all newlines are LF or all are CR LF.", "quantifier": "all byte strings", "why_tests_cant": "Line breaking after 76 characters, quoting at line ends and newline styles interact in byte strings of any length.", "anchors": ["ofpstr/oxm.py:ssid_bin2str", "ofpstr/oxm.py:ssid_str2bin", "ofpstr/nx.py:action_qp_str2act"]}
{"id": "C64", "title": "Exactly which matches come back from their text", "statement": "A list of well-formed TLVs is printed as a text that is read back as the same bytes, without a rest, exactly if no field is one of the named lossy ones, no byte string is empty, no VHT user part is zero, and each SSID (without the zero bytes at its end, if masked) is not empty, has newlines of one style and a quoted-printable text that is one token without a slash; brackets may stay open in the last item only.", "quantifier": "all lists of well-formed TLVs, all SSIDs included", "why_tests_cant": "SSIDs are arbitrary bytes, and the text of one can be cut anywhere by the tokeniser.", "anchors": ["ofpstr/oxm.py:str2oxm", "ofpstr/oxm.py:oxm2str", "ofpstr/oxm.py:ssid_str2bin", "ofpstr/util.py:get_token"]}
{"id": "C65", "title": "Requests for group statistics and group descriptions", "statement": "A request for group statistics prints as nothing for all groups, as group=any for no group and as group=N otherwise; the text group=N builds the request for group N; the request comes back from its text exactly if it names one group.  Every text builds the same request for group descriptions, and a line without a group number describes group 0.", "quantifier": "all group numbers and transaction ids, all spellings of the number, all further lines", "why_tests_cant": "All 2^32 group numbers, all spellings of them and all following text.", "anchors": ["ofpstr/ofp4.py:text2mpgroup", "ofpstr/ofp4.py:mpgroup2text_one", "ofpstr/ofp4.py:text2mpgroupdesc", "ofpstr/ofp4.py:mpgroupdesc2text_one"]}
{"id": "C66", "title": "An argument after = and in brackets means the same", "statement": "For the standard actions with an argument and for output, resubmit, resubmit_table, set_tunnel, set_tunnel64 and note, name=v and name(v) give the same bytes or raise the same exception, and consume exactly their text.  cnt_ids=A:B means cnt_ids(A,B).  The Nicira actions that read an argument after = raise without it; reg_load, reg_load2, reg_move, multipath, bundle, bundle_load and learn raise ValueError unless the argument is in brackets.", "quantifier": "all action names of the tables, all argument texts that are one token and balanced in brackets, all text before and after", "why_tests_cant": "Infinitely many argument texts, contexts and error cases; the tests use one form of each action.", "anchors": ["ofpstr/ofp4.py:str2act", "ofpstr/ofp4.py:action_uint_str2act", "ofpstr/nx.py:action_cnt_ids_str2act", "ofpstr/nx.py:action_resubmit_str2act", "ofpstr/nx.py:action_set_tunnel_str2act"]}
{"id": "C67", "title": "Exactly which actions come back from their text, with any byte strings", "statement": "A well-formed action, whatever bytes its note or SSID holds, is printed as a text that parses to exactly its bytes if and only if it is one of a set described without reference to the parser: as in C61, and notes and SSIDs must be non-empty, have line ends of one style, and have a quoted-printable text that is one token (closed in brackets where it stands in brackets; without / for SSIDs).  In apply and write instructions the list of actions comes back if and only if every action is in this set; brackets may stay open in the SSID of the last action only.", "quantifier": "all well-formed actions and all lists of them, all bytes in notes and SSIDs", "why_tests_cant": "Infinitely many byte strings and lists; exactness needs that every other action is lost.", "anchors": ["ofpstr/ofp4.py:str2act", "ofpstr/ofp4.py:act2str", "ofpstr/nx.py:action_qp_str2act", "ofpstr/nx.py:action_reg_load2_act2str", "ofpstr/oxm.py:ssid_str2bin"]}
{"id": "C68", "title": "Exactly which texts are matches, and which bytes they mean", "statement": "A text is parsed as a match if and only if it is a sequence of items name=value, with names of the list and values that follow a grammar of the kind of the field (numbers cut to the size of the field, ports by name or number, MAC addresses, IPv4 addresses as inet_aton takes them, IPv6 addresses as inet_pton takes them with an address or a prefix length 128 as mask, hexadecimal bytes, quoted-printable SSIDs, data rates, channels, numbers between colons), up to the end of the text or the first item with an empty value.  The result is exactly the bytes of these matches and the length read; every other text is refused.  The grammars are stated without the parser.", "quantifier": "all texts, all fields, all byte strings and lengths", "why_tests_cant": "Both directions speak about infinitely many texts; that nothing else is accepted cannot be sampled.", "anchors": ["ofpstr/oxm.py:str2oxm", "ofpstr/oxm.py:uint_str2bin", "ofpstr/oxm.py:port_str2bin", "ofpstr/oxm.py:mac_str2bin", "ofpstr/oxm.py:ipv4_str2bin", "ofpstr/oxm.py:ipv6_str2bin", "ofpstr/oxm.py:ssid_str2oxm", "ofpstr/oxm.py:le_str2bin"]}
{"id": "C69", "title": "Exactly which texts are actions, and which bytes they mean", "statement": "A text is parsed as an action if and only if it follows a grammar stated without the parser: a name of the list of standard and Nicira actions followed by its arguments after a separator or in brackets of any kind (with a grammar for the arguments of every action: ethertypes, numbers, ports with the number of bytes for the controller, quoted-printable notes, fields with ranges of bits, hash and algorithm words, lists of ports, the settings and flow-mod specs of learn), or set_ with a match item, or a word that is no action (no bytes, left over).  The result is exactly the bytes of this action and the length read; every other text is refused.  The grammar is unambiguous and what is left is an end of the text.", "quantifier": "all texts, all byte strings and lengths", "why_tests_cant": "Both directions speak about infinitely many texts; that nothing else is accepted cannot be sampled.", "anchors": ["ofpstr/ofp4.py:str2act", "ofpstr/ofp4.py:output_str2act", "ofpstr/ofp4.py:push_str2act", "ofpstr/nx.py:action_learn_str2act", "ofpstr/nx.py:action_bundle_str2act", "ofpstr/nx.py:action_reg_load_str2act", "ofpstr/nx.py:action_reg_move_str2act", "ofpstr/util.py:parse_func"]}
{"id": "C70", "title": "Exactly which texts are flow rules and groups", "statement": "str2mod and str2group give a message if and only if the text follows a grammar stated without any part of the parser (the words of C33 and C39 with the match items of C68 and the actions of C69) and every number fits its place; the message is the one of these words.  A text follows the grammar in one way only, and a text of the grammar whose numbers do not fit raises struct.error.", "quantifier": "all texts, all commands and transaction ids, all byte strings", "why_tests_cant": "That nothing else is accepted, and that no text has two readings, speaks about infinitely many texts.", "anchors": ["ofpstr/ofp4.py:str2dict", "ofpstr/ofp4.py:str2mod", "ofpstr/ofp4.py:str2group", "ofpstr/ofp4.py:str2bucket"]}
{"id": "C71", "title": "Exactly which texts are multipart messages, and which bytes they mean", "statement": "text2mpflow, text2mpgroupdesc and text2mpgroup give a message if and only if every line follows the grammar of the kind of message, every number fits and the message is shorter than 64 KiB; the message has one entry for each line in order.  The grammars say which parts of a line are left out without an exception; in requests for descriptions the whole text is, in requests for group statistics everything but the head of the first line, in requests for flow statistics the counters.", "quantifier": "all texts, all types and transaction ids, all byte strings", "why_tests_cant": "Both directions speak about infinitely many texts and any number of lines.", "anchors": ["ofpstr/ofp4.py:text2mpflow", "ofpstr/ofp4.py:text2mpgroupdesc", "ofpstr/ofp4.py:text2mpgroup"]}
{"id": "C72", "title": "Exactly which flow-mods come back from their text", "statement": "A well-formed flow-mod, with any SSIDs and notes, is printed by mod2str as a text that str2mod with the arguments of mod2extra reads as the same message if and only if it has only the five flags that are printed and each match item and each action survives where it stands; only the last item of the whole rule may have brackets that stay open.  If the parts survive, exactly the flags that are not printed are lost.", "quantifier": "all well-formed flow-mods: any keys, any number of match items, instructions and actions, any byte strings in SSIDs and notes", "why_tests_cant": "That nothing else comes back speaks about infinitely many messages, and the place in the rule matters.", "anchors": ["ofpstr/ofp4.py:mod2str", "ofpstr/ofp4.py:str2mod", "ofpstr/ofp4.py:inst2str", "ofpstr/ofp4.py:str2dict"]}
{"id": "C73", "title": "Exactly which flow statistics come back from their text", "statement": "A multipart reply of flow statistics with well-formed entries, with any SSIDs and notes, is printed by mpflow2text as a text that text2mpflow reads as the same message if and only if it has at least one entry and each entry has only the five printed flags, a priority other than 0x8000, match items and actions that survive where they stand in their line, and no SSID or note whose text holds a line feed.", "quantifier": "all lists of well-formed entries that fit one message, all xids, any byte strings in SSIDs and notes", "why_tests_cant": "That nothing else comes back speaks about infinitely many messages; lines cut inside an SSID could be read as further entries.", "anchors": ["ofpstr/ofp4.py:mpflow2text", "ofpstr/ofp4.py:text2mpflow", "ofpstr/ofp4.py:_fixed", "ofpstr/ofp4.py:str2dict"]}
{"id": "C74", "title": "Exactly which group-mods come back from their text", "statement": "A well-formed group-mod, with any SSIDs and notes, is printed by group2str as a text that str2group reads, with its command and xid, as the same message if and only if something is printed of every bucket, the last bucket has actions, no bucket of a group that is not a select group has a weight, and every action survives where it stands; only the last action of the last bucket may have brackets that are not closed.", "quantifier": "all well-formed group-mods of the four types, any buckets, any byte strings in SSIDs and notes", "why_tests_cant": "That nothing else comes back speaks about infinitely many messages: a text cut or joined inside an SSID could be read as the buckets that were lost.", "anchors": ["ofpstr/ofp4.py:group2str", "ofpstr/ofp4.py:bucket2str", "ofpstr/ofp4.py:str2group", "ofpstr/ofp4.py:str2bucket"]}
{"id": "C75", "title": "Exactly which group descriptions come back from their text", "statement": "A multipart reply of well-formed group descriptions, with any SSIDs and notes, is printed by mpgroupdesc2text as a text that text2mpgroupdesc reads as the same message if and only if it has at least one entry and in each entry only the last bucket can be blank, no bucket of a group that is not a select group has a weight, every action survives where it stands in its line, and no SSID or note has a text with a line feed.", "quantifier": "all lists of well-formed descriptions that fit one message, all xids, any byte strings in SSIDs and notes", "why_tests_cant": "That nothing else comes back speaks about infinitely many messages; a line that is cut short is read silently, without the rest.", "anchors": ["ofpstr/ofp4.py:mpgroupdesc2text", "ofpstr/ofp4.py:text2mpgroupdesc", "ofpstr/ofp4.py:bucket2str", "ofpstr/ofp4.py:str2bucket"]}
{"id": "C76", "title": "What every byte string is printed as, as a match", "statement": "For every byte string, oxm2str returns a text exactly if the string is a sequence of entries that all have a text, and then it is those texts with commas between; which bodies have which text is given field by field (digits, lower-case hex, port names, dotted quads, shortest IPv6 forms, masks), bodies of the wrong size and cut entries included. It raises an exception exactly if some entry is refused with it: AssertionError, struct.error, OSError, ValueError, IndexError or KeyError by kind of field and size of body, and the entries before are printed. The same with loop=False, and for lists of headers (oxmid2str).", "quantifier": "all byte strings, all 195 fields, with and without masks", "why_tests_cant": "Byte strings from a switch are not bounded; that nothing else is printed and nothing else is raised speaks about all of them.", "anchors": ["ofpstr/oxm.py:oxm2str", "ofpstr/oxm.py:oxmid2str", "ofpstr/oxm.py:_bin2str", "ofpstr/oxm.py:uint_bin2str", "ofpstr/oxm.py:ssid_bin2str"]}
{"id": "C77", "title": "What every byte string is printed as, as actions", "statement": "For every byte string, act2str returns a text exactly if the actions of the string, found by their length fields, all have a text, and then it is those texts with commas between; which body has which text is given action by action for the standard actions and the 17 Nicira actions, short, long and malformed bodies included. It raises an exception exactly if some action is refused with it and the ones before have texts: struct.error, AssertionError, TypeError, KeyError, IndexError, NameError and the exceptions of match entries. It runs for ever exactly if going by the length fields comes to a zero and no action before is refused. The same with loop=False.", "quantifier": "all byte strings, all standard and Nicira actions, all bodies", "why_tests_cant": "Byte strings from a switch are not bounded; that nothing else is printed and nothing else is raised speaks about all of them.", "anchors": ["ofpstr/ofp4.py:act2str", "ofpstr/ofp4.py:action_output_act2str", "ofpstr/nx.py:action_reg_load_act2str", "ofpstr/nx.py:action_reg_move_act2str", "ofpstr/nx.py:action_bundle_act2str", "ofpstr/nx.py:action_learn_act2str"]}
{"id": "C78", "title": "What every byte string is printed as, as instructions and messages", "statement": "For every byte string, inst2str, mod2str, bucket2str, group2str, mpflow2text, mpgroupdesc2text and mpgroup2text return a text exactly if the string has one by rules that say byte by byte what is shown: which keys are left out at which defaults, which flag bits have words, where matches, instructions, buckets, entries and messages are cut, what is ignored at the end. They raise an exception exactly if the first part that has no text is refused with it (struct.error, AssertionError, ValueError, IndexError, TypeError and those of matches and actions), and run for ever exactly if a part that has a text has length zero.", "quantifier": "all byte strings", "why_tests_cant": "Messages from a switch are not bounded; that nothing else is printed and nothing else is raised speaks about all of them.", "anchors": ["ofpstr/ofp4.py:inst2str", "ofpstr/ofp4.py:mod2str", "ofpstr/ofp4.py:bucket2str", "ofpstr/ofp4.py:group2str", "ofpstr/ofp4.py:mpflow2text_one", "ofpstr/ofp4.py:mpflow2text", "ofpstr/ofp4.py:mpgroupdesc2text_one", "ofpstr/ofp4.py:mpgroupdesc2text", "ofpstr/ofp4.py:mpgroup2text_one", "ofpstr/ofp4.py:mpgroup2text"]}
{"id": "C79", "title": "Exactly which exception every text raises that is no match", "statement": "str2oxm raises an exception for a text exactly if the text consists of items that are taken up to one that is wrong in a way that raises it: AssertionError if no = stands between the name and the value, KeyError if the name is in no list, and else the exception with which the field refuses the value by the rules of its kind: ValueError where no value begins, AssertionError where one is followed by something else, struct.error where a number does not fit, OSError for addresses, IndexError where the text ends early, TypeError for masks of little endian fields. So every text is a match or raises exactly one exception, and none makes str2oxm run for ever. The same for str2oxm with loop=False.", "quantifier": "all texts, all exceptions", "why_tests_cant": "The texts that are no matches are all texts but a few; which exception a caller has to expect of an arbitrary one is no finite list of cases.", "anchors": ["ofpstr/oxm.py:str2oxm", "ofpstr/oxm.py:uint_str2bin", "ofpstr/oxm.py:port_str2bin", "ofpstr/oxm.py:mac_str2bin", "ofpstr/oxm.py:ipv4_str2bin", "ofpstr/oxm.py:ipv6_str2bin", "ofpstr/oxm.py:pkt_str2bin", "ofpstr/oxm.py:hex_str2bin", "ofpstr/oxm.py:ssid_str2bin", "ofpstr/oxm.py:le_str2bin", "ofpstr/oxm.py:rate_str2bin", "ofpstr/oxm.py:ch_str2bin", "ofpstr/oxm.py:comp_str2bin", "ofpstr/oxm.py:vht_str2bin", "ofpstr/oxm.py:s8_str2bin"]}
{"id": "C80", "title": "Exactly which exception every text raises that is no action", "statement": "str2act raises an exception for a text exactly if the text starts with an action that is wrong in a way that raises it: text directly behind the closing bracket of the first word (AssertionError), a field of set_ that is no match (the exception of C79), or arguments of which the first wrong one, in the order in which the code looks at them, raises it. For each of the actions the arguments and their order are listed: an unknown hash function, selection or a missing bracket is a ValueError, a missing = an AssertionError, numbers raise ValueError where no number begins, AssertionError where more follows, and struct.error where they do not fit, ranges without a colon raise IndexError, fields without registration struct.error. So every text is an action or raises exactly one exception; only actions whose argument is a field with a value raise KeyError.", "quantifier": "all texts, all exceptions, all actions", "why_tests_cant": "The texts that are no actions are all texts but a few, with one to seven arguments each of which can be wrong at the same time as the others; which of their exceptions wins is no finite list of cases.", "anchors": ["ofpstr/ofp4.py:str2act", "ofpstr/ofp4.py:output_str2act", "ofpstr/ofp4.py:push_str2act", "ofpstr/nx.py:action_cnt_ids_str2act", "ofpstr/nx.py:action_reg_load_str2act", "ofpstr/nx.py:action_reg_move_str2act", "ofpstr/nx.py:action_resubmit_str2act", "ofpstr/nx.py:action_learn_str2act", "ofpstr/nx.py:action_bundle_str2act", "ofpstr/util.py:parse_func"]}
{"id": "C81", "title": "Exactly which exception every text raises that is no flow rule or no group", "statement": "str2mod raises an exception for a text exactly if the first word that is wrong at its place raises it, or if something in front of it is too large by then. A word is wrong in one of these ways: an = in front of it (AssertionError); an instruction that is not known (ValueError); an argument without = or with a mask where none is taken (AssertionError), with something that is no number (ValueError) or more behind the number (AssertionError); a match item, or behind @apply and @write an action, that raises an exception itself (C79, C80); separators only, or anything but an instruction behind an instruction without actions (ValueError). Instructions are put together on the way: one that is too large raises struct.error before the next word is read, and @apply and @write do so only when the next instruction or the end of the text is reached. Numbers in front of the instructions come last. str2group: a group id that is no number, a wrong word of a bucket, a bucket that does not fit, which raises struct.error before the next one is read, a word behind a bucket that starts none (AssertionError), and last the numbers of the head. So every text is a rule (group) whose numbers fit or raises exactly one exception, and exceptions other than struct.error depend on neither the command nor the transaction id.", "quantifier": "all texts, all commands and transaction ids, all exceptions", "why_tests_cant": "A rule is a list of any number of words, each of which can be wrong in several ways at once; which word decides depends on all in front of it and on the sizes of the instructions they make up.", "anchors": ["ofpstr/ofp4.py:str2dict", "ofpstr/ofp4.py:str2mod", "ofpstr/ofp4.py:str2group", "ofpstr/ofp4.py:str2bucket", "ofpstr/ofp4.py:str2act", "ofpstr/oxm.py:str2oxm"]}
{"id": "C82", "title": "Exactly which exception every text raises that is no multipart message", "statement": "text2mpflow first reads all lines: the first one with a wrong counter (no =, a mask, no number) or a wrong rule behind the counters (C81) raises its exception, whatever numbers do not fit in other lines. Then the lines are put together one by one: one whose numbers do not fit raises struct.error, one with which the message has more than 65535 bytes raises NameError (the code that should start a second message uses an undefined name), and a type or transaction id that does not fit raises struct.error last. text2mpgroupdesc and text2mpgroup read and put together each line before they look at the next one; of a request for descriptions only type and transaction id count, of a request for statistics also the group in the first line. So every text gives a message or raises exactly one exception; lines behind the first wrong one do not matter; NameError means exactly that some lines from the first on are right and too long together, and nothing else that reads a text (rules, groups, actions, match items, requests for groups) raises it.", "quantifier": "all texts with any number of lines, all types and transaction ids, all exceptions", "why_tests_cant": "The exception depends on the first wrong one of any number of lines, each with its own ways to be wrong, and on the sum of the lengths of all lines in front of it; texts that reach the limit of 64 KiB are too many and too long to try.", "anchors": ["ofpstr/ofp4.py:text2mpflow", "ofpstr/ofp4.py:text2mpgroupdesc", "ofpstr/ofp4.py:text2mpgroup", "ofpstr/ofp4.py:str2bucket", "ofpstr/ofp4.py:str2dict"]}
{"id": "C83", "title": "Exactly which switch the command line names", "statement": "The first argument of ofctl names a host exactly when it starts with tcp:, four runs of digits with any one character but a line feed between them, a colon and a run of digits; of several ways to cut it the one with the longest first run, then the longest second run and so on counts, the host is the text of the four runs, the port the value of the last run, and the rest is ignored. It names a local socket exactly when it starts with unix:; the path ends at the first line feed. Every other argument raises Eparam, and no argument raises anything else. An address with something else than digits between the runs is cut only there, whatever stands behind the port; seven digits without a dot are a host; a name is none. Nothing is sent exactly when the argument names no switch or the connection fails; otherwise the hello is sent first, and everything happens over the connection to what was named.", "quantifier": "all arguments, all commands, all outcomes of the connection", "why_tests_cant": "The dots of the regular expression are wildcards, so the backtracking may cut an argument in very many ways, and which one wins depends on all its characters; a test sees single arguments.", "anchors": ["ofpstr/cli.py:ofctl"]}
{"id": "C84", "title": "Exactly what the command line tool sends, prints and raises", "statement": "For every command, all arguments and everything that arrives in whatever pieces: a message is eight bytes that arrive in one read, with what one more read gives of the bytes missing by the length field; otherwise struct.error ends the run. A dump sends hello and request, prints every part of its kind (type 19, 16 bytes or more) as C78 says, skips other messages, ends well at the first part whose flags are 0 and with the exception of the first part that cannot be printed. A modification sends hello, the message of its text (C70) and a barrier request, or hello only and raises the exception of the text (C81); it ends well at the first barrier reply with transaction id 3, and raises Result exactly at a header of type 1 whose length field is 2, which no well-formed message has. Any other command sends hello and raises Eparam. Each run is specified in exactly one way, from the command line to the last line printed.", "quantifier": "all switches, commands, argument lists, byte streams and ways to cut them into reads", "why_tests_cant": "The run depends on the contents of a stream of any length, on where every read cuts it, and on every text and every byte string the library may be given; a test with a socket shows one stream cut in one way.", "anchors": ["ofpstr/cli.py:ofctl", "ofpstr/cli.py:msgs"]}
{"id": "C85", "title": "Exactly which inputs keep the library busy for ever", "statement": "No text does. A byte string does exactly if, going from part to part by the length fields, with all parts before printed, a printer comes to a part that says it has no bytes and is printed nevertheless: an action of an unknown type, vendor or Nicira sub-type, pop_queue, note, exit, reg_load2, or set_field whose match entry is printed; an instruction that is @write, @apply or unknown; an entry of flow statistics with a printable match; each also nested in the others. Lengths of zero in buckets, group descriptions, group statistics and messages never do. Matches, ids and group statistics are always printed in the end. Whatever the library itself reads from a text is printed in the end.", "quantifier": "all byte strings and all texts", "why_tests_cant": "A test that waits cannot tell a run that is endless from a slow one, and the inputs that hang are rare among all byte strings of any length; that there are no others is a statement about all of them.", "anchors": ["ofpstr/ofp4.py:act2str", "ofpstr/ofp4.py:inst2str", "ofpstr/ofp4.py:mod2str", "ofpstr/ofp4.py:group2str", "ofpstr/ofp4.py:mpflow2text", "ofpstr/ofp4.py:mpgroupdesc2text"]}
