import Verif.Model.Py

/-!
# The field tables of `ofpstr/oxm.py`

`_str2bin` and `_bin2str`, oxm.py:910-1289.  The rows were extracted from the source text; the
trailing comment of each row is the line in oxm.py.
-/

namespace Ofpstr

/-- How a field number is tagged in the dictionaries: plain `int` (OpenFlow basic), `nxm_of`,
`nxm_nx`, `stratos` (oxm.py:74-76, 100-102, 218-220).  The four classes differ in `__hash__` only;
that their hashes never collide is part of the trusted base. -/
inductive Cls where
  | basic | nxm0 | nxm1 | stratos
  deriving DecidableEq, Repr

/-- A key of `_bin2str`. -/
structure Key where
  cls : Cls
  num : Nat
  deriving DecidableEq, Repr

/-- An integer conversion inside a format string: `{:d}`/`{:#d}`, or `{:#0wx}` (`{:#x}` is 0). -/
inductive IFmt where
  | dec
  | hex (w : Nat)
  deriving DecidableEq, Repr

/-- A format string `"name={..}/{..}"` of `uint_bin2str` and `le_bin2str`, taken apart. -/
structure Fmt where
  name : Str
  val : Option IFmt
  mask : Option IFmt
  deriving DecidableEq, Repr

/-- The encoder closures `*_str2bin` (sizes in bytes). -/
inductive Enc where
  | uint (size : Nat) | port (size : Nat) | mac | ipv4 | ipv6 | pkt | hex | ssid
  | le (size : Nat) | rate | ch | comp (sizes : List Nat) | vht | s8
  deriving DecidableEq, Repr

/-- The decoder closures `*_bin2str`. -/
inductive Dec where
  | uint (f : Fmt) | port (name : Str) (size : Nat) | mac (name : Str) | ipv4 (name : Str)
  | ipv6 (name : Str) | pkt | hex (name : Str) | ssid | le (f : Fmt) | rate | ch
  | comp (name : Str) (sizes : List Nat) (fmts : List IFmt) | vht | s8 (name : Str)
  deriving DecidableEq, Repr

/-- `_str2bin`, oxm.py:910-1289. -/
def str2binTable : List (Str × Key × Enc) := [
  (t!"in_port", ⟨.basic, 0⟩, .port 4),  -- 911
  (t!"in_phy_port", ⟨.basic, 1⟩, .port 4),  -- 914
  (t!"metadata", ⟨.basic, 2⟩, .uint 8),  -- 917
  (t!"eth_dst", ⟨.basic, 3⟩, .mac),  -- 920
  (t!"eth_src", ⟨.basic, 4⟩, .mac),  -- 923
  (t!"eth_type", ⟨.basic, 5⟩, .uint 2),  -- 926
  (t!"vlan_vid", ⟨.basic, 6⟩, .uint 2),  -- 929
  (t!"vlan_pcp", ⟨.basic, 7⟩, .uint 1),  -- 932
  (t!"ip_dscp", ⟨.basic, 8⟩, .uint 1),  -- 935
  (t!"ip_ecn", ⟨.basic, 9⟩, .uint 1),  -- 938
  (t!"ip_proto", ⟨.basic, 10⟩, .uint 1),  -- 941
  (t!"ipv4_src", ⟨.basic, 11⟩, .ipv4),  -- 944
  (t!"ipv4_dst", ⟨.basic, 12⟩, .ipv4),  -- 947
  (t!"tcp_src", ⟨.basic, 13⟩, .uint 2),  -- 950
  (t!"tcp_dst", ⟨.basic, 14⟩, .uint 2),  -- 953
  (t!"udp_src", ⟨.basic, 15⟩, .uint 2),  -- 956
  (t!"udp_dst", ⟨.basic, 16⟩, .uint 2),  -- 959
  (t!"sctp_src", ⟨.basic, 17⟩, .uint 2),  -- 962
  (t!"sctp_dst", ⟨.basic, 18⟩, .uint 2),  -- 965
  (t!"icmpv4_type", ⟨.basic, 19⟩, .uint 1),  -- 968
  (t!"icmpv4_code", ⟨.basic, 20⟩, .uint 1),  -- 971
  (t!"arp_op", ⟨.basic, 21⟩, .uint 2),  -- 974
  (t!"arp_spa", ⟨.basic, 22⟩, .ipv4),  -- 977
  (t!"arp_tpa", ⟨.basic, 23⟩, .ipv4),  -- 980
  (t!"arp_sha", ⟨.basic, 24⟩, .mac),  -- 983
  (t!"arp_tha", ⟨.basic, 25⟩, .mac),  -- 986
  (t!"ipv6_src", ⟨.basic, 26⟩, .ipv6),  -- 989
  (t!"ipv6_dst", ⟨.basic, 27⟩, .ipv6),  -- 992
  (t!"ipv6_flabel", ⟨.basic, 28⟩, .uint 4),  -- 995
  (t!"icmpv6_type", ⟨.basic, 29⟩, .uint 1),  -- 998
  (t!"icmpv6_code", ⟨.basic, 30⟩, .uint 1),  -- 1001
  (t!"ipv6_nd_target", ⟨.basic, 31⟩, .ipv6),  -- 1004
  (t!"ipv6_nd_sll", ⟨.basic, 32⟩, .mac),  -- 1007
  (t!"ipv6_nd_tll", ⟨.basic, 33⟩, .mac),  -- 1010
  (t!"mpls_label", ⟨.basic, 34⟩, .uint 4),  -- 1013
  (t!"mpls_tc", ⟨.basic, 35⟩, .uint 1),  -- 1016
  (t!"mpls_bos", ⟨.basic, 36⟩, .uint 1),  -- 1019
  (t!"pbb_isid", ⟨.basic, 37⟩, .uint 3),  -- 1022
  (t!"tunnel_id", ⟨.basic, 38⟩, .uint 8),  -- 1025
  (t!"ipv6_exthdr", ⟨.basic, 39⟩, .uint 2),  -- 1028
  (t!"pbb_uca", ⟨.basic, 41⟩, .uint 1),  -- 1031
  (t!"tcp_flags", ⟨.basic, 42⟩, .uint 2),  -- 1034
  (t!"actset_output", ⟨.basic, 43⟩, .port 4),  -- 1037
  (t!"packet_type", ⟨.basic, 44⟩, .pkt),  -- 1040
  (t!"nxm_in_port", ⟨.nxm0, 0⟩, .port 2),  -- 1043
  (t!"nxm_eth_dst", ⟨.nxm0, 1⟩, .mac),  -- 1046
  (t!"nxm_eth_src", ⟨.nxm0, 2⟩, .mac),  -- 1049
  (t!"nxm_eth_type", ⟨.nxm0, 3⟩, .uint 2),  -- 1052
  (t!"nxm_vlan_tci", ⟨.nxm0, 4⟩, .uint 2),  -- 1055
  (t!"nxm_ip_tos", ⟨.nxm0, 5⟩, .uint 1),  -- 1058
  (t!"nxm_ip_proto", ⟨.nxm0, 6⟩, .uint 1),  -- 1061
  (t!"nxm_ip_src", ⟨.nxm0, 7⟩, .ipv4),  -- 1064
  (t!"nxm_ip_dst", ⟨.nxm0, 8⟩, .ipv4),  -- 1067
  (t!"nxm_tcp_src", ⟨.nxm0, 9⟩, .uint 2),  -- 1070
  (t!"nxm_tcp_dst", ⟨.nxm0, 10⟩, .uint 2),  -- 1073
  (t!"nxm_udp_src", ⟨.nxm0, 11⟩, .uint 2),  -- 1076
  (t!"nxm_udp_dst", ⟨.nxm0, 12⟩, .uint 2),  -- 1079
  (t!"nxm_icmp_type", ⟨.nxm0, 13⟩, .uint 1),  -- 1082
  (t!"nxm_icmp_code", ⟨.nxm0, 14⟩, .uint 1),  -- 1085
  (t!"nxm_arp_op", ⟨.nxm0, 15⟩, .uint 2),  -- 1088
  (t!"nxm_arp_spa", ⟨.nxm0, 16⟩, .ipv4),  -- 1091
  (t!"nxm_arp_tpa", ⟨.nxm0, 17⟩, .ipv4),  -- 1094
  (t!"nxm_reg0", ⟨.nxm1, 0⟩, .uint 4),  -- 1096-1100
  (t!"nxm_reg1", ⟨.nxm1, 1⟩, .uint 4),  -- 1096-1100
  (t!"nxm_reg2", ⟨.nxm1, 2⟩, .uint 4),  -- 1096-1100
  (t!"nxm_reg3", ⟨.nxm1, 3⟩, .uint 4),  -- 1096-1100
  (t!"nxm_reg4", ⟨.nxm1, 4⟩, .uint 4),  -- 1096-1100
  (t!"nxm_reg5", ⟨.nxm1, 5⟩, .uint 4),  -- 1096-1100
  (t!"nxm_reg6", ⟨.nxm1, 6⟩, .uint 4),  -- 1096-1100
  (t!"nxm_reg7", ⟨.nxm1, 7⟩, .uint 4),  -- 1096-1100
  (t!"nxm_tun_id", ⟨.nxm1, 16⟩, .uint 8),  -- 1103
  (t!"nxm_arp_sha", ⟨.nxm1, 17⟩, .mac),  -- 1106
  (t!"nxm_arp_tha", ⟨.nxm1, 18⟩, .mac),  -- 1109
  (t!"nxm_ipv6_src", ⟨.nxm1, 19⟩, .ipv6),  -- 1112
  (t!"nxm_ipv6_dst", ⟨.nxm1, 20⟩, .ipv6),  -- 1115
  (t!"nxm_icmpv6_type", ⟨.nxm1, 21⟩, .uint 1),  -- 1118
  (t!"nxm_icmpv6_code", ⟨.nxm1, 22⟩, .uint 1),  -- 1121
  (t!"nxm_nd_target", ⟨.nxm1, 23⟩, .ipv6),  -- 1124
  (t!"nxm_nd_sll", ⟨.nxm1, 24⟩, .mac),  -- 1127
  (t!"nxm_nd_tll", ⟨.nxm1, 25⟩, .mac),  -- 1130
  (t!"nxm_ip_frag", ⟨.nxm1, 26⟩, .uint 1),  -- 1133
  (t!"nxm_ipv6_label", ⟨.nxm1, 27⟩, .uint 4),  -- 1136
  (t!"nxm_ip_ecn", ⟨.nxm1, 28⟩, .uint 1),  -- 1139
  (t!"nxm_ip_ttl", ⟨.nxm1, 29⟩, .uint 1),  -- 1142
  (t!"nxm_tun_ipv4_src", ⟨.nxm1, 31⟩, .ipv4),  -- 1145
  (t!"nxm_tun_ipv4_dst", ⟨.nxm1, 32⟩, .ipv4),  -- 1148
  (t!"nxm_pkt_mark", ⟨.nxm1, 33⟩, .uint 4),  -- 1151
  (t!"nxm_tcp_flags", ⟨.nxm1, 34⟩, .uint 2),  -- 1154
  (t!"nxm_dp_hash", ⟨.nxm1, 35⟩, .uint 4),  -- 1157
  (t!"nxm_recirc_id", ⟨.nxm1, 36⟩, .uint 4),  -- 1160
  (t!"nxm_conj_id", ⟨.nxm1, 37⟩, .uint 4),  -- 1163
  (t!"nxm_tun_gbp_id", ⟨.nxm1, 38⟩, .uint 2),  -- 1166
  (t!"nxm_tun_gbp_flags", ⟨.nxm1, 39⟩, .uint 1),  -- 1169
  (t!"nxm_tun_metadata0", ⟨.nxm1, 40⟩, .hex),  -- 1171-1175
  (t!"nxm_tun_metadata1", ⟨.nxm1, 41⟩, .hex),  -- 1171-1175
  (t!"nxm_tun_metadata2", ⟨.nxm1, 42⟩, .hex),  -- 1171-1175
  (t!"nxm_tun_metadata3", ⟨.nxm1, 43⟩, .hex),  -- 1171-1175
  (t!"nxm_tun_metadata4", ⟨.nxm1, 44⟩, .hex),  -- 1171-1175
  (t!"nxm_tun_metadata5", ⟨.nxm1, 45⟩, .hex),  -- 1171-1175
  (t!"nxm_tun_metadata6", ⟨.nxm1, 46⟩, .hex),  -- 1171-1175
  (t!"nxm_tun_metadata7", ⟨.nxm1, 47⟩, .hex),  -- 1171-1175
  (t!"nxm_tun_metadata8", ⟨.nxm1, 48⟩, .hex),  -- 1171-1175
  (t!"nxm_tun_metadata9", ⟨.nxm1, 49⟩, .hex),  -- 1171-1175
  (t!"nxm_tun_metadata10", ⟨.nxm1, 50⟩, .hex),  -- 1171-1175
  (t!"nxm_tun_metadata11", ⟨.nxm1, 51⟩, .hex),  -- 1171-1175
  (t!"nxm_tun_metadata12", ⟨.nxm1, 52⟩, .hex),  -- 1171-1175
  (t!"nxm_tun_metadata13", ⟨.nxm1, 53⟩, .hex),  -- 1171-1175
  (t!"nxm_tun_metadata14", ⟨.nxm1, 54⟩, .hex),  -- 1171-1175
  (t!"nxm_tun_metadata15", ⟨.nxm1, 55⟩, .hex),  -- 1171-1175
  (t!"nxm_tun_metadata16", ⟨.nxm1, 56⟩, .hex),  -- 1171-1175
  (t!"nxm_tun_metadata17", ⟨.nxm1, 57⟩, .hex),  -- 1171-1175
  (t!"nxm_tun_metadata18", ⟨.nxm1, 58⟩, .hex),  -- 1171-1175
  (t!"nxm_tun_metadata19", ⟨.nxm1, 59⟩, .hex),  -- 1171-1175
  (t!"nxm_tun_metadata20", ⟨.nxm1, 60⟩, .hex),  -- 1171-1175
  (t!"nxm_tun_metadata21", ⟨.nxm1, 61⟩, .hex),  -- 1171-1175
  (t!"nxm_tun_metadata22", ⟨.nxm1, 62⟩, .hex),  -- 1171-1175
  (t!"nxm_tun_metadata23", ⟨.nxm1, 63⟩, .hex),  -- 1171-1175
  (t!"nxm_tun_metadata24", ⟨.nxm1, 64⟩, .hex),  -- 1171-1175
  (t!"nxm_tun_metadata25", ⟨.nxm1, 65⟩, .hex),  -- 1171-1175
  (t!"nxm_tun_metadata26", ⟨.nxm1, 66⟩, .hex),  -- 1171-1175
  (t!"nxm_tun_metadata27", ⟨.nxm1, 67⟩, .hex),  -- 1171-1175
  (t!"nxm_tun_metadata28", ⟨.nxm1, 68⟩, .hex),  -- 1171-1175
  (t!"nxm_tun_metadata29", ⟨.nxm1, 69⟩, .hex),  -- 1171-1175
  (t!"nxm_tun_metadata30", ⟨.nxm1, 70⟩, .hex),  -- 1171-1175
  (t!"nxm_tun_metadata31", ⟨.nxm1, 71⟩, .hex),  -- 1171-1175
  (t!"nxm_tun_metadata32", ⟨.nxm1, 72⟩, .hex),  -- 1171-1175
  (t!"nxm_tun_metadata33", ⟨.nxm1, 73⟩, .hex),  -- 1171-1175
  (t!"nxm_tun_metadata34", ⟨.nxm1, 74⟩, .hex),  -- 1171-1175
  (t!"nxm_tun_metadata35", ⟨.nxm1, 75⟩, .hex),  -- 1171-1175
  (t!"nxm_tun_metadata36", ⟨.nxm1, 76⟩, .hex),  -- 1171-1175
  (t!"nxm_tun_metadata37", ⟨.nxm1, 77⟩, .hex),  -- 1171-1175
  (t!"nxm_tun_metadata38", ⟨.nxm1, 78⟩, .hex),  -- 1171-1175
  (t!"nxm_tun_metadata39", ⟨.nxm1, 79⟩, .hex),  -- 1171-1175
  (t!"nxm_tun_metadata40", ⟨.nxm1, 80⟩, .hex),  -- 1171-1175
  (t!"nxm_tun_metadata41", ⟨.nxm1, 81⟩, .hex),  -- 1171-1175
  (t!"nxm_tun_metadata42", ⟨.nxm1, 82⟩, .hex),  -- 1171-1175
  (t!"nxm_tun_metadata43", ⟨.nxm1, 83⟩, .hex),  -- 1171-1175
  (t!"nxm_tun_metadata44", ⟨.nxm1, 84⟩, .hex),  -- 1171-1175
  (t!"nxm_tun_metadata45", ⟨.nxm1, 85⟩, .hex),  -- 1171-1175
  (t!"nxm_tun_metadata46", ⟨.nxm1, 86⟩, .hex),  -- 1171-1175
  (t!"nxm_tun_metadata47", ⟨.nxm1, 87⟩, .hex),  -- 1171-1175
  (t!"nxm_tun_metadata48", ⟨.nxm1, 88⟩, .hex),  -- 1171-1175
  (t!"nxm_tun_metadata49", ⟨.nxm1, 89⟩, .hex),  -- 1171-1175
  (t!"nxm_tun_metadata50", ⟨.nxm1, 90⟩, .hex),  -- 1171-1175
  (t!"nxm_tun_metadata51", ⟨.nxm1, 91⟩, .hex),  -- 1171-1175
  (t!"nxm_tun_metadata52", ⟨.nxm1, 92⟩, .hex),  -- 1171-1175
  (t!"nxm_tun_metadata53", ⟨.nxm1, 93⟩, .hex),  -- 1171-1175
  (t!"nxm_tun_metadata54", ⟨.nxm1, 94⟩, .hex),  -- 1171-1175
  (t!"nxm_tun_metadata55", ⟨.nxm1, 95⟩, .hex),  -- 1171-1175
  (t!"nxm_tun_metadata56", ⟨.nxm1, 96⟩, .hex),  -- 1171-1175
  (t!"nxm_tun_metadata57", ⟨.nxm1, 97⟩, .hex),  -- 1171-1175
  (t!"nxm_tun_metadata58", ⟨.nxm1, 98⟩, .hex),  -- 1171-1175
  (t!"nxm_tun_metadata59", ⟨.nxm1, 99⟩, .hex),  -- 1171-1175
  (t!"nxm_tun_metadata60", ⟨.nxm1, 100⟩, .hex),  -- 1171-1175
  (t!"nxm_tun_metadata61", ⟨.nxm1, 101⟩, .hex),  -- 1171-1175
  (t!"nxm_tun_metadata62", ⟨.nxm1, 102⟩, .hex),  -- 1171-1175
  (t!"nxm_tun_metadata63", ⟨.nxm1, 103⟩, .hex),  -- 1171-1175
  (t!"nxm_tun_flags", ⟨.nxm1, 104⟩, .uint 2),  -- 1178
  (t!"nxm_ct_state", ⟨.nxm1, 105⟩, .uint 4),  -- 1181
  (t!"nxm_ct_zone", ⟨.nxm1, 106⟩, .uint 2),  -- 1184
  (t!"nxm_ct_label", ⟨.nxm1, 108⟩, .uint 4),  -- 1187
  (t!"nxm_tun_ipv6_src", ⟨.nxm1, 109⟩, .ipv6),  -- 1190
  (t!"nxm_tun_ipv6_dst", ⟨.nxm1, 110⟩, .ipv6),  -- 1193
  (t!"dot11", ⟨.stratos, 2⟩, .uint 1),  -- 1196
  (t!"dot11_frame_ctrl", ⟨.stratos, 3⟩, .hex),  -- 1199
  (t!"dot11_addr1", ⟨.stratos, 4⟩, .mac),  -- 1202
  (t!"dot11_addr2", ⟨.stratos, 5⟩, .mac),  -- 1205
  (t!"dot11_addr3", ⟨.stratos, 6⟩, .mac),  -- 1208
  (t!"dot11_addr4", ⟨.stratos, 7⟩, .mac),  -- 1211
  (t!"dot11_ssid", ⟨.stratos, 8⟩, .ssid),  -- 1214
  (t!"dot11_action_category", ⟨.stratos, 9⟩, .hex),  -- 1217
  (t!"dot11_public_action", ⟨.stratos, 10⟩, .uint 1),  -- 1220
  (t!"dot11_tag", ⟨.stratos, 11⟩, .uint 1),  -- 1223
  (t!"dot11_tag_vendor", ⟨.stratos, 12⟩, .hex),  -- 1226
  (t!"radiotap_tsft", ⟨.stratos, 16⟩, .le 8),  -- 1229
  (t!"radiotap_flags", ⟨.stratos, 17⟩, .le 1),  -- 1232
  (t!"radiotap_rate", ⟨.stratos, 18⟩, .rate),  -- 1235
  (t!"radiotap_channel", ⟨.stratos, 19⟩, .ch),  -- 1238
  (t!"radiotap_fhss", ⟨.stratos, 20⟩, .hex),  -- 1241
  (t!"radiotap_dbm_antsignal", ⟨.stratos, 21⟩, .s8),  -- 1244
  (t!"radiotap_dbm_antnoise", ⟨.stratos, 22⟩, .s8),  -- 1247
  (t!"radiotap_lock_quality", ⟨.stratos, 23⟩, .le 2),  -- 1250
  (t!"radiotap_tx_attenuation", ⟨.stratos, 24⟩, .le 2),  -- 1253
  (t!"radiotap_db_tx_attenuation", ⟨.stratos, 25⟩, .le 2),  -- 1256
  (t!"radiotap_dbm_tx_power", ⟨.stratos, 26⟩, .s8),  -- 1259
  (t!"radiotap_antenna", ⟨.stratos, 27⟩, .le 1),  -- 1262
  (t!"radiotap_db_antsignal", ⟨.stratos, 28⟩, .le 1),  -- 1265
  (t!"radiotap_db_antnoise", ⟨.stratos, 29⟩, .le 1),  -- 1268
  (t!"radiotap_rx_flags", ⟨.stratos, 30⟩, .le 2),  -- 1271
  (t!"radiotap_tx_flags", ⟨.stratos, 31⟩, .le 2),  -- 1274
  (t!"radiotap_rts_retries", ⟨.stratos, 32⟩, .le 1),  -- 1277
  (t!"radiotap_data_retries", ⟨.stratos, 33⟩, .le 1),  -- 1280
  (t!"radiotap_mcs", ⟨.stratos, 35⟩, .comp [1, 1, 1]),  -- 1283
  (t!"radiotap_ampdu_status", ⟨.stratos, 36⟩, .comp [4, 2, 1, 1]),  -- 1286
  (t!"radiotap_vht", ⟨.stratos, 37⟩, .vht)  -- 1289
]

/-- `_bin2str`, oxm.py:910-1289. -/
def bin2strTable : List (Key × Dec) := [
  (⟨.basic, 0⟩, .port t!"in_port" 4),  -- 910
  (⟨.basic, 1⟩, .port t!"in_phy_port" 4),  -- 913
  (⟨.basic, 2⟩, .uint ⟨t!"metadata", some (.hex 0), some (.hex 0)⟩),  -- 916
  (⟨.basic, 3⟩, .mac t!"eth_dst"),  -- 919
  (⟨.basic, 4⟩, .mac t!"eth_src"),  -- 922
  (⟨.basic, 5⟩, .uint ⟨t!"eth_type", some (.hex 4), none⟩),  -- 925
  (⟨.basic, 6⟩, .uint ⟨t!"vlan_vid", some (.hex 0), some (.hex 0)⟩),  -- 928
  (⟨.basic, 7⟩, .uint ⟨t!"vlan_pcp", some (.dec), none⟩),  -- 931
  (⟨.basic, 8⟩, .uint ⟨t!"ip_dscp", some (.hex 0), none⟩),  -- 934
  (⟨.basic, 9⟩, .uint ⟨t!"ip_ecn", some (.hex 0), none⟩),  -- 937
  (⟨.basic, 10⟩, .uint ⟨t!"ip_proto", some (.dec), none⟩),  -- 940
  (⟨.basic, 11⟩, .ipv4 t!"ipv4_src"),  -- 943
  (⟨.basic, 12⟩, .ipv4 t!"ipv4_dst"),  -- 946
  (⟨.basic, 13⟩, .uint ⟨t!"tcp_src", some (.dec), none⟩),  -- 949
  (⟨.basic, 14⟩, .uint ⟨t!"tcp_dst", some (.dec), none⟩),  -- 952
  (⟨.basic, 15⟩, .uint ⟨t!"udp_src", some (.dec), none⟩),  -- 955
  (⟨.basic, 16⟩, .uint ⟨t!"udp_dst", some (.dec), none⟩),  -- 958
  (⟨.basic, 17⟩, .uint ⟨t!"sctp_src", some (.dec), none⟩),  -- 961
  (⟨.basic, 18⟩, .uint ⟨t!"sctp_dst", some (.dec), none⟩),  -- 964
  (⟨.basic, 19⟩, .uint ⟨t!"icmpv4_type", some (.dec), none⟩),  -- 967
  (⟨.basic, 20⟩, .uint ⟨t!"icmpv4_code", some (.dec), none⟩),  -- 970
  (⟨.basic, 21⟩, .uint ⟨t!"arp_op", some (.dec), none⟩),  -- 973
  (⟨.basic, 22⟩, .ipv4 t!"arp_spa"),  -- 976
  (⟨.basic, 23⟩, .ipv4 t!"arp_tpa"),  -- 979
  (⟨.basic, 24⟩, .mac t!"arp_sha"),  -- 982
  (⟨.basic, 25⟩, .mac t!"arp_tha"),  -- 985
  (⟨.basic, 26⟩, .ipv6 t!"ipv6_src"),  -- 988
  (⟨.basic, 27⟩, .ipv6 t!"ipv6_dst"),  -- 991
  (⟨.basic, 28⟩, .uint ⟨t!"ipv6_flabel", some (.hex 0), some (.hex 0)⟩),  -- 994
  (⟨.basic, 29⟩, .uint ⟨t!"icmpv6_type", some (.dec), none⟩),  -- 997
  (⟨.basic, 30⟩, .uint ⟨t!"icmpv6_code", some (.dec), none⟩),  -- 1000
  (⟨.basic, 31⟩, .ipv6 t!"ipv6_nd_target"),  -- 1003
  (⟨.basic, 32⟩, .mac t!"ipv6_nd_sll"),  -- 1006
  (⟨.basic, 33⟩, .mac t!"ipv6_nd_tll"),  -- 1009
  (⟨.basic, 34⟩, .uint ⟨t!"mpls_label", some (.hex 0), some (.hex 0)⟩),  -- 1012
  (⟨.basic, 35⟩, .uint ⟨t!"mpls_tc", some (.dec), none⟩),  -- 1015
  (⟨.basic, 36⟩, .uint ⟨t!"mpls_bos", some (.dec), none⟩),  -- 1018
  (⟨.basic, 37⟩, .uint ⟨t!"pbb_isid", some (.hex 0), some (.hex 0)⟩),  -- 1021
  (⟨.basic, 38⟩, .uint ⟨t!"tunnel_id", some (.hex 0), some (.hex 0)⟩),  -- 1024
  (⟨.basic, 39⟩, .uint ⟨t!"ipv6_exthdr", some (.hex 0), some (.hex 0)⟩),  -- 1027
  (⟨.basic, 41⟩, .uint ⟨t!"pbb_uca", some (.dec), none⟩),  -- 1030
  (⟨.basic, 42⟩, .uint ⟨t!"tcp_flags", some (.hex 4), some (.hex 4)⟩),  -- 1033
  (⟨.basic, 43⟩, .port t!"actset_output" 4),  -- 1036
  (⟨.basic, 44⟩, .pkt),  -- 1039
  (⟨.nxm0, 0⟩, .port t!"nxm_in_port" 2),  -- 1042
  (⟨.nxm0, 1⟩, .mac t!"nxm_eth_dst"),  -- 1045
  (⟨.nxm0, 2⟩, .mac t!"nxm_eth_src"),  -- 1048
  (⟨.nxm0, 3⟩, .uint ⟨t!"nxm_eth_type", some (.hex 6), some (.hex 6)⟩),  -- 1051
  (⟨.nxm0, 4⟩, .uint ⟨t!"nxm_vlan_tci", some (.hex 0), some (.hex 6)⟩),  -- 1054
  (⟨.nxm0, 5⟩, .uint ⟨t!"nxm_ip_tos", some (.hex 0), some (.hex 0)⟩),  -- 1057
  (⟨.nxm0, 6⟩, .uint ⟨t!"nxm_ip_proto", some (.dec), some (.dec)⟩),  -- 1060
  (⟨.nxm0, 7⟩, .ipv4 t!"nxm_ip_src"),  -- 1063
  (⟨.nxm0, 8⟩, .ipv4 t!"nxm_ip_dst"),  -- 1066
  (⟨.nxm0, 9⟩, .uint ⟨t!"nxm_tcp_src", some (.dec), some (.dec)⟩),  -- 1069
  (⟨.nxm0, 10⟩, .uint ⟨t!"nxm_tcp_dst", some (.dec), some (.dec)⟩),  -- 1072
  (⟨.nxm0, 11⟩, .uint ⟨t!"nxm_udp_src", some (.dec), some (.dec)⟩),  -- 1075
  (⟨.nxm0, 12⟩, .uint ⟨t!"nxm_udp_dst", some (.dec), some (.dec)⟩),  -- 1078
  (⟨.nxm0, 13⟩, .uint ⟨t!"nxm_icmp_type", some (.dec), some (.dec)⟩),  -- 1081
  (⟨.nxm0, 14⟩, .uint ⟨t!"nxm_icmp_code", some (.dec), some (.dec)⟩),  -- 1084
  (⟨.nxm0, 15⟩, .uint ⟨t!"nxm_arp_op", some (.dec), some (.dec)⟩),  -- 1087
  (⟨.nxm0, 16⟩, .ipv4 t!"nxm_arp_spa"),  -- 1090
  (⟨.nxm0, 17⟩, .ipv4 t!"nxm_arp_tpa"),  -- 1093
  (⟨.nxm1, 0⟩, .uint ⟨t!"nxm_reg0", none, none⟩),  -- 1096-1100
  (⟨.nxm1, 1⟩, .uint ⟨t!"nxm_reg1", none, none⟩),  -- 1096-1100
  (⟨.nxm1, 2⟩, .uint ⟨t!"nxm_reg2", none, none⟩),  -- 1096-1100
  (⟨.nxm1, 3⟩, .uint ⟨t!"nxm_reg3", none, none⟩),  -- 1096-1100
  (⟨.nxm1, 4⟩, .uint ⟨t!"nxm_reg4", none, none⟩),  -- 1096-1100
  (⟨.nxm1, 5⟩, .uint ⟨t!"nxm_reg5", none, none⟩),  -- 1096-1100
  (⟨.nxm1, 6⟩, .uint ⟨t!"nxm_reg6", none, none⟩),  -- 1096-1100
  (⟨.nxm1, 7⟩, .uint ⟨t!"nxm_reg7", none, none⟩),  -- 1096-1100
  (⟨.nxm1, 16⟩, .uint ⟨t!"nxm_tun_id", some (.hex 0), some (.hex 0)⟩),  -- 1102
  (⟨.nxm1, 17⟩, .mac t!"nxm_arp_sha"),  -- 1105
  (⟨.nxm1, 18⟩, .mac t!"nxm_arp_tha"),  -- 1108
  (⟨.nxm1, 19⟩, .ipv6 t!"nxm_ipv6_src"),  -- 1111
  (⟨.nxm1, 20⟩, .ipv6 t!"nxm_ipv6_dst"),  -- 1114
  (⟨.nxm1, 21⟩, .uint ⟨t!"nxm_icmpv6_type", some (.dec), some (.dec)⟩),  -- 1117
  (⟨.nxm1, 22⟩, .uint ⟨t!"nxm_icmpv6_code", some (.dec), some (.dec)⟩),  -- 1120
  (⟨.nxm1, 23⟩, .ipv6 t!"nxm_nd_target"),  -- 1123
  (⟨.nxm1, 24⟩, .mac t!"nxm_nd_sll"),  -- 1126
  (⟨.nxm1, 25⟩, .mac t!"nxm_nd_tll"),  -- 1129
  (⟨.nxm1, 26⟩, .uint ⟨t!"nxm_icmp_type", some (.dec), some (.dec)⟩),  -- 1132
  (⟨.nxm1, 27⟩, .uint ⟨t!"nxm_ipv6_label", some (.hex 0), some (.hex 0)⟩),  -- 1135
  (⟨.nxm1, 28⟩, .uint ⟨t!"nxm_ip_ecn", some (.hex 0), some (.hex 0)⟩),  -- 1138
  (⟨.nxm1, 29⟩, .uint ⟨t!"nxm_ip_ttl", some (.dec), some (.dec)⟩),  -- 1141
  (⟨.nxm1, 31⟩, .ipv4 t!"nxm_tun_ipv4_src"),  -- 1144
  (⟨.nxm1, 32⟩, .ipv4 t!"nxm_tun_ipv4_dst"),  -- 1147
  (⟨.nxm1, 33⟩, .uint ⟨t!"nxm_pkt_mark", some (.hex 0), some (.hex 0)⟩),  -- 1150
  (⟨.nxm1, 34⟩, .uint ⟨t!"nxm_tcp_flags", some (.hex 6), some (.hex 6)⟩),  -- 1153
  (⟨.nxm1, 35⟩, .uint ⟨t!"nxm_dp_hash", some (.hex 10), some (.hex 10)⟩),  -- 1156
  (⟨.nxm1, 36⟩, .uint ⟨t!"nxm_recirc_id", some (.hex 10), some (.hex 10)⟩),  -- 1159
  (⟨.nxm1, 37⟩, .uint ⟨t!"nxm_conj_id", some (.hex 10), some (.hex 10)⟩),  -- 1162
  (⟨.nxm1, 38⟩, .uint ⟨t!"nxm_tun_gbp_id", some (.hex 6), some (.hex 6)⟩),  -- 1165
  (⟨.nxm1, 39⟩, .uint ⟨t!"nxm_tun_gbp_flags", some (.hex 0), some (.hex 0)⟩),  -- 1168
  (⟨.nxm1, 40⟩, .hex t!"nxm_tun_metadata0"),  -- 1171-1175
  (⟨.nxm1, 41⟩, .hex t!"nxm_tun_metadata1"),  -- 1171-1175
  (⟨.nxm1, 42⟩, .hex t!"nxm_tun_metadata2"),  -- 1171-1175
  (⟨.nxm1, 43⟩, .hex t!"nxm_tun_metadata3"),  -- 1171-1175
  (⟨.nxm1, 44⟩, .hex t!"nxm_tun_metadata4"),  -- 1171-1175
  (⟨.nxm1, 45⟩, .hex t!"nxm_tun_metadata5"),  -- 1171-1175
  (⟨.nxm1, 46⟩, .hex t!"nxm_tun_metadata6"),  -- 1171-1175
  (⟨.nxm1, 47⟩, .hex t!"nxm_tun_metadata7"),  -- 1171-1175
  (⟨.nxm1, 48⟩, .hex t!"nxm_tun_metadata8"),  -- 1171-1175
  (⟨.nxm1, 49⟩, .hex t!"nxm_tun_metadata9"),  -- 1171-1175
  (⟨.nxm1, 50⟩, .hex t!"nxm_tun_metadata10"),  -- 1171-1175
  (⟨.nxm1, 51⟩, .hex t!"nxm_tun_metadata11"),  -- 1171-1175
  (⟨.nxm1, 52⟩, .hex t!"nxm_tun_metadata12"),  -- 1171-1175
  (⟨.nxm1, 53⟩, .hex t!"nxm_tun_metadata13"),  -- 1171-1175
  (⟨.nxm1, 54⟩, .hex t!"nxm_tun_metadata14"),  -- 1171-1175
  (⟨.nxm1, 55⟩, .hex t!"nxm_tun_metadata15"),  -- 1171-1175
  (⟨.nxm1, 56⟩, .hex t!"nxm_tun_metadata16"),  -- 1171-1175
  (⟨.nxm1, 57⟩, .hex t!"nxm_tun_metadata17"),  -- 1171-1175
  (⟨.nxm1, 58⟩, .hex t!"nxm_tun_metadata18"),  -- 1171-1175
  (⟨.nxm1, 59⟩, .hex t!"nxm_tun_metadata19"),  -- 1171-1175
  (⟨.nxm1, 60⟩, .hex t!"nxm_tun_metadata20"),  -- 1171-1175
  (⟨.nxm1, 61⟩, .hex t!"nxm_tun_metadata21"),  -- 1171-1175
  (⟨.nxm1, 62⟩, .hex t!"nxm_tun_metadata22"),  -- 1171-1175
  (⟨.nxm1, 63⟩, .hex t!"nxm_tun_metadata23"),  -- 1171-1175
  (⟨.nxm1, 64⟩, .hex t!"nxm_tun_metadata24"),  -- 1171-1175
  (⟨.nxm1, 65⟩, .hex t!"nxm_tun_metadata25"),  -- 1171-1175
  (⟨.nxm1, 66⟩, .hex t!"nxm_tun_metadata26"),  -- 1171-1175
  (⟨.nxm1, 67⟩, .hex t!"nxm_tun_metadata27"),  -- 1171-1175
  (⟨.nxm1, 68⟩, .hex t!"nxm_tun_metadata28"),  -- 1171-1175
  (⟨.nxm1, 69⟩, .hex t!"nxm_tun_metadata29"),  -- 1171-1175
  (⟨.nxm1, 70⟩, .hex t!"nxm_tun_metadata30"),  -- 1171-1175
  (⟨.nxm1, 71⟩, .hex t!"nxm_tun_metadata31"),  -- 1171-1175
  (⟨.nxm1, 72⟩, .hex t!"nxm_tun_metadata32"),  -- 1171-1175
  (⟨.nxm1, 73⟩, .hex t!"nxm_tun_metadata33"),  -- 1171-1175
  (⟨.nxm1, 74⟩, .hex t!"nxm_tun_metadata34"),  -- 1171-1175
  (⟨.nxm1, 75⟩, .hex t!"nxm_tun_metadata35"),  -- 1171-1175
  (⟨.nxm1, 76⟩, .hex t!"nxm_tun_metadata36"),  -- 1171-1175
  (⟨.nxm1, 77⟩, .hex t!"nxm_tun_metadata37"),  -- 1171-1175
  (⟨.nxm1, 78⟩, .hex t!"nxm_tun_metadata38"),  -- 1171-1175
  (⟨.nxm1, 79⟩, .hex t!"nxm_tun_metadata39"),  -- 1171-1175
  (⟨.nxm1, 80⟩, .hex t!"nxm_tun_metadata40"),  -- 1171-1175
  (⟨.nxm1, 81⟩, .hex t!"nxm_tun_metadata41"),  -- 1171-1175
  (⟨.nxm1, 82⟩, .hex t!"nxm_tun_metadata42"),  -- 1171-1175
  (⟨.nxm1, 83⟩, .hex t!"nxm_tun_metadata43"),  -- 1171-1175
  (⟨.nxm1, 84⟩, .hex t!"nxm_tun_metadata44"),  -- 1171-1175
  (⟨.nxm1, 85⟩, .hex t!"nxm_tun_metadata45"),  -- 1171-1175
  (⟨.nxm1, 86⟩, .hex t!"nxm_tun_metadata46"),  -- 1171-1175
  (⟨.nxm1, 87⟩, .hex t!"nxm_tun_metadata47"),  -- 1171-1175
  (⟨.nxm1, 88⟩, .hex t!"nxm_tun_metadata48"),  -- 1171-1175
  (⟨.nxm1, 89⟩, .hex t!"nxm_tun_metadata49"),  -- 1171-1175
  (⟨.nxm1, 90⟩, .hex t!"nxm_tun_metadata50"),  -- 1171-1175
  (⟨.nxm1, 91⟩, .hex t!"nxm_tun_metadata51"),  -- 1171-1175
  (⟨.nxm1, 92⟩, .hex t!"nxm_tun_metadata52"),  -- 1171-1175
  (⟨.nxm1, 93⟩, .hex t!"nxm_tun_metadata53"),  -- 1171-1175
  (⟨.nxm1, 94⟩, .hex t!"nxm_tun_metadata54"),  -- 1171-1175
  (⟨.nxm1, 95⟩, .hex t!"nxm_tun_metadata55"),  -- 1171-1175
  (⟨.nxm1, 96⟩, .hex t!"nxm_tun_metadata56"),  -- 1171-1175
  (⟨.nxm1, 97⟩, .hex t!"nxm_tun_metadata57"),  -- 1171-1175
  (⟨.nxm1, 98⟩, .hex t!"nxm_tun_metadata58"),  -- 1171-1175
  (⟨.nxm1, 99⟩, .hex t!"nxm_tun_metadata59"),  -- 1171-1175
  (⟨.nxm1, 100⟩, .hex t!"nxm_tun_metadata60"),  -- 1171-1175
  (⟨.nxm1, 101⟩, .hex t!"nxm_tun_metadata61"),  -- 1171-1175
  (⟨.nxm1, 102⟩, .hex t!"nxm_tun_metadata62"),  -- 1171-1175
  (⟨.nxm1, 103⟩, .hex t!"nxm_tun_metadata63"),  -- 1171-1175
  (⟨.nxm1, 104⟩, .uint ⟨t!"nxm_tun_flags", some (.hex 0), some (.hex 0)⟩),  -- 1177
  (⟨.nxm1, 105⟩, .uint ⟨t!"nxm_ct_state", some (.hex 0), some (.hex 0)⟩),  -- 1180
  (⟨.nxm1, 106⟩, .uint ⟨t!"nxm_ct_zone", some (.hex 0), none⟩),  -- 1183
  (⟨.nxm1, 108⟩, .uint ⟨t!"nxm_ct_label", some (.hex 0), some (.hex 0)⟩),  -- 1186
  (⟨.nxm1, 109⟩, .ipv6 t!"nxm_tun_ipv6_src"),  -- 1189
  (⟨.nxm1, 110⟩, .ipv6 t!"nxm_tun_ipv6_dst"),  -- 1192
  (⟨.stratos, 2⟩, .uint ⟨t!"dot11", some (.dec), none⟩),  -- 1195
  (⟨.stratos, 3⟩, .hex t!"dot11_frame_ctrl"),  -- 1198
  (⟨.stratos, 4⟩, .mac t!"dot11_addr1"),  -- 1201
  (⟨.stratos, 5⟩, .mac t!"dot11_addr2"),  -- 1204
  (⟨.stratos, 6⟩, .mac t!"dot11_addr3"),  -- 1207
  (⟨.stratos, 7⟩, .mac t!"dot11_addr4"),  -- 1210
  (⟨.stratos, 8⟩, .ssid),  -- 1213
  (⟨.stratos, 9⟩, .hex t!"dot11_action_category"),  -- 1216
  (⟨.stratos, 10⟩, .uint ⟨t!"dot11_public_action", some (.dec), none⟩),  -- 1219
  (⟨.stratos, 11⟩, .uint ⟨t!"dot11_tag", some (.dec), none⟩),  -- 1222
  (⟨.stratos, 12⟩, .hex t!"dot11_tag_vendor"),  -- 1225
  (⟨.stratos, 16⟩, .le ⟨t!"radiotap_tsft", some (.dec), none⟩),  -- 1228
  (⟨.stratos, 17⟩, .le ⟨t!"radiotap_flags", some (.hex 4), some (.hex 4)⟩),  -- 1231
  (⟨.stratos, 18⟩, .rate),  -- 1234
  (⟨.stratos, 19⟩, .ch),  -- 1237
  (⟨.stratos, 20⟩, .hex t!"radiotap_fhss"),  -- 1240
  (⟨.stratos, 21⟩, .s8 t!"radiotap_dbm_antsignal"),  -- 1243
  (⟨.stratos, 22⟩, .s8 t!"radiotap_dbm_antnoise"),  -- 1246
  (⟨.stratos, 23⟩, .le ⟨t!"radiotap_lock_quality", some (.dec), none⟩),  -- 1249
  (⟨.stratos, 24⟩, .le ⟨t!"radiotap_tx_attenuation", some (.dec), none⟩),  -- 1252
  (⟨.stratos, 25⟩, .le ⟨t!"radiotap_db_tx_attenuation", some (.dec), none⟩),  -- 1255
  (⟨.stratos, 26⟩, .s8 t!"radiotap_dbm_tx_power"),  -- 1258
  (⟨.stratos, 27⟩, .le ⟨t!"radiotap_antenna", some (.dec), none⟩),  -- 1261
  (⟨.stratos, 28⟩, .le ⟨t!"radiotap_db_antsignal", some (.dec), none⟩),  -- 1264
  (⟨.stratos, 29⟩, .le ⟨t!"radiotap_db_antnoise", some (.dec), none⟩),  -- 1267
  (⟨.stratos, 30⟩, .le ⟨t!"radiotap_rx_flags", some (.hex 6), none⟩),  -- 1270
  (⟨.stratos, 31⟩, .le ⟨t!"radiotap_tx_flags", some (.hex 6), none⟩),  -- 1273
  (⟨.stratos, 32⟩, .le ⟨t!"radiotap_rts_retries", some (.dec), none⟩),  -- 1276
  (⟨.stratos, 33⟩, .le ⟨t!"radiotap_data_retries", some (.dec), none⟩),  -- 1279
  (⟨.stratos, 35⟩, .comp t!"radiotap_mcs" [1, 1, 1] [.hex 4, .dec, .dec]),  -- 1282
  (⟨.stratos, 36⟩, .comp t!"radiotap_ampdu_status" [4, 2, 1, 1] [.hex 10, .hex 6, .hex 4, .hex 2]),  -- 1285
  (⟨.stratos, 37⟩, .vht)  -- 1288
]

/-- `_str2bin[name]` (`none` is `KeyError`). -/
def lookupEnc (name : Str) : Option (Key × Enc) :=
  (str2binTable.find? fun e => e.1 == name).map (·.2)

/-- `_bin2str[key]` (`none` is `KeyError`). -/
def lookupDec (key : Key) : Option Dec :=
  (bin2strTable.find? fun e => e.1 == key).map (·.2)

end Ofpstr
