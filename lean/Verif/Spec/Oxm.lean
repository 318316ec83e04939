import Verif.Spec.Wire
import Verif.Spec.Text

/-!
# Specification: match fields and OXM TLVs

The field table follows the OpenFlow 1.3/1.5 field list (class 0x8000), the Nicira list of Open
vSwitch (classes 0 and 1), and the field numbers of the Stratos experimenter (class 0xffff).  It was
written independently of the tables of the library; `Props/Oxm.lean` compares the two.
-/

namespace Ofpstr.Spec

/-- What a field holds. -/
inductive Kind where
  /-- unsigned number, big endian, of so many bytes -/
  | uint (n : Nat)
  /-- port number of so many bytes -/
  | port (n : Nat)
  | mac | ipv4 | ipv6
  /-- name space and type, two bytes each -/
  | packetType
  /-- any number of bytes -/
  | bytes
  | ssid
  /-- unsigned number, little endian -/
  | le (n : Nat)
  /-- data rate in units of 500 kb/s -/
  | rate
  /-- frequency and flags, two bytes each -/
  | channel
  /-- little endian numbers of the given sizes -/
  | parts (sizes : List Nat)
  | vht
  /-- signed byte -/
  | signed
  deriving DecidableEq, Repr

/-- The number of value bytes, if it is fixed. -/
def Kind.size : Kind → Option Nat
  | .uint n => some n
  | .port n => some n
  | .mac => some 6
  | .ipv4 => some 4
  | .ipv6 => some 16
  | .packetType => some 4
  | .bytes => none
  | .ssid => none
  | .le n => some n
  | .rate => some 1
  | .channel => some 4
  | .parts sizes => some sizes.sum
  | .vht => some 12
  | .signed => some 1

/-- A match field: name, OXM class, field number, kind, and whether a mask can be given. -/
structure Field where
  name : Str
  cls : Nat
  num : Nat
  kind : Kind
  maskable : Bool
  deriving DecidableEq, Repr

/-- The field list. -/
def fields : List Field := [
  ⟨t!"in_port", 0x8000, 0, .port 4, false⟩,
  ⟨t!"in_phy_port", 0x8000, 1, .port 4, false⟩,
  ⟨t!"metadata", 0x8000, 2, .uint 8, true⟩,
  ⟨t!"eth_dst", 0x8000, 3, .mac, true⟩,
  ⟨t!"eth_src", 0x8000, 4, .mac, true⟩,
  ⟨t!"eth_type", 0x8000, 5, .uint 2, false⟩,
  ⟨t!"vlan_vid", 0x8000, 6, .uint 2, true⟩,
  ⟨t!"vlan_pcp", 0x8000, 7, .uint 1, false⟩,
  ⟨t!"ip_dscp", 0x8000, 8, .uint 1, false⟩,
  ⟨t!"ip_ecn", 0x8000, 9, .uint 1, false⟩,
  ⟨t!"ip_proto", 0x8000, 10, .uint 1, false⟩,
  ⟨t!"ipv4_src", 0x8000, 11, .ipv4, true⟩,
  ⟨t!"ipv4_dst", 0x8000, 12, .ipv4, true⟩,
  ⟨t!"tcp_src", 0x8000, 13, .uint 2, false⟩,
  ⟨t!"tcp_dst", 0x8000, 14, .uint 2, false⟩,
  ⟨t!"udp_src", 0x8000, 15, .uint 2, false⟩,
  ⟨t!"udp_dst", 0x8000, 16, .uint 2, false⟩,
  ⟨t!"sctp_src", 0x8000, 17, .uint 2, false⟩,
  ⟨t!"sctp_dst", 0x8000, 18, .uint 2, false⟩,
  ⟨t!"icmpv4_type", 0x8000, 19, .uint 1, false⟩,
  ⟨t!"icmpv4_code", 0x8000, 20, .uint 1, false⟩,
  ⟨t!"arp_op", 0x8000, 21, .uint 2, false⟩,
  ⟨t!"arp_spa", 0x8000, 22, .ipv4, true⟩,
  ⟨t!"arp_tpa", 0x8000, 23, .ipv4, true⟩,
  ⟨t!"arp_sha", 0x8000, 24, .mac, true⟩,
  ⟨t!"arp_tha", 0x8000, 25, .mac, true⟩,
  ⟨t!"ipv6_src", 0x8000, 26, .ipv6, true⟩,
  ⟨t!"ipv6_dst", 0x8000, 27, .ipv6, true⟩,
  ⟨t!"ipv6_flabel", 0x8000, 28, .uint 4, true⟩,
  ⟨t!"icmpv6_type", 0x8000, 29, .uint 1, false⟩,
  ⟨t!"icmpv6_code", 0x8000, 30, .uint 1, false⟩,
  ⟨t!"ipv6_nd_target", 0x8000, 31, .ipv6, true⟩,
  ⟨t!"ipv6_nd_sll", 0x8000, 32, .mac, true⟩,
  ⟨t!"ipv6_nd_tll", 0x8000, 33, .mac, true⟩,
  ⟨t!"mpls_label", 0x8000, 34, .uint 4, true⟩,
  ⟨t!"mpls_tc", 0x8000, 35, .uint 1, false⟩,
  ⟨t!"mpls_bos", 0x8000, 36, .uint 1, false⟩,
  ⟨t!"pbb_isid", 0x8000, 37, .uint 3, true⟩,
  ⟨t!"tunnel_id", 0x8000, 38, .uint 8, true⟩,
  ⟨t!"ipv6_exthdr", 0x8000, 39, .uint 2, true⟩,
  ⟨t!"pbb_uca", 0x8000, 41, .uint 1, false⟩,
  ⟨t!"tcp_flags", 0x8000, 42, .uint 2, true⟩,
  ⟨t!"actset_output", 0x8000, 43, .port 4, false⟩,
  ⟨t!"packet_type", 0x8000, 44, .packetType, false⟩,
  ⟨t!"nxm_in_port", 0x0000, 0, .port 2, false⟩,
  ⟨t!"nxm_eth_dst", 0x0000, 1, .mac, true⟩,
  ⟨t!"nxm_eth_src", 0x0000, 2, .mac, true⟩,
  ⟨t!"nxm_eth_type", 0x0000, 3, .uint 2, true⟩,
  ⟨t!"nxm_vlan_tci", 0x0000, 4, .uint 2, true⟩,
  ⟨t!"nxm_ip_tos", 0x0000, 5, .uint 1, true⟩,
  ⟨t!"nxm_ip_proto", 0x0000, 6, .uint 1, true⟩,
  ⟨t!"nxm_ip_src", 0x0000, 7, .ipv4, true⟩,
  ⟨t!"nxm_ip_dst", 0x0000, 8, .ipv4, true⟩,
  ⟨t!"nxm_tcp_src", 0x0000, 9, .uint 2, true⟩,
  ⟨t!"nxm_tcp_dst", 0x0000, 10, .uint 2, true⟩,
  ⟨t!"nxm_udp_src", 0x0000, 11, .uint 2, true⟩,
  ⟨t!"nxm_udp_dst", 0x0000, 12, .uint 2, true⟩,
  ⟨t!"nxm_icmp_type", 0x0000, 13, .uint 1, true⟩,
  ⟨t!"nxm_icmp_code", 0x0000, 14, .uint 1, true⟩,
  ⟨t!"nxm_arp_op", 0x0000, 15, .uint 2, true⟩,
  ⟨t!"nxm_arp_spa", 0x0000, 16, .ipv4, true⟩,
  ⟨t!"nxm_arp_tpa", 0x0000, 17, .ipv4, true⟩,
  ⟨t!"nxm_reg0", 0x0001, 0, .uint 4, true⟩,
  ⟨t!"nxm_reg1", 0x0001, 1, .uint 4, true⟩,
  ⟨t!"nxm_reg2", 0x0001, 2, .uint 4, true⟩,
  ⟨t!"nxm_reg3", 0x0001, 3, .uint 4, true⟩,
  ⟨t!"nxm_reg4", 0x0001, 4, .uint 4, true⟩,
  ⟨t!"nxm_reg5", 0x0001, 5, .uint 4, true⟩,
  ⟨t!"nxm_reg6", 0x0001, 6, .uint 4, true⟩,
  ⟨t!"nxm_reg7", 0x0001, 7, .uint 4, true⟩,
  ⟨t!"nxm_tun_id", 0x0001, 16, .uint 8, true⟩,
  ⟨t!"nxm_arp_sha", 0x0001, 17, .mac, true⟩,
  ⟨t!"nxm_arp_tha", 0x0001, 18, .mac, true⟩,
  ⟨t!"nxm_ipv6_src", 0x0001, 19, .ipv6, true⟩,
  ⟨t!"nxm_ipv6_dst", 0x0001, 20, .ipv6, true⟩,
  ⟨t!"nxm_icmpv6_type", 0x0001, 21, .uint 1, true⟩,
  ⟨t!"nxm_icmpv6_code", 0x0001, 22, .uint 1, true⟩,
  ⟨t!"nxm_nd_target", 0x0001, 23, .ipv6, true⟩,
  ⟨t!"nxm_nd_sll", 0x0001, 24, .mac, true⟩,
  ⟨t!"nxm_nd_tll", 0x0001, 25, .mac, true⟩,
  ⟨t!"nxm_ip_frag", 0x0001, 26, .uint 1, true⟩,
  ⟨t!"nxm_ipv6_label", 0x0001, 27, .uint 4, true⟩,
  ⟨t!"nxm_ip_ecn", 0x0001, 28, .uint 1, true⟩,
  ⟨t!"nxm_ip_ttl", 0x0001, 29, .uint 1, true⟩,
  ⟨t!"nxm_tun_ipv4_src", 0x0001, 31, .ipv4, true⟩,
  ⟨t!"nxm_tun_ipv4_dst", 0x0001, 32, .ipv4, true⟩,
  ⟨t!"nxm_pkt_mark", 0x0001, 33, .uint 4, true⟩,
  ⟨t!"nxm_tcp_flags", 0x0001, 34, .uint 2, true⟩,
  ⟨t!"nxm_dp_hash", 0x0001, 35, .uint 4, true⟩,
  ⟨t!"nxm_recirc_id", 0x0001, 36, .uint 4, true⟩,
  ⟨t!"nxm_conj_id", 0x0001, 37, .uint 4, true⟩,
  ⟨t!"nxm_tun_gbp_id", 0x0001, 38, .uint 2, true⟩,
  ⟨t!"nxm_tun_gbp_flags", 0x0001, 39, .uint 1, true⟩,
  ⟨t!"nxm_tun_metadata0", 0x0001, 40, .bytes, true⟩,
  ⟨t!"nxm_tun_metadata1", 0x0001, 41, .bytes, true⟩,
  ⟨t!"nxm_tun_metadata2", 0x0001, 42, .bytes, true⟩,
  ⟨t!"nxm_tun_metadata3", 0x0001, 43, .bytes, true⟩,
  ⟨t!"nxm_tun_metadata4", 0x0001, 44, .bytes, true⟩,
  ⟨t!"nxm_tun_metadata5", 0x0001, 45, .bytes, true⟩,
  ⟨t!"nxm_tun_metadata6", 0x0001, 46, .bytes, true⟩,
  ⟨t!"nxm_tun_metadata7", 0x0001, 47, .bytes, true⟩,
  ⟨t!"nxm_tun_metadata8", 0x0001, 48, .bytes, true⟩,
  ⟨t!"nxm_tun_metadata9", 0x0001, 49, .bytes, true⟩,
  ⟨t!"nxm_tun_metadata10", 0x0001, 50, .bytes, true⟩,
  ⟨t!"nxm_tun_metadata11", 0x0001, 51, .bytes, true⟩,
  ⟨t!"nxm_tun_metadata12", 0x0001, 52, .bytes, true⟩,
  ⟨t!"nxm_tun_metadata13", 0x0001, 53, .bytes, true⟩,
  ⟨t!"nxm_tun_metadata14", 0x0001, 54, .bytes, true⟩,
  ⟨t!"nxm_tun_metadata15", 0x0001, 55, .bytes, true⟩,
  ⟨t!"nxm_tun_metadata16", 0x0001, 56, .bytes, true⟩,
  ⟨t!"nxm_tun_metadata17", 0x0001, 57, .bytes, true⟩,
  ⟨t!"nxm_tun_metadata18", 0x0001, 58, .bytes, true⟩,
  ⟨t!"nxm_tun_metadata19", 0x0001, 59, .bytes, true⟩,
  ⟨t!"nxm_tun_metadata20", 0x0001, 60, .bytes, true⟩,
  ⟨t!"nxm_tun_metadata21", 0x0001, 61, .bytes, true⟩,
  ⟨t!"nxm_tun_metadata22", 0x0001, 62, .bytes, true⟩,
  ⟨t!"nxm_tun_metadata23", 0x0001, 63, .bytes, true⟩,
  ⟨t!"nxm_tun_metadata24", 0x0001, 64, .bytes, true⟩,
  ⟨t!"nxm_tun_metadata25", 0x0001, 65, .bytes, true⟩,
  ⟨t!"nxm_tun_metadata26", 0x0001, 66, .bytes, true⟩,
  ⟨t!"nxm_tun_metadata27", 0x0001, 67, .bytes, true⟩,
  ⟨t!"nxm_tun_metadata28", 0x0001, 68, .bytes, true⟩,
  ⟨t!"nxm_tun_metadata29", 0x0001, 69, .bytes, true⟩,
  ⟨t!"nxm_tun_metadata30", 0x0001, 70, .bytes, true⟩,
  ⟨t!"nxm_tun_metadata31", 0x0001, 71, .bytes, true⟩,
  ⟨t!"nxm_tun_metadata32", 0x0001, 72, .bytes, true⟩,
  ⟨t!"nxm_tun_metadata33", 0x0001, 73, .bytes, true⟩,
  ⟨t!"nxm_tun_metadata34", 0x0001, 74, .bytes, true⟩,
  ⟨t!"nxm_tun_metadata35", 0x0001, 75, .bytes, true⟩,
  ⟨t!"nxm_tun_metadata36", 0x0001, 76, .bytes, true⟩,
  ⟨t!"nxm_tun_metadata37", 0x0001, 77, .bytes, true⟩,
  ⟨t!"nxm_tun_metadata38", 0x0001, 78, .bytes, true⟩,
  ⟨t!"nxm_tun_metadata39", 0x0001, 79, .bytes, true⟩,
  ⟨t!"nxm_tun_metadata40", 0x0001, 80, .bytes, true⟩,
  ⟨t!"nxm_tun_metadata41", 0x0001, 81, .bytes, true⟩,
  ⟨t!"nxm_tun_metadata42", 0x0001, 82, .bytes, true⟩,
  ⟨t!"nxm_tun_metadata43", 0x0001, 83, .bytes, true⟩,
  ⟨t!"nxm_tun_metadata44", 0x0001, 84, .bytes, true⟩,
  ⟨t!"nxm_tun_metadata45", 0x0001, 85, .bytes, true⟩,
  ⟨t!"nxm_tun_metadata46", 0x0001, 86, .bytes, true⟩,
  ⟨t!"nxm_tun_metadata47", 0x0001, 87, .bytes, true⟩,
  ⟨t!"nxm_tun_metadata48", 0x0001, 88, .bytes, true⟩,
  ⟨t!"nxm_tun_metadata49", 0x0001, 89, .bytes, true⟩,
  ⟨t!"nxm_tun_metadata50", 0x0001, 90, .bytes, true⟩,
  ⟨t!"nxm_tun_metadata51", 0x0001, 91, .bytes, true⟩,
  ⟨t!"nxm_tun_metadata52", 0x0001, 92, .bytes, true⟩,
  ⟨t!"nxm_tun_metadata53", 0x0001, 93, .bytes, true⟩,
  ⟨t!"nxm_tun_metadata54", 0x0001, 94, .bytes, true⟩,
  ⟨t!"nxm_tun_metadata55", 0x0001, 95, .bytes, true⟩,
  ⟨t!"nxm_tun_metadata56", 0x0001, 96, .bytes, true⟩,
  ⟨t!"nxm_tun_metadata57", 0x0001, 97, .bytes, true⟩,
  ⟨t!"nxm_tun_metadata58", 0x0001, 98, .bytes, true⟩,
  ⟨t!"nxm_tun_metadata59", 0x0001, 99, .bytes, true⟩,
  ⟨t!"nxm_tun_metadata60", 0x0001, 100, .bytes, true⟩,
  ⟨t!"nxm_tun_metadata61", 0x0001, 101, .bytes, true⟩,
  ⟨t!"nxm_tun_metadata62", 0x0001, 102, .bytes, true⟩,
  ⟨t!"nxm_tun_metadata63", 0x0001, 103, .bytes, true⟩,
  ⟨t!"nxm_tun_flags", 0x0001, 104, .uint 2, true⟩,
  ⟨t!"nxm_ct_state", 0x0001, 105, .uint 4, true⟩,
  ⟨t!"nxm_ct_zone", 0x0001, 106, .uint 2, false⟩,
  ⟨t!"nxm_ct_label", 0x0001, 108, .uint 16, true⟩,
  ⟨t!"nxm_tun_ipv6_src", 0x0001, 109, .ipv6, true⟩,
  ⟨t!"nxm_tun_ipv6_dst", 0x0001, 110, .ipv6, true⟩,
  ⟨t!"dot11", 0xffff, 2, .uint 1, false⟩,
  ⟨t!"dot11_frame_ctrl", 0xffff, 3, .bytes, true⟩,
  ⟨t!"dot11_addr1", 0xffff, 4, .mac, true⟩,
  ⟨t!"dot11_addr2", 0xffff, 5, .mac, true⟩,
  ⟨t!"dot11_addr3", 0xffff, 6, .mac, true⟩,
  ⟨t!"dot11_addr4", 0xffff, 7, .mac, true⟩,
  ⟨t!"dot11_ssid", 0xffff, 8, .ssid, true⟩,
  ⟨t!"dot11_action_category", 0xffff, 9, .bytes, true⟩,
  ⟨t!"dot11_public_action", 0xffff, 10, .uint 1, false⟩,
  ⟨t!"dot11_tag", 0xffff, 11, .uint 1, false⟩,
  ⟨t!"dot11_tag_vendor", 0xffff, 12, .bytes, true⟩,
  ⟨t!"radiotap_tsft", 0xffff, 16, .le 8, false⟩,
  ⟨t!"radiotap_flags", 0xffff, 17, .le 1, false⟩,
  ⟨t!"radiotap_rate", 0xffff, 18, .rate, false⟩,
  ⟨t!"radiotap_channel", 0xffff, 19, .channel, true⟩,
  ⟨t!"radiotap_fhss", 0xffff, 20, .bytes, true⟩,
  ⟨t!"radiotap_dbm_antsignal", 0xffff, 21, .signed, false⟩,
  ⟨t!"radiotap_dbm_antnoise", 0xffff, 22, .signed, false⟩,
  ⟨t!"radiotap_lock_quality", 0xffff, 23, .le 2, false⟩,
  ⟨t!"radiotap_tx_attenuation", 0xffff, 24, .le 2, false⟩,
  ⟨t!"radiotap_db_tx_attenuation", 0xffff, 25, .le 2, false⟩,
  ⟨t!"radiotap_dbm_tx_power", 0xffff, 26, .signed, false⟩,
  ⟨t!"radiotap_antenna", 0xffff, 27, .le 1, false⟩,
  ⟨t!"radiotap_db_antsignal", 0xffff, 28, .le 1, false⟩,
  ⟨t!"radiotap_db_antnoise", 0xffff, 29, .le 1, false⟩,
  ⟨t!"radiotap_rx_flags", 0xffff, 30, .le 2, false⟩,
  ⟨t!"radiotap_tx_flags", 0xffff, 31, .le 2, false⟩,
  ⟨t!"radiotap_rts_retries", 0xffff, 32, .le 1, false⟩,
  ⟨t!"radiotap_data_retries", 0xffff, 33, .le 1, false⟩,
  ⟨t!"radiotap_mcs", 0xffff, 35, .parts [1, 1, 1], true⟩,
  ⟨t!"radiotap_ampdu_status", 0xffff, 36, .parts [4, 2, 1, 1], true⟩,
  ⟨t!"radiotap_vht", 0xffff, 37, .vht, true⟩
]

/-- The experimenter class. -/
def Field.experimenter (f : Field) : Bool := f.cls == 0xffff

/-- The TLV header of a field whose value and mask take `n` bytes together: class, field number and
mask bit, length; experimenter fields have the experimenter id as part of the body. -/
def Field.header (f : Field) (hasMask : Bool) (n : Nat) : Bytes :=
  u16 f.cls ++ u8 (2 * f.num + if hasMask then 1 else 0) ++
    u8 (n + if f.experimenter then 4 else 0) ++
    if f.experimenter then u32 0xff00e04d else []

/-- A match on one field. -/
structure Tlv where
  field : Field
  value : Bytes
  mask : Option Bytes
  deriving DecidableEq, Repr

/-- Value and mask. -/
def Tlv.body (t : Tlv) : Bytes := t.value ++ t.mask.getD []

/-- The bytes of a match on one field. -/
def Tlv.wire (t : Tlv) : Bytes := t.field.header t.mask.isSome t.body.length ++ t.body

/-- The bytes of a match. -/
def wireAll (ts : List Tlv) : Bytes := ts.flatMap Tlv.wire

/-- A well-formed match on one field: a field of the list, the value of the right size, a mask only
where it is possible and of the size of the value, the length fitting its byte. -/
structure Tlv.Valid (t : Tlv) : Prop where
  mem : t.field ∈ fields
  size : ∀ n, t.field.kind.size = some n → t.value.length = n
  mask : ∀ m, t.mask = some m → t.field.maskable = true ∧ m.length = t.value.length
  fits : t.body.length + (if t.field.experimenter then 4 else 0) < 256

/-! ## What the text form can carry -/

/-- The fields whose table entries lose information: the registers are printed without their value
(oxm.py:1095-1099), `nxm_ip_frag` is printed under another name (oxm.py:1132-1133), and the
connection-tracking label is cut to four bytes (oxm.py:1186-1187). -/
def lossyNames : List Str := [t!"nxm_reg0", t!"nxm_reg1", t!"nxm_reg2", t!"nxm_reg3", t!"nxm_reg4",
  t!"nxm_reg5", t!"nxm_reg6", t!"nxm_reg7", t!"nxm_ip_frag", t!"nxm_ct_label"]

/-- Bytes that a printed SSID shows as they are and that do not disturb the text syntax: graphic
ASCII without `( , / < = [ {`. -/
def SsidByte (b : UInt8) : Prop :=
  33 ≤ b.toNat ∧ b.toNat ≤ 126 ∧ b.toNat ∉ [40, 44, 47, 60, 61, 91, 123]

instance : DecidablePred SsidByte := fun b => by unfold SsidByte; infer_instance

/-- A non-empty SSID of such bytes; 76 is the line length of quoted-printable, and a single `.` is
quoted. -/
def PlainSsid (p : Bytes) : Prop := (∀ x ∈ p, SsidByte x) ∧ p.length ≤ 76 ∧ p ≠ [46] ∧ p ≠ []

instance : DecidablePred PlainSsid := fun b => by unfold PlainSsid; infer_instance

/-- The four MCS/NSS bytes of a VHT value. -/
def vhtUsers (p : Bytes) : Bytes := (p.drop 4).take 4

/-- The matches that survive printing: no field of `lossyNames`; a byte string without mask is not
empty; an SSID is plain (a masked one may have zero bytes at its end); a VHT value (and mask) has a
non-zero user part. -/
structure Tlv.Lossless (t : Tlv) : Prop where
  name : t.field.name ∉ lossyNames
  bytes : t.field.kind = .bytes → t.mask = none → t.value ≠ []
  ssid : t.field.kind = .ssid → t.mask = none → PlainSsid t.value
  ssidMask : t.field.kind = .ssid → t.mask ≠ none → ∃ p k, PlainSsid p ∧ t.value = p ++ pad k
  vht : t.field.kind = .vht → vhtUsers t.value ≠ [0, 0, 0, 0]
  vhtMask : t.field.kind = .vht → ∀ m, t.mask = some m → vhtUsers m ≠ [0, 0, 0, 0]

/-! ## Match texts -/

/-- `Reads meaning u b rest`: the text `u` is a list of `name=value` items, with separators between
them, up to `rest`; `b` puts the bytes of the items together, each item meaning what `meaning` says.
Reading ends early only at an item of a byte-string or SSID field with an empty value. -/
inductive Reads (meaning : Field → Str → Bytes → Prop) : Str → Bytes → Str → Prop
  | nil : Reads meaning [] [] []
  | item (h w1 w2 v r : Str) (f : Field) (bin b : Bytes) (rest : Str) :
      (∀ c ∈ h, Space c ∨ c = ',') → (∀ c ∈ w1, Space c) → (∀ c ∈ w2, Space c) → f ∈ fields →
      v ≠ [] → meaning f v bin → Reads meaning r b rest →
      Reads meaning (h ++ (f.name ++ (w1 ++ '=' :: w2 ++ (v ++ r)))) (bin ++ b) rest
  | stop (h w1 w2 r : Str) (f : Field) :
      (∀ c ∈ h, Space c ∨ c = ',') → (∀ c ∈ w1, Space c) → (∀ c ∈ w2, Space c) → f ∈ fields →
      f.kind = .bytes ∨ f.kind = .ssid → (∀ c t, r = c :: t → SepChar c ∨ c = '=') →
      Reads meaning (h ++ (f.name ++ (w1 ++ '=' :: w2 ++ r))) [] r

/-- The four bytes that an experimenter field has in front of its value. -/
def Field.extra (f : Field) : Nat := if f.experimenter then 4 else 0

/-- A sequence of TLVs of known fields with the right length byte, except that a byte-string or SSID
body that is too long for it has the length byte 255. -/
inductive TlvSeq : Bytes → Prop
  | nil : TlvSeq []
  | exact (f : Field) (hm : Bool) (body rest : Bytes) : f ∈ fields → body.length + f.extra ≤ 255 →
      TlvSeq rest → TlvSeq (f.header hm body.length ++ body ++ rest)
  | tooLong (f : Field) (hm : Bool) (body rest : Bytes) : f ∈ fields →
      f.kind = .bytes ∨ f.kind = .ssid → 255 < body.length + f.extra →
      TlvSeq rest → TlvSeq (f.header hm (255 - f.extra) ++ body ++ rest)

/-- The mask with the leading `n` of `8 * k` bits set. -/
def prefixMask (k n : Nat) : Bytes := be k (2 ^ (8 * k) - 2 ^ (8 * k - n))

example : prefixMask 4 24 = [255, 255, 255, 0] := by decide
example : prefixMask 4 20 = [255, 255, 240, 0] := by decide

/-- A byte string made of TLVs: after the four header bytes follow as many bytes as the last of them
says. -/
inductive Walk : Bytes → Prop
  | nil : Walk []
  | cons (a b c l : UInt8) (body rest : Bytes) : body.length = l.toNat → Walk rest →
      Walk (a :: b :: c :: l :: (body ++ rest))

end Ofpstr.Spec
