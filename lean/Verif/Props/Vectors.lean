import Verif.Model.Ofp4

/-!
# The vectors of the test suite, evaluated in the model

Every vector of `/repo/test` is checked by the kernel against the model, as the tests of the library check
the code.  They are no proofs of properties, but evidence that the model does what the code does.
-/

namespace Ofpstr

/-- `test_util.py:15-18`: the parts of `get_token`. -/
def tokenTest (v : Str × Str × Str × Str) : Bool := getToken v.1 == v.2

example : [
  (t!"a,b,c", t!"", t!"a", t!",b,c"),
  (t!",b,c", t!",", t!"b", t!",c"),
  (t!",c", t!",", t!"c", t!""),
  (t!"a b c", t!"", t!"a", t!" b c"),
  (t!" b c", t!" ", t!"b", t!" c"),
  (t!" c", t!" ", t!"c", t!""),
  (t!"a = b, c = d", t!"", t!"a", t!" = b, c = d"),
  (t!" = b, c = d", t!" = ", t!"b", t!", c = d"),
  (t!"learn(hoge),learn(geho)", t!"", t!"learn(hoge)", t!",learn(geho)")].all tokenTest = true := by decide +kernel

/-- `test_oxm.py:65-69`: the text is read completely, and printed as it was. -/
def oxmTest (s : Str) : Bool :=
  match str2oxm s with
  | .ok (b, n) => n == s.length && (match oxm2str b with | .ok t => t == s | .error _ => false)
  | .error _ => false

/-- `test_oxm.py:71-76`: the name is read as an id of four or eight bytes, and printed as it was. -/
def idTest (s : Str) : Bool :=
  let name := s.takeWhile (· != '=')
  match str2oxmid false name with
  | .ok b => (b.length == 4 || b.length == 8) &&
    (match oxmid2str b with | .ok t => t == name | .error _ => false)
  | .error _ => false

/-- The rules of `test_oxm.py:6-64`. -/
def oxmRules : List Str := [
  t!"in_port=any",
  t!"in_port=10",
  t!"in_phy_port=10",
  t!"metadata=0x5/0xff",
  t!"eth_src=00:00:00:00:00:00",
  t!"eth_src=00:00:00:00:00:00/01:00:00:00:00:00",
  t!"ipv4_src=192.168.0.1",
  t!"ipv4_src=192.168.0.1/255.255.255.0",
  t!"ipv4_src=192.168.0.1/255.0.255.255",
  t!"ipv6_src=::/ffff::",
  t!"vlan_vid=0x5",
  t!"vlan_vid=0x1000/0x1000",
  t!"pbb_isid=0x5",
  t!"packet_type=0x2:0x3",
  t!"dot11=0",
  t!"dot11=1",
  t!"dot11_frame_ctrl=0000",
  t!"dot11_frame_ctrl=0000/fff0",
  t!"dot11_addr1=ff:ff:ff:ff:ff:ff",
  t!"dot11_addr1=01:00:00:00:00:00/01:00:00:00:00:00",
  t!"dot11_ssid=stratos1",
  t!"dot11_ssid=stratos/ffffffffffffff00000000",
  t!"dot11_action_category=03",
  t!"dot11_action_category=7f00e04d",
  t!"dot11_public_action=10",
  t!"dot11_tag=0",
  t!"dot11_tag_vendor=00e04d",
  t!"radiotap_tsft=1",
  t!"radiotap_flags=0x00",
  t!"radiotap_rate=500.0K",
  t!"radiotap_rate=11.0M",
  t!"radiotap_channel=2412:0x1234",
  t!"radiotap_channel=2412:0x1234/:0x00ff",
  t!"radiotap_fhss=0102",
  t!"radiotap_dbm_antsignal=-80",
  t!"radiotap_mcs=0x01:1:2",
  t!"radiotap_ampdu_status=0x12345678:0x1234:0x12:0x12",
  t!"radiotap_ampdu_status=:::/0x12345678:0x1234:0x12:0x12",
  t!"radiotap_vht=0x1234:0x12:0:12345678:0x12:0:0x0000",
  t!"nxm_in_port=any",
  t!"nxm_eth_dst=00:11:22:33:44:55",
  t!"nxm_eth_src=00:11:22:33:44:55/01:00:00:00:00:00",
  t!"nxm_eth_type=0x88a8",
  t!"nxm_vlan_tci=0x3001",
  t!"nxm_ip_tos=0x10",
  t!"nxm_ip_proto=6",
  t!"nxm_ip_src=192.168.0.1",
  t!"nxm_ip_dst=192.168.0.0/255.255.255.0",
  t!"nxm_tcp_src=80",
  t!"nxm_tcp_dst=8080",
  t!"nxm_udp_src=53",
  t!"nxm_udp_dst=4789",
  t!"nxm_icmp_type=30",
  t!"nxm_icmp_code=0",
  t!"nxm_arp_op=1",
  t!"nxm_arp_spa=192.168.0.1",
  t!"nxm_arp_tpa=192.168.0.0/255.255.255.0"]

example : oxmRules.all oxmTest = true := by decide +kernel
example : oxmRules.all idTest = true := by decide +kernel

/-- `test_ofp4.py:66-70`. -/
def actTest (s : Str) : Bool :=
  match str2act s with
  | .ok (b, n) => n == s.length && (match act2str b with | .ok t => t == s | .error _ => false)
  | .error _ => false

/-- `test_ofp4.py:72-83`: the flow given first prints as the second. -/
def modTest (command : Int) (v : Str × Str) : Bool :=
  match str2mod v.1 command 0 with
  | .ok b => (match mod2str b with | .ok t => t == v.2 | .error _ => false)
  | .error _ => false

example : [
  t!"output=controller",
  t!"output=1",
  t!"copy_ttl_out",
  t!"copy_ttl_in",
  t!"set_mpls_ttl=3",
  t!"dec_mpls_ttl",
  t!"push_vlan=0x8100",
  t!"pop_vlan",
  t!"push_mpls=0x8847",
  t!"pop_mpls=0x0800",
  t!"set_queue=1",
  t!"group=1",
  t!"set_nw_ttl=3",
  t!"dec_nw_ttl",
  t!"set_vlan_vid=0x10",
  t!"push_pbb=0x88e7",
  t!"pop_pbb",
  t!"cnt_ids(0x1,0x2,0x3)",
  t!"reg_load(nxm_vlan_tci=0xa/0x0fff)",
  t!"reg_load2(nxm_vlan_tci=0xa/0x0fff)",
  t!"reg_move(nxm_eth_dst=nxm_eth_src)",
  t!"reg_move(nxm_eth_dst[0:4]=nxm_eth_src[4:8])",
  t!"resubmit(in_port)",
  t!"resubmit(1)",
  t!"resubmit_table(in_port,all)",
  t!"resubmit_table(1,1)",
  t!"set_tunnel(0x11223344)",
  t!"set_tunnel64(0x1122334455667788)",
  t!"pop_queue",
  t!"note(openflow)",
  t!"multipath(eth_src,50,hrw,12,0x0,nxm_reg0[0:4])",
  t!"bundle(eth_src,50,active_backup,nxm_in_port,slaves(1,2,3))",
  t!"bundle_load(symmetric_l4,60,hrw,nxm_in_port,nxm_reg0[0:16],slaves(2,3))",
  t!"output_reg(in_port)",
  t!"output_reg(in_port[0:1])",
  t!"output_reg2(in_port)",
  t!"output_reg2(in_port[0:1])",
  t!"learn(nxm_in_port=0x10,nxm_eth_dst=nxm_eth_src,reg_load(nxm_reg1[16:32]=nxm_in_port))"].all actTest = true := by decide +kernel

example : ([
  t!"cookie=0x1",
  t!"cookie=0x1/0xf",
  t!"table=2",
  t!"priority=10",
  t!"buffer=0x3",
  t!"idle_timeout=10",
  t!"hard_timeout=4",
  t!"@metadata=0x1,@meter=3,@apply,@clear,@write,@goto=5",
  t!"dot11=1,dot11_frame_ctrl=40/ff,@apply,output=controller",
  t!"table=1,priority=10,in_port=1,@apply,output=controller,@goto=2",
  t!"priority=20,idle_timeout=30,dot11=1,dot11_frame_ctrl=00/0f,dot11_addr2=01:23:45:67:89:01,@apply,output=controller",
  t!"cookie=0x1/0xf,priority=4,buffer=0x1,idle_timeout=300,hard_timeout=300,vlan_vid=0x1,@apply,set_vlan_vid=0x2,output=3,@goto=3"].map fun s => (s, s)).all (modTest 0) = true := by decide +kernel

example : ([
  t!"out_port=1",
  t!"out_port=controller",
  t!"out_group=1"].map fun s => (s, s)).all (modTest 3) = true := by decide +kernel

example : [
  (t!"@apply,set_nxm_tun_ipv4_src(192.168.0.1),set_nxm_tun_ipv4_dst(192.168.0.2)",
    t!"@apply,set_nxm_tun_ipv4_src=192.168.0.1,set_nxm_tun_ipv4_dst=192.168.0.2")].all (modTest 0) = true := by decide +kernel

/-- `test_ofp4_mp.py:23-36`: the text prints as it was. -/
def mpTest (enc : Str → Py Bytes) (dec : Bytes → Py Str) (s : Str) : Bool :=
  match enc s with
  | .ok b => (match dec b with | .ok t => t == s | .error _ => false)
  | .error _ => false

example : [
  t!"group=1,all,@bucket,output=1,@bucket,output=2\ngroup=2,select,@bucket,output=1,@bucket,output=2\ngroup=4,indirect,@bucket,output=2\ngroup=3,ff,@bucket,watch_port=7,output=2"].all (mpTest (text2mpgroupdesc · 19 0) mpgroupdesc2text) = true := by decide +kernel

example : [
  t!"group=1 @bucket,packet_count=1,@bucket,packet_count=2\ngroup=2 packet_count=5,byte_count=6,duration_sec=1,duration_nsec=2,@bucket,byte_count=4"].all (mpTest (text2mpgroup · 19 0) mpgroup2text) = true := by decide +kernel

/-! Neither vector of `test_mpflow` (`test_ofp4_mp.py:4-9`) comes back: a rule without a priority is sent with
priority 0 (`ofp4.py:790`), but only priority 0x8000 is left out when printing (`ofp4.py:870`); see C44. -/
example : mpTest (text2mpflow · 19 0) mpflow2text
  t!"in_port=1,@apply,output=2\nin_port=2,@apply,output=1" = false := by decide +kernel
example : text2mpflow t!"in_port=1,@apply,output=2\nin_port=2,@apply,output=1" 19 0 >>= mpflow2text =
  .ok t!"priority=0,in_port=1,@apply,output=2\npriority=0,in_port=2,@apply,output=1" := by decide +kernel
example : text2mpflow t!"packet_count=1,byte_count=2,duration_sec=3,duration_nsec=4 in_port=1,@apply,output=2\npacket_count=5,byte_count=6,duration_sec=7,duration_nsec=8 in_port=1,@apply,output=2" 19 0 >>= mpflow2text =
  .ok t!"packet_count=1,byte_count=2,duration_sec=3,duration_nsec=4 priority=0,in_port=1,@apply,output=2\npacket_count=5,byte_count=6,duration_sec=7,duration_nsec=8 priority=0,in_port=1,@apply,output=2" := by decide +kernel

end Ofpstr
