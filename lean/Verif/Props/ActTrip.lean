import Verif.Lemmas.FlowTrip

/-!
# C28, C49: actions survive printing and parsing
-/

namespace Ofpstr
open Spec

/-! ## C49 -/

/-- C49, and the same for the standard actions: a well-formed action of those that `Act.Lossless`
names is printed as a text that parses to exactly the bytes of the action, up to the end of the text
and in the middle of any list.  Missing: the actions that are not lossless, for which it is false
(`C49_lossy_refuted`). -/
theorem C49_roundtrip_partial (a : Act) (hv : a.Valid) (hl : a.Lossless) :
    ∃ text, act2str a.wire = .ok text ∧ str2act text = .ok (a.wire, text.length) ∧
      ∀ h r, Head h → Boundary r → str2act (h ++ (text ++ r)) = .ok (a.wire, h.length + text.length) := by
  obtain ⟨text, ht⟩ := act_trip a hv hl
  refine ⟨text, ?_, ?_, ht.reads⟩
  · have := act2str_list [(a.wire, text)] (by simpa using ht)
    simpa [commaList] using this
  · have := ht.reads [] [] head_nil atEnd_nil
    simpa using this

/-- The round trip of one action, as a computation. -/
def actBack (b : Bytes) : Bool :=
  match act2str b with
  | .ok s => decide (str2act s = .ok (b, s.length))
  | .error _ => false

theorem actBack_iff (b : Bytes) :
    actBack b = true ↔ ∃ text, act2str b = .ok text ∧ str2act text = .ok (b, text.length) := by
  unfold actBack
  split
  · rename_i s hs; simp [hs]
  · rename_i e hs; simp [hs]

/-- Fields used below. -/
def fReg0 : Field := ⟨t!"nxm_reg0", 0x0001, 0, .uint 4, true⟩
def fInPort : Field := ⟨t!"in_port", 0x8000, 0, .port 4, false⟩
def fTcpDst : Field := ⟨t!"tcp_dst", 0x8000, 14, .uint 2, false⟩
def fEthType : Field := ⟨t!"eth_type", 0x8000, 5, .uint 2, false⟩
def fIpv6Src : Field := ⟨t!"ipv6_src", 0x8000, 26, .ipv6, true⟩
def fIpFrag : Field := ⟨t!"nxm_ip_frag", 0x0001, 26, .uint 1, true⟩
def fCtLabel : Field := ⟨t!"nxm_ct_label", 0x0001, 108, .uint 16, true⟩
def fSsid : Field := ⟨t!"dot11_ssid", 0xffff, 8, .ssid, true⟩

/-- Well-formed actions, one for each way of not being `Lossless`. -/
def lossyActs : List Act := [
  .output 1 128, .std ⟨t!"set_nw_ttl", 23, .ttl⟩ 5, .resubmit 0xff01, .resubmitTable 0xfff9 3, .setTunnel64 5,
  .note [41], .note [10], .note [], .note [1, 2, 3], .cntIds [],
  .regLoad fReg0 0 32 5, .regLoad fTcpDst 0 8 5, .regLoad fInPort 0 8 5,
  .regMove fIpFrag 0 fReg0 0 2, .regMove fReg0 0 fIpFrag 0 2, .regMove fCtLabel 0 fReg0 0 32,
  .regMove fReg0 0 fIpv6Src 0 32,
  .multipath 0 0 0 0 0 fIpFrag 0 8, .multipath 0 0 0 0 0 fCtLabel 0 8,
  .bundle 0 0 0 fInPort [0xfffd], .bundle 0 0 0 fEthType [1], .bundle 0 0 0 fIpFrag [1],
  .bundleLoad 0 0 0 fInPort fReg0 0 32 [1], .bundleLoad 0 0 0 fEthType fInPort 0 32 [1],
  .bundleLoad 0 0 0 fInPort fInPort 4 8 [1], .bundleLoad 0 0 0 fInPort fInPort 0 8 [0xfffd],
  .bundleLoad 0 0 0 fIpFrag fInPort 0 8 [1], .bundleLoad 0 0 0 fInPort fIpFrag 0 8 [1],
  .outputReg fReg0 8 16 0xffff, .outputReg fReg0 0 16 128, .outputReg fIpv6Src 0 64 0xffff,
  .outputReg fIpFrag 0 8 0xffff,
  .outputReg2 fReg0 8 16 0xffff, .outputReg2 fReg0 0 16 128, .outputReg2 fIpv6Src 0 64 0xffff,
  .outputReg2 fIpFrag 0 8 0xffff,
  .learn { priority := 5 } [⟨false, .imm 6, fTcpDst, 0, 16⟩], .learn {} [],
  .learn {} [⟨false, .imm 1, fIpFrag, 0, 8⟩], .learn {} [⟨true, .field fIpFrag 0, fReg0, 0, 8⟩]]

instance (f : Field) (o n : Nat) : Decidable (Range f o n) := by unfold Range; infer_instance

instance (i : LearnItem) : Decidable i.Valid := by
  obtain ⟨l, s, d, o, n⟩ := i
  cases s <;> (unfold LearnItem.Valid; dsimp only; infer_instance)

/-- C49 is false of well-formed actions: each of these is printed as a text of another action, as a
text that is refused, or not at all. -/
theorem C49_lossy_refuted (a : Act) (ha : a ∈ lossyActs) :
    a.Valid ∧ ¬ ∃ text, act2str a.wire = .ok text ∧ str2act text = .ok (a.wire, text.length) := by
  have h1 : ∀ a ∈ lossyActs, actBack a.wire = false := by decide +kernel
  refine ⟨?_, by rw [← actBack_iff, h1 a ha]; simp⟩
  simp only [lossyActs, List.mem_cons, List.not_mem_nil, or_false] at ha
  rcases ha with rfl | rfl | rfl | rfl | rfl | rfl | rfl | rfl | rfl | rfl | rfl | rfl | rfl | rfl | rfl | rfl |
    rfl | rfl | rfl | rfl | rfl | rfl | rfl | rfl | rfl | rfl | rfl | rfl | rfl | rfl | rfl | rfl | rfl | rfl |
    rfl | rfl | rfl | rfl | rfl | rfl <;> (unfold Act.Valid; dsimp only; decide +kernel)

/-- C49 is false of `reg_load2` of a register, whose value is not printed, and of an SSID with a closing
bracket. -/
theorem C49_reg_load2_refuted :
    ∀ t ∈ [(⟨fReg0, [0, 0, 0, 5], none⟩ : Tlv), ⟨fSsid, [41], none⟩],
      t.Valid ∧ ¬ ∃ text, act2str (Act.regLoad2 t).wire = .ok text ∧
        str2act text = .ok ((Act.regLoad2 t).wire, text.length) := by
  have h1 : ∀ t ∈ [(⟨fReg0, [0, 0, 0, 5], none⟩ : Tlv), ⟨fSsid, [41], none⟩],
      t.field ∈ fields ∧ actBack (Act.regLoad2 t).wire = false := by decide +kernel
  intro t ht
  obtain ⟨h2, h3⟩ := h1 t ht
  refine ⟨⟨h2, ?_, ?_, ?_⟩, by rw [← actBack_iff, h3]; simp⟩ <;>
    (simp only [List.mem_cons, List.not_mem_nil, or_false] at ht; rcases ht with rfl | rfl) <;>
    simp [fReg0, fSsid, Kind.size, Tlv.body, Field.experimenter]

/-- Actions that meet the hypotheses of `C49_roundtrip_partial`. -/
def losslessActs : List Act := [
  .output 0xfffffffd 128, .std ⟨t!"push_vlan", 17, .ether⟩ 0x8100, .resubmit 5, .resubmitTable 0xfff8 3,
  .setTunnel 7, .setTunnel64 0x100000000, .popQueue, .exit, .cntIds [1, 2],
  .regLoad fIpv6Src 64 8 5, .regMove fReg0 3 fIpv6Src 100 20, .multipath 1 2 3 4 5 fReg0 3 7,
  .bundle 1 0 1 fInPort [4, 5], .bundleLoad 1 0 0 fInPort fInPort 0 17 [4], .outputReg fReg0 0 16 0xffff,
  .outputReg2 fIpv6Src 0 63 0xffff,
  .learn {} [⟨false, .imm 6, fTcpDst, 0, 16⟩, ⟨true, .field fTcpDst 2, fReg0, 9, 8⟩]]

example : ∀ a ∈ losslessActs, a.Valid ∧ a.Lossless := by
  intro a ha
  simp only [losslessActs, List.mem_cons, List.not_mem_nil, or_false] at ha
  rcases ha with rfl | rfl | rfl | rfl | rfl | rfl | rfl | rfl | rfl | rfl | rfl | rfl | rfl | rfl | rfl | rfl |
    rfl <;> (constructor <;> [unfold Act.Valid; unfold Act.Lossless] <;> dsimp only) <;> try decide +kernel
  refine ⟨rfl, by simp, ?_⟩
  simp [fTcpDst, fReg0, badIds]

/-! ## C28 -/

theorem infoAfter_insts (ws : List Word) (h : ∀ w ∈ ws, Word.isInst w) (l : List Inst) :
    infoAfter {} ws l = { inst := l.flatMap Inst.wire } := by
  have h1 : ∀ f : Word → Option Int, (∀ w, Word.isInst w → f w = none) → lastOf f ws = none := by
    intro f hf
    have := lastOf_insts f hf [] ws h
    rwa [List.nil_append] at this
  have h2 : flagFold none ws = none := by
    clear h1
    induction ws with
    | nil => rfl
    | cons w ws ih =>
      have hw := h w (by simp)
      have := ih fun x hx => h x (List.mem_cons_of_mem _ hx)
      cases w <;> first | exact this | cases hw
  have h3 : oxmOf ws = [] := by
    have := oxmOf_insts [] ws h
    rwa [List.nil_append] at this
  have hk : ∀ k w, Word.isInst w → Word.keyArg k w = none := by
    intro k w hw; cases w <;> first | rfl | cases hw
  have hc : ∀ w, Word.isInst w → Word.cookieArg w = none := by
    intro w hw; cases w <;> first | rfl | cases hw
  have hm : ∀ w, Word.isInst w → Word.maskArg w = none := by
    intro w hw; cases w <;> first | rfl | cases hw
  unfold infoAfter
  simp only [h1 _ (hk _), h1 _ hc, h1 _ hm, h2, h3]
  rfl

theorem str2dict_inst (i : Inst) (ts : List Str) (h : InstText oxmP actP i ts) (hf : i.Fits) :
    str2dict (commaList ts) = .ok { inst := i.wire } := by
  obtain ⟨items, h1, h2, h3⟩ := instTexts_words [(i, ts)] (by simpa using h)
  have hz : items ≠ [] := by
    rintro rfl
    have := h3.insts
    simp [instsOf] at this
  have hr := reads_comma (h := []) (r := []) h2 hz (by simp) atEnd_nil
  rw [h1] at hr
  simp only [List.flatMap_cons, List.flatMap_nil, List.append_nil, List.nil_append] at hr
  rw [str2dict_words hr (h3.place _), h3.insts, guard_pos (by simpa using hf), infoAfter_insts _ h3.only]
  simp

/-- C28: a list of well-formed lossless actions that fits one instruction is printed as a text which,
after `@apply` or `@write`, gives exactly the bytes of the list.  Missing: the empty list, whose text
is empty (`C28_empty_refuted`), and lists with an action that is not lossless (`C49_lossy_refuted`). -/
theorem C28_roundtrip_partial (as : List Act) (hv : ∀ a ∈ as, a.Valid ∧ a.Lossless) (hne : as ≠ [])
    (hfit : 8 + (as.flatMap Act.wire).length < 65536) :
    ∃ text, act2str (as.flatMap Act.wire) = .ok text ∧
      str2dict (t!"@apply," ++ text) = .ok { inst := (Inst.apply (as.flatMap Act.wire)).wire } ∧
      str2dict (t!"@write," ++ text) = .ok { inst := (Inst.write (as.flatMap Act.wire)).wire } := by
  have acts : ∀ e ∈ as.map (fun a => (a.wire, actText a)), ActTrip e.1 e.2 := by
    intro e he
    obtain ⟨a, ha, rfl⟩ := List.mem_map.1 he
    exact actText_trip a (hv a ha).1 (hv a ha).2
  have words : ∀ e ∈ as.map (fun a => (a.wire, actText a)), IsWord oxmP actP (.act e.1) e.2 :=
    fun e he => isWord_act (acts e he)
  have hw : (as.map (fun a => (a.wire, actText a))).flatMap (·.1) = as.flatMap Act.wire := by
    rw [List.flatMap_map]
  have ht := act2str_list _ acts
  rw [hw] at ht
  have hc : ∀ n : Str, commaList (n :: (as.map (fun a => (a.wire, actText a))).map (·.2)) =
      n ++ ',' :: commaList ((as.map (fun a => (a.wire, actText a))).map (·.2)) := by
    intro n
    cases as with
    | nil => exact absurd rfl hne
    | cons a as => rfl
  refine ⟨_, ht, ?_, ?_⟩
  · have := str2dict_inst _ _ (.apply t!"@apply" _ (by decide) words) (by rw [hw]; exact hfit)
    rw [hw, hc] at this
    exact this
  · have := str2dict_inst _ _ (.write t!"@write" _ (by decide) words) (by rw [hw]; exact hfit)
    rw [hw, hc] at this
    exact this

example : act2str ([Act.cntIds [1, 2], .output 3 0xffff].flatMap Act.wire) = .ok t!"cnt_ids(0x1,0x2),output=3" ∧
    (str2dict t!"@write,cnt_ids(0x1,0x2),output=3").map (·.inst) =
      .ok (Inst.write ([Act.cntIds [1, 2], .output 3 0xffff].flatMap Act.wire)).wire := by
  decide +kernel

/-- The empty list is printed as an empty text, and `@apply,` is refused (it has a trailing separator). -/
theorem C28_empty_refuted : act2str [] = .ok [] ∧ str2dict t!"@apply," = .error .valueError := by
  decide +kernel

end Ofpstr
