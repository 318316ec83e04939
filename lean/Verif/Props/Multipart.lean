import Verif.Lemmas.MpFlow
import Verif.Props.Group

/-!
# Properties C42-C47: multipart messages
-/

namespace Ofpstr
open Spec

/-! ## C42 -/

/-- C42: a reply of group descriptions is printed as a text that is read back as the same message.
Missing: a reply without entries, weights outside select groups, a blank bucket before another one, actions
that cannot be written back; for these it is false (`C42_lossy_refuted`). -/
theorem C42_roundtrip_partial (es : List GroupDesc) (x : Nat) (hv : ∀ e ∈ es, e.Valid) (hl : ∀ e ∈ es, e.Lossless)
    (hne : es ≠ []) (hx : x < 256 ^ 4) (hsize : (mpReply x 7 (es.flatMap GroupDesc.wire)).length < 65536) :
    ∃ text, mpgroupdesc2text (mpReply x 7 (es.flatMap GroupDesc.wire)) = .ok text ∧
      text2mpgroupdesc text 19 x = .ok (mpReply x 7 (es.flatMap GroupDesc.wire)) := by
  have hacts : ∀ e ∈ es, ∀ b ∈ e.buckets, ∀ a ∈ b.acts, a.Lossless := fun e he b hb => ((hl e he).1 b hb).2
  rw [mpReply, mpWire_length] at hsize
  obtain ⟨n1, n2, n3, n4⟩ := mpWire_nums 19 x 7 0 (es.flatMap GroupDesc.wire) [] (by decide) hx (by decide) hsize
  rw [List.append_nil] at n1 n2 n3
  have hlen := mpWire_length 19 x 7 0 (es.flatMap GroupDesc.wire)
  have hcount : es.length ≤ (es.flatMap GroupDesc.wire).length := by
    clear hsize n1 n2 n3 n4 hlen hne hv hl hacts
    induction es with
    | nil => simp
    | cons e es ih => rw [List.flatMap_cons, List.length_append, List.length_cons]; have := groupDesc_length e; omega
  have hone : mpgroupdesc2textOne (mpReply x 7 (es.flatMap GroupDesc.wire)) = .ok (descRows es) := by
    unfold mpgroupdesc2textOne
    rw [needBytes_ok _ _ _ (by rw [mpReply]; omega), ok_bind]
    rw [mpReply, n1, n2, n3, show pyAssert (7 == OFPMP_GROUP_DESC) = .ok () from rfl, ok_bind, if_neg (by decide)]
    dsimp only
    rw [← mpReply, mpReply_slice, mpReply, n4]
    exact descsText_list es hv hacts _ (by omega)
  refine ⟨joinStr t!"\n" (descRows es), ?_, ?_⟩
  · unfold mpgroupdesc2text
    rw [reply_text _ x 7 _ _ hx (by decide) hsize hone, ok_bind]
  · unfold text2mpgroupdesc
    rw [if_neg (by decide), rows_split _ (by simpa [descRows] using hne) (by
      intro t ht
      obtain ⟨e, he, rfl⟩ := List.mem_map.1 ht
      exact descRow_line e (hv e he) (hacts e he)), descGo_list es hv hl [] (by simp only [List.length_nil]; omega), ok_bind, List.nil_append,
      mpMessage_fit 19 x OFPMP_GROUP_DESC _ (by decide) (fitsIn_cast hx) (by decide) hsize]
    rfl

/-- The round trip of group descriptions, as a computation. -/
def descBack (b : Bytes) (x : Int) : Bool :=
  match mpgroupdesc2text b with
  | .ok s => decide (text2mpgroupdesc s 19 x = .ok b)
  | .error _ => false

theorem descBack_iff (b : Bytes) (x : Int) :
    descBack b x = true ↔ ∃ text, mpgroupdesc2text b = .ok text ∧ text2mpgroupdesc text 19 x = .ok b := by
  unfold descBack
  split
  · rename_i s hs; simp [hs]
  · rename_i e hs; simp [hs]

/-- Well-formed replies that are lost: no entry at all, a weight in a group of type all, a blank bucket before
another one. -/
def lossyDescs : List (List GroupDesc) := [
  [],
  [⟨0, 1, [outBucket 5]⟩],
  [⟨0, 1, [⟨0, 0xffffffff, 0xffffffff, []⟩, outBucket 0]⟩],
  [⟨1, 1, [⟨1, 0xffffffff, 0xffffffff, []⟩, ⟨1, 0xffffffff, 0xffffffff, []⟩]⟩]]

/-- C42 is false of well-formed replies. -/
theorem C42_lossy_refuted (es : List GroupDesc) (he : es ∈ lossyDescs) :
    (∀ e ∈ es, e.Valid) ∧ ¬ ∃ text, mpgroupdesc2text (mpReply 3 7 (es.flatMap GroupDesc.wire)) = .ok text ∧
      text2mpgroupdesc text 19 3 = .ok (mpReply 3 7 (es.flatMap GroupDesc.wire)) := by
  have h1 : ∀ es ∈ lossyDescs, descBack (mpReply 3 7 (es.flatMap GroupDesc.wire)) 3 = false := by decide +kernel
  refine ⟨?_, fun h => by have := (descBack_iff _ _).2 h; rw [h1 es he] at this; cases this⟩
  simp only [lossyDescs, List.mem_cons, List.not_mem_nil, or_false] at he
  rcases he with rfl | rfl | rfl | rfl <;>
    simp [GroupDesc.Valid, Bucket.Valid, outBucket, GroupDesc.wire, Bucket.wire, bucketWire,
      Act.wire, Act.Valid, outputWire, u8, u16, u32, pad, be]

/-- Two groups, the second one with a blank last bucket. -/
def exDescs : List GroupDesc := [⟨1, 5, [⟨3, 2, 0xffffffff, []⟩, outBucket 1]⟩,
  ⟨0, 7, [outBucket 0, ⟨0, 0xffffffff, 0xffffffff, []⟩]⟩]

example : (∀ e ∈ exDescs, e.Valid) ∧ (∀ e ∈ exDescs, e.Lossless) ∧ exDescs ≠ [] ∧
    (mpReply 9 7 (exDescs.flatMap GroupDesc.wire)).length < 65536 := by
  refine ⟨?_, ?_, by decide, by decide +kernel⟩
  · simp [exDescs, GroupDesc.Valid, Bucket.Valid, outBucket, GroupDesc.wire, Bucket.wire, bucketWire,
      Act.wire, Act.Valid, outputWire, u8, u16, u32, pad, be]
  · simp [exDescs, outBucket, GroupDesc.Lossless, Bucket.Blank, Act.Lossless]
example : mpgroupdesc2text (mpReply 9 7 (exDescs.flatMap GroupDesc.wire)) =
      .ok t!"group=5,select,@bucket,weight=3,watch_port=2,@bucket,output=1\ngroup=7,all,@bucket,output=1,@bucket," ∧
    descBack (mpReply 9 7 (exDescs.flatMap GroupDesc.wire)) 9 = true := by
  decide +kernel

/-! ## C43 -/

/-- C43: a reply of group statistics is printed as a text that is read back as the same message.
Missing: a reply without entries, the group ids `OFPG_ALL` and `OFPG_ANY`, entries with nothing but a group
id; for these it is false (`C43_lossy_refuted`). -/
theorem C43_roundtrip_partial (es : List GroupStat) (x : Nat) (hv : ∀ e ∈ es, e.Valid) (hl : ∀ e ∈ es, e.Lossless)
    (hne : es ≠ []) (hx : x < 256 ^ 4) (hsize : (mpReply x 6 (es.flatMap GroupStat.wire)).length < 65536) :
    ∃ text, mpgroup2text (mpReply x 6 (es.flatMap GroupStat.wire)) = .ok text ∧
      text2mpgroup text 19 x = .ok (mpReply x 6 (es.flatMap GroupStat.wire)) := by
  rw [mpReply, mpWire_length] at hsize
  obtain ⟨n1, n2, n3, n4⟩ := mpWire_nums 19 x 6 0 (es.flatMap GroupStat.wire) [] (by decide) hx (by decide) hsize
  rw [List.append_nil] at n1 n2 n3
  have hlen := mpWire_length 19 x 6 0 (es.flatMap GroupStat.wire)
  have hcount : es.length ≤ (es.flatMap GroupStat.wire).length := by
    clear hsize n1 n2 n3 n4 hlen hne hv hl
    induction es with
    | nil => simp
    | cons e es ih => rw [List.flatMap_cons, List.length_append, List.length_cons]; have := groupStat_length e; omega
  have hone : mpgroup2textOne (mpReply x 6 (es.flatMap GroupStat.wire)) = .ok (es.map gRow) := by
    unfold mpgroup2textOne
    rw [needBytes_ok _ _ _ (by rw [mpReply]; omega), ok_bind]
    rw [mpReply, n1, n2, n3, show pyAssert (6 == OFPMP_GROUP) = .ok () from rfl, ok_bind, if_neg (by decide)]
    dsimp only
    rw [← mpReply, mpReply_slice, mpReply, n4]
    exact groupStatsText_list es hv (fun e he => ⟨(hl e he).1, (hl e he).2.1⟩) _ (by omega)
  refine ⟨joinStr t!"\n" (es.map gRow), ?_, ?_⟩
  · unfold mpgroup2text
    rw [reply_text _ x 6 _ _ hx (by decide) hsize hone, ok_bind]
  · unfold text2mpgroup
    rw [rows_split _ (by simpa using hne) (by
      intro t ht
      obtain ⟨e, he, rfl⟩ := List.mem_map.1 ht
      exact gRow_line e), mpgroupGo_list es hv (fun e he => (hl e he).2.2) [] (by simp only [List.length_nil]; omega), ok_bind,
      List.nil_append, mpMessage_fit 19 x OFPMP_GROUP _ (by decide) (fitsIn_cast hx) (by decide) hsize]
    rfl

/-- The round trip of group statistics, as a computation. -/
def gstatBack (b : Bytes) (x : Int) : Bool :=
  match mpgroup2text b with
  | .ok s => decide (text2mpgroup s 19 x = .ok b)
  | .error _ => false

theorem gstatBack_iff (b : Bytes) (x : Int) :
    gstatBack b x = true ↔ ∃ text, mpgroup2text b = .ok text ∧ text2mpgroup text 19 x = .ok b := by
  unfold gstatBack
  split
  · rename_i s hs; simp [hs]
  · rename_i e hs; simp [hs]

/-- Well-formed replies that are lost: no entry at all, the group ids all and any, an unused group without
buckets. -/
def lossyStats : List (List GroupStat) := [
  [],
  [⟨0xfffffffc, 1, 2, 3, 4, 5, [⟨2, 3⟩]⟩],
  [⟨0xffffffff, 1, 2, 3, 4, 5, [⟨2, 3⟩]⟩],
  [⟨5, 0, 0, 0, 0, 0, []⟩]]

/-- C43 is false of well-formed replies. -/
theorem C43_lossy_refuted (es : List GroupStat) (he : es ∈ lossyStats) :
    (∀ e ∈ es, e.Valid) ∧ ¬ ∃ text, mpgroup2text (mpReply 3 6 (es.flatMap GroupStat.wire)) = .ok text ∧
      text2mpgroup text 19 3 = .ok (mpReply 3 6 (es.flatMap GroupStat.wire)) := by
  have h1 : ∀ es ∈ lossyStats, gstatBack (mpReply 3 6 (es.flatMap GroupStat.wire)) 3 = false := by decide +kernel
  refine ⟨?_, fun h => by have := (gstatBack_iff _ _).2 h; rw [h1 es he] at this; cases this⟩
  simp only [lossyStats, List.mem_cons, List.not_mem_nil, or_false] at he
  rcases he with rfl | rfl | rfl | rfl <;>
    simp [GroupStat.Valid, GroupStat.wire, BucketStat.wire, u16, u32, u64, pad, be]

/-- Two groups, the second one with two buckets. -/
def exStats : List GroupStat := [⟨1, 0, 0, 0, 3, 0, []⟩, ⟨7, 1, 0xffffffffffffffff, 3, 4, 5, [⟨0, 0⟩, ⟨2, 0x8000000000000000⟩]⟩]

example : (∀ e ∈ exStats, e.Valid) ∧ (∀ e ∈ exStats, e.Lossless) ∧ exStats ≠ [] ∧
    (mpReply 9 6 (exStats.flatMap GroupStat.wire)).length < 65536 := by
  refine ⟨?_, ?_, by decide, by decide +kernel⟩
  · simp [exStats, GroupStat.Valid, GroupStat.wire, BucketStat.wire, u16, u32, u64, pad, be]
  · simp [exStats, GroupStat.Lossless, GroupStat.Counts]
example : mpgroup2text (mpReply 9 6 (exStats.flatMap GroupStat.wire)) =
      .ok t!"group=1 duration_sec=3\ngroup=7 ref_count=1,packet_count=18446744073709551615,byte_count=3,duration_sec=4,duration_nsec=5,@bucket,@bucket,packet_count=2,byte_count=9223372036854775808" ∧
    gstatBack (mpReply 9 6 (exStats.flatMap GroupStat.wire)) 9 = true := by
  decide +kernel

/-! ## C44 -/

/-- What comes back of a reply of flow statistics. -/
theorem C44_seen (es : List FlowStat) (x : Nat) (hv : ∀ e ∈ es, e.Valid) (hl : ∀ e ∈ es, e.PartsLossless)
    (hne : es ≠ []) (hx : x < 256 ^ 4) (hsize : (mpReply x 1 (es.flatMap FlowStat.wire)).length < 65536) :
    ∃ text, mpflow2text (mpReply x 1 (es.flatMap FlowStat.wire)) = .ok text ∧
      text2mpflow text 19 x = .ok (mpReply x 1 ((es.map FlowStat.seen).flatMap FlowStat.wire)) := by
  rw [mpReply, mpWire_length] at hsize
  exact ⟨_, flow_rows es x hv hl hne hx hsize⟩

/-- C44: a reply of flow statistics is printed as a text that is read back as the same message.
Missing: a reply without entries, priority 0x8000, flags beyond those of OpenFlow 1.3, match items and actions
that cannot be written back; for the first three it is false (`C44_roundtrip_iff`, `C44_empty_refuted`). -/
theorem C44_roundtrip_partial (es : List FlowStat) (x : Nat) (hv : ∀ e ∈ es, e.Valid) (hl : ∀ e ∈ es, e.Lossless)
    (hne : es ≠ []) (hx : x < 256 ^ 4) (hsize : (mpReply x 1 (es.flatMap FlowStat.wire)).length < 65536) :
    ∃ text, mpflow2text (mpReply x 1 (es.flatMap FlowStat.wire)) = .ok text ∧
      text2mpflow text 19 x = .ok (mpReply x 1 (es.flatMap FlowStat.wire)) := by
  have := C44_seen es x hv (fun e he => (hl e he).2.2) hne hx hsize
  rwa [show es.map FlowStat.seen = es by
    conv_rhs => rw [← List.map_id es]
    exact List.map_congr_left fun e he => seen_lossless e (hl e he)] at this

/-- C44: exactly which replies survive, among those whose match items and actions do. -/
theorem C44_roundtrip_iff (es : List FlowStat) (x : Nat) (hv : ∀ e ∈ es, e.Valid) (hl : ∀ e ∈ es, e.PartsLossless)
    (hne : es ≠ []) (hx : x < 256 ^ 4) (hsize : (mpReply x 1 (es.flatMap FlowStat.wire)).length < 65536) :
    (∃ text, mpflow2text (mpReply x 1 (es.flatMap FlowStat.wire)) = .ok text ∧
      text2mpflow text 19 x = .ok (mpReply x 1 (es.flatMap FlowStat.wire))) ↔
    ∀ e ∈ es, e.flags < 32 ∧ e.priority ≠ 0x8000 := by
  refine ⟨?_, fun h => C44_roundtrip_partial es x hv (fun e he => ⟨(h e he).1, (h e he).2, hl e he⟩) hne hx hsize⟩
  rintro ⟨text, h1, h2⟩
  obtain ⟨text', h3, h4⟩ := C44_seen es x hv hl hne hx hsize
  rw [h1] at h3
  cases h3
  rw [h2] at h4
  injection h4 with h4
  rw [mpReply, mpWire_length] at hsize
  have h5 := mpReply_inj hx (by decide) hsize (by rw [seen_list_length]; exact hsize) h4
  exact fun e he => seen_wire_inj e (hv e he) (seen_list_inj es h5.symm e he)

/-- C44 is false of a reply without entries: it is read back as one entry of zeros. -/
theorem C44_empty_refuted : mpflow2text (mpReply 3 1 []) = .ok [] ∧
    text2mpflow [] 19 3 = .ok (mpReply 3 1 (FlowStat.wire ⟨0, 0, 0, 0, 0, 0, 0, 0, 0, 0, [], []⟩)) := by
  decide +kernel

/-- Two entries: a full one and one of zeros. -/
def exFlows : List FlowStat := [
  ⟨2, 10, 20, 7, 60, 0, 3, 0x1234, 5, 0xffffffffffffffff, sampleFlow.mtch, sampleFlow.insts⟩,
  ⟨0, 0, 0, 0, 0, 0, 0, 0, 0, 0, [], []⟩]

example : (∀ e ∈ exFlows, e.Valid) ∧ (∀ e ∈ exFlows, e.Lossless) ∧ exFlows ≠ [] ∧
    (mpReply 9 1 (exFlows.flatMap FlowStat.wire)).length < 65536 := by
  refine ⟨?_, ?_, by decide, by decide +kernel⟩
  · intro e he
    simp only [exFlows, List.mem_cons, List.not_mem_nil, or_false] at he
    rcases he with rfl | rfl
    · exact ⟨by decide, by decide, by decide, by decide, by decide, by decide, by decide, by decide, by decide, by decide,
        sampleFlow_ok.1.2.1, sampleFlow_ok.1.2.2.1, by decide +kernel⟩
    · exact ⟨by decide, by decide, by decide, by decide, by decide, by decide, by decide, by decide, by decide, by decide,
        by simp, by simp, by decide +kernel⟩
  · intro e he
    simp only [exFlows, List.mem_cons, List.not_mem_nil, or_false] at he
    rcases he with rfl | rfl
    · exact ⟨by decide, by decide, sampleFlow_ok.2.2⟩
    · exact ⟨by decide, by decide, by simp, by simp⟩
example : mpflow2text (mpReply 9 1 (exFlows.flatMap FlowStat.wire)) = .ok (
    t!"packet_count=5,byte_count=18446744073709551615,duration_sec=10,duration_nsec=20 " ++
    (t!"cookie=0x1234,table=2,priority=7,idle_timeout=60,send_flow_rem,check_overlap,in_port=1," ++
    t!"ipv4_dst=10.0.0.0/255.255.0.0,@metadata=0x1/0xff,@apply,output=1,pop_vlan,@clear,@goto=4\npriority=0")) := by
  decide +kernel

/-! ## C45 -/

/-- C45 is false of every request: decoding a message that is not a reply raises (ofp4.py:850 calls
`list.append` with a keyword argument). -/
theorem C45_refuted (b : Bytes) (hb : b ≠ []) (ht : b.getD 1 0 ≠ 19) : Raises (mpflow2text b) := by
  have hone : ∀ m : Bytes, m.getD 1 0 ≠ 19 → Raises (mpflow2textOne m) := by
    intro m hm
    unfold mpflow2textOne
    by_cases h16 : 16 ≤ m.length
    · rw [needBytes_ok _ _ _ (by omega), ok_bind]
      have h19 : uAt m 1 1 ≠ 19 := by
        rw [← byte_uAt m 1 (by omega)]
        intro h
        exact hm (UInt8.toNat_inj.1 (h.trans (by decide)))
      unfold pyAssert
      split
      · rw [ok_bind]
        dsimp only
        rw [if_pos (by simpa [OFPT_MULTIPART_REPLY] using h19)]
        unfold needBytes
        split
        · rw [ok_bind]
          split
          · refine raises_of (ends_bind (ends_oxm2str _) fun _ _ => ends_error (by decide)) ?_
            cases oxm2str (slice (slice m 16 (uAt m 2 2)) 36 (36 + uAt (slice m 16 (uAt m 2 2)) 34 2 - 4)) with
            | error e => exact ⟨e, rfl⟩
            | ok t => exact ⟨_, rfl⟩
          · exact ⟨_, rfl, by decide⟩
        · exact ⟨_, rfl, by decide⟩
      · exact ⟨_, rfl, by decide⟩
    · rw [needBytes_err _ _ _ (by omega)]
      exact ⟨_, rfl, by decide⟩
  unfold mpflow2text
  rw [msgsGo, if_neg (by simpa using hb)]
  unfold needBytes
  split
  · rw [ok_bind]
    dsimp only
    have : Raises (mpflow2textOne (b.take (uAt b 2 2))) := by
      by_cases h2 : 2 ≤ uAt b 2 2
      · apply hone
        rw [List.getD_eq_getElem?_getD, List.getElem?_take, if_pos (by omega), ← List.getD_eq_getElem?_getD]
        exact ht
      · unfold mpflow2textOne
        rw [needBytes_err _ _ _ (by rw [List.length_take]; omega)]
        exact ⟨_, rfl, by decide⟩
    obtain ⟨e, he, hne⟩ := this
    rw [he]
    exact ⟨e, rfl, hne⟩
  · exact ⟨_, rfl, by decide⟩

/-- C45 fails for every request that `text2mpflow` builds. -/
theorem C45_built_refuted (s : Str) (x : Int) (m : Bytes) (h : text2mpflow s 18 x = .ok m) : Raises (mpflow2text m) := by
  unfold text2mpflow at h
  obtain ⟨rules, _, h⟩ := bind_ok h
  obtain ⟨cap, _, h⟩ := bind_ok h
  obtain ⟨_, _, hx, hl⟩ := mpMessage_inv h
  rw [mpMessage_fit 18 x OFPMP_FLOW cap (by decide) hx (by decide) hl] at h
  cases h
  refine C45_refuted _ ?_ ?_
  · intro h0
    have := mpWire_length 18 x.toNat OFPMP_FLOW 0 cap
    rw [show (18 : Int).toNat = 18 from rfl] at h0
    rw [h0] at this
    simp at this
    omega
  · show ((18 : UInt8) ≠ 19)
    decide

/-- C45, what holds of requests: `text2mpflow` with type 18 builds from a rule on one line the request that its
words ask for. -/
theorem C45_request_partial (ws : List Word) (s : Str) (x : Int) (hr : ReadsWords oxmP actP ws s [])
    (hp : placeAfter .start ws ≠ none) (hi : ∀ i ∈ instsOf ws, i.Fits) (hn : '\n' ∉ s) (hq : (reqOf ws).Fits)
    (hx : FitsIn 4 x) (hl : 16 + ((reqOf ws).wire (oxmOf ws)).length < 65536) :
    text2mpflow s 18 x = .ok (mpWire 18 x.toNat 1 0 ((reqOf ws).wire (oxmOf ws))) := by
  have hps := parseStat_words [] (by simp) hr hp (fun h => absurd rfl h) hi
  rw [List.map_nil, commaList, List.nil_append] at hps
  have hlen : ((reqOf ws).wire (oxmOf ws)).length = 32 + align8 (4 + (oxmOf ws).length) := by
    simp only [FlowReq.wire, List.length_append, u8_length, u32_length, u64_length, pad_length, matchWire_length]
    omega
  have ha := align8_facts (4 + (oxmOf ws).length)
  obtain ⟨q1, q2, q3, q4, q5⟩ := hq
  have hb : statBody 18 (setAll {} []) (infoAfter {} ws (instsOf ws)) = .ok ((reqOf ws).wire (oxmOf ws)) := by
    unfold statBody infoAfter
    dsimp only
    simp only [Option.or_none, List.nil_append]
    rw [packMatch_fit _ (by omega), ok_bind, if_pos (by decide)]
    have e1 : packU 1 ((lastOf (Word.keyArg .table) ws).getD (OFPTT_ALL : Nat)) = _ := packU_fits (k := 1) q1
    rw [e1, ok_bind, packAll_eq, if_pos (by
      intro e he
      simp only [List.mem_cons, List.not_mem_nil, or_false] at he
      rcases he with rfl | rfl
      · exact q2
      · exact q3), ok_bind, packAll_eq, if_pos (by
      intro e he
      simp only [List.mem_cons, List.not_mem_nil, or_false] at he
      rcases he with rfl | rfl
      · exact q4
      · exact q5), ok_bind]
    simp only [FlowReq.wire, reqOf, u8, u32, u64, spec_be, List.flatMap_cons, List.flatMap_nil, List.append_nil, List.append_assoc]
    rfl
  unfold text2mpflow
  rw [splitAll_line s hn, parseStats, hps, ok_bind, parseStats, ok_bind, ok_bind, mpflowGo]
  rw [hb, ok_bind, mpAppend, if_neg (by simp only [List.length_nil]; omega), ok_bind, mpflowGo, ok_bind, List.nil_append]
  exact mpMessage_fit 18 x OFPMP_FLOW _ (by decide) hx (by decide) hl

example : ReadsWords oxmP actP [.key .table 3, .cookie 1 (some 255)] t!"table=3,cookie=1/0xff" [] ∧
    reqOf [.key .table 3, .cookie 1 (some 255)] = ⟨3, 0xffffffff, 0xffffffff, 1, 255⟩ := by
  refine ⟨?_, by decide⟩
  have := reads_comma_nil (items := [(.key .table 3, t!"table=3"), (.cookie 1 (some 255), t!"cookie=1/0xff")]) (by
    intro e he
    simp only [List.mem_cons, List.not_mem_nil, or_false] at he
    rcases he with rfl | rfl
    · exact keyText_isWord (.key .table t!"3" 3 (intSyntax_fmtD 3))
    · exact keyText_isWord (.cookieMask t!"1" t!"0xff" 1 255 (intSyntax_fmtD 1) (intSyntax_fmtX 0 255)))
  exact this
example : text2mpflow t!"table=3,cookie=1/0xff" 18 7 = .ok [4, 18, 0, 56, 0, 0, 0, 7, 0, 1, 0, 0, 0, 0, 0, 0,
    3, 0, 0, 0, 255, 255, 255, 255, 255, 255, 255, 255, 0, 0, 0, 0, 0, 0, 0, 0, 0, 0, 0, 1, 0, 0, 0, 0, 0, 0, 0, 255,
    0, 1, 0, 4, 0, 0, 0, 0] ∧
    mpflow2text (mpWire 18 7 1 0 ((reqOf [.key .table 3]).wire [])) = .error .typeError := by decide +kernel

/-! ## C46 -/

theorem flatten_drop (ms : List Bytes) : (ms.map fun m => m.drop 16).flatten = ms.flatMap fun m => m.drop 16 := by
  rw [List.flatMap_def]

/-- C46: lines that are messages on their own (with bodies `m.drop 16`) are together one message with all the
bodies, in their order; if that would be too long, `NameError`.
Missing, and false in the second case: that several messages are made then. -/
theorem C46_flow_partial (ls : List Str) (ms : List Bytes) (t x : Int) (hne : ls ≠ []) (hn : ∀ l ∈ ls, '\n' ∉ l)
    (h : List.Forall₂ (fun l m => text2mpflow l t x = .ok m) ls ms) :
    text2mpflow (joinStr t!"\n" ls) t x = if 16 + (ms.flatMap fun m => m.drop 16).length < 65536 then
      .ok (mpWire t.toNat x.toNat 1 0 (ms.flatMap fun m => m.drop 16)) else .error .nameError := by
  have h1 : List.Forall₂ (fun l b => ∃ c i, parseStat l = .ok (c, i) ∧ statBody t c i = .ok b) ls (ms.map fun m => m.drop 16) := by
    clear hne
    induction h with
    | nil => exact .nil
    | cons h _ ih => exact .cons (flow_line (hn _ (by simp)) h) (ih fun l hl => hn l (List.mem_cons_of_mem _ hl))
  obtain ⟨rules, h2, h3⟩ := mpflowGo_lines h1
  have hf : FitsIn 1 t ∧ FitsIn 4 x := by
    cases h with
    | nil => exact absurd rfl hne
    | cons h _ =>
      unfold text2mpflow at h
      obtain ⟨_, _, h⟩ := bind_ok h
      obtain ⟨_, _, h⟩ := bind_ok h
      exact ⟨(mpMessage_inv h).2.1, (mpMessage_inv h).2.2.1⟩
  unfold text2mpflow
  rw [rows_split ls hne hn, h2, ok_bind, h3, packLines_eq _ _ (by simp), flatten_drop, List.length_nil]
  split
  · rename_i h
    rw [ok_bind, List.nil_append, if_pos (by omega)]
    exact mpMessage_fit t x OFPMP_FLOW _ hf.1 hf.2 (by decide) (by omega)
  · rename_i h
    rw [if_neg (by omega)]; rfl

/-- C46 for group descriptions. Missing as in `C46_flow_partial`. -/
theorem C46_desc_partial (ls : List Str) (ms : List Bytes) (x : Int) (hne : ls ≠ []) (hn : ∀ l ∈ ls, '\n' ∉ l)
    (h : List.Forall₂ (fun l m => text2mpgroupdesc l 19 x = .ok m) ls ms) :
    text2mpgroupdesc (joinStr t!"\n" ls) 19 x = if 16 + (ms.flatMap fun m => m.drop 16).length < 65536 then
      .ok (mpReply x.toNat 7 (ms.flatMap fun m => m.drop 16)) else .error .nameError := by
  have h1 : List.Forall₂ (fun l b => descBody l = .ok b) ls (ms.map fun m => m.drop 16) := by
    clear hne
    induction h with
    | nil => exact .nil
    | cons h _ ih => exact .cons (desc_line (hn _ (by simp)) h) (ih fun l hl => hn l (List.mem_cons_of_mem _ hl))
  have hf : FitsIn 4 x := by
    cases h with
    | nil => exact absurd rfl hne
    | cons h _ =>
      unfold text2mpgroupdesc at h
      rw [if_neg (by decide)] at h
      obtain ⟨_, _, h⟩ := bind_ok h
      exact (mpMessage_inv h).2.2.1
  unfold text2mpgroupdesc
  rw [if_neg (by decide), rows_split ls hne hn, descGo_lines h1, packLines_eq _ _ (by simp), flatten_drop, List.length_nil]
  split
  · rename_i h
    rw [ok_bind, List.nil_append, if_pos (by omega)]
    exact mpMessage_fit 19 x OFPMP_GROUP_DESC _ (by decide) hf (by decide) (by omega)
  · rename_i h
    rw [if_neg (by omega)]; rfl

/-- C46 for group statistics. Missing as in `C46_flow_partial`. -/
theorem C46_group_partial (ls : List Str) (ms : List Bytes) (x : Int) (hne : ls ≠ []) (hn : ∀ l ∈ ls, '\n' ∉ l)
    (h : List.Forall₂ (fun l m => text2mpgroup l 19 x = .ok m) ls ms) :
    text2mpgroup (joinStr t!"\n" ls) 19 x = if 16 + (ms.flatMap fun m => m.drop 16).length < 65536 then
      .ok (mpReply x.toNat 6 (ms.flatMap fun m => m.drop 16)) else .error .nameError := by
  have h1 : List.Forall₂ (fun l b => ∃ g r, statGroupHead (l.length + 1) 0 l = .ok (g, r) ∧ groupStatBody g r = .ok b) ls
      (ms.map fun m => m.drop 16) := by
    clear hne
    induction h with
    | nil => exact .nil
    | cons h _ ih => exact .cons (group_line (hn _ (by simp)) h) (ih fun l hl => hn l (List.mem_cons_of_mem _ hl))
  have hf : FitsIn 4 x := by
    cases h with
    | nil => exact absurd rfl hne
    | cons h _ =>
      unfold text2mpgroup at h
      obtain ⟨_, _, h⟩ := bind_ok h
      exact (mpMessage_inv h).2.2.1
  unfold text2mpgroup
  rw [rows_split ls hne hn, mpgroupGo_lines h1, packLines_eq _ _ (by simp), flatten_drop, List.length_nil]
  split
  · rename_i h
    rw [ok_bind, List.nil_append, if_pos (by omega)]
    exact mpMessage_fit 19 x OFPMP_GROUP _ (by decide) hf (by decide) (by omega)
  · rename_i h
    rw [if_neg (by omega)]; rfl

theorem forall₂_replicate {α β : Type} {R : α → β → Prop} {a : α} {b : β} (h : R a b) (n : Nat) :
    List.Forall₂ R (List.replicate n a) (List.replicate n b) := by
  induction n with
  | zero => exact .nil
  | succ n ih => exact .cons h ih

/-- C46 is false: too many entries for one message, such as 8190 groups of 8 bytes or 1170 flows of 56, raise
`NameError` (the name `OFPMPF_REPLY_MORE` does not exist, ofp4.py:799). -/
theorem C46_refuted (n : Nat) :
    (8190 ≤ n → text2mpgroupdesc (joinStr t!"\n" (List.replicate n t!"group=1")) 19 0 = .error .nameError) ∧
    (1170 ≤ n → text2mpflow (joinStr t!"\n" (List.replicate n t!"table=1")) 19 0 = .error .nameError) ∧
    (1638 ≤ n → text2mpgroup (joinStr t!"\n" (List.replicate n t!"group=1 packet_count=1")) 19 0 = .error .nameError) := by
  have line : ∀ (l : Str) (n : Nat), '\n' ∉ l → ∀ x ∈ List.replicate n l, '\n' ∉ x := by
    intro l n h x hx
    rw [(List.mem_replicate.1 hx).2]; exact h
  have size : ∀ (m : Bytes) (n : Nat), ((List.replicate n m).flatMap fun m => m.drop 16).length = n * (m.length - 16) := by
    intro m n
    induction n with
    | zero => simp
    | succ n ih => rw [List.replicate_succ, List.flatMap_cons, List.length_append, ih, List.length_drop, Nat.succ_mul, Nat.add_comm]
  refine ⟨fun h => ?_, fun h => ?_, fun h => ?_⟩
  · rw [C46_desc_partial _ (List.replicate n (mpReply 0 7 (GroupDesc.wire ⟨0, 1, []⟩))) 0 (by
        intro h0; rw [List.replicate_eq_nil_iff] at h0; omega) (line _ n (by decide)) (forall₂_replicate (by decide +kernel) n),
      size, show (mpReply 0 7 (GroupDesc.wire ⟨0, 1, []⟩)).length = 24 from by decide +kernel, if_neg (by omega)]
  · rw [C46_flow_partial _ (List.replicate n (mpReply 0 1 (FlowStat.wire ⟨1, 0, 0, 0, 0, 0, 0, 0, 0, 0, [], []⟩))) 19 0 (by
        intro h0; rw [List.replicate_eq_nil_iff] at h0; omega) (line _ n (by decide)) (forall₂_replicate (by decide +kernel) n),
      size, show (mpReply 0 1 (FlowStat.wire ⟨1, 0, 0, 0, 0, 0, 0, 0, 0, 0, [], []⟩)).length = 72 from by decide +kernel, if_neg (by omega)]
  · rw [C46_group_partial _ (List.replicate n (mpReply 0 6 (GroupStat.wire ⟨1, 0, 1, 0, 0, 0, []⟩))) 0 (by
        intro h0; rw [List.replicate_eq_nil_iff] at h0; omega) (line _ n (by decide)) (forall₂_replicate (by decide +kernel) n),
      size, show (mpReply 0 6 (GroupStat.wire ⟨1, 0, 1, 0, 0, 0, []⟩)).length = 56 from by decide +kernel, if_neg (by omega)]

example : List.Forall₂ (fun l m => text2mpflow l 19 5 = .ok m) [t!"table=1", t!"packet_count=2,@goto=3"]
    [mpReply 5 1 (FlowStat.wire ⟨1, 0, 0, 0, 0, 0, 0, 0, 0, 0, [], []⟩),
     mpReply 5 1 (FlowStat.wire ⟨0, 0, 0, 0, 0, 0, 0, 0, 2, 0, [], [.goto 3]⟩)] :=
  .cons (by decide +kernel) (.cons (by decide +kernel) .nil)

/-! ## C47 -/

/-- C47: group statistics are decoded in finite time, whatever the bytes. -/
theorem C47_group_stats_end (b : Bytes) : mpgroup2text b ≠ .error .loops := ends_mpgroup2text b

/-- C47 for flow statistics. Missing, and false (`C47_flow_refuted`): length fields that are 0. -/
theorem C47_flow_end_partial (b : Bytes) (h : MsgWalk FlowWalk b) : mpflow2text b ≠ .error .loops := ends_mpflow2text b h

example : MsgWalk FlowWalk (mpReply 5 1 (FlowStat.wire ⟨1, 0, 0, 0, 0, 0, 0, 0, 0, 0, [], [.goto 3]⟩)) :=
  .step _ (by decide +kernel) (by decide +kernel)
    (fun _ => .step _ (by decide +kernel) (by decide +kernel)
      (.step _ (by decide +kernel) (by decide +kernel) (fun h => absurd h (by decide +kernel)) (.done _ (by decide +kernel)))
      (.done _ (by decide +kernel)))
    (.done _ (by decide +kernel))

/-- C47 for group descriptions. Missing, and false (`C47_desc_refuted`): actions of length 0. -/
theorem C47_desc_end_partial (b : Bytes) (h : MsgWalk DescWalk b) : mpgroupdesc2text b ≠ .error .loops :=
  ends_mpgroupdesc2text b h

theorem uAt_append_skip (p q : Bytes) (i n : Nat) : uAt (p ++ q) (p.length + i) n = uAt q i n := by
  unfold uAt slice
  rw [List.take_append, List.drop_append, List.drop_eq_nil_of_le (by rw [List.length_take]; omega), List.nil_append,
    List.length_take, show p.length + i + n - p.length = i + n from by omega,
    show p.length + i - min (p.length + i + n) p.length = i from by omega]

example : MsgWalk DescWalk (mpReply 0 7
    (u16 32 ++ (u8 0 ++ (pad 1 ++ (u32 1 ++ (bucketWire 0 0 0 (u16 99 ++ (u16 8 ++ pad 4)))))))) :=
  .step _ (by decide +kernel) (by decide +kernel)
    (fun _ => .step _ (by decide +kernel) (by decide +kernel)
      (.step _ (by decide +kernel) (by decide +kernel)
        (.step _ (by decide +kernel) (by decide +kernel) (.done _ (by decide +kernel)))
        (.done _ (by decide +kernel)))
      (.done _ (by decide +kernel)))
    (.done _ (by decide +kernel))

/-- C47 is false: an entry of length 0, whatever else is in it, makes `mpflow2text` run forever (no number of
steps is enough for its loop). -/
theorem C47_flow_refuted (x : Nat) (a rest : Bytes) (ha : a.length = 46) (hr : 4 ≤ rest.length) (hx : x < 256 ^ 4)
    (hl : 68 + rest.length < 65536) :
    mpflow2text (mpReply x 1 (u16 0 ++ (a ++ (u16 1 ++ (u16 4 ++ rest))))) = .error .loops ∧
    ∀ steps, statsGo steps (u16 0 ++ (a ++ (u16 1 ++ (u16 4 ++ rest)))) = .error .loops := by
  have hlen : (u16 0 ++ (a ++ (u16 1 ++ (u16 4 ++ rest)))).length = 52 + rest.length := by
    simp only [List.length_append, u16_length]; omega
  have h0 : uAt (u16 0 ++ (a ++ (u16 1 ++ (u16 4 ++ rest)))) 0 2 = 0 := uAt_u16_here _ _ (by decide)
  have skip : ∀ (i : Nat), uAt (u16 0 ++ (a ++ (u16 1 ++ (u16 4 ++ rest)))) (48 + i) 2 = uAt (u16 1 ++ (u16 4 ++ rest)) i 2 := by
    intro i
    have h48 : (u16 0 ++ a).length = 48 := by rw [List.length_append, u16_length]; omega
    rw [← List.append_assoc]
    rw [← h48]; exact uAt_append_skip _ _ _ _
  have h48 : uAt (u16 0 ++ (a ++ (u16 1 ++ (u16 4 ++ rest)))) 48 2 = 1 := by
    rw [skip 0]; exact uAt_u16_here _ _ (by decide)
  have h50 : uAt (u16 0 ++ (a ++ (u16 1 ++ (u16 4 ++ rest)))) 50 2 = 4 := by
    rw [skip 2, uAt_u16 _ _ _ _ (by omega)]; exact uAt_u16_here _ _ (by decide)
  have stuck : ∀ steps, statsGo steps (u16 0 ++ (a ++ (u16 1 ++ (u16 4 ++ rest)))) = .error .loops := by
    have ht : ∃ t, statText (u16 0 ++ (a ++ (u16 1 ++ (u16 4 ++ rest)))) = .ok t := by
      unfold statText
      dsimp only
      rw [h48, h50, h0, if_pos (by decide)]
      have s1 : slice (u16 0 ++ (a ++ (u16 1 ++ (u16 4 ++ rest)))) 52 (52 + 4 - 4) = [] := by
        unfold slice
        apply List.drop_eq_nil_of_le
        rw [List.length_take]; omega
      have s2 : slice (u16 0 ++ (a ++ (u16 1 ++ (u16 4 ++ rest)))) (48 + align8 4) 0 = [] := by
        unfold slice
        apply List.drop_eq_nil_of_le
        rw [List.length_take]; omega
      rw [s1, s2, show oxm2str [] = .ok [] from by decide +kernel, ok_bind, show inst2str [] = .ok [] from by decide +kernel, ok_bind]
      exact ⟨_, rfl⟩
    obtain ⟨t, ht⟩ := ht
    exact statsGo_stuck _ t (by omega) h0 ht
  refine ⟨?_, stuck⟩
  generalize hB : u16 0 ++ (a ++ (u16 1 ++ (u16 4 ++ rest))) = B at *
  obtain ⟨n1, n2, n3, n4⟩ := mpWire_nums 19 x 1 0 B [] (by decide) hx (by decide) (by omega)
  rw [List.append_nil] at n1 n2 n3
  have hL := mpWire_length 19 x 1 0 B
  have hone : mpflow2textOne (mpReply x 1 B) = .error .loops := by
    unfold mpflow2textOne
    rw [needBytes_ok _ _ _ (by rw [mpReply]; omega), ok_bind]
    rw [mpReply, n1, n2, n3, show pyAssert (1 == OFPMP_FLOW) = .ok () from rfl, ok_bind, if_neg (by decide)]
    rw [← mpReply, mpReply_slice, mpReply, n4]
    exact stuck _
  unfold mpflow2text
  rw [msgsGo, if_neg (by
    intro h
    rw [List.isEmpty_iff] at h
    rw [mpReply] at h
    rw [h] at hL
    simp at hL; omega), needBytes_ok _ _ _ (by rw [mpReply]; omega), ok_bind]
  dsimp only
  rw [show uAt (mpReply x 1 B) 2 2 = 16 + B.length from n2, List.take_of_length_le (by rw [mpReply]; omega), hone]
  rfl

/-- C47 is false of group descriptions: a bucket with an unknown action of length 0. -/
theorem C47_desc_refuted : mpgroupdesc2text (mpReply 0 7
    (u16 32 ++ (u8 0 ++ (pad 1 ++ (u32 1 ++ (bucketWire 0 0 0 (u16 99 ++ (u16 0 ++ pad 4)))))))) = .error .loops := by
  decide +kernel

end Ofpstr
