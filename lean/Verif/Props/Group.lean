import Verif.Lemmas.GroupTrip
import Verif.Lemmas.GroupEnds
import Verif.Props.ActTrip
import Verif.Props.Flow

/-!
# Properties C04 (groups and multipart texts), C39-C41 and C51 (groups)
-/

namespace Ofpstr
open Spec

/-! ## C04 -/

/-- C04 for buckets and groups: parsing ends on every text. -/
theorem C04_groups_end (type : Nat) (s : Str) (c x : Int) :
    str2bucket type s ≠ .error .loops ∧ str2group s c x ≠ .error .loops :=
  ⟨ends_str2bucket type s, ends_str2group s c x⟩

/-- C04 for the texts of multipart messages. -/
theorem C04_multipart_end (s : Str) (type xid : Int) :
    text2mpflow s type xid ≠ .error .loops ∧ text2mpgroupdesc s type xid ≠ .error .loops ∧
    text2mpgroup s type xid ≠ .error .loops :=
  ⟨ends_text2mpflow s type xid, ends_text2mpgroupdesc s type xid, ends_text2mpgroup s type xid⟩

/-! ## C39 -/

/-- C39: the accepted group texts and their messages.  A text is accepted if and only if it is a head
(group id and type) and buckets of words, and all numbers fit; the message is the one of the words. -/
theorem C39_message (s : Str) (c x : Int) (b : Bytes) : str2group s c x = .ok b ↔
    ∃ gs bs u, HeadText gs s u ∧ Buckets actP bs u ∧ GroupFits c x gs bs ∧ b = groupMod c x gs bs :=
  str2group_iff s c x b

/-- C39: the header of the message, and one bucket with its true length per list of words. -/
theorem C39_header (s : Str) (c x : Int) (b : Bytes) (h : str2group s c x = .ok b) :
    ∃ (gs : List GWord) (bs : List (List BWord)), b.length < 65536 ∧
      FitsIn 4 x ∧ FitsIn 2 c ∧ FitsIn 4 (groupId gs) ∧
      b.take 16 = u8 4 ++ (u8 15 ++ (u16 b.length ++ (u32 x.toNat ++ (u16 c.toNat ++ (u8 (groupType gs) ++
        (pad 1 ++ u32 (groupId gs).toNat)))))) ∧
      b.drop 16 = bs.flatMap (bucketOf (groupType gs)) ∧
      ∀ ws ∈ bs, (bucketOf (groupType gs) ws).length < 65536 ∧
        (bucketOf (groupType gs) ws).take 2 = u16 (bucketOf (groupType gs) ws).length := by
  obtain ⟨gs, bs, u, -, -, ⟨f1, f2, f3, f4, f5⟩, rfl⟩ := (str2group_iff s c x b).1 h
  refine ⟨gs, bs, f5, f1, f2, f3, ?_, ?_, ?_⟩
  · have hl := groupWire_length x.toNat c.toNat (groupType gs) (groupId gs).toNat (bs.flatMap (bucketOf (groupType gs)))
    unfold groupMod
    rw [hl]
    unfold groupWire message
    have e : ∀ (B : Bytes) (L : Nat), u8 4 ++ (u8 15 ++ (u16 L ++ (u32 x.toNat ++
        (u16 c.toNat ++ (u8 (groupType gs) ++ (pad 1 ++ (u32 (groupId gs).toNat ++ B))))))) =
        (u8 4 ++ (u8 15 ++ (u16 L ++ (u32 x.toNat ++ (u16 c.toNat ++ (u8 (groupType gs) ++
        (pad 1 ++ u32 (groupId gs).toNat))))))) ++ B := by
      intro B L; simp only [List.append_assoc]
    rw [e, List.take_left' (by simp only [List.length_append, u8_length, u16_length, u32_length, pad_length])]
    simp only [List.length_append, u8_length, u16_length, u32_length, pad_length]
    congr 4
    omega
  · unfold groupMod groupWire message
    generalize bs.flatMap (bucketOf (groupType gs)) = B
    generalize 8 + _ = L
    have e : u8 4 ++ (u8 15 ++ (u16 L ++ (u32 x.toNat ++
        (u16 c.toNat ++ (u8 (groupType gs) ++ (pad 1 ++ (u32 (groupId gs).toNat ++ B))))))) =
        (u8 4 ++ (u8 15 ++ (u16 L ++ (u32 x.toNat ++ (u16 c.toNat ++ (u8 (groupType gs) ++
        (pad 1 ++ u32 (groupId gs).toNat))))))) ++ B := by
      simp only [List.append_assoc]
    rw [e]
    apply List.drop_left'
    simp only [List.length_append, u8_length, u16_length, u32_length, pad_length]
  · intro ws hws
    obtain ⟨g1, -⟩ := f4 ws hws
    unfold bucketOf
    rw [bucketWire_length]
    refine ⟨g1, ?_⟩
    unfold bucketWire
    exact List.take_left' (u16_length _)

/-- The words of a head and of a bucket, and how they are written. -/
theorem C39_word_texts :
    (∀ w t, BNumText w t → IsB actP w t) ∧
    (∀ a : Act, a.Valid → a.Lossless → ∃ t, act2str a.wire = .ok t ∧ IsB actP (.act a.wire) t) := by
  refine ⟨fun w t h => isB_num h, ?_⟩
  intro a hv hl
  obtain ⟨t, ht⟩ := act_trip a hv hl
  refine ⟨t, ?_, isB_actTrip ht⟩
  have := act2str_list [(a.wire, t)] (by simpa using ht)
  simpa [commaList] using this

/-- C39: `group=…`, type, then sections that start with `@bucket`: the message has one bucket for each
section that is not empty, in this order.  Missing: sections without any word give no bucket
(`C39_sections_refuted`), separators at the end give one. -/
theorem C39_sections_partial (gs : List (GWord × Str)) (l : List Item) (c x : Int)
    (hg : ∀ e ∈ gs, HeadWord e.1 e.2) (ho : ∀ i ∈ l, i.Ok actP) (he : NoGapEnd l) :
    str2group (commaList (gs.map (·.2) ++ (Item.mark :: l).map Item.text)) c x =
      if GroupFits c x (gs.map (·.1)) (full (sections l)) then
        .ok (groupMod c x (gs.map (·.1)) (full (sections l)))
      else .error .structError := by
  obtain ⟨u, h1, h2⟩ := group_text gs l hg ho he
  have e : full (sections (.mark :: l)) = full (sections l) := by
    rw [sections, full_cons, if_pos rfl]
  rw [e] at h2
  exact str2group_text h1 h2 c x

/-- C39: without any section, the message has no bucket. -/
theorem C39_no_bucket (gs : List (GWord × Str)) (c x : Int) (hg : ∀ e ∈ gs, HeadWord e.1 e.2) :
    str2group (commaList (gs.map (·.2))) c x =
      if GroupFits c x (gs.map (·.1)) [] then .ok (groupMod c x (gs.map (·.1)) []) else .error .structError := by
  obtain ⟨h1, h2⟩ := group_text_nil gs hg
  exact str2group_text h1 h2 c x

/-- C39 is false of empty sections, of separators at the end and of words without `@bucket`: the number
of buckets is not the number of `@bucket`. -/
theorem C39_sections_refuted :
    str2group t!"group=1,all,@bucket,@bucket,output=1" 0 0 = str2group t!"group=1,all,@bucket,output=1" 0 0 ∧
    str2group t!"group=1,all,@bucket" 0 0 = str2group t!"group=1,all" 0 0 ∧
    str2group t!"group=1,all," 0 0 = .ok (groupWire 0 0 0 1 (bucketWire 0 0xffffffff 0xffffffff [])) ∧
    str2group t!"group=1,all,@bucket," 0 0 = .ok (groupWire 0 0 0 1 (bucketWire 0 0xffffffff 0xffffffff [])) ∧
    str2group t!"group=1,all,weight=3" 0 0 = .ok (groupWire 0 0 0 1 (bucketWire 3 0xffffffff 0xffffffff [])) := by
  decide +kernel

example : HeadWord (.id 7) t!"group=7" ∧ HeadWord (.type 1) t!"select" ∧ BNumText (.weight 3) t!"weight=3" :=
  ⟨.id t!"7" 7 ((parseInt_iff _ _ _).1 (by decide)), .type 1 _ (by decide),
    .weight t!"3" 3 ((parseInt_iff _ _ _).1 (by decide))⟩
example : NoGapEnd [.word (.weight 3) t!"weight=3", .mark, .word (.port 1) t!"watch_port=1"] ∧
    full (sections [.word (.weight 3) t!"weight=3", .mark, .word (.port 1) t!"watch_port=1"]) =
      [[.weight 3], [.port 1]] ∧
    GroupFits 0 5 [.id 7, .type 1] [[.weight 3], [.port 1]] :=
  ⟨by intro t h; simp at h, by decide, by decide +kernel⟩
example : str2group t!"group=7,select,@bucket,weight=3,@bucket,watch_port=1" 0 5 =
    .ok (groupWire 5 0 1 7 (bucketWire 3 0xffffffff 0xffffffff [] ++ bucketWire 1 1 0xffffffff [])) := by
  decide +kernel

/-! ## C40 -/

/-- C40: a well-formed group-mod is printed as a text that parses, with the command and the xid of the
message, to exactly the bytes of the message.  Missing: blank buckets, weights outside select groups, a
last bucket without actions, actions that cannot be written back; for these it is false
(`C40_lossy_refuted`). -/
theorem C40_roundtrip_partial (m : GroupMod) (hv : m.Valid) (hb : ∀ b ∈ m.buckets, b.Lossless m.type)
    (hlast : ∀ b, m.buckets.getLast? = some b → b.acts ≠ []) :
    ∃ text, group2str m.wire = .ok text ∧ str2group text m.command m.xid = .ok m.wire :=
  group_trip m hv hb hlast

/-- The round trip of a group-mod, as a computation. -/
def groupBack (b : Bytes) (c x : Int) : Bool :=
  match group2str b with
  | .ok s => decide (str2group s c x = .ok b)
  | .error _ => false

theorem groupBack_iff (b : Bytes) (c x : Int) :
    groupBack b c x = true ↔ ∃ text, group2str b = .ok text ∧ str2group text c x = .ok b := by
  unfold groupBack
  split
  · rename_i s hs; simp [hs]
  · rename_i e hs; simp [hs]

/-- A bucket of one output action. -/
def outBucket (weight : Nat) : Bucket := ⟨weight, 0xffffffff, 0xffffffff, [.output 1 0xffff]⟩

/-- Well-formed group-mods that are lost: a blank bucket before another one, two blank buckets, a weight
in a group of type all, a last bucket with a weight and a port but no actions. -/
def lossyGroups : List GroupMod := [
  ⟨0, 0, 0, 1, [⟨0, 0xffffffff, 0xffffffff, []⟩, outBucket 0]⟩,
  ⟨0, 0, 1, 1, [⟨1, 0xffffffff, 0xffffffff, []⟩, ⟨1, 0xffffffff, 0xffffffff, []⟩]⟩,
  ⟨0, 0, 0, 1, [⟨0, 0xffffffff, 0xffffffff, []⟩]⟩,
  ⟨0, 0, 0, 1, [outBucket 5]⟩,
  ⟨0, 0, 1, 1, [outBucket 1, ⟨7, 3, 0xffffffff, []⟩]⟩]

/-- C40 is false of well-formed group-mods. -/
theorem C40_lossy_refuted (m : GroupMod) (hm : m ∈ lossyGroups) :
    m.Valid ∧ ¬ ∃ text, group2str m.wire = .ok text ∧ str2group text m.command m.xid = .ok m.wire := by
  have h1 : ∀ m ∈ lossyGroups, groupBack m.wire m.command m.xid = false := by decide +kernel
  refine ⟨?_, by rw [← groupBack_iff, h1 m hm]; simp⟩
  simp only [lossyGroups, List.mem_cons, List.not_mem_nil, or_false] at hm
  rcases hm with rfl | rfl | rfl | rfl | rfl <;>
    simp [GroupMod.Valid, Bucket.Valid, outBucket, GroupMod.wire, Bucket.wire, groupWire, bucketWire, message,
      Act.wire, Act.Valid, outputWire, u8, u16, u32, pad, be]

/-! ## C41 -/

/-- C41 is false of every message: `group2extra` returns a key `group_id` that `str2group` does not take. -/
theorem C41_refuted (msg : Bytes) (s : Str) (e : Extra) (h : group2extra msg = .ok e) :
    str2groupX s e = .error .typeError := by
  unfold group2extra at h
  obtain ⟨_, -, h⟩ := bind_ok h
  obtain ⟨_, -, h⟩ := bind_ok h
  cases h
  rfl

/-- C41 without that key: the command and the xid are those of the message, and recreate it.  Missing:
the call as it is written, and the group-mods that C40 excludes. -/
theorem C41_recreate_partial (m : GroupMod) (hv : m.Valid) (hb : ∀ b ∈ m.buckets, b.Lossless m.type)
    (hlast : ∀ b, m.buckets.getLast? = some b → b.acts ≠ []) :
    ∃ text e, group2str m.wire = .ok text ∧ group2extra m.wire = .ok e ∧ e.groupId = some m.gid ∧
      str2groupX text { e with groupId := none } = .ok m.wire := by
  obtain ⟨text, h1, h2⟩ := group_trip m hv hb hlast
  obtain ⟨v1, v2, v3, v4, v5, v6⟩ := hv
  obtain ⟨n1, n2, n3, n4, n5, n6⟩ := groupWire_nums m.xid m.command m.type m.gid (m.buckets.flatMap Bucket.wire) v1 v2
    (by omega) v4
  have hlen := groupWire_length m.xid m.command m.type m.gid (m.buckets.flatMap Bucket.wire)
  have he : group2extra m.wire = .ok
      { xid := m.xid, groupId := some m.gid, command := if m.command != 0 then some m.command else none } := by
    unfold group2extra GroupMod.wire
    rw [needBytes_ok _ _ _ (by omega), ok_bind]
    rw [n1, n2, n3, n5]
    rfl
  refine ⟨text, _, h1, he, rfl, ?_⟩
  rw [← h2]
  unfold str2groupX
  dsimp only
  by_cases hc : m.command = 0
  · simp [hc]
  · simp [hc]

/-- A select group of two buckets. -/
def exGroup : GroupMod := ⟨7, 1, 1, 5, [⟨3, 2, 0xffffffff, []⟩, outBucket 1]⟩

example : exGroup.Valid ∧ (∀ b ∈ exGroup.buckets, b.Lossless exGroup.type) ∧
    (∀ b, exGroup.buckets.getLast? = some b → b.acts ≠ []) := by
  refine ⟨?_, ?_, ?_⟩
  · simp [exGroup, GroupMod.Valid, Bucket.Valid, outBucket, GroupMod.wire, Bucket.wire, groupWire, bucketWire, message,
      Act.wire, Act.Valid, outputWire, u8, u16, u32, pad, be]
  · simp [exGroup, outBucket, Bucket.Lossless, Bucket.Blank, Act.Lossless]
  · simp [exGroup, outBucket]
example : group2str exGroup.wire = .ok t!"group=5,select,@bucket,weight=3,watch_port=2,@bucket,output=1" ∧
    str2group t!"group=5,select,@bucket,weight=3,watch_port=2,@bucket,output=1" 1 7 = .ok exGroup.wire := by
  decide +kernel
example : group2extra exGroup.wire = .ok { xid := 7, groupId := some 5, command := some 1 } := by decide +kernel

/-! ## C51 -/

/-- C51 for the numbers of a bucket: if the last number given for the weight, the port or the group does
not fit, the text is an error; so is a bucket that is too long. -/
theorem C51_bucket (gs : List GWord) (bs : List (List BWord)) (s u : Str) (c x : Int) (h1 : HeadText gs s u)
    (h2 : Buckets actP bs u) (ws : List BWord) (hw : ws ∈ bs)
    (h : (∃ n, lastB BWord.weightArg ws = some n ∧ ¬ FitsIn 2 n) ∨ (∃ n, lastB BWord.portArg ws = some n ∧ ¬ FitsIn 4 n) ∨
      (∃ n, lastB BWord.groupArg ws = some n ∧ ¬ FitsIn 4 n) ∨ 65536 ≤ 16 + (actsOf ws).length) :
    str2group s c x = .error .structError := by
  rw [str2group_text h1 h2, if_neg]
  rintro ⟨-, -, -, hb, -⟩
  obtain ⟨b1, b2, b3, b4⟩ := hb ws hw
  rcases h with ⟨n, hn, hf⟩ | ⟨n, hn, hf⟩ | ⟨n, hn, hf⟩ | h
  · exact hf (by unfold weightOf at b2; rw [hn] at b2; exact b2)
  · exact hf (by unfold portOf at b3; rw [hn] at b3; exact b3)
  · exact hf (by unfold groupOf at b4; rw [hn] at b4; exact b4)
  · omega

/-- C51 for the group id. -/
theorem C51_group_id (gs : List GWord) (bs : List (List BWord)) (s u : Str) (c x : Int) (h1 : HeadText gs s u)
    (h2 : Buckets actP bs u) (h : ¬ FitsIn 4 (groupId gs)) : str2group s c x = .error .structError := by
  rw [str2group_text h1 h2, if_neg]
  rintro ⟨-, -, hb, -⟩
  exact h hb

/-- C51 for the xid and the command of a group-mod. -/
theorem C51_group_arguments (s : Str) (c x : Int) (h : ¬ FitsIn 4 x ∨ ¬ FitsIn 2 c) : Raises (str2group s c x) := by
  refine raises_of (ends_str2group s c x) ?_
  cases he : str2group s c x with
  | error e => exact ⟨e, rfl⟩
  | ok b =>
    obtain ⟨-, -, -, h1, h2, -⟩ := C39_header s c x b he
    exact absurd h (by simp [h1, h2])

example : str2group t!"group=4294967296" 0 0 = .error .structError ∧
    str2group t!"group=-1,all,@bucket,output=1" 0 0 = .error .structError ∧
    str2group t!"group=1,select,@bucket,weight=65536" 0 0 = .error .structError ∧
    str2group t!"group=1,ff,@bucket,watch_port=-1" 0 0 = .error .structError ∧
    str2group t!"group=1" 65536 0 = .error .structError := by decide +kernel
example : lastB BWord.weightArg [.weight 1, .weight 65536] = some 65536 ∧ ¬ FitsIn 2 65536 ∧
    ¬ FitsIn 4 (groupId [.id 4294967296]) := by decide

end Ofpstr
