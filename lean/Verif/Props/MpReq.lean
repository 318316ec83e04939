import Verif.Props.Multipart

/-!
# Requests for groups (C65)
-/

set_option linter.unusedSimpArgs false

namespace Ofpstr
open Spec

/-- A request for the statistics of a group (`ofp_group_stats_request`). -/
def groupReq (x gid : Nat) : Bytes := mpWire 18 x 6 0 (u32 gid ++ pad 4)

example : groupReq 3 7 = [4, 18, 0, 24, 0, 0, 0, 3, 0, 6, 0, 0, 0, 0, 0, 0, 0, 0, 0, 7, 0, 0, 0, 0] := by decide

theorem groupReq_print (x gid : Nat) (hx : x < 256 ^ 4) (hg : gid < 256 ^ 4) :
    mpgroup2text (groupReq x gid) = .ok (if gid = 0xfffffffc then [] else if gid = 0xffffffff then t!"group=any"
      else t!"group=" ++ fmtD gid) := by
  have hB : (u32 gid ++ pad 4).length = 8 := by simp only [List.length_append, u32_length, pad_length]
  have hlen : (groupReq x gid).length = 24 := by rw [groupReq, mpWire_length, hB]
  have hn := mpWire_nums 18 x 6 0 (u32 gid ++ pad 4) [] (by decide) hx (by decide) (by omega)
  rw [List.append_nil] at hn
  obtain ⟨n1, n2, n3, n4⟩ := hn
  rw [← groupReq] at n1 n2 n3 n4
  have h16 : uAt (groupReq x gid) 16 4 = gid := by
    have h : uAt ((groupReq x gid).drop 16) 0 4 = gid := by rw [n4]; exact uAt_u32_here gid _ hg
    refine Eq.trans ?_ h
    unfold uAt slice
    rw [List.drop_zero, List.take_drop]
  have hone : mpgroup2textOne (groupReq x gid) = .ok (if gid = 0xfffffffc then [] else if gid = 0xffffffff then
      [t!"group=any"] else [t!"group=" ++ fmtD gid]) := by
    unfold mpgroup2textOne
    rw [needBytes_ok _ _ _ (by omega), ok_bind, n3, show pyAssert (6 == OFPMP_GROUP) = .ok () from rfl, ok_bind, n1,
      if_pos (by decide), needBytes_ok _ _ _ (by omega), ok_bind, h16]
    dsimp only
    have e1 : OFPG_ALL = 0xfffffffc := rfl
    have e2 : OFPG_ANY = 0xffffffff := rfl
    by_cases h1 : gid = 0xfffffffc
    · rw [if_pos (by rw [e1, h1]; decide), if_pos h1]
    · rw [if_neg (by rw [e1]; simpa using h1), if_neg h1]
      by_cases h2 : gid = 0xffffffff
      · rw [if_pos (by rw [e2, h2]; decide), if_pos h2]
      · rw [if_neg (by rw [e2]; simpa using h2), if_neg h2]
  unfold mpgroup2text
  rw [msgsGo_one _ _ _ hone (by omega) (by
    intro rest
    rw [hlen, groupReq, (mpWire_nums 18 x 6 0 (u32 gid ++ pad 4) rest (by decide) hx (by decide) (by omega)).2.1, hB]), ok_bind]
  split
  · rfl
  · split <;> simp [joinStr]

/-- C65: the text of a request for group statistics: nothing for all groups, `group=any`, or the group number
in decimal. -/
theorem C65_group_prints (x gid : Nat) (hx : x < 256 ^ 4) (hg : gid < 256 ^ 4) :
    ∃ d, Decimal d gid ∧ mpgroup2text (groupReq x gid) =
      .ok (if gid = 0xfffffffc then [] else if gid = 0xffffffff then t!"group=any" else t!"group=" ++ d) :=
  ⟨fmtD gid, decimal_fmtD gid, groupReq_print x gid hx hg⟩

example : mpgroup2text (groupReq 3 7) = .ok t!"group=7" ∧ mpgroup2text (groupReq 3 0xffffffff) = .ok t!"group=any" := by
  decide +kernel

/-- C65: `group=` and a number make the request for that group; further lines do not count. -/
theorem C65_group_builds (n x : Int) (s r : Str) (hs : IntSyntax s n s.length) (hr : r = [] ∨ ∃ t, r = '\n' :: t)
    (hn : FitsIn 4 n) (hx : FitsIn 4 x) :
    text2mpgroup (t!"group=" ++ (s ++ r)) 18 x = .ok (groupReq x.toNat n.toNat) := by
  obtain ⟨hc, hne, -⟩ := intSyntax_clean hs
  have hline : ∀ c ∈ t!"group=" ++ s, c ≠ '\n' := by
    intro c hm
    rcases List.mem_append.1 hm with h | h
    · have : ∀ c ∈ t!"group=", c ≠ '\n' := by decide
      exact this c h
    · rintro rfl
      exact absurd (hc _ h) (by decide)
  obtain ⟨rest, hsp⟩ : ∃ rest, splitAll '\n' (t!"group=" ++ (s ++ r)) = (t!"group=" ++ s) :: rest := by
    rw [← List.append_assoc]
    rcases hr with rfl | ⟨t, rfl⟩
    · exact ⟨[], by rw [List.append_nil]; exact splitAll_none _ _ hline⟩
    · exact ⟨_, splitAll_some _ _ _ hline⟩
  have h1 : Tok (t!"group=" ++ s) [] t!"group" ('=' :: s) := by
    have := tok_head (h := []) head_nil (b := t!"group") (Clean.token (by decide))
      (atEnd_eq s) (Clean.plainStart (by decide)) (by decide)
    simpa using this
  have h2 : procArg ('=' :: s) = .ok (n, []) := by
    have := tok_eq (r := []) hc.token atEnd_nil hc.plainStart hne
    rw [List.append_nil] at this
    exact (procArg_iff _ _ _).2 ⟨['='], s, this, by decide, hs⟩
  have h3 : statGroupHead ((t!"group=" ++ s).length + 1) 0 (t!"group=" ++ s) = .ok (n, []) := by
    obtain ⟨k, hk⟩ : ∃ k, (t!"group=" ++ s).length = k + 1 := ⟨s.length + 5, by simp⟩
    rw [hk, statGroupHead, if_neg (by simp), (getToken_iff _ _ _ _).2 h1]
    dsimp only
    rw [if_pos (by decide), h2, ok_bind, statGroupHead]
    rfl
  unfold text2mpgroup
  rw [hsp, mpgroupGo, h3, ok_bind]
  dsimp only
  rw [if_pos (by decide), packU_wire, if_pos hn, ok_bind, ok_bind]
  rw [mpMessage_fit 18 x OFPMP_GROUP _ (by decide) hx (by decide) (by
    simp only [List.length_append, be_length, zeros, List.length_replicate]; omega)]
  rfl

example : text2mpgroup t!"group=0x10\ngroup=2" 18 3 = .ok (groupReq 3 16) := by decide +kernel

/-- C65: a request for group statistics comes back exactly if it is for one group. -/
theorem C65_group_roundtrip_iff (x gid : Nat) (hx : x < 256 ^ 4) (hg : gid < 256 ^ 4) :
    (∃ text, mpgroup2text (groupReq x gid) = .ok text ∧ text2mpgroup text 18 x = .ok (groupReq x gid)) ↔
      gid ≠ 0xfffffffc ∧ gid ≠ 0xffffffff := by
  have hxf : FitsIn 4 (x : Int) := fitsIn_cast hx
  rw [groupReq_print x gid hx hg]
  constructor
  · rintro ⟨text, h1, h2⟩
    constructor
    · rintro rfl
      rw [if_pos rfl] at h1
      cases h1
      have hb : text2mpgroup [] 18 x = .ok (groupReq x 0) := by
        unfold text2mpgroup
        rw [show mpgroupGo 18 [] (splitAll '\n' []) = .ok (zeros 8) from by decide +kernel, ok_bind,
          mpMessage_fit 18 x OFPMP_GROUP _ (by decide) hxf (by decide) (by decide)]
        rfl
      rw [hb] at h2
      have h3 : groupReq x 0 = groupReq x 0xfffffffc := by injection h2
      have h4 := congrArg (List.drop 16) h3
      rw [groupReq, groupReq, (mpWire_nums 18 x 6 0 _ [] (by decide) hx (by decide) (by decide)).2.2.2,
        (mpWire_nums 18 x 6 0 _ [] (by decide) hx (by decide) (by decide)).2.2.2] at h4
      exact absurd h4 (by decide)
    · rintro rfl
      rw [if_neg (by decide), if_pos rfl] at h1
      cases h1
      unfold text2mpgroup at h2
      rw [show mpgroupGo 18 [] (splitAll '\n' t!"group=any") = .error .valueError from by decide +kernel] at h2
      cases h2
  · rintro ⟨h1, h2⟩
    rw [if_neg h1, if_neg h2]
    refine ⟨_, rfl, ?_⟩
    have := C65_group_builds gid x (fmtD gid) [] (intSyntax_fmtD gid) (Or.inl rfl) (fitsIn_cast hg) hxf
    rwa [List.append_nil] at this

/-- C65: every text makes the same request for group descriptions, and that request prints as the empty text. -/
theorem C65_desc (x : Nat) (s : Str) (hx : x < 256 ^ 4) :
    text2mpgroupdesc s 18 x = .ok (mpWire 18 x 7 0 []) ∧ mpgroupdesc2text (mpWire 18 x 7 0 []) = .ok [] := by
  have hlen := mpWire_length 18 x 7 0 []
  have hn := mpWire_nums 18 x 7 0 [] [] (by decide) hx (by decide) (by decide)
  rw [List.append_nil] at hn
  obtain ⟨n1, n2, n3, n4⟩ := hn
  refine ⟨mpMessage_fit 18 x OFPMP_GROUP_DESC [] (by decide) (fitsIn_cast hx) (by decide) (by decide), ?_⟩
  have hone : mpgroupdesc2textOne (mpWire 18 x 7 0 []) = .ok [] := by
    unfold mpgroupdesc2textOne
    rw [needBytes_ok _ _ _ (by rw [hlen]; decide), ok_bind, n3, show pyAssert (7 == OFPMP_GROUP_DESC) = .ok () from rfl,
      ok_bind, n1, if_pos (by decide)]
  unfold mpgroupdesc2text
  rw [msgsGo_one _ _ _ hone (by rw [hlen]; decide) (by
    intro rest
    rw [hlen, (mpWire_nums 18 x 7 0 [] rest (by decide) hx (by decide) (by decide)).2.1]), ok_bind]
  rfl

/-- C65: a line that names no group describes group 0 of type all. -/
theorem C65_desc_default (s : Str) (x : Int) (m : Bytes) (hl : '\n' ∉ s)
    (hg : ∀ h b r, Tok s h b r → b ≠ t!"group" ∧ lowerStr b ∉ groupTypes) (h : text2mpgroupdesc s 19 x = .ok m) :
    ∃ n bs, m.drop 16 = u16 n ++ (u8 0 ++ (pad 1 ++ (u32 0 ++ bs))) := by
  have hb := desc_line hl h
  unfold descBody at hb
  have hd : descHead (s.length + 1) 0 0 s = .ok (0, 0, s) := by
    rw [descHead]
    split
    · rfl
    · rcases ht : getToken s with ⟨hh, b, r⟩
      obtain ⟨g1, g2⟩ := hg hh b r ((getToken_iff _ _ _ _).1 ht)
      dsimp only
      rw [if_neg (by simpa using g1), if_neg]
      simpa [ofpgt, groupTypes] using g2
  rw [hd, ok_bind] at hb
  dsimp only at hb
  obtain ⟨bs, -, hb⟩ := bind_ok hb
  rw [packAll_eq] at hb
  split at hb
  · rw [ok_bind, packU_wire, if_pos (by decide), ok_bind] at hb
    refine ⟨8 + bs.length, bs, ?_⟩
    simp only [Except.ok.injEq] at hb
    rw [← hb]
    have e : ((8 : Int) + (bs.length : Int)).toNat = 8 + bs.length := by omega
    simp [u16, u8, u32, pad, zeros, e]
  · cases hb

example : text2mpgroupdesc t!"@bucket,output=1" 19 3 = .ok (mpReply 3 7 (GroupDesc.wire ⟨0, 0, [outBucket 0]⟩)) := by
  decide +kernel

end Ofpstr
