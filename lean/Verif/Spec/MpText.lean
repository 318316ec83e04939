import Verif.Spec.RuleText
import Verif.Spec.Multipart

/-!
# Specification: exactly which texts are multipart messages

The texts of flow statistics, group descriptions and group statistics, and of the requests for them, with
the bytes they mean.  The relations say what the library takes, also where that is more than one would
expect: a part of a line that is not understood can be left out silently.
-/

namespace Ofpstr.Spec

/-! ## Lines -/

/-- The lines with line feeds between them. -/
def lineList : List Str → Str
  | [] => []
  | [t] => t
  | t :: u :: ts => t ++ '\n' :: lineList (u :: ts)

/-- The lines of a text: at least one. -/
def TextLines (txt : Str) (lines : List Str) : Prop := lines ≠ [] ∧ (∀ t ∈ lines, '\n' ∉ t) ∧ txt = lineList lines

example : TextLines t!"a\n\nb" [t!"a", [], t!"b"] := by unfold TextLines; decide

/-- The message fits: its type, its xid and its length. -/
def MpFits (type xid : Int) (body : Bytes) : Prop := FitsIn 1 type ∧ FitsIn 4 xid ∧ 16 + body.length < 65536

/-! ## Counters -/

/-- `NumArg s n r`: the text `s` starts with `=` and the number `n`, and `r` follows. -/
def NumArg (s : Str) (n : Int) (r : Str) : Prop := ∃ op p, Tok s op p r ∧ '=' ∈ op ∧ IntSyntax p n p.length

/-- `CountText names l s r`: the text `s` starts with the counters `l`, with names among `names`; `r` is what
follows, the end or something else. -/
inductive CountText (names : List Str) : List (Str × Int) → Str → Str → Prop
  | nil : CountText names [] [] []
  | stop (s h name t) : Tok s h name t → name ∉ names → CountText names [] s s
  | cons (s h name t n u l r) : s ≠ [] → Tok s h name t → name ∈ names → NumArg t n u → CountText names l u r →
      CountText names ((name, n) :: l) s r

/-- The last value of a counter, 0 if there is none. -/
def countOf (name : Str) (l : List (Str × Int)) : Int :=
  (((l.filter fun e => e.1 = name).map (·.2)).getLast?).getD 0

example : countOf t!"packet_count" [(t!"packet_count", 1), (t!"byte_count", 2), (t!"packet_count", 3)] = 3 := by decide

def flowCounters : List Str := [t!"packet_count", t!"byte_count", t!"duration_sec", t!"duration_nsec"]

/-! ## Flow statistics -/

/-- A line of flow statistics: counters, then a rule. -/
def StatLine (s : Str) (e : List (Str × Int) × List Word) : Prop := ∃ r, CountText flowCounters e.1 s r ∧ RuleText r e.2

/-- The match and the instructions. -/
def statTail (ws : List Word) : Bytes := matchWire (oxmOf ws) ++ instBytes ws

/-- The value of a key, 0 if there is none. -/
def keyOf (k : FKey) (ws : List Word) : Int := (lastOf (Word.keyArg k) ws).getD 0

/-- `struct ofp_flow_stats` of a line. -/
def statOf (l : List (Str × Int)) (ws : List Word) : Bytes :=
  u16 (48 + (statTail ws).length) ++ (u8 (keyOf .table ws).toNat ++ (pad 1 ++ (u32 (countOf t!"duration_sec" l).toNat ++
  (u32 (countOf t!"duration_nsec" l).toNat ++ (u16 (keyOf .priority ws).toNat ++ (u16 (keyOf .idle ws).toNat ++
  (u16 (keyOf .hard ws).toNat ++ (u16 (flagsOf ws) ++ (pad 4 ++ (u64 ((lastOf Word.cookieArg ws).getD 0).toNat ++
  (u64 (countOf t!"packet_count" l).toNat ++ (u64 (countOf t!"byte_count" l).toNat ++ statTail ws))))))))))))

def StatFits (l : List (Str × Int)) (ws : List Word) : Prop :=
  FitsIn 1 (keyOf .table ws) ∧ FitsIn 4 (countOf t!"duration_sec" l) ∧ FitsIn 4 (countOf t!"duration_nsec" l) ∧
  FitsIn 2 (keyOf .priority ws) ∧ FitsIn 2 (keyOf .idle ws) ∧ FitsIn 2 (keyOf .hard ws) ∧
  FitsIn 8 ((lastOf Word.cookieArg ws).getD 0) ∧ FitsIn 8 (countOf t!"packet_count" l) ∧ FitsIn 8 (countOf t!"byte_count" l)

/-- What a line gives in a message of the given type: an entry in a reply (19), a request otherwise. -/
def lineOf (type : Int) (e : List (Str × Int) × List Word) : Bytes :=
  if type = 19 then statOf e.1 e.2 else (reqOf e.2).wire (oxmOf e.2)

/-- The numbers of a line fit; those of the instructions also where these are not used. -/
def LineFits (type : Int) (e : List (Str × Int) × List Word) : Prop :=
  (∀ i ∈ instsOf e.2, i.Fits) ∧ if type = 19 then StatFits e.1 e.2 else (reqOf e.2).Fits

/-! ## Group descriptions -/

/-- `ReadsD s w r`: the text `s` starts with the head word `w`; the type can be written in capitals. -/
inductive ReadsD : Str → GWord → Str → Prop
  | id (s h t n r) : Tok s h t!"group" t → NumArg t n r → ReadsD s (.id n) r
  | type (s h name k r) : Tok s h name r → groupTypes[k]? = some (name.map Char.toLower) → ReadsD s (.type k) r

/-- The head of a line, and what follows. -/
inductive HeadD : List GWord → Str → Str → Prop
  | nil : HeadD [] [] []
  | stop (s h name t) : Tok s h name t → name ≠ t!"group" → name.map Char.toLower ∉ groupTypes → HeadD [] s s
  | cons (s w u gs r) : s ≠ [] → ReadsD s w u → HeadD gs u r → HeadD (w :: gs) s r

/-- The buckets of a line.  Where no bucket starts, the rest of the line is left out. -/
inductive BucketsD : List (List BWord) → Str → Prop
  | nil : BucketsD [] []
  | mark (s h r bs) : s ≠ [] → Tok s h t!"@bucket" r → BucketsD bs r → BucketsD bs s
  | bucket (s ws u bs) : ws ≠ [] → BucketText ActLen ws s u → BucketsD bs u → BucketsD (ws :: bs) s
  | junk (s h name t) : s ≠ [] → Tok s h name t → name ≠ t!"@bucket" → BucketText ActLen [] s s → BucketsD [] s

/-- A line of group descriptions. -/
def DescLine (s : Str) (e : List GWord × List (List BWord)) : Prop := ∃ u, HeadD e.1 s u ∧ BucketsD e.2 u

/-- The group id of a line, 0 if there is none. -/
def lineGroup (gs : List GWord) : Int := ((gs.filterMap GWord.idArg).getLast?).getD 0

/-- `struct ofp_group_desc` of a line. -/
def descOf (e : List GWord × List (List BWord)) : Bytes :=
  u16 (8 + (e.2.flatMap (bucketOf (groupType e.1))).length) ++ (u8 (groupType e.1) ++ (pad 1 ++ (u32 (lineGroup e.1).toNat ++
  e.2.flatMap (bucketOf (groupType e.1)))))

def DescFits (e : List GWord × List (List BWord)) : Prop :=
  FitsIn 4 (lineGroup e.1) ∧ ∀ ws ∈ e.2, BucketFits (groupType e.1) ws

/-! ## Group statistics -/

def groupCounters : List Str := [t!"ref_count", t!"packet_count", t!"byte_count", t!"duration_sec", t!"duration_nsec"]
def bucketCounters : List Str := [t!"packet_count", t!"byte_count"]

/-- The group, more than once if need be, and what follows. -/
inductive HeadS : List Int → Str → Str → Prop
  | nil : HeadS [] [] []
  | stop (s h name t) : Tok s h name t → name ≠ t!"group" → HeadS [] s s
  | cons (s h t n u gs r) : s ≠ [] → Tok s h t!"group" t → NumArg t n u → HeadS gs u r → HeadS (n :: gs) s r

/-- `StatParts names l ss s`: the text `s` continues with the counters `l` with names among `names`, then the buckets `ss`,
each after a `@bucket`.  Where a number with another name stands, the rest of the line is left out. -/
inductive StatParts : List Str → List (Str × Int) → List (List (Str × Int)) → Str → Prop
  | nil (names) : StatParts names [] [] []
  | mark (names s h r l ss) : s ≠ [] → Tok s h t!"@bucket" r → StatParts bucketCounters l ss r → StatParts names [] (l :: ss) s
  | count (names s h name t n r l ss) : s ≠ [] → Tok s h name t → name ∈ names → NumArg t n r → StatParts names l ss r →
      StatParts names ((name, n) :: l) ss s
  | junk (names s h name t n r) : s ≠ [] → Tok s h name t → name ≠ t!"@bucket" → name ∉ names → NumArg t n r →
      StatParts names [] [] s

/-- A line of group statistics. -/
structure GStat where
  ids : List Int
  counts : List (Str × Int)
  buckets : List (List (Str × Int))

def GStat.gid (e : GStat) : Int := e.ids.getLast?.getD 0

def GStatLine (s : Str) (e : GStat) : Prop := ∃ u, HeadS e.ids s u ∧ StatParts groupCounters e.counts e.buckets u

/-- `struct ofp_bucket_counter`. -/
def bucketCounter (l : List (Str × Int)) : Bytes := u64 (countOf t!"packet_count" l).toNat ++ u64 (countOf t!"byte_count" l).toNat

/-- `struct ofp_group_stats` of a line. -/
def GStat.wire (e : GStat) : Bytes :=
  u16 (40 + 16 * e.buckets.length) ++ (pad 2 ++ (u32 e.gid.toNat ++ (u32 (countOf t!"ref_count" e.counts).toNat ++ (pad 4 ++
  (u64 (countOf t!"packet_count" e.counts).toNat ++ (u64 (countOf t!"byte_count" e.counts).toNat ++
  (u32 (countOf t!"duration_sec" e.counts).toNat ++ (u32 (countOf t!"duration_nsec" e.counts).toNat ++
  e.buckets.flatMap bucketCounter))))))))

def GStat.Fits (e : GStat) : Prop :=
  FitsIn 4 e.gid ∧ FitsIn 4 (countOf t!"ref_count" e.counts) ∧ FitsIn 8 (countOf t!"packet_count" e.counts) ∧
  FitsIn 8 (countOf t!"byte_count" e.counts) ∧ FitsIn 4 (countOf t!"duration_sec" e.counts) ∧
  FitsIn 4 (countOf t!"duration_nsec" e.counts) ∧
  ∀ l ∈ e.buckets, FitsIn 8 (countOf t!"packet_count" l) ∧ FitsIn 8 (countOf t!"byte_count" l)

end Ofpstr.Spec
