import Verif.Spec.Flow

/-!
# Specification: groups

The words of a group text, what they mean, and `struct ofp_group_mod` and `struct ofp_bucket` of
OpenFlow 1.3 (A.3.4.2).  As in `Spec.Flow`, `act u b l` says that the text `u` starts with an action of
`l` characters and the bytes `b`; `l = 0` says that there is no action.
-/

namespace Ofpstr.Spec

/-! ## Buckets -/

/-- A word of a bucket. -/
inductive BWord where
  | weight (n : Int)
  | port (n : Int)
  | group (n : Int)
  | act (b : Bytes)
  deriving DecidableEq

/-- The words with a fixed meaning in a bucket. -/
def bucketKeys : List Str := [t!"weight", t!"watch_port", t!"watch_group"]

/-- `ReadsB act s w r`: the text `s` starts with the word `w`, `r` is what is left. -/
inductive ReadsB (act : Str → Bytes → Nat → Prop) : Str → BWord → Str → Prop
  | weight (s h t op p n r) : Tok s h t!"weight" t → '=' ∉ h → Tok t op p r → '=' ∈ op →
      IntSyntax p n p.length → ReadsB act s (.weight n) r
  | port (s h t op p n r) : Tok s h t!"watch_port" t → '=' ∉ h → Tok t op p r → '=' ∈ op →
      IntSyntax p n p.length → ReadsB act s (.port n) r
  | group (s h t op p n r) : Tok s h t!"watch_group" t → '=' ∉ h → Tok t op p r → '=' ∈ op →
      IntSyntax p n p.length → ReadsB act s (.group n) r
  | act (s h name t b l) : Tok s h name t → '=' ∉ h → name.head? ≠ some '@' → name ∉ bucketKeys →
      act s b l → l ≠ 0 → ReadsB act s (.act b) (s.drop l)

/-- No word of a bucket starts here: the text ends, or a token with `@` or something that is no action
follows. -/
def NoB (act : Str → Bytes → Nat → Prop) (s : Str) : Prop :=
  s = [] ∨ ∃ h name t, Tok s h name t ∧ '=' ∉ h ∧
    (name.head? = some '@' ∨ (name ∉ bucketKeys ∧ ∃ b, act s b 0))

/-- `BucketText act ws s r`: the bucket at the start of `s` has the words `ws`, `r` is what is left. -/
inductive BucketText (act : Str → Bytes → Nat → Prop) : List BWord → Str → Str → Prop
  | nil (s) : NoB act s → BucketText act [] s s
  | cons (s w u ws r) : s ≠ [] → ReadsB act s w u → BucketText act ws u r → BucketText act (w :: ws) s r

def BWord.weightArg : BWord → Option Int
  | .weight n => some n
  | _ => none

def BWord.portArg : BWord → Option Int
  | .port n => some n
  | _ => none

def BWord.groupArg : BWord → Option Int
  | .group n => some n
  | _ => none

def BWord.actBytes : BWord → Bytes
  | .act b => b
  | _ => []

/-- The last value among the words. -/
def lastB (f : BWord → Option Int) (ws : List BWord) : Option Int := (ws.filterMap f).getLast?

/-- `struct ofp_bucket`. -/
def bucketWire (weight port group : Nat) (acts : Bytes) : Bytes :=
  u16 (16 + acts.length) ++ (u16 weight ++ (u32 port ++ (u32 group ++ (pad 4 ++ acts))))

/-- The weight of a bucket that does not give one: 1 in a group of type select, 0 elsewhere. -/
def defaultWeight (type : Nat) : Int := if type = 1 then 1 else 0

/-- The numbers of a bucket with the given words, in a group of the given type. -/
def weightOf (type : Nat) (ws : List BWord) : Int := (lastB BWord.weightArg ws).getD (defaultWeight type)
def portOf (ws : List BWord) : Int := (lastB BWord.portArg ws).getD 0xffffffff
def groupOf (ws : List BWord) : Int := (lastB BWord.groupArg ws).getD 0xffffffff

/-- The actions of the words. -/
def actsOf (ws : List BWord) : Bytes := ws.flatMap BWord.actBytes

/-- The bucket that the words stand for. -/
def bucketOf (type : Nat) (ws : List BWord) : Bytes :=
  bucketWire (weightOf type ws).toNat (portOf ws).toNat (groupOf ws).toNat (actsOf ws)

/-- All numbers of the bucket fit their places. -/
def BucketFits (type : Nat) (ws : List BWord) : Prop :=
  16 + (actsOf ws).length < 65536 ∧ FitsIn 2 (weightOf type ws) ∧ FitsIn 4 (portOf ws) ∧ FitsIn 4 (groupOf ws)

/-! ## Groups -/

/-- The names of the group types, by number. -/
def groupTypes : List Str := [t!"all", t!"select", t!"indirect", t!"ff"]

/-- A word of the head of a group text. -/
inductive GWord where
  | id (n : Int)
  | type (t : Nat)
  deriving DecidableEq

/-- `ReadsG s w r`: the text `s` starts with the head word `w`, `r` is what is left. -/
inductive ReadsG : Str → GWord → Str → Prop
  | all (s h t op p r) : Tok s h t!"group" t → Tok t op p r → p.map Char.toLower = t!"all" →
      ReadsG s (.id 0xfffffffc) r
  | id (s h t op p n r) : Tok s h t!"group" t → Tok t op p r → IntSyntax p n p.length → ReadsG s (.id n) r
  | type (s h name k r) : Tok s h name r → groupTypes[k]? = some name → ReadsG s (.type k) r

/-- `HeadText gs s r`: the head of the group text `s` has the words `gs`, `r` is what is left. -/
inductive HeadText : List GWord → Str → Str → Prop
  | nil : HeadText [] [] []
  | stop (s h name t) : Tok s h name t → name ∉ t!"group" :: groupTypes → HeadText [] s s
  | cons (s w u gs r) : s ≠ [] → ReadsG s w u → HeadText gs u r → HeadText (w :: gs) s r

/-- `Buckets act bs s`: the text `s` has the buckets `bs`: non-empty lists of words, with `@bucket` or
separators between them. -/
inductive Buckets (act : Str → Bytes → Nat → Prop) : List (List BWord) → Str → Prop
  | nil : Buckets act [] []
  | skip (s h name r bs) : s ≠ [] → BucketText act [] s s → Tok s h name r → name ∈ [[], t!"@bucket"] →
      Buckets act bs r → Buckets act bs s
  | bucket (s ws u bs) : ws ≠ [] → BucketText act ws s u → Buckets act bs u → Buckets act (ws :: bs) s

def GWord.idArg : GWord → Option Int
  | .id n => some n
  | _ => none

def GWord.typeArg : GWord → Option Nat
  | .type t => some t
  | _ => none

/-- The group id: the last one given, `OFPG_ANY` if there is none. -/
def groupId (gs : List GWord) : Int := ((gs.filterMap GWord.idArg).getLast?).getD 0xffffffff

/-- The group type: the last one given, `OFPGT_ALL` if there is none. -/
def groupType (gs : List GWord) : Nat := ((gs.filterMap GWord.typeArg).getLast?).getD 0

/-- `struct ofp_group_mod`. -/
def groupWire (xid command type gid : Nat) (buckets : Bytes) : Bytes :=
  message 15 xid (u16 command ++ (u8 type ++ (pad 1 ++ (u32 gid ++ buckets))))

/-- The message that the words stand for. -/
def groupMod (command xid : Int) (gs : List GWord) (bs : List (List BWord)) : Bytes :=
  groupWire xid.toNat command.toNat (groupType gs) (groupId gs).toNat (bs.flatMap (bucketOf (groupType gs)))

/-- All numbers fit their places. -/
def GroupFits (command xid : Int) (gs : List GWord) (bs : List (List BWord)) : Prop :=
  FitsIn 4 xid ∧ FitsIn 2 command ∧ FitsIn 4 (groupId gs) ∧ (∀ ws ∈ bs, BucketFits (groupType gs) ws) ∧
  (groupMod command xid gs bs).length < 65536

/-! ## Texts -/

/-- A piece of a text between commas: the word `@bucket`, separators only, a word of a bucket. -/
inductive Item where
  | mark
  | gap (t : Str)
  | word (w : BWord) (t : Str)

def Item.text : Item → Str
  | .mark => t!"@bucket"
  | .gap t => t
  | .word _ t => t

/-- The text `t` is the word `w` of a bucket wherever it stands between separators. -/
def IsB (act : Str → Bytes → Nat → Prop) (w : BWord) (t : Str) : Prop :=
  t ≠ [] ∧ ∀ h r, (∀ c ∈ h, Space c ∨ c = ',') → Boundary r → ReadsB act (h ++ (t ++ r)) w r

/-- The item is what it says. -/
def Item.Ok (act : Str → Bytes → Nat → Prop) : Item → Prop
  | .mark => True
  | .gap t => ∀ c ∈ t, Space c ∨ c = ','
  | .word w t => IsB act w t

/-- The words between the marks. -/
def sections : List Item → List (List BWord)
  | [] => [[]]
  | .mark :: l => [] :: sections l
  | .gap _ :: l => sections l
  | .word w _ :: l => match sections l with
    | [] => [[w]]
    | ws :: ss => (w :: ws) :: ss

/-- The last item is no gap. -/
def NoGapEnd (l : List Item) : Prop := ∀ t, l.getLast? ≠ some (.gap t)

/-- The sections with at least one word. -/
def full (l : List (List BWord)) : List (List BWord) := l.filter (· ≠ [])

/-- How the head words are written. -/
inductive HeadWord : GWord → Str → Prop
  | all (p) : p.map Char.toLower = t!"all" → HeadWord (.id 0xfffffffc) (t!"group=" ++ p)
  | id (p n) : IntSyntax p n p.length → HeadWord (.id n) (t!"group=" ++ p)
  | type (k name) : groupTypes[k]? = some name → HeadWord (.type k) name

/-- How the numbers of a bucket are written. -/
inductive BNumText : BWord → Str → Prop
  | weight (p n) : IntSyntax p n p.length → BNumText (.weight n) (t!"weight=" ++ p)
  | port (p n) : IntSyntax p n p.length → BNumText (.port n) (t!"watch_port=" ++ p)
  | group (p n) : IntSyntax p n p.length → BNumText (.group n) (t!"watch_group=" ++ p)

/-! ## Group-mods with structure -/

structure Bucket where
  weight : Nat
  port : Nat
  group : Nat
  acts : List Act

def Bucket.wire (b : Bucket) : Bytes := bucketWire b.weight b.port b.group (b.acts.flatMap Act.wire)

def Bucket.Valid (b : Bucket) : Prop :=
  b.weight < 256 ^ 2 ∧ b.port < 256 ^ 4 ∧ b.group < 256 ^ 4 ∧ (∀ a ∈ b.acts, a.Valid) ∧
  8 ∣ (b.acts.flatMap Act.wire).length ∧ b.wire.length < 65536

structure GroupMod where
  xid : Nat
  command : Nat
  type : Nat
  gid : Nat
  buckets : List Bucket

def GroupMod.wire (m : GroupMod) : Bytes :=
  groupWire m.xid m.command m.type m.gid (m.buckets.flatMap Bucket.wire)

/-- A well-formed group-mod: numbers that fit, one of the four types, well-formed buckets. -/
def GroupMod.Valid (m : GroupMod) : Prop :=
  m.xid < 256 ^ 4 ∧ m.command < 256 ^ 2 ∧ m.type < 4 ∧ m.gid < 256 ^ 4 ∧ (∀ b ∈ m.buckets, b.Valid) ∧
  m.wire.length < 65536

/-- A bucket without anything to print, in a group of the given type. -/
def Bucket.Blank (type : Nat) (b : Bucket) : Prop :=
  (type = 1 → b.weight = 1) ∧ b.port = 0xffffffff ∧ b.group = 0xffffffff ∧ b.acts = []

instance (type : Nat) (b : Bucket) : Decidable (b.Blank type) :=
  decidable_of_iff ((type = 1 → b.weight = 1) ∧ b.port = 0xffffffff ∧ b.group = 0xffffffff ∧ b.acts.isEmpty)
    (by simp [Bucket.Blank])

/-- The buckets that can be written back: not blank, no weight outside select groups, actions that can
be written back. -/
def Bucket.Lossless (type : Nat) (b : Bucket) : Prop :=
  ¬ b.Blank type ∧ (type ≠ 1 → b.weight = 0) ∧ ∀ a ∈ b.acts, a.Lossless

end Ofpstr.Spec
