# Formal model of ofpstr: design

`/repo` (hkwi/ofpstr) converts OpenFlow 1.3 messages to text and back.  This directory holds a
Lean 4 model of the library and machine-checked proofs of the properties in `properties.jsonl`.

## Layout

| Path | Content |
|------|---------|
| `lean/Verif/Model/Py.lean` | Python primitives: exceptions as values, `format`, `int`, `struct`, slices |
| `lean/Verif/Model/Lib.lean` | standard library: `binascii` (hex, quoted-printable), `socket.inet_*` |
| `lean/Verif/Model/Util.lean` | `ofpstr/util.py` |
| `lean/Verif/Model/OxmTables.lean`, `Oxm.lean` | `ofpstr/oxm.py` |
| `lean/Verif/Model/Nx.lean` | `ofpstr/nx.py` |
| `lean/Verif/Model/Ofp4.lean` | `ofpstr/ofp4.py` |
| `lean/Verif/Model/Cli.lean`, `Switch.lean` | socket logic and switch address of `ofpstr/cli.py` |
| `lean/Verif/Spec/*.lean` | what the properties mean: wire formats, texts, well-formedness; no use of the model of the code |
| `lean/Verif/Lemmas/*.lean` | helper lemmas |
| `lean/Verif/Props/*.lean` | the property theorems, each with an `example` of a non-trivial instance |
| `seeded/LOG.jsonl` | wrong programs tried against the theorems |

## How the code is modelled

* Shallow embedding, one Lean function per Python function or closure, branch by branch; each
  definition cites file and lines.
* `str` is `List Char`, `bytes` is `List UInt8`, Python integers are `Int` (or `Nat` where the code
  can only have non-negative values).
* Exceptions are values: `Py α = Except Err α`.  `Err.loops` stands for "never returns".  Loops are
  written with a fuel argument; fuel runs out into `.loops`, never into a result.  For the loops
  that terminate it is proved that `.loops` never comes out; for those that do not (zero lengths)
  `.loops` is the proved result.
* The dictionaries `_str2bin`, `_bin2str`, `_str2act`, `_act2str` are association lists in the order
  of the source.  Closures are constructors of a data type (`Enc`, `Dec`, `ActEnc`, `ActDec`).
* Python 3.7+ semantics (insertion-ordered dictionaries, `bytes`/`str` apart).

### Simplifications (part of the trusted base)

* Recursion limit, memory limits, and CPython's 4300-digit limit of `int(...)` are not modelled.
  So an IPv6 prefix length far below zero, whose mask Python cannot allocate, raises `struct.error` in the model like
  those nearer to zero.
  So does a number of bits in `learn` that is too large for the memory, which raises `struct.error` in the model like
  those that are only too large for the field.
* `parseFloat` is exact rational arithmetic instead of binary floating point (only
  `radiotap_rate` uses it).
* `str.lower`/`str.upper` change ASCII letters only; `int(...)` refuses non-ASCII digits.
* Dictionary keys of different classes (`nxm_of`, `nxm_nx`, `stratos`, `nxast`, plain `int`) never
  collide in hash: checked with CPython 3.11 for all keys that can be looked up.
* `socket.inet_aton`, `inet_ntoa`, `inet_pton`, `inet_ntop`, `binascii.*` are re-implemented in
  `Lib.lean` (glibc / CPython behaviour); 44000 random cases were compared with CPython 3.11 with no
  difference.  The comparison is not part of the proof.
* `cli.py`: `argparse` is not modelled and connecting is a parameter; the regular expression of the switch address is
  matched by backtracking as in `re`, `\d` means the ASCII digits (Python 2); `send` sends everything; the Python 2
  `print` statement is modelled, the library calls inside are the Python 3 model.

Not modelled: `setup.py`, the tests, Python 2 behaviour of the library.

## Trusted base

* The Lean 4 kernel, and the axioms `propext`, `Classical.choice`, `Quot.sound` (each theorem uses a
  subset; `#print axioms` shows which).  No own axioms, no `sorry`, no `native_decide`,
  no `bv_decide`.
* The fidelity of the model files to the Python text, by reading.  As evidence,
  `lean/Verif/Props/Vectors.lean` checks all vectors of `/repo/test` against the model in the kernel;
  they come out as the tests expect except for `test_mpflow`, see C44.
* `Spec/Nicira.lean` holds the structures of Open vSwitch's `nicira-ext.h` as remembered; the header
  was not at hand.
* The statements in `Props` and the specifications in `Spec`.

## Properties: what is modelled, how it is proved

Proof plan per property.  "Refuted" means: the claim is false of the code; the negation is proved on
a concrete input and a `_partial` theorem states what does hold.

* C01 tokenising loses nothing: `getToken`; body is a prefix of the tail by induction on fuel.
* C02 head: independent description by cases on the leading characters.
* C03 token ends: inductive description of "separator-free outside brackets" (`Spec.Token`), the body
  satisfies it and the rest is empty or starts with a separator; completeness: every such token
  followed by a separator is returned whole.
* C04 termination of text parsers: progress lemma for `getToken`, then `≠ .loops` for all parsers by
  strong induction on length.
* C05 `parse_func`: balanced texts as an inductive predicate.
* C06 `split`: induction on the token list.
* C07/C08 `parseInt`: digit lemmas (`ofDigits ∘ digitsOf = id`), grammar specification.
* C09 headers: independently written table of class/number/length, whole-table check in the kernel.
* C10 names/ids: induction over lists of names, per-name facts from the table.
* C11 integer fields: `beBytes`/`intBE` arithmetic for all integers.
* C12 match round trip: TLV specification with per-kind print/parse lemmas; list induction through
  the tokeniser.  Lossy fields: refutations by concrete bytes.
* C13 concatenation; C14 TLV well-formedness; C15 rejection: properties of the `str2oxm` loop.
* C16 refuted (mask `0.0.0.n`); C17 refuted (every `n < 128` raises).
* C18-C24 per-kind round trips with explicit byte-level statements.  C23 refuted in general (quoting),
  proved for SSIDs of plain characters; C24 partly refuted (masks of little-endian fields, zero VHT).
* C25 termination of the OXM walkers: every round drops at least 4 bytes.
* C26 standard action wire formats; C27 refuted for `set_nw_ttl` and `note`, proved for the others.
* C28 action lists round trip; C29 set-field; C30 termination for non-zero lengths, `.loops` for
  zero lengths; C31 refuted.
* C32-C38 flow-mod: specification structure with `wire`, invariants of the `str2dict` loop,
  round trip, order independence, rejection.
* C39-C41 groups (C41 refuted: `group_id` is not a parameter; C40 refuted for empty last bucket).
* C42-C47 multipart (C44 refuted for priority 0x8000; C45, C46 refuted).
* C48-C50 Nicira actions (several refuted, see the notes in `MANIFEST.json`).
* C51 range checks: the encoders return only if every number fits.
* C52-C54 CLI: C52 refuted for short reads, proved for whole-message reads; C53 refuted; C54 proved
  for whole-message reads.
* C55 masks and values of fields come back bit for bit; C56 Nicira structures against `nicira-ext.h`;
  C57 register loads (value, mask, bit range); C58 bit ranges of the other Nicira actions.
* C59 which matches print at all, C12 `iff`: exactly which matches survive printing and reading.
* C60 the other direction: what the texts that are accepted mean, and how they print again.
* C61 exactly which actions come back from their text; C62 lists are printed item by item.
* C63 quoted-printable text gives the bytes back up to the style of newlines: a grammar of the texts
  that `b2a_qp` writes, and what `a2b_qp` makes of each.  With it C64: exactly which matches come back,
  for all SSIDs.
* C65 requests for groups: how they print, what builds them, which come back; C43 `iff`: exactly which
  replies of group statistics come back.
* C66 the two forms of arguments, `name=v` and `name(v)`.
* C67 exactly which actions come back, for all bytes in notes and SSIDs (C61 without its restriction).
* C68 the texts of matches: a grammar for every kind of field (`Spec/Value.lean`), and that the parser takes
  exactly these texts.
* C69 the texts of actions: a grammar for the arguments of every action (`Spec/ActText.lean`), and that the
  parser takes exactly these texts.
* C70 flow rules and groups: the grammars of C33 and C39 with those of C68 and C69 in them, and that each text
  has one reading (`Spec/RuleText.lean`).
* C71 the texts of multipart messages, line by line (`Spec/MpText.lean`).
* C72 which flow-mods come back: the conditions of C64 and C67 on each item, at its place in the whole rule
  (`Spec/RuleExact.lean`).
* C73 which replies of flow statistics come back: as C72 for each line, and no line feed inside an item
  (`Spec/RuleExact.lean`).
* C74 which group-mods come back: conditions on the buckets, and on each action at its place in the whole text
  (`Spec/GroupExact.lean`).
* C75 which group descriptions come back: as C74, but the last bucket can be blank, and each entry stays on its
  line (`Spec/GroupExact.lean`).
* C76 what every byte string is printed as, as a match: relations between bodies and texts, one for each kind of
  field, and the sizes that are refused, with the exceptions (`Spec/MatchPrint.lean`).
* C77 what every byte string is printed as, as actions: relations between bodies and texts, one rule for each
  action, and the bodies that are refused, with the exceptions (`Spec/ActPrint.lean`).
* C78 what every byte string is printed as, as instructions and messages: relations for instructions, flow-mods,
  buckets, group-mods and multipart messages over arbitrary bytes, with one relation for going by length fields and
  one for failing on the way (`Spec/MsgPrint.lean`).
* C79 exactly which exception every text raises that is no match: for each kind of field the ways in which a value
  can be wrong, and items up to the first wrong one (`Spec/MatchReject.lean`).
* C80 exactly which exception every text raises that is no action: for each action its arguments in the order in which
  the code looks at them, each with the ways in which it can be wrong; the first wrong one decides
  (`Spec/ActReject.lean`).
* C81 exactly which exception every text raises that is no flow rule or no group: words up to the first wrong one, with
  the instructions and buckets that are put together on the way (`Spec/RuleReject.lean`, `Spec/GroupReject.lean`).
* C82 exactly which exception every text raises that is no multipart message, with the `NameError` of messages over
  64 KiB (`Spec/MpReject.lean`).
* C83 exactly which switch the command line names, by the regular expression with its wildcards (`Spec/Switch.lean`).
* C84 exactly what a run of the tool sends, prints and raises, for everything that arrives in whatever pieces
  (`Spec/CliRun.lean`).
* C85 exactly which byte strings are printed for ever (`Spec/Endless.lean`), and that none of them comes from a text.

## Where the code disagrees with its claims

Each item is proved on a concrete input in `Props` (names ending in `_refuted`) or stated exactly by an
`iff`.

* Fields: `/n` of an IPv4 address means the mask `0.0.0.n`, prefix lengths below 128 of IPv6 addresses
  raise (C16, C17); the `=` of a quoted byte of an SSID ends the token unless it stands in brackets (C23, C67 for notes), and all
  newlines of an SSID take the style of the first (C63); VHT values with a zero user part are
  lost (C24); a masked all-zero SSID raises `IndexError` when printed (C59); a mask on an integer field
  without masks is sent but not printed, values above 255 bytes break the TLV walk (C60); numbers are cut to
  the size of the field, the separators of `0011.2233.4455` may be any characters, the numbers of VHT values
  may be followed by anything, what follows a second `/` of an SSID is ignored, the prefix-length branch of
  IPv4 masks is never reached with a number (C68).
* Standard actions: `set_nw_ttl` and `note` are not a multiple of 8 bytes (C26, C27); a lone `set_` gives a
  `set_field` action without a field, an ethertype may be followed by anything, what follows a second
  colon of `output` is ignored, a word that is no action gives no bytes and no exception (C69).
* Nicira actions: a field of `bundle`, `bundle_load` or `output_reg` that does not exist is left out of the
  bytes, opening brackets before ports of bundles are lost (C69); `bundle_load`
  stores the upper bound as width, `output_reg` takes the bound modulo 64, whole fields of 64 bits raise,
  experimenter fields are 4 bytes too long, `reg_move` prints the target as whole by the size of the source (C50); immediates of `learn` are cut and small ids of
  `set_tunnel64` take 4 bytes (C51); `set_tunnel`, `set_tunnel64` lack padding, the flag bits of `learn`
  are those of other flags in `nicira-ext.h` (C56); masks with holes are accepted as if contiguous,
  value bits outside the mask are kept, ranges above 64 bits spill into the offset, experimenter fields
  are cut at 6 instead of 8 bytes, a zero mask is a `TypeError` (C57).
* Forms of arguments: `resubmit_table=PORT:TABLE` is always refused, standard actions take any separator
  in place of the `=` (`group, 5`), `output_reg=FIELD` takes the next word for the length, `cnt_ids` ignores
  what follows a number (C66).
* Flows and groups: `group2extra` returns `group_id`, which `str2group` does not take (C41); an empty last bucket is lost (C40); a
  trailing separator behind an unclosed bracket is accepted (C37); undefined flag bits are dropped (C34).
* Multipart: priority 0x8000 and missing priority (C44); requests use `list.append` with a keyword
  (C45); the name `OFPMPF_REPLY_MORE` is undefined, so long replies raise `NameError` (C46);
  a request for the statistics of all groups prints as nothing, which reads as group 0, and the `group=any`
  that is printed is refused (C65); the rest of a line of group statistics after an unknown counter and the rest of a
  group description after a misspelt action are left out without an exception, and any text is a request for
  group descriptions (C71).
* Zero lengths in actions, instructions, buckets and statistics make the decoders loop (C30, C47).
* CLI: does not compile under Python 3 (`print` statement); one `recv` is taken for a whole message; the
  error check compares the length with 2 instead of the type (C52, C53).
