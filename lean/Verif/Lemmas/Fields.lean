import Verif.Lemmas.Kinds2
import Verif.Spec.Oxm

/-!
# The field tables against the field list of the specification
-/

namespace Ofpstr
open Spec

/-! ## numbers on the wire -/

theorem beBytes_snoc (k n : Nat) : beBytes (k + 1) n = beBytes k (n / 256) ++ [UInt8.ofNat n] := by
  induction k generalizing n with
  | zero => simp [beBytes]
  | succ k ih =>
    rw [beBytes, ih]
    conv => rhs; rw [beBytes]
    rw [Nat.div_div_eq_div_mul, Nat.pow_succ, Nat.mul_comm]
    rfl

theorem ofNat_mod (n : Nat) : UInt8.ofNat (n % 256) = UInt8.ofNat n := by
  apply UInt8.toNat_inj.1; simp

theorem spec_be (k n : Nat) : be k n = beBytes k n := by
  induction k with
  | zero => rfl
  | succ k ih =>
    unfold be at *
    rw [List.range_succ, List.map_append, List.reverse_append, ih, beBytes]
    simp only [List.map_cons, List.map_nil, List.reverse_cons, List.reverse_nil, List.nil_append,
      List.cons_append, ofNat_mod]

theorem spec_le (k n : Nat) : le k n = leBytes k n := by
  induction k generalizing n with
  | zero => rfl
  | succ k ih =>
    rw [leBytes, ← ih (n / 256)]
    unfold le
    rw [List.range_succ_eq_map]
    simp only [List.map_cons, List.map_map, Nat.pow_zero, Nat.div_one, ofNat_mod]
    congr 1
    apply List.map_congr_left
    intro i _
    simp only [Function.comp]
    rw [Nat.div_div_eq_div_mul, Nat.pow_succ, Nat.mul_comm]

theorem spec_pad (n : Nat) : pad n = zeros n := rfl

/-! ## keys and headers -/

/-- The number of an OXM class. -/
def Cls.code : Cls → Nat
  | .basic => 0x8000
  | .nxm0 => 0
  | .nxm1 => 1
  | .stratos => 0xffff

/-- The dictionary key of a field. -/
def fieldKey (f : Field) : Key :=
  ⟨if f.cls = 0x8000 then .basic else if f.cls = 0 then .nxm0 else if f.cls = 1 then .nxm1
    else .stratos, f.num⟩

/-- The four extra bytes of experimenter fields. -/
def extra (c : Cls) : Nat := if c = .stratos then 4 else 0

/-- The experimenter id, where there is one. -/
def expId (c : Cls) : Bytes := if c = .stratos then beBytes 4 STRATOS_EXPERIMENTER_ID else []

theorem header_eq (key : Key) (n : Nat) (hm : Bool) :
    header key n hm = beBytes 2 key.cls.code ++ (beBytes 1 (2 * key.num + if hm then 1 else 0) ++
      (beBytes 1 (min 255 ((if hm then 2 * n else n) + extra key.cls)) ++ expId key.cls)) := by
  have hl : ∀ L, (if L > 255 then 255 else L) = min 255 L := by intro L; split <;> omega
  unfold header
  rcases key with ⟨c, num⟩
  rw [Nat.mul_comm num 2, Nat.mul_comm n 2]
  cases c <;>
    simp [hl, extra, expId, Cls.code, OFPXMC_EXPERIMENTER, OFPXMC_NXM_0, OFPXMC_NXM_1,
      OFPXMC_OPENFLOW_BASIC]

/-- The encoder of a kind. -/
def kindEnc : Kind → Enc
  | .uint n => .uint n
  | .port n => .port n
  | .mac => .mac
  | .ipv4 => .ipv4
  | .ipv6 => .ipv6
  | .packetType => .pkt
  | .bytes => .hex
  | .ssid => .ssid
  | .le n => .le n
  | .rate => .rate
  | .channel => .ch
  | .parts s => .comp s
  | .vht => .vht
  | .signed => .s8

/-- The decoder prints the field of the list, with all it needs. -/
def decFits (f : Field) : Dec → Bool
  | .uint g => (match f.kind with | .uint _ => true | _ => false) && g.name == f.name &&
      g.val.isSome && (g.mask.isSome || !f.maskable)
  | .port name n => f.kind == .port n && name == f.name && (n == 2 || n == 4) && !f.maskable
  | .mac name => f.kind == .mac && name == f.name
  | .ipv4 name => f.kind == .ipv4 && name == f.name
  | .ipv6 name => f.kind == .ipv6 && name == f.name
  | .pkt => f.kind == .packetType && f.name == t!"packet_type" && !f.maskable
  | .hex name => f.kind == .bytes && name == f.name
  | .ssid => f.kind == .ssid && f.name == t!"dot11_ssid"
  | .le g => (match f.kind with | .le _ => true | _ => false) && g.name == f.name && g.val.isSome &&
      !f.maskable
  | .rate => f.kind == .rate && f.name == t!"radiotap_rate" && !f.maskable
  | .ch => f.kind == .channel && f.name == t!"radiotap_channel"
  | .comp name sizes fmts => f.kind == .parts sizes && name == f.name &&
      fmts.length == sizes.length && decide (2 ≤ sizes.length)
  | .vht => f.kind == .vht && f.name == t!"radiotap_vht"
  | .s8 name => f.kind == .signed && name == f.name && !f.maskable

/-- Both tables have the field, as the list says. -/
def linkedEnc (f : Field) : Bool :=
  lookupEnc f.name == some (fieldKey f, kindEnc f.kind)

def linkedDec (f : Field) : Bool :=
  match lookupDec (fieldKey f) with
  | some d => decFits f d
  | none => false

def fieldOk (f : Field) : Bool :=
  decide (f.num < 128) && decide ((fieldKey f).cls.code = f.cls) && decide (Clean f.name) &&
    !f.name.isEmpty

theorem table_fields : ∀ f ∈ fields, fieldOk f = true := by decide +kernel

theorem table_enc : ∀ f ∈ fields, f.name ≠ t!"nxm_ct_label" → linkedEnc f = true := by
  decide +kernel

theorem table_dec : ∀ f ∈ fields, f.name ∉ lossyNames → linkedDec f = true := by decide +kernel

end Ofpstr
