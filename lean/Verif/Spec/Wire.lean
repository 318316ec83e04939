import Verif.Model.Py

/-!
# Specification: numbers on the wire

Written out digit by digit, without the `struct` functions of the model.
-/

namespace Ofpstr.Spec

/-- The number as `k` bytes, most significant first. -/
def be (k n : Nat) : Bytes := ((List.range k).map fun i => UInt8.ofNat (n / 256 ^ i % 256)).reverse

/-- The number as `k` bytes, least significant first. -/
def le (k n : Nat) : Bytes := (List.range k).map fun i => UInt8.ofNat (n / 256 ^ i % 256)

def u8 (n : Nat) : Bytes := be 1 n
def u16 (n : Nat) : Bytes := be 2 n
def u32 (n : Nat) : Bytes := be 4 n
def u64 (n : Nat) : Bytes := be 8 n

/-- `n` zero bytes. -/
def pad (n : Nat) : Bytes := List.replicate n 0

example : u32 0x01020304 = [1, 2, 3, 4] := by decide
example : le 4 0x01020304 = [4, 3, 2, 1] := by decide

end Ofpstr.Spec
