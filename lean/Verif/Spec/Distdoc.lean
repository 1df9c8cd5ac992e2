/-
Specification of the distribution document head: a key stream of runs drawn from a
linear congruential generator, and block-wise encryption of the tail.
-/
import Verif.Model.Py
import Verif.Spec.Records
namespace Hwp.Spec

/-- The `k`-th state of the generator `x ↦ 214013 x + 2531011 mod 2^32`. -/
def lcg (seed : Nat) : Nat → Nat
  | 0 => seed
  | k + 1 => (lcg seed k * 214013 + 2531011) % 4294967296

/-- The `k`-th output (from 1): bits 16 to 30 of the state. -/
def lcgOut (seed k : Nat) : Nat := lcg seed k / 65536 % 32768

/-- The `j`-th run of the key stream: a byte repeated 1 to 16 times. -/
def keyRun (seed j : Nat) : Bytes :=
  List.replicate (lcgOut seed (2 * j + 2) % 16 + 1) (UInt8.ofNat (lcgOut seed (2 * j + 1) % 256))

/-- The first `m` runs. -/
def keyRuns (seed m : Nat) : Bytes := ((List.range m).map (keyRun seed)).flatten

/-- The seed of a head: its first four bytes, little endian. -/
def leSeed : Bytes → Nat
  | a :: b :: c :: d :: _ => a.toNat + 256 * b.toNat + 65536 * c.toNat + 16777216 * d.toNat
  | _ => 0

/-- Block-wise encryption of whole blocks. -/
def ecbEncrypt (enc : Bytes → Bytes → Bytes) (key : Bytes) (blocks : List Bytes) : Bytes :=
  (blocks.map (enc key)).flatten

/-- The stream of a distribution document: the head record (tag 0x1c, level 0, 256
bytes) and the encrypted text. -/
def distStream (enc : Bytes → Bytes → Bytes) (key head : Bytes) (blocks : List Bytes) : Bytes :=
  headerBytes 0x1c 0 256 ++ head ++ ecbEncrypt enc key blocks

end Hwp.Spec
