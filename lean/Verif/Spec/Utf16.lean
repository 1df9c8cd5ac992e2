/- Specification: UTF-16LE encoding of code points (Unicode standard, D91). -/
import Verif.Model.Py
namespace Hwp.Spec

/-- Unicode scalar values. -/
def Scalar (c : Nat) : Prop := c < 0xD800 ∨ (0xE000 ≤ c ∧ c < 0x110000)

instance (c : Nat) : Decidable (Scalar c) := inferInstanceAs (Decidable (_ ∨ _))

/-- The UTF-16 code units of one code point. -/
def units (c : Nat) : List Nat :=
  if c < 0x10000 then [c]
  else [0xD800 + (c - 0x10000) / 0x400, 0xDC00 + (c - 0x10000) % 0x400]

/-- Two bytes of a code unit, low byte first. -/
def unitBytes (u : Nat) : Bytes := [UInt8.ofNat (u % 256), UInt8.ofNat (u / 256)]

/-- UTF-16 code units of a string. -/
def strUnits (s : List Nat) : List Nat := (s.map units).flatten

/-- UTF-16LE encoding of a string. -/
def encodeUtf16le (s : List Nat) : Bytes := ((strUnits s).map unitBytes).flatten

end Hwp.Spec
