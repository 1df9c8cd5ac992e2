/- Specification side of the primitive and derived types. -/
import Verif.Model.Dataio
import Verif.Spec.Records
import Verif.Spec.Utf16
namespace Hwp.Spec

/-! ### Integers -/

/-- Documented width in bytes. -/
def width : Prim → Nat
  | .UINT32 | .INT32 | .HWPUNIT | .SHWPUNIT => 4
  | .UINT16 | .INT16 | .WORD | .WCHAR | .HWPUNIT16 => 2
  | .UINT8 | .INT8 | .BYTE => 1

/-- Documented signedness. -/
def signed : Prim → Bool
  | .INT32 | .INT16 | .INT8 | .SHWPUNIT | .HWPUNIT16 => true
  | _ => false

/-- Numbers representable in a primitive type. -/
def InRange (t : Prim) (v : Int) : Prop :=
  if signed t then -(2 ^ (8 * width t - 1)) ≤ v ∧ v < 2 ^ (8 * width t - 1)
  else 0 ≤ v ∧ v < 2 ^ (8 * width t)

/-- Little-endian two's complement encoding. -/
def encodeInt (t : Prim) (v : Int) : Bytes := leBytes (width t) (v % 2 ^ (8 * width t)).toNat

/-! ### Strings -/

/-- A length-prefixed string: number of code units, then the code units. -/
def encodeBstr (s : PyStr) : Bytes := leBytes 2 (strUnits s).length ++ encodeUtf16le s

/-! ### Bit groups -/

/-- The number whose binary digits are bits `lo`, `lo+1`, …, `lo+n-1` of `v`. -/
def bitsNumber (v lo : Nat) : Nat → Nat
  | 0 => 0
  | n + 1 => (if v.testBit lo then 1 else 0) + 2 * bitsNumber v (lo + 1) n

/-! ### Flags declarations -/

/-- The four ways of declaring a bit group. -/
inductive FlagForm where
  | bit (lsb : Nat) (name : String)
  | range (lsb msb : Nat) (name : String)
  | typedBit (lsb : Nat) (type : Nat) (name : String)
  | typedRange (lsb msb : Nat) (type : Nat) (name : String)
  deriving DecidableEq, Repr

/-- How a form is written as arguments. -/
def FlagForm.args : FlagForm → List FlagArg
  | .bit l n => [.int l, .name n]
  | .range l m n => [.int l, .int m, .name n]
  | .typedBit l t n => [.int l, .type t, .name n]
  | .typedRange l m t n => [.int l, .int m, .type t, .name n]

/-- What a form declares. -/
def FlagForm.group : FlagForm → FlagGroup
  | .bit l n => ⟨n, l, l, none⟩
  | .range l m n => ⟨n, l, m, none⟩
  | .typedBit l t n => ⟨n, l, l, some t⟩
  | .typedRange l m t n => ⟨n, l, m, some t⟩

/-! ### Enums -/

/-- The declared (name, value) pairs in order. -/
def enumDecls (items : List String) (more : List (String × Int)) : List (String × Int) :=
  items.zip ((List.range items.length).map Int.ofNat) ++ more

/-- The first declared name of a value. -/
def firstName : List (String × Int) → Int → Option String
  | [], _ => none
  | (n, v) :: rest, w => if v = w then some n else firstName rest w

/-! ### Hexadecimal -/

/-- Value of a lower case hexadecimal digit. -/
def hexVal (c : Char) : Option Nat := "0123456789abcdef".toList.idxOf? c

/-- Value of a string of hexadecimal digits. -/
def hexNumber (acc : Nat) : List Char → Option Nat
  | [] => some acc
  | c :: cs => do hexNumber (16 * acc + (← hexVal c)) cs

/-- The bytes shown in a plain dump: pairs of digits, blanks and newlines
skipped. -/
def undump : List Char → Option Bytes
  | [] => some []
  | ' ' :: cs => undump cs
  | '\n' :: cs => undump cs
  | a :: b :: cs => do
    let n ← hexNumber 0 [a, b]
    return UInt8.ofNat n :: (← undump cs)
  | [_] => none

end Hwp.Spec
