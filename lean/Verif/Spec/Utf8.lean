/- Specification: UTF-8 (RFC 3629, section 4) and the XML document in a file. -/
import Verif.Spec.Utf16
import Verif.Spec.Xml
namespace Hwp.Spec

/-- UTF8-tail = %x80-BF -/
def utf8Tail (b : UInt8) : Bool := 0x80 ≤ b.toNat && b.toNat ≤ 0xBF

/-- The bits of a tail byte. -/
def tailBits (b : UInt8) : Nat := b.toNat % 64

/-- The second byte allowed after the first byte of three. -/
def second3 (a b : UInt8) : Bool :=
  utf8Tail b && (if a.toNat = 0xE0 then 0xA0 ≤ b.toNat else if a.toNat = 0xED then b.toNat ≤ 0x9F else true)

/-- The second byte allowed after the first byte of four. -/
def second4 (a b : UInt8) : Bool :=
  utf8Tail b && (if a.toNat = 0xF0 then 0x90 ≤ b.toNat else if a.toNat = 0xF4 then b.toNat ≤ 0x8F else true)

/-- The code points of well-formed UTF-8, by the syntax of RFC 3629. -/
def decodeUtf8 : Bytes → Option PyStr
  | [] => some []
  | a :: r =>
    if a.toNat ≤ 0x7F then (decodeUtf8 r).map (a.toNat :: ·)
    else if 0xC2 ≤ a.toNat ∧ a.toNat ≤ 0xDF then
      match r with
      | b :: r => if utf8Tail b then (decodeUtf8 r).map ((a.toNat % 32 * 64 + tailBits b) :: ·) else none
      | _ => none
    else if 0xE0 ≤ a.toNat ∧ a.toNat ≤ 0xEF then
      match r with
      | b :: c :: r =>
        if second3 a b && utf8Tail c then
          (decodeUtf8 r).map ((a.toNat % 16 * 4096 + tailBits b * 64 + tailBits c) :: ·)
        else none
      | _ => none
    else if 0xF0 ≤ a.toNat ∧ a.toNat ≤ 0xF4 then
      match r with
      | b :: c :: d :: r =>
        if second4 a b && utf8Tail c && utf8Tail d then
          (decodeUtf8 r).map ((a.toNat % 8 * 262144 + tailBits b * 4096 + tailBits c * 64 + tailBits d) :: ·)
        else none
      | _ => none
    else none

/-- The XML declaration of a file in UTF-8, and the end of its line. -/
def utf8Declaration : PyStr := "<?xml version=\"1.0\" encoding=\"utf-8\"?>\n".toList.map Char.toNat

/-- What an XML parser sees in a file in UTF-8, with or without the declaration. -/
def parseFile (bs : Bytes) : Option (List XEv) :=
  match decodeUtf8 bs with
  | none => none
  | some s => parseDocument (if utf8Declaration.isPrefixOf s then s.drop utf8Declaration.length else s)

/-- The code points of an event are Unicode scalar values. -/
def EncodableEv : XEv → Prop
  | .start n as => (∀ c ∈ n, Scalar c) ∧ ∀ a ∈ as, (∀ c ∈ a.1, Scalar c) ∧ ∀ c ∈ a.2, Scalar c
  | .stop n => ∀ c ∈ n, Scalar c
  | .text t => ∀ c ∈ t, Scalar c

end Hwp.Spec
