/-
Model of CPython's strict `bytes.decode('utf-16le')`, as used by
/repo/src/hwp5/dataio.py:173-180 (`decode_utf16le_with_hypua`).
A Python `str` is a list of code points (`Nat`).
-/
import Verif.Model.Py
namespace Hwp

/-- Code points of a Python `str`. -/
abbrev PyStr := List Nat

/-- `bytes.decode('utf-16le')` with `errors='strict'`: an odd trailing byte or an
unpaired surrogate raises `UnicodeDecodeError`. -/
def utf16leDecode : Bytes → Except PyErr PyStr
  | [] => .ok []
  | [_] => .error .unicodeDecodeError
  | a :: b :: rest =>
    let u := a.toNat + 256 * b.toNat
    if u < 0xD800 ∨ 0xE000 ≤ u then do
      let cs ← utf16leDecode rest
      return u :: cs
    else if u < 0xDC00 then
      match rest with
      | c :: d :: rest' =>
        let l := c.toNat + 256 * d.toNat
        if 0xDC00 ≤ l ∧ l < 0xE000 then do
          let cs ← utf16leDecode rest'
          return (0x10000 + (u - 0xD800) * 0x400 + (l - 0xDC00)) :: cs
        else .error .unicodeDecodeError
      | _ => .error .unicodeDecodeError
    else .error .unicodeDecodeError

end Hwp
