/-
Model of the XML document as bytes: /repo/src/hwp5/xmlformat.py:241-243 and
/repo/src/hwp5/xmlmodel.py:588-617, with the library function `str.encode('utf-8')`.
The parameter `xml_encoding` is left at its default 'utf-8' (nothing in the source sets it).
-/
import Verif.Model.Document
namespace Hwp

/-- `chr(c).encode('utf-8')`: one to four bytes; a surrogate is a `UnicodeEncodeError`. -/
def utf8Char (c : Nat) : Except PyErr Bytes :=
  if c < 0x80 then .ok [UInt8.ofNat c]
  else if c < 0x800 then .ok [UInt8.ofNat (0xC0 + c / 64), UInt8.ofNat (0x80 + c % 64)]
  else if 0xD800 ≤ c ∧ c < 0xE000 then .error .unicodeEncodeError
  else if c < 0x10000 then
    .ok [UInt8.ofNat (0xE0 + c / 4096), UInt8.ofNat (0x80 + c / 64 % 64), UInt8.ofNat (0x80 + c % 64)]
  else if c < 0x110000 then
    .ok [UInt8.ofNat (0xF0 + c / 262144), UInt8.ofNat (0x80 + c / 4096 % 64),
      UInt8.ofNat (0x80 + c / 64 % 64), UInt8.ofNat (0x80 + c % 64)]
  else .error .unicodeEncodeError

/-- `s.encode('utf-8')`. -/
def utf8Encode : PyStr → Except PyErr Bytes
  | [] => .ok []
  | c :: s => do
    let b ← utf8Char c
    let bs ← utf8Encode s
    return b ++ bs

/-- xmlformat.py:241-243 `xmlevents_to_bytechunks`, for the chunks given. -/
def encodeChunks : List PyStr → Gen Bytes
  | [] => .done
  | c :: cs =>
    match utf8Encode c with
    | .ok b => (encodeChunks cs).cons b
    | .error e => .raise e

/-- xmlmodel.py:588-598 `XmlEvents.bytechunks(xml_declaration)`.  An event is asked for only
when the chunks of the events before it have been encoded. -/
def bytechunks (declaration : Bool) (g : Gen XEv) : Gen Bytes :=
  let first := if declaration then [lit "<?xml version=\"1.0\" encoding=\"utf-8\"?>\n"] else []
  let chunks := encodeChunks (first ++ xmlTextChunks g.out)
  ⟨chunks.out, chunks.err.or g.err⟩

/-- xmlmodel.py:600-605 `XmlEvents.dump(outfile)`: what is in the file afterwards, and the
exception if one is raised. -/
def xmlDump (declaration : Bool) (g : Gen XEv) : Bytes × Option PyErr :=
  ((bytechunks declaration g).out.flatten, (bytechunks declaration g).err)

/-- xmlmodel.py:607-616 `XmlEvents.open()`: the contents of the temporary file, rewound, or the
exception. -/
def xmlOpen (declaration : Bool) (g : Gen XEv) : Except PyErr Bytes :=
  match xmlDump declaration g with
  | (bs, none) => .ok bs
  | (_, some e) => .error e

end Hwp
