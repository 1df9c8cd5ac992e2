/-
Model of the commands that print what is known about a document: /repo/src/hwp5/proc/header.py,
proc/version.py, proc/summaryinfo.py with hwp5proc.py:68-86, and of the texts they print:
filestructure.py:399-413 (`HwpFileHeader.open_text`), 289-326 (`PreviewText`), 515-525
(`HwpSummaryInfo.open_text`), summaryinfo.py:51-68 and msoleprops.py:619-666.

Simplifications: a document is given as the storage it consists of; what is written to the
standard output is kept although Python writes it in pieces; the virtual stream `PrvText.utf8`
is read as a whole.
-/
import Verif.Model.Utf8
import Verif.Model.Json
import Verif.Model.Summary
import Verif.Model.Filetime
namespace Hwp

/-- What a command writes to the standard output, and the exception it ends with. -/
abbrev Printed := Bytes × Option PyErr

/-- hwp5proc.py:79-86: `ParseError` and `InvalidHwp5FileError` are logged and end the program
with status 1, as does an exception that is not caught. -/
def procStatus : Option PyErr → Nat
  | none => 0
  | some _ => 1

/-- Write the items one after the other until one fails. -/
def printAll {α : Type} (text : α → Except PyErr Bytes) : List α → Printed
  | [] => ([], none)
  | a :: as =>
    match text a with
    | .error e => ([], some e)
    | .ok b =>
      let rest := printAll text as
      (b ++ rest.1, rest.2)

/-! ### File header -/

/-- filestructure.py:73-85 `FileHeader.Flags`. -/
def fileHeaderFlags : List (String × Nat) :=
  [("compressed", 0), ("password", 1), ("distributable", 2), ("script", 3), ("drm", 4), ("xmltemplate_storage", 5),
   ("history", 6), ("cert_signed", 7), ("cert_encrypted", 8), ("cert_signature_extra", 9), ("cert_drm", 10), ("ccl", 11)]

/-- `'%d.%d.%d.%d' % version`. -/
def versionStr : Version → PyStr
  | [] => []
  | [n] => natStr n
  | n :: ns => natStr n ++ lit "." ++ versionStr ns

/-- `sorted(d.items())` for a dict, whose keys differ. -/
def sortedItems (items : List (PyStr × PyStr)) : List (PyStr × PyStr) :=
  items.foldr (fun kv acc => insertKey kv.1 kv.2 acc) []

/-- filestructure.py:404-406: the items of the dict. -/
def headerItems (h : Header) : List (PyStr × PyStr) :=
  (fileHeaderFlags.map fun f => (lit f.1, natStr (bitGroup f.2 f.2 h.flags))) ++
    [(lit "signature", (h.signature.map UInt8.toNat).take (lit "HWP Document File").length), (lit "version", versionStr h.version)]

/-- filestructure.py:399-412 `HwpFileHeader.open_text`: the contents. -/
def headerText (h : Header) : Printed :=
  printAll (fun kv => utf8Encode (kv.1 ++ lit ": " ++ kv.2 ++ lit "\n")) (sortedItems (headerItems h))

/-- `hwp5file.header`, through the layers (storage/__init__.py:44-45). -/
def Obj.header : Obj → Except PyErr Header
  | .hwpFile _ h => .ok h
  | _ => .error .attributeError

/-- proc/header.py:29-41: the text is complete before anything is written. -/
def headerMain (c : Codec) (es : StgEntries) : Printed :=
  match hwp5File c es with
  | .error e => ([], some e)
  | .ok f =>
    match f.header with
    | .error e => ([], some e)
    | .ok h =>
      match headerText h with
      | (_, some e) => ([], some e)
      | (b, none) => (b, none)

/-- proc/version.py:26-29. -/
def versionMain (c : Codec) (es : StgEntries) : Printed :=
  match hwp5File c es with
  | .error e => ([], some e)
  | .ok f =>
    match f.header with
    | .error e => ([], some e)
    | .ok h => printAll utf8Encode [versionStr h.version ++ lit "\n"]

/-! ### Summary information -/

/-- `'{}'.format(value)`.  There is no dictionary among the values asked for
(`summaryGet_range`). -/
def propStr : PropValue → Except PyErr PyStr
  | .i4 n => .ok (intStr n)
  | .lpwstr s => .ok s
  | .filetime n => filetimeText n
  | .dictionary _ => .error .exception

/-- summaryinfo.py:54-68: the labels of the lines, and the properties (filestructure.py:447-512). -/
def summaryLabels : List (String × Nat) :=
  [("Title: ", 0x02), ("Subject: ", 0x03), ("Author: ", 0x04), ("Keywords: ", 0x05), ("Comments: ", 0x06),
   ("Last saved by: ", 0x08), ("Revision Number: ", 0x09), ("Last Printed at: ", 0x0b), ("Created at: ", 0x0c),
   ("Last saved at: ", 0x0d), ("Number of pages: ", 0x0e), ("Date: ", 0x14), ("Number of paragraphs: ", 0x15)]

/-- One line of `formatTextLines`, encoded and with the line feed (proc/summaryinfo.py:40-43).  The
stream is read once and the objects are kept (`cached_property`). -/
def summaryLine (data : Bytes) (l : String × Nat) : Except PyErr Bytes := do
  let v ← summaryGet data l.2
  let t ← propStr v
  let b ← utf8Encode (lit l.1 ++ t)
  return b ++ [10]

/-- proc/summaryinfo.py:31-45. -/
def summaryMain (c : Codec) (es : StgEntries) : Printed :=
  match hwp5File c es with
  | .error e => ([], some e)
  | .ok f =>
    match f.getitem Obj.summaryName with
    | .error e => ([], some e)
    | .ok item =>
      match item.openRead c with
      | .error e => ([], some e)
      | .ok data => printAll (summaryLine data) summaryLabels

/-- `'{:08x}'.format(n)`. -/
def hex8 (n : Nat) : PyStr := hexLower 8 n

/-- msoleprops.py:646-666: the lines of one property. -/
def propertyLines (setOffset : Nat) (p : PropObj) : List (Except PyErr PyStr) :=
  let head := lit "- " ++ hex8 (setOffset + p.offset) ++ lit ": " ++ (p.label.map lit).getD [] ++ lit "(=0x" ++ hex8 p.id ++ lit "):"
  if p.id = 0 then
    match p.value with
    | .dictionary entries =>
      .ok head :: entries.map fun e => .ok (lit "            - " ++ natStr e.1 ++ lit ": " ++ e.2)
    | _ => [.ok head, .error .attributeError]
  else [do let t ← propStr p.value; return head ++ lit " " ++ t]

/-- msoleprops.py:628-666: the lines of a property set. -/
def propertySetLines (s : PropSetObj) : List (Except PyErr PyStr) :=
  let title := lit "Property Set " ++ uuidStr s.fmtid
  [.ok (lit "- " ++ hex8 s.offset ++ lit ": " ++ title), .ok (lit "            " ++ List.replicate title.length 0x2D)] ++
    (sortByOffset s.properties).flatMap (propertyLines s.offset)

/-- msoleprops.py:621-666 `PropertySetStreamTextFormatter.formatTextLines`. -/
def propertyStreamLines (s : PropStreamObj) : List (Except PyErr PyStr) :=
  [.ok (lit "- ByteOrder: 0x" ++ hexLower 0 s.byteOrder), .ok (lit "- Version: " ++ natStr s.version),
   .ok (lit "- SystemIdentifier: 0x" ++ hex8 s.systemIdentifier), .ok (lit "- CLSID: " ++ uuidStr s.clsid), .ok []] ++
    s.sets.flatMap propertySetLines

/-- filestructure.py:515-525 `HwpSummaryInfo.open_text`: the contents of the virtual stream, or the
exception. -/
def summaryText (data : Bytes) : Except PyErr Bytes := do
  let s ← readStreamObj data
  match printAll (fun l => do let t ← l; let b ← utf8Encode t; return b ++ [10]) (propertyStreamLines s) with
  | (_, some e) => .error e
  | (b, none) => .ok b

/-! ### Preview text -/

/-- The incremental decoding of `utf-16le` by a stream reader: units that are not complete at the
end are left in its buffer. -/
def utf16leStream : Bytes → Except PyErr PyStr
  | [] => .ok []
  | [_] => .ok []
  | a :: b :: rest =>
    let u := a.toNat + 256 * b.toNat
    if u < 0xD800 ∨ 0xE000 ≤ u then do
      let cs ← utf16leStream rest
      return u :: cs
    else if u < 0xDC00 then
      match rest with
      | c :: d :: rest' =>
        let l := c.toNat + 256 * d.toNat
        if 0xDC00 ≤ l ∧ l < 0xE000 then do
          let cs ← utf16leStream rest'
          return (0x10000 + (u - 0xD800) * 0x400 + (l - 0xDC00)) :: cs
        else .error .unicodeDecodeError
      | _ => .ok []
    else .error .unicodeDecodeError

/-- filestructure.py:297-307 `PreviewText.open_utf8`, `get_utf8` with utils.py:133-146. -/
def previewUtf8 (data : Bytes) : Except PyErr Bytes := do
  let s ← utf16leStream data
  utf8Encode s

/-- filestructure.py:311-319 `PreviewText.get_text`. -/
def previewText (data : Bytes) : Except PyErr PyStr := utf16leDecode data

end Hwp
