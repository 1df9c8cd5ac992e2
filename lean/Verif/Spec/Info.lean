/-
Specification of what the information commands print: the lines of the file header, of the
summary information, and of the text of a property set stream.
-/
import Verif.Spec.Filetime
import Verif.Spec.Filestructure
import Verif.Spec.Utf8
import Verif.Spec.Document
import Mathlib.Data.List.Forall2
namespace Hwp.Spec

/-- A line feed after every line. -/
def unixLines (ls : List PyStr) : PyStr := ls.flatMap (· ++ [10])

/-- The digit for a bit of the flags. -/
def bitDigit (flags i : Nat) : PyStr := if flags.testBit i then lit "1" else lit "0"

/-- The four numbers of the version. -/
def dotted : List Nat → PyStr
  | [a, b, c, d] => decimal a ++ lit "." ++ decimal b ++ lit "." ++ decimal c ++ lit "." ++ decimal d
  | _ => []

/-- The lines for a file header. -/
def headerLines (flags : Nat) (version : List Nat) : List PyStr :=
  [lit "ccl: " ++ bitDigit flags 11,
   lit "cert_drm: " ++ bitDigit flags 10,
   lit "cert_encrypted: " ++ bitDigit flags 8,
   lit "cert_signature_extra: " ++ bitDigit flags 9,
   lit "cert_signed: " ++ bitDigit flags 7,
   lit "compressed: " ++ bitDigit flags 0,
   lit "distributable: " ++ bitDigit flags 2,
   lit "drm: " ++ bitDigit flags 4,
   lit "history: " ++ bitDigit flags 6,
   lit "password: " ++ bitDigit flags 1,
   lit "script: " ++ bitDigit flags 3,
   lit "signature: HWP Document File",
   lit "version: " ++ dotted version,
   lit "xmltemplate_storage: " ++ bitDigit flags 5]

/-- The summary information shown: what stands before the value, and the id of the property in
the specification of the file format. -/
def summaryShown : List (String × Nat) :=
  [("Title: ", 2), ("Subject: ", 3), ("Author: ", 4), ("Keywords: ", 5), ("Comments: ", 6), ("Last saved by: ", 8),
   ("Revision Number: ", 9), ("Last Printed at: ", 11), ("Created at: ", 12), ("Last saved at: ", 13),
   ("Number of pages: ", 14), ("Date: ", 20), ("Number of paragraphs: ", 21)]

/-- How far a time may be from the time shown, in tenths of microseconds. -/
def timeSlack : Nat := 160

/-- The text shows the value: numbers in decimal, strings as they are, times as a moment within
16 microseconds. -/
def ShownAs : PropValue → PyStr → Prop
  | .i4 n, t => t = decimal n
  | .lpwstr s, t => t = s
  | .filetime n, t => ∃ m : Moment, m.Valid ∧ t = m.text ∧
      10 * m.micros ≤ n + timeSlack ∧ n ≤ 10 * m.micros + timeSlack
  | .dictionary _, _ => False

/-- Values that have a text: strings of Unicode scalar values, times before the year 10000. -/
def Showable : PropValue → Prop
  | .i4 _ => True
  | .lpwstr s => ∀ c ∈ s, Scalar c
  | .filetime n => n + timeSlack < fileTimeEnd
  | .dictionary _ => False

/-- What stands before the value of a property: its position in the stream, its name and id. -/
def propertyHead (setOffset : Nat) (p : PropObj) : PyStr :=
  lit "- " ++ lowerHex 8 (setOffset + p.offset) ++ lit ": " ++ (p.label.map lit).getD [] ++ lit "(=0x" ++ lowerHex 8 p.id ++ lit "):"

/-- The lines show the property. -/
def PropertyShown (setOffset : Nat) (p : PropObj) (ls : List PyStr) : Prop :=
  match p.value with
  | .dictionary es => ls = propertyHead setOffset p ::
      es.map fun e => lit "            - " ++ decimal e.1 ++ lit ": " ++ e.2
  | v => ∃ t, ShownAs v t ∧ ls = [propertyHead setOffset p ++ lit " " ++ t]

/-- The lines of a property set: its position and format id, underlined, and the properties in the
order of their positions. -/
def SetShown (s : PropSetObj) (ls : List PyStr) : Prop :=
  ∃ (sorted : List PropObj) (shown : List (List PyStr)), InOffsetOrder s.properties sorted ∧ List.Forall₂ (PropertyShown s.offset) sorted shown ∧
    ls = (lit "- " ++ lowerHex 8 s.offset ++ lit ": Property Set " ++ guidText s.fmtid) ::
      (lit "            " ++ List.replicate (13 + (guidText s.fmtid).length) 0x2D) :: shown.flatten

/-- The lines of a property set stream. -/
def StreamShown (s : PropStreamObj) (ls : List PyStr) : Prop :=
  ∃ shown : List (List PyStr), List.Forall₂ SetShown s.sets shown ∧
    ls = [lit "- ByteOrder: 0x" ++ lowerHex 0 s.byteOrder, lit "- Version: " ++ decimal s.version,
      lit "- SystemIdentifier: 0x" ++ lowerHex 8 s.systemIdentifier, lit "- CLSID: " ++ guidText s.clsid, []] ++
      shown.flatten

end Hwp.Spec
