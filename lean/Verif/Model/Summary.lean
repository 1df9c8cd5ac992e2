/-
Model of the summary information in the XML form of a document:
/repo/src/hwp5/xmlmodel.py:640-728 and the objects of msoleprops.py it looks at.

Simplifications: the text of a FILETIME (msoleprops.py:87-101, a `datetime`) is a parameter;
the models `PropertySetStream`, `PropertySet`, `Property`, `DictionaryEntry` are shown by the
values of their attributes only (of these `DictionaryEntry` is a struct, whose two members
are shown the same way).
-/
import Verif.Model.XmlFormat
import Verif.Model.Msoleprops
namespace Hwp

/-- msoleprops.py:230-240 `Property`; the type is told by the value (`readVt`). -/
structure PropObj where
  id : Nat
  offset : Nat
  label : Option String
  value : PropValue
  deriving DecidableEq, Repr

/-- msoleprops.py:391-402 `PropertySet`. -/
structure PropSetObj where
  fmtid : List Nat
  offset : Nat
  properties : List PropObj
  deriving DecidableEq, Repr

/-- msoleprops.py:490-513 `PropertySetStream`. -/
structure PropStreamObj where
  byteOrder : Nat
  version : Nat
  systemIdentifier : Nat
  clsid : List Nat
  sets : List PropSetObj
  deriving DecidableEq, Repr

/-- summaryinfo.py:35-48 `HWP_PROPERTIES` with msoleprops.py:107-227: ids and labels. -/
def hwpPropertyLabels : List (Nat × String) :=
  [(0x00000000, "PID_DICTIONARY"), (0x00000001, "PID_CODEPAGE"), (0x80000000, "PID_LOCALE"),
   (0x80000003, "PID_BEHAVIOR"), (0x02, "PIDSI_TITLE"), (0x03, "PIDSI_SUBJECT"),
   (0x04, "PIDSI_AUTHOR"), (0x05, "PIDSI_KEYWORDS"), (0x06, "PIDSI_COMMENTS"),
   (0x07, "PIDSI_TEMPLATE"), (0x08, "PIDSI_LASTAUTHOR"), (0x09, "PIDSI_REVNUMBER"),
   (0x0a, "PIDSI_EDITTIME"), (0x0b, "PIDSI_LASTPRINTED"), (0x0c, "PIDSI_CREATE_DTM"),
   (0x0d, "PIDSI_LASTSAVE_DTM"), (0x0e, "PIDSI_PAGECOUNT"), (0x0f, "PIDSI_WORDCOUNT"),
   (0x10, "PIDSI_CHARCOUNT"), (0x11, "PIDSI_THUMBNAIL"), (0x12, "PIDSI_APPNAME"),
   (0x13, "PIDSI_SECURITY"), (0x14, "HWPPIDSI_DATE_STR"), (0x15, "HWPPIDSI_PARACOUNT")]

/-- msoleprops.py:551-556 and filestructure.py:427-431: `idLabels.get(id)`; there are labels
for the summary format only. -/
def propLabel (fmtid : List Nat) (id : Nat) : Option String :=
  if fmtid = clsidHwpSummary then hwpPropertyLabels.lookup id else none

/-- msoleprops.py:544-614: the property set described by `(fmtid, off)`.  Each property has
the description with its id. -/
def readSetObj (data : Bytes) (fmtid : List Nat) (off : Nat) : Except PyErr PropSetObj := do
  let (descs, _) ← readPropSetHeader (data.drop off)
  let props ← readPropertySet data off
  return ⟨fmtid, off, props.map fun p =>
    ⟨p.1, (((descMap descs).find? fun d => d.id = p.1).map PropDesc.offset).getD 0, propLabel fmtid p.1, p.2⟩⟩

/-- The loop over the property sets. -/
def readSetObjs (data : Bytes) : List (List Nat × Nat) → Except PyErr (List PropSetObj)
  | [] => .ok []
  | (fmtid, off) :: rest => do
    let set ← readSetObj data fmtid off
    let more ← readSetObjs data rest
    return set :: more

/-- msoleprops.py:538-618 `PropertySetStreamReader.read`, keeping all that is shown. -/
def readStreamObj (data : Bytes) : Except PyErr PropStreamObj := do
  let (byteOrder, s) ← readU16 data
  let (version, s) ← readU16 s
  let (systemIdentifier, _) ← readU32 s
  let ((clsid, sets), _) ← readStreamHeader data
  let sets ← readSetObjs data sets
  return ⟨byteOrder, version, systemIdentifier, clsid, sets⟩

/-! ### Events -/

/-- Lower case hexadecimal digits. -/
def hexLower (w n : Nat) : PyStr := (hexPad w n).map lowerChar

/-- `str(UUID(bytes_le=...))`, msoleprops.py:669-673. -/
def uuidStr (b : List Nat) : PyStr :=
  let h (i : Nat) : PyStr := hexLower 2 (b.getD i 0)
  h 3 ++ h 2 ++ h 1 ++ h 0 ++ lit "-" ++ h 5 ++ h 4 ++ lit "-" ++ h 7 ++ h 6 ++ lit "-" ++ h 8 ++ h 9 ++
    lit "-" ++ h 10 ++ h 11 ++ h 12 ++ h 13 ++ h 14 ++ h 15

/-- Stable insertion by key. -/
def insertByOffset (p : PropObj) : List PropObj → List PropObj
  | [] => [p]
  | q :: qs => if p.offset ≤ q.offset then p :: q :: qs else q :: insertByOffset p qs

/-- `sorted(properties, key=lambda property: property.desc.offset)`. -/
def sortByOffset : List PropObj → List PropObj
  | [] => []
  | p :: ps => insertByOffset p (sortByOffset ps)

/-- `property.type.vt_type.__name__` and `property.type.code`; a dictionary has no type. -/
def vtName : PropValue → Option (String × Nat)
  | .i4 _ => some ("VT_I4", 0x0003)
  | .lpwstr _ => some ("VT_LPWSTR", 0x001f)
  | .filetime _ => some ("VT_FILETIME", 0x0040)
  | .dictionary _ => none

/-- `property.value` as an attribute. -/
def propText (filetime : Nat → PyStr) : PropValue → PVal
  | .i4 n => .int n
  | .lpwstr s => .str s
  | .filetime n => .str (filetime n)
  | .dictionary _ => .inst "Dictionary"

/-- A string attribute. -/
def strAttr (k : String) (s : PyStr) : String × Value PVal := (k, .leaf (.str s))
/-- A number attribute. -/
def natAttr (k : String) (n : Nat) : String × Value PVal := (k, .leaf (.int n))

/-- The context of the events of the summary information: nothing there looks at it. -/
def noCtx : DCtx := ⟨none, none⟩

/-- xmlmodel.py:721-728 `getDictionaryEntryEvents`. -/
def dictEntryEvents (e : Nat × PyStr) : Gen (Ev ModelItem) :=
  wrapModelevents ⟨"DictionaryEntry", [natAttr "id" e.1, strAttr "name" e.2], noCtx⟩ .done

/-- xmlmodel.py:696-719 `getPropertyEvents`, `getDictionaryEvents`. -/
def propertyEvents (filetime : Nat → PyStr) (p : PropObj) : Gen (Ev ModelItem) :=
  let content := [natAttr "id" p.id, natAttr "offset" p.offset] ++
    (match p.label with
     | some l => [strAttr "id_label" (lit l)]
     | none => []) ++
    (match vtName p.value with
     | some (n, code) => [strAttr "type" (lit n), strAttr "type_code" (lit "0x" ++ hexLower 4 code)]
     | none => [])
  if p.id = 0 then
    match p.value with
    | .dictionary entries => wrapModelevents ⟨"Property", content, noCtx⟩ (.chain (entries.map dictEntryEvents))
    | _ => .raise .attributeError
  else wrapModelevents ⟨"Property", content ++ [("value", .leaf (propText filetime p.value))], noCtx⟩ .done

/-- xmlmodel.py:678-694 `getPropertySetEvents`. -/
def propertySetEvents (filetime : Nat → PyStr) (s : PropSetObj) : Gen (Ev ModelItem) :=
  wrapModelevents ⟨"PropertySet", [strAttr "fmtid" (uuidStr s.fmtid), natAttr "offset" s.offset], noCtx⟩
    (.chain ((sortByOffset s.properties).map (propertyEvents filetime)))

/-- xmlmodel.py:657-676 `getPropertySetStreamEvents`. -/
def propertyStreamEvents (filetime : Nat → PyStr) (s : PropStreamObj) : Gen (Ev ModelItem) :=
  wrapModelevents ⟨"PropertySetStream", [strAttr "byte_order" (hexLower 4 s.byteOrder),
      strAttr "version" (natStr s.version), strAttr "system_identifier" (hexLower 8 s.systemIdentifier),
      strAttr "clsid" (uuidStr s.clsid)], noCtx⟩
    (.chain (s.sets.map (propertySetEvents filetime)))

/-- xmlmodel.py:642-646 `HwpSummaryInfo.events`. -/
def summaryEvents (filetime : Nat → PyStr) (s : PropStreamObj) : Gen (Ev ModelItem) :=
  wrapModelevents ⟨"HwpSummaryInfo", [], noCtx⟩ (propertyStreamEvents filetime s)

end Hwp
