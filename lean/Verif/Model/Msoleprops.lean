/-
Model of /repo/src/hwp5/msoleprops.py (reading of property set streams) and of the
summary information of a document (filestructure.py:416-525).

Structs are read by readers written out member by member; what `read_type` does for a
declaration is the subject of C37 (Model/Bintype), and Props/Msoleprops shows that the
readers here are what it does for these declarations.  A `uuid.UUID` is represented by its
16 bytes.  Labels and display names of properties, which only occur in text output, are
not modelled, except that looking up a display name fails without a dictionary.
-/
import Verif.Model.Dataio
import Verif.Model.Filestructure
import Verif.Model.Bintype
namespace Hwp

/-- `read_type` of a primitive: every failure is a `ParseError`. -/
def orParseError {α : Type} : Except PyErr α → Except PyErr α
  | .ok a => .ok a
  | .error _ => .error .parseError

/-- `read_type(UINT32, context, f)`. -/
def readU32 (s : Bytes) : Except PyErr (Nat × Bytes) := orParseError (readU 4 s)
/-- `read_type(UINT16, context, f)`. -/
def readU16 (s : Bytes) : Except PyErr (Nat × Bytes) := orParseError (readU 2 s)

/-- A number of items, each read by `item`. -/
def readItems {α : Type} (item : Bytes → Except PyErr (α × Bytes)) : Nat → Bytes →
    Except PyErr (List α × Bytes)
  | 0, s => .ok ([], s)
  | n + 1, s => do
    let (a, s) ← item s
    let (as, s) ← readItems item n s
    return (a :: as, s)

/-- `N_ARRAY(UINT32, item)`. -/
def readNArray {α : Type} (item : Bytes → Except PyErr (α × Bytes)) (s : Bytes) :
    Except PyErr (List α × Bytes) := do
  let (n, s) ← readU32 s
  readItems item n s

/-- `BYTE`. -/
def readByte (s : Bytes) : Except PyErr (Nat × Bytes) := orParseError (readU 1 s)

/-! ### Values -/

/-- Values of properties. -/
inductive PropValue where
  | i4 (v : Int)                          -- VT_I4
  | lpwstr (s : PyStr)                    -- VT_LPWSTR
  | filetime (v : Nat)                    -- VT_FILETIME
  | dictionary (entries : List (Nat × PyStr))   -- Dictionary
  deriving DecidableEq, Repr

/-- msoleprops.py:55-87: `vt_types[code].read_value(context, f)`; a missing code is a
`KeyError`. -/
def readVt (code : Nat) (s : Bytes) : Except PyErr PropValue :=
  if code = 0x0003 then do
    let (v, _) ← orParseError (Prim.INT32.read s)
    return .i4 v
  else if code = 0x001f then do
    let (length, s) ← readU32 s
    let str ← utf16leDecode (s.take (length * 2))
    return .lpwstr str.dropLast
  else if code = 0x0040 then do
    let (lword, s) ← readU32 s
    let (hword, _) ← readU32 s
    return .filetime (hword <<< 32 ||| lword)
  else .error .keyError

/-- msoleprops.py:261-275 `PropertyReader.read` at a position of the stream.  The type is
a `Flags` member: failing to read it is a `KeyError` (bintype.py:286-291). -/
def readProperty (data : Bytes) (pos : Nat) : Except PyErr PropValue :=
  match readU 4 (data.drop pos) with
  | .error _ => .error .keyError
  | .ok (flags, s) => readVt (bitGroup 0 16 flags) s

/-- msoleprops.py:305-326 `DictionaryEntry`; `nullterminated_string` (727-728) makes
characters of the bytes and drops the last. -/
def readDictEntry (s : Bytes) : Except PyErr ((Nat × PyStr) × Bytes) := do
  let (id, s) ← readU32 s
  let (name, s) ← readNArray readByte s
  return ((id, name.dropLast), s)

/-- msoleprops.py:375-391 `DictionaryReader.read` at a position. -/
def readDictionary (data : Bytes) (pos : Nat) : Except PyErr PropValue := do
  let (entries, _) ← readNArray readDictEntry (data.drop pos)
  return .dictionary entries

/-! ### Property sets -/

/-- msoleprops.py:231-245 `PropertyDesc`. -/
structure PropDesc where
  id : Nat
  offset : Nat
  deriving DecidableEq, Repr

/-- `PropertyDesc`. -/
def readPropDesc (s : Bytes) : Except PyErr (PropDesc × Bytes) := do
  let (id, s) ← readU32 s
  let (offset, s) ← readU32 s
  return (⟨id, offset⟩, s)

/-- msoleprops.py:412-434 `PropertySetHeader`: the descriptions. -/
def readPropSetHeader (s : Bytes) : Except PyErr (List PropDesc × Bytes) := do
  let (_, s) ← readU32 s
  readNArray readPropDesc s

/-- `propDescMap[desc.id] = desc`: in the place of an entry with the same id, else at the
end. -/
def dictSetDesc (d : PropDesc) : List PropDesc → List PropDesc
  | [] => [d]
  | e :: es => if e.id = d.id then d :: es else e :: dictSetDesc d es

/-- msoleprops.py:559-562: the dict comprehension. -/
def descMap (descs : List PropDesc) : List PropDesc := descs.foldl (fun m d => dictSetDesc d m) []

/-- `propDescMap.pop(id, None)`. -/
def popDesc (id : Nat) (m : List PropDesc) : Option PropDesc × List PropDesc :=
  (m.find? (fun d => d.id = id), m.filter (fun d => d.id ≠ id))

/-- A property: id and value. -/
abbrev Prop_ := Nat × PropValue

/-- msoleprops.py:564-579: a property read on its own, if there is a description. -/
def readOptional (read : Nat → Except PyErr PropValue) (off : Nat) :
    Option PropDesc → Except PyErr (List Prop_)
  | none => .ok []
  | some d => do
    let v ← read (off + d.offset)
    return [(d.id, v)]

/-- msoleprops.py:598-609: the loop over the other properties; `dictionary.get` needs a
dictionary (`None.get` is an `AttributeError`). -/
def readOthers (data : Bytes) (off : Nat) (hasDictionary : Bool) :
    List PropDesc → Except PyErr (List Prop_)
  | [] => .ok []
  | d :: ds =>
    if hasDictionary then do
      let v ← readProperty data (off + d.offset)
      let rest ← readOthers data off hasDictionary ds
      return (d.id, v) :: rest
    else .error .attributeError

/-- msoleprops.py:545-611: the properties of the property set at `off`. -/
def readPropertySet (data : Bytes) (off : Nat) : Except PyErr (List Prop_) := do
  let (descs, _) ← readPropSetHeader (data.drop off)
  let (codepage, m) := popDesc 1 (descMap descs)
  let cp ← readOptional (readProperty data) off codepage
  let (dictionary, m) := popDesc 0 m
  let dict ← readOptional (readDictionary data) off dictionary
  let others ← readOthers data off dictionary.isSome m
  return cp ++ dict ++ others

/-- msoleprops.py:405-409 `PropertySet.__getitem__`. -/
def propGet (props : List Prop_) (id : Nat) : Except PyErr PropValue :=
  match props.find? (fun p => p.1 = id) with
  | none => .error .keyError
  | some p => .ok p.2

/-- msoleprops.py:437-454 `PropertySetDesc`: format id and offset. -/
def readPropSetDesc (s : Bytes) : Except PyErr ((List Nat × Nat) × Bytes) := do
  let (fmtid, s) ← readItems readByte 16 s
  let (offset, s) ← readU32 s
  return ((fmtid, offset), s)

/-- msoleprops.py:457-491 `PropertySetStreamHeader`: class id and descriptions of the
property sets. -/
def readStreamHeader (s : Bytes) : Except PyErr ((List Nat × List (List Nat × Nat)) × Bytes) := do
  let (_, s) ← readU16 s
  let (_, s) ← readU16 s
  let (_, s) ← readU32 s
  let (clsid, s) ← readItems readByte 16 s
  let (sets, s) ← readNArray readPropSetDesc s
  return ((clsid, sets), s)

/-- msoleprops.py:544-611: the loop over the property sets. -/
def readPropertySets (data : Bytes) : List (List Nat × Nat) → Except PyErr (List (List Prop_))
  | [] => .ok []
  | (_, off) :: rest => do
    let props ← readPropertySet data off
    let more ← readPropertySets data rest
    return props :: more

/-- msoleprops.py:538-616 `PropertySetStreamReader.read`: class id and property sets. -/
def readPropertySetStream (data : Bytes) : Except PyErr (List Nat × List (List Prop_)) := do
  let ((clsid, sets), _) ← readStreamHeader data
  let propertysets ← readPropertySets data sets
  return (clsid, propertysets)

/-- summaryinfo.py:29-31 `CLSID_HWP_SUMMARY_INFORMATION` as little endian bytes. -/
def clsidHwpSummary : List Nat :=
  [0x60, 0xb6, 0xa2, 0x9f, 0x61, 0x10, 0xd4, 0x11, 0xb4, 0xc6, 0x00, 0x60, 0x97, 0xc0, 0x9d, 0x8c]

/-- filestructure.py:441-445 and the properties after it: `summaryinfo.propertySet[id]`.
With another class id the property set is `None`, which has no items (`TypeError`). -/
def summaryGet (data : Bytes) (id : Nat) : Except PyErr PropValue := do
  let (clsid, propertysets) ← readPropertySetStream data
  if clsid = clsidHwpSummary then
    match propertysets with
    | [] => .error .indexError
    | props :: _ => propGet props id
  else .error .typeError

/-- The property identifiers used by `HwpSummaryInfo`, filestructure.py:449-512 with
msoleprops.py:121-190 and summaryinfo.py:35-43. -/
def summaryIds : List (String × Nat) :=
  [("title", 0x02), ("subject", 0x03), ("author", 0x04), ("keywords", 0x05), ("comments", 0x06),
   ("lastSavedBy", 0x08), ("revisionNumber", 0x09), ("lastPrintedTime", 0x0b), ("createdTime", 0x0c),
   ("lastSavedTime", 0x0d), ("numberOfPages", 0x0e), ("dateString", 0x14), ("numberOfParagraphs", 0x15)]

/-! ### The declarations

The structs as declared, and the `fromDict` functions applied to what `read_type` gives. -/

/-- `UINT32`. -/
def tU32 : Ty Nat Unit := .prim (readU 4)
/-- `UINT16`. -/
def tU16 : Ty Nat Unit := .prim (readU 2)
/-- `BYTE`. -/
def tByte : Ty Nat Unit := .prim (readU 1)

/-- msoleprops.py:241-244 `PropertyDesc.attributes`. -/
def tyPropDesc : Ty Nat Unit := .struct (.cons "id" none none tU32 (.cons "offset" none none tU32 .nil))
/-- msoleprops.py:430-434 `PropertySetHeader.attributes`. -/
def tyPropSetHeader : Ty Nat Unit :=
  .struct (.cons "bytesize" none none tU32
    (.cons "propDescList" none none (.varArray (readU 4) tyPropDesc) .nil))
/-- msoleprops.py:329-334 `DictionaryEntry.attributes`. -/
def tyDictEntry : Ty Nat Unit :=
  .struct (.cons "id" none none tU32 (.cons "name" none none (.varArray (readU 4) tByte) .nil))
/-- msoleprops.py:353-356 `Dictionary.attributes`. -/
def tyDictionary : Ty Nat Unit := .struct (.cons "entries" none none (.varArray (readU 4) tyDictEntry) .nil)
/-- msoleprops.py:443-446 `PropertySetDesc.attributes`. -/
def tyPropSetDesc : Ty Nat Unit :=
  .struct (.cons "fmtid" none none (.fixedArray tByte 16) (.cons "offset" none none tU32 .nil))
/-- msoleprops.py:483-489 `PropertySetStreamHeader.attributes`. -/
def tyStreamHeader : Ty Nat Unit :=
  .struct (.cons "byteOrder" none none tU16 (.cons "version" none none tU16
    (.cons "systemIdentifier" none none tU32 (.cons "clsid" none none (.fixedArray tByte 16)
      (.cons "propsetDescList" none none (.varArray (readU 4) tyPropSetDesc) .nil)))))
/-- msoleprops.py:291-296 `TypedPropertyValue.attributes`; the value of the flags stands for
its `code`. -/
def tyTypedValue : Ty Nat Unit := .struct (.cons "type" none none (.flags (readU 4) (bitGroup 0 16)) .nil)

/-- `d[name]`. -/
def valueItem (name : String) : Value Nat → Except PyErr (Value Nat)
  | .struct fs =>
    match fs.find? (fun f => f.1 = name) with
    | some f => .ok f.2
    | none => .error .keyError
  | _ => .error .typeError
/-- A number. -/
def valueNat : Value Nat → Except PyErr Nat
  | .leaf n => .ok n
  | _ => .error .typeError
/-- A list or tuple. -/
def valueItems : Value Nat → Except PyErr (List (Value Nat))
  | .list xs => .ok xs
  | .tuple xs => .ok xs
  | _ => .error .typeError
/-- A comprehension. -/
def mapItems {α : Type} (f : Value Nat → Except PyErr α) : List (Value Nat) → Except PyErr (List α)
  | [] => .ok []
  | x :: xs => do
    let a ← f x
    let as ← mapItems f xs
    return a :: as

/-- msoleprops.py:237-239 `PropertyDesc.fromDict`. -/
def propDescFromDict (d : Value Nat) : Except PyErr PropDesc := do
  let id ← valueItem "id" d
  let id ← valueNat id
  let offset ← valueItem "offset" d
  let offset ← valueNat offset
  return ⟨id, offset⟩
/-- msoleprops.py:418-428 `PropertySetHeader.fromDict`: the descriptions. -/
def propSetHeaderFromDict (d : Value Nat) : Except PyErr (List PropDesc) := do
  let xs ← valueItem "propDescList" d
  let xs ← valueItems xs
  mapItems propDescFromDict xs
/-- msoleprops.py:322-327 `DictionaryEntry.fromDict`. -/
def dictEntryFromDict (d : Value Nat) : Except PyErr (Nat × PyStr) := do
  let id ← valueItem "id" d
  let id ← valueNat id
  let name ← valueItem "name" d
  let name ← valueItems name
  let name ← mapItems valueNat name
  return (id, name.dropLast)
/-- msoleprops.py:345-351 `Dictionary.fromDict`. -/
def dictionaryFromDict (d : Value Nat) : Except PyErr PropValue := do
  let xs ← valueItem "entries" d
  let xs ← valueItems xs
  let es ← mapItems dictEntryFromDict xs
  return .dictionary es
/-- msoleprops.py:448-453 `PropertySetDesc.fromDict`. -/
def propSetDescFromDict (d : Value Nat) : Except PyErr (List Nat × Nat) := do
  let fmtid ← valueItem "fmtid" d
  let fmtid ← valueItems fmtid
  let fmtid ← mapItems valueNat fmtid
  let offset ← valueItem "offset" d
  let offset ← valueNat offset
  return (fmtid, offset)
/-- msoleprops.py:467-481 `PropertySetStreamHeader.fromDict`: class id and descriptions. -/
def streamHeaderFromDict (d : Value Nat) : Except PyErr (List Nat × List (List Nat × Nat)) := do
  let clsid ← valueItem "clsid" d
  let clsid ← valueItems clsid
  let clsid ← mapItems valueNat clsid
  let xs ← valueItem "propsetDescList" d
  let xs ← valueItems xs
  let sets ← mapItems propSetDescFromDict xs
  return (clsid, sets)

/-- `read_type` followed by `fromDict`. -/
def readThen {α : Type} (f : Value Nat → Except PyErr α) (r : Except PyErr (Value Nat × Bytes)) :
    Except PyErr (α × Bytes) := do
  let (v, s) ← r
  let a ← f v
  return (a, s)

end Hwp
