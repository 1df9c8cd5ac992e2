/-
Model of /repo/src/hwp5/filestructure.py: the file header and the layers around the
storage of a document.
-/
import Verif.Model.Bintype
import Verif.Model.Distdoc
import Verif.Model.Storage
namespace Hwp

/-- A string literal as code points. -/
def ustr (s : String) : PyStr := s.toList.map Char.toNat

/-! ### File header -/

/-- filestructure.py:49 `HWP5_SIGNATURE`. -/
def hwp5Signature : Bytes :=
  ("HWP Document File".toList.map fun c => UInt8.ofNat c.toNat) ++ List.replicate 15 0

/-- Values of the members of `FileHeader`. -/
inductive HdrV where
  | bytes (b : Bytes)
  | version (v : Version)
  | int (n : Nat)
  deriving DecidableEq, Repr

/-- `BYTES(n)`, filestructure.py:52-56, read as in bintype.py:400-404: a short but
not empty result is accepted. -/
def readBYTES (n : Nat) (s : Bytes) : Except PyErr (HdrV × Bytes) := do
  let (data, rest) ← readn n s
  return (.bytes data, rest)

/-- filestructure.py:63-64 `VERSION.decode` (a missing index is an `IndexError`). -/
def versionDecode (data : Bytes) : Except PyErr Version :=
  match data[3]?, data[2]?, data[1]?, data[0]? with
  | some a, some b, some c, some d => .ok [a.toNat, b.toNat, c.toNat, d.toNat]
  | _, _, _, _ => .error .indexError

/-- `VERSION`, filestructure.py:59-69. -/
def readVERSION (s : Bytes) : Except PyErr (HdrV × Bytes) := do
  let (data, rest) ← readn 4 s
  let v ← versionDecode data
  return (.version v, rest)

/-- `UINT32`, the base type of `FileHeader.Flags`. -/
def readFlags32 (s : Bytes) : Except PyErr (HdrV × Bytes) := do
  let (v, rest) ← readU 4 s
  return (.int v, rest)

/-- filestructure.py:72-92 `FileHeader`. -/
def fileHeaderTy : Ty HdrV Unit :=
  .struct (.cons "signature" none none (.prim (readBYTES 32))
    (.cons "version" none none (.prim readVERSION)
      (.cons "flags" none none (.flags readFlags32 id)
        (.cons "reserved" none none (.prim (readBYTES 216)) .nil))))

/-- The values of a file header that the other code uses. -/
structure Header where
  signature : Bytes
  version : Version
  flags : Nat
  deriving DecidableEq, Repr

/-- `self.value['signature']`, `['version']`, `['flags']` (filestructure.py:383-395). -/
def headerOf : Value HdrV → Except PyErr Header
  | .struct fs =>
    match fs.lookup "signature", fs.lookup "version", fs.lookup "flags" with
    | some (.leaf (.bytes s)), some (.leaf (.version v)), some (.leaf (.int f)) => .ok ⟨s, v, f⟩
    | _, _, _ => .error .keyError
  | _ => .error .typeError

/-- filestructure.py:374-381 `HwpFileHeader.to_dict`: `read_type(FileHeader, dict(), f)`.
(The bound on the number of rounds suffices: `readHeader_eq`.) -/
def readHeader (s : Bytes) : Except PyErr Header :=
  match readType 20 none () fileHeaderTy s with
  | none => .error .exception
  | some (.error e) => .error e
  | some (.ok (v, _)) => headerOf v

namespace Header
/-- filestructure.py:73-74 bit 0. -/
def compressed (h : Header) : Bool := bitGroup 0 0 h.flags ≠ 0
/-- Bit 1. -/
def password (h : Header) : Bool := bitGroup 1 1 h.flags ≠ 0
/-- Bit 2. -/
def distributable (h : Header) : Bool := bitGroup 2 2 h.flags ≠ 0
end Header

/-! ### Compressed streams -/

/-- compressed.py:65-79 `decompress`: the contents of the returned `BytesIO`, which is
at its start.  `inflate` is `zlib.decompress(_, -15)`; `none` is a `zlib.error`. -/
def decompress (inflate : Bytes → Option Bytes) (data : Bytes) : Bytes :=
  match inflate data with
  | none => data
  | some d => d

/-! ### Layers -/

/-- Objects around a storage.  Each constructor is a class of filestructure.py
(`raw`: an item of the underlying storage). -/
inductive Obj where
  | raw (item : StgItem)
  | compressedStream (w : Obj)           -- 118-121
  | compressedStorage (w : Obj)          -- 124-131
  | passwordStream (w : Obj)             -- 134-140
  | passwordStorage (w : Obj)            -- 143-149
  | passwordDoc (w : Obj)                -- 152-158 Hwp5PasswordProtectedDoc
  | fileHeader (w : Obj)                 -- 369-413 HwpFileHeader
  | fileBase (w : Obj)                   -- 174-207 Hwp5FileBase
  | distStream (w : Obj)                 -- 210-259 Hwp5DistDocStream
  | distStorage (w : Obj)                -- 262-267 Hwp5DistDocStorage
  | distDoc (w : Obj)                    -- 270-274 Hwp5DistDoc
  | compression (w : Obj)                -- 277-286 Hwp5Compression
  | previewText (w : Obj)                -- 289-326 PreviewText
  | versioned (w : Obj) (v : Version)    -- 161-171 VersionSensitiveItem
  | sections (w : Obj) (v : Version)     -- 329-366 Sections
  | summaryInfo (w : Obj) (v : Version)  -- 416-525 HwpSummaryInfo
  | hwpFile (w : Obj) (h : Header)       -- 528-602 Hwp5File; `h`: the value of `self.header`

/-- The external functions: raw inflate and the AES block function. -/
structure Codec where
  inflate : Bytes → Option Bytes
  aes : Bytes → Bytes → Bytes

namespace Obj

/-- storage/__init__.py:36-37 `is_stream(item)`: `item.open` exists.  Wrappers that do
not define `open` pass the attribute on to the wrapped object
(`ItemWrapper.__getattr__`, 44-45). -/
def isStream : Obj → Bool
  | raw (.stream _) => true
  | raw (.storage _) => false
  | compressedStream _ | passwordStream _ | distStream _ | fileHeader _ | previewText _
  | versioned _ _ | summaryInfo _ _ => true
  | compressedStorage w | passwordStorage w | passwordDoc w | fileBase w | distStorage w
  | distDoc w | compression w | sections w _ | hwpFile w _ => isStream w

/-- `o.open().read()`. -/
def openRead (c : Codec) : Obj → Except PyErr Bytes
  | raw (.stream d) => .ok d
  | raw (.storage _) => .error .attributeError
  | compressedStream w => do let d ← openRead c w; return decompress c.inflate d
  | distStream w => do let d ← openRead c w; distDecode c.aes d
  | passwordStream w | fileHeader w | previewText w | versioned w _ | summaryInfo w _ => openRead c w
  | compressedStorage w | passwordStorage w | passwordDoc w | fileBase w | distStorage w
  | distDoc w | compression w | sections w _ | hwpFile w _ => openRead c w

/-- Construction of `PreviewText(item)` or `HwpFileHeader(item)`: `item.open` must
exist. -/
def withOpen (mk : Obj → Obj) (o : Obj) : Except PyErr Obj :=
  if o.isStream then .ok (mk o) else .error .attributeError

/-- filestructure.py:154-158 `Hwp5PasswordProtectedDoc.resolve_conversion_for`. -/
def convertPassword (name : PyStr) (o : Obj) : Obj :=
  if name = ustr "BinData" ∨ name = ustr "BodyText" ∨ name = ustr "Scripts" ∨ name = ustr "ViewText" then
    passwordStorage o
  else if name = ustr "DocInfo" then passwordStream o
  else o

/-- filestructure.py:272-274 `Hwp5DistDoc.resolve_conversion_for`. -/
def convertDist (name : PyStr) (o : Obj) : Obj :=
  if name = ustr "Scripts" ∨ name = ustr "ViewText" then distStorage o else o

/-- filestructure.py:280-286 `Hwp5Compression.resolve_conversion_for`. -/
def convertCompression (name : PyStr) (o : Obj) : Obj :=
  if name = ustr "BinData" ∨ name = ustr "BodyText" ∨ name = ustr "ViewText" then compressedStorage o
  else if name = ustr "DocInfo" then compressedStream o
  else if name = ustr "Scripts" then compressedStorage o
  else o

/-- The name of the summary information stream: control character 5 first. -/
def summaryName : PyStr := 5 :: ustr "HwpSummaryInformation"

/-- filestructure.py:558-573 `Hwp5File.resolve_conversion_for`. -/
def convertFile (v : Version) (name : PyStr) (o : Obj) : Except PyErr Obj :=
  if name = ustr "DocInfo" then .ok (versioned o v)
  else if name = ustr "BodyText" then .ok (sections o v)
  else if name = ustr "ViewText" then .ok (sections o v)
  else if name = ustr "PrvText" then withOpen previewText o
  else if name = summaryName then .ok (summaryInfo o v)
  else .ok o

/-- `o[name]` (`__getitem__` of the classes; an object without it raises
`TypeError`). -/
def getitem : Obj → PyStr → Except PyErr Obj
  | raw (.stream _), _ => .error .typeError
  | raw (.storage es), name =>
    match es.lookup name with
    | none => .error .keyError
    | some i => .ok (raw i)
  | compressedStream _, _ | passwordStream _, _ | distStream _, _ | fileHeader _, _
  | previewText _, _ | versioned _ _, _ | summaryInfo _ _, _ => .error .typeError
  | compressedStorage w, name => do
    let item ← getitem w name
    return if item.isStream then compressedStream item else item
  | passwordStorage w, name => do
    let item ← getitem w name
    return if item.isStream then passwordStream item else item
  | passwordDoc w, name => do return convertPassword name (← getitem w name)
  | fileBase w, name => do
    let item ← getitem w name
    if name = ustr "FileHeader" then withOpen fileHeader item else return item
  | distStorage w, name => do return distStream (← getitem w name)
  | distDoc w, name => do return convertDist name (← getitem w name)
  | compression w, name => do return convertCompression name (← getitem w name)
  | sections w v, name => do return versioned (← getitem w name) v
  | hwpFile w h, name => do convertFile h.version name (← getitem w name)

/-- `list(o)`; an object that cannot be iterated raises `TypeError`. -/
def iter : Obj → Except PyErr (List PyStr)
  | raw (.stream _) => .error .typeError
  | raw (.storage es) => .ok es.names
  | compressedStream _ | passwordStream _ | distStream _ | fileHeader _ | previewText _
  | versioned _ _ | summaryInfo _ _ => .error .typeError
  | compressedStorage w | passwordStorage w | passwordDoc w | fileBase w | distStorage w
  | distDoc w | compression w | sections w _ | hwpFile w _ => iter w

end Obj

/-- filestructure.py:104-115 `storage_is_hwp5file(stg)`. -/
def storageIsHwp5file (es : StgEntries) : Except PyErr Bool :=
  match es.lookup (ustr "FileHeader") with
  | none => .ok false
  | some (.storage _) => .error .attributeError
  | some (.stream d) => do
    let h ← readHeader d
    return h.signature = hwp5Signature

/-- filestructure.py:185-195 `Hwp5FileBase(stg)` on a storage. -/
def hwp5FileBase (es : StgEntries) : Except PyErr Obj := do
  if ← storageIsHwp5file es then return .fileBase (.raw (.storage es)) else .error .invalidHwp5File

/-- filestructure.py:200-205: `stg.header`, read through the `FileHeader` item. -/
def headerOfBase (c : Codec) (base : Obj) : Except PyErr Header := do
  let item ← base.getitem (ustr "FileHeader")
  readHeader (← item.openRead c)

/-- filestructure.py:536-556: the layers chosen by the flags. -/
def layers (h : Header) (base : Obj) : Obj :=
  if h.password then .passwordDoc base
  else
    let stg := if h.distributable then .distDoc base else base
    if h.compressed then .compression stg else stg

/-- filestructure.py:528-556 `Hwp5File(stg)` on a storage. -/
def hwp5File (c : Codec) (es : StgEntries) : Except PyErr Obj := do
  let base ← hwp5FileBase es
  let h ← headerOfBase c base
  return .hwpFile (layers h base) h

/-- filestructure.py:597-602 `Hwp5File.text`. -/
def fileText : Obj → Except PyErr Obj
  | .hwpFile w h =>
    if h.distributable then (Obj.hwpFile w h).getitem (ustr "ViewText")
    else (Obj.hwpFile w h).getitem (ustr "BodyText")
  | _ => .error .attributeError

/-! ### Sections -/

/-- Characters stripped by `int()` (`Py_ISSPACE`). -/
def asciiSpace (c : Nat) : Bool :=
  c = 0x20 ∨ (0x09 ≤ c ∧ c ≤ 0x0d)

/-- The value of an ASCII digit. -/
def digitValue (c : Nat) : Option Nat := if 0x30 ≤ c ∧ c ≤ 0x39 then some (c - 0x30) else none

/-- Digits with single underscores between them: `prev` tells whether the previous
character was a digit. -/
def intDigits (acc : Nat) (prev : Bool) : PyStr → Option Nat
  | [] => if prev then some acc else none
  | c :: cs =>
    match digitValue c with
    | some d => intDigits (acc * 10 + d) true cs
    | none => if c = 0x5f ∧ prev then intDigits acc false cs else none

/-- An optional sign and digits. -/
def intSigned : PyStr → Option Int
  | 0x2b :: cs => (intDigits 0 false cs).map Int.ofNat
  | 0x2d :: cs => (intDigits 0 false cs).map fun n => - Int.ofNat n
  | cs => (intDigits 0 false cs).map Int.ofNat

/-- `int(s)` for a string; `none` is a `ValueError`.  Non-ASCII digits and white space,
which `int()` accepts too, are not modelled. -/
def pyInt (s : PyStr) : Option Int :=
  intSigned ((s.dropWhile asciiSpace).reverse.dropWhile asciiSpace).reverse

/-- Decimal digits of a number. -/
def decDigits (n : Nat) : PyStr :=
  if n < 10 then [0x30 + n] else decDigits (n / 10) ++ [0x30 + n % 10]

/-- `'%d' % i`. -/
def decimal : Int → PyStr
  | .ofNat n => decDigits n
  | .negSucc n => 0x2d :: decDigits (n + 1)

/-- `name.startswith(prefix)`, and the rest if so. -/
def afterPrefix (pre name : PyStr) : Option PyStr :=
  if pre.isPrefixOf name then some (name.drop pre.length) else none

/-- Insert into a sorted list. -/
def insertInt (a : Int) : List Int → List Int
  | [] => [a]
  | b :: bs => if a ≤ b then a :: b :: bs else b :: insertInt a bs

/-- `indexes.sort()`. -/
def sortInts (l : List Int) : List Int := l.foldr insertInt []

/-- filestructure.py:347-361 `Sections.section_indexes`, from the names; `toInt` is
`int()`. -/
def sectionIndexes (toInt : PyStr → Option Int) (names : List PyStr) : List Int :=
  sortInts (names.filterMap fun name => (afterPrefix (ustr "Section") name).bind toInt)

/-- filestructure.py:344-345 `Sections.section(idx)`. -/
def section_ (o : Obj) (idx : Int) : Except PyErr Obj := o.getitem (ustr "Section" ++ decimal idx)

/-- filestructure.py:363-366 `Sections.sections`. -/
def sectionsOf (toInt : PyStr → Option Int) (o : Obj) : Except PyErr (List Obj) := do
  let names ← o.iter
  (sectionIndexes toInt names).mapM (section_ o)

end Hwp
