/-
Specification of property set streams ([MS-OLEPS]): the encodings of values, property
lists and headers, written independently of the readers.
-/
import Verif.Model.Msoleprops
import Verif.Spec.Dataio
import Verif.Spec.Utf16
namespace Hwp.Spec

/-- `bs` is found at position `pos` of `data`. -/
def Holds (data : Bytes) (pos : Nat) (bs : Bytes) : Prop := bs <+: data.drop pos

/-- A dictionary entry: id, length with terminator, one byte characters, terminator. -/
def encEntry (e : Nat × PyStr) : Bytes :=
  leBytes 4 e.1 ++ leBytes 4 (e.2.length + 1) ++ (e.2.map UInt8.ofNat ++ [0])

/-- The encoding of a value (with its type, except for the dictionary, which has none). -/
def encValue : PropValue → Bytes
  | .i4 v => leBytes 4 0x0003 ++ encodeInt .INT32 v
  | .lpwstr s => leBytes 4 0x001f ++ leBytes 4 ((strUnits s).length + 1) ++ encodeUtf16le (s ++ [0])
  | .filetime v => leBytes 4 0x0040 ++ leBytes 8 v
  | .dictionary es => leBytes 4 es.length ++ es.flatMap encEntry

/-- Values that have an encoding. -/
def ValueOk : PropValue → Prop
  | .i4 v => InRange .INT32 v
  | .lpwstr s => (∀ c ∈ s, Scalar c) ∧ (strUnits s).length + 1 < 2 ^ 32
  | .filetime v => v < 2 ^ 64
  | .dictionary es => es.length < 2 ^ 32 ∧
      ∀ e ∈ es, e.1 < 2 ^ 32 ∧ e.2.length + 1 < 2 ^ 32 ∧ ∀ c ∈ e.2, c < 256

/-- Is the value a dictionary? -/
def IsDictionary : PropValue → Prop
  | .dictionary _ => True
  | _ => False

/-- The head of a property set: size and table of ids and offsets. -/
def encPropSetHeader (size : Nat) (descs : List PropDesc) : Bytes :=
  leBytes 4 size ++ leBytes 4 descs.length ++ descs.flatMap (fun d => leBytes 4 d.id ++ leBytes 4 d.offset)

/-- The head of a stream: byte order, version, system, class id, and a table of format ids
and offsets. -/
def encStreamHeader (byteOrder version system : Nat) (clsid : List Nat) (sets : List (List Nat × Nat)) : Bytes :=
  leBytes 2 byteOrder ++ leBytes 2 version ++ leBytes 4 system ++ clsid.map UInt8.ofNat ++
    leBytes 4 sets.length ++ sets.flatMap (fun s => s.1.map UInt8.ofNat ++ leBytes 4 s.2)

end Hwp.Spec
