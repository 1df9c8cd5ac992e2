/-
Specification of storage trees: their streams, path texts, and the file system tree
that corresponds to a storage.
-/
import Verif.Model.Storage
namespace Hwp.Spec

mutual
/-- The streams of an item, with their paths relative to it. -/
def itemStreams : StgItem → List (List PyStr × Bytes)
  | .stream data => [([], data)]
  | .storage es => streams es
/-- The streams of a storage with their paths (names from the top down). -/
def streams : StgEntries → List (List PyStr × Bytes)
  | .nil => []
  | .cons name item rest => (itemStreams item).map (fun p => (name :: p.1, p.2)) ++ streams rest
end

mutual
/-- Sibling names are distinct and contain no '/'. -/
def WfItem : StgItem → Prop
  | .stream _ => True
  | .storage es => WfEntries es
/-- StgEntries. -/
def WfEntries : StgEntries → Prop
  | .nil => True
  | .cons name item rest => 0x2f ∉ name ∧ name ∉ rest.names ∧ WfItem item ∧ WfEntries rest
end

/-- The text of a path: names separated by '/'. -/
def pathText : List PyStr → PyStr
  | [] => []
  | [s] => s
  | s :: rest => s ++ 0x2f :: pathText rest

/-- A name with control character 5 written as `_05`. -/
def fileName : PyStr → PyStr
  | [] => []
  | 5 :: cs => [0x5f, 0x30, 0x35] ++ fileName cs
  | c :: cs => c :: fileName cs

mutual
/-- The node that belongs at a relative path below an unpacked item. -/
def itemNode : StgItem → List PyStr → Option Node
  | .stream d, [] => some (.file d)
  | .stream _, _ :: _ => none
  | .storage _, [] => some .dir
  | .storage es, m :: q => nodeAt es m q
/-- The node at `m/q` below an unpacked storage. -/
def nodeAt : StgEntries → PyStr → List PyStr → Option Node
  | .nil, _, _ => none
  | .cons n item rest, m, q => if fileName n = m then itemNode item q else nodeAt rest m q
end

/-- Names of the files and directories of a storage after unpacking. -/
def fileNames (es : StgEntries) : List PyStr := es.names.map fileName

/-- A name of its own in a directory. -/
def PlainName (s : PyStr) : Prop := s ≠ [] ∧ s ≠ [0x2e] ∧ s ≠ [0x2e, 0x2e]

instance (s : PyStr) : Decidable (PlainName s) := inferInstanceAs (Decidable (_ ∧ _))

mutual
/-- Storages that can be unpacked: the names are plain, sibling names stay distinct and names of storages
do not contain control character 5. -/
def UnpackableItem : StgItem → Prop
  | .stream _ => True
  | .storage es => Unpackable es
/-- StgEntries. -/
def Unpackable : StgEntries → Prop
  | .nil => True
  | .cons name item rest => PlainName name ∧ fileName name ∉ fileNames rest ∧
      (match item with | .stream _ => True | .storage _ => 5 ∉ name) ∧ UnpackableItem item ∧ Unpackable rest
end

mutual
/-- Storages without the names '.' and '..'. -/
def PlainItem : StgItem → Prop
  | .stream _ => True
  | .storage es => PlainEntries es
/-- StgEntries. -/
def PlainEntries : StgEntries → Prop
  | .nil => True
  | .cons name item rest => PlainName name ∧ PlainItem item ∧ PlainEntries rest
end

/-- A directory in a proper file system: its parents are directories as well. -/
def DirAt (fs : FS) (p : List PyStr) : Prop := ∀ q, q <+: p → fs q = some .dir

end Hwp.Spec
