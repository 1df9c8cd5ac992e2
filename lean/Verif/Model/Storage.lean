/-
Model of storages: /repo/src/hwp5/storage/__init__.py and the listing of OLE files
in /repo/src/hwp5/plat/olefileio.py.

A storage is a mapping from names to items, given by its entries in iteration order;
`stg[name]` for a listed name is the listed item.  Names are lists of code points.
-/
import Verif.Model.Utf16
namespace Hwp

mutual
/-- A storage item: a stream (with its contents) or a storage. -/
inductive StgItem where
  | stream (data : Bytes)
  | storage (entries : StgEntries)
/-- StgEntries of a storage in iteration order. -/
inductive StgEntries where
  | nil
  | cons (name : PyStr) (item : StgItem) (rest : StgEntries)
end

namespace StgEntries
/-- `stg[name]`; `none` is a `KeyError`. -/
def lookup (name : PyStr) : StgEntries → Option StgItem
  | nil => none
  | cons n i rest => if n = name then some i else lookup name rest
/-- `list(stg)`. -/
def names : StgEntries → List PyStr
  | nil => []
  | cons n _ rest => n :: names rest
end StgEntries

/-- The code point of '/'. -/
def slash : Nat := 0x2f

mutual
/-- storage/__init__.py:109-121 `iter_storage_leafs(stg, basepath)`: what it yields
for one item. -/
def leafsItem (path : PyStr) : StgItem → List PyStr
  | .stream _ => [path]
  | .storage es => leafs (path ++ [slash]) es
/-- The loop over the entries. -/
def leafs (basepath : PyStr) : StgEntries → List PyStr
  | .nil => []
  | .cons name item rest => leafsItem (basepath ++ name) item ++ leafs basepath rest
end

/-- `s.split('/')`. -/
def splitSlash : PyStr → List PyStr
  | [] => [[]]
  | c :: cs =>
    if c = slash then [] :: splitSlash cs
    else match splitSlash cs with
      | [] => [[c]]
      | s :: ss => (c :: s) :: ss

/-- storage/__init__.py:152-156: the loop of `open_storage_item` (a stream is not
subscriptable: `TypeError`). -/
def openSegments (item : StgItem) : List PyStr → Except PyErr StgItem
  | [] => .ok item
  | name :: rest =>
    match item with
    | .stream _ => .error .typeError
    | .storage es =>
      match es.lookup name with
      | none => .error .keyError
      | some i => openSegments i rest

/-- storage/__init__.py:147-156 `open_storage_item(stg, path)` with a string. -/
def openItem (stg : StgItem) (path : PyStr) : Except PyErr StgItem := openSegments stg (splitSlash path)

/-! ### OLE listing -/

mutual
/-- `olefile.listdir()`: the paths of all streams, as lists of names. -/
def oleListdirItem (path : List PyStr) : StgItem → List (List PyStr)
  | .stream _ => [path]
  | .storage es => oleListdirFrom path es
/-- The entries of one storage. -/
def oleListdirFrom (path : List PyStr) : StgEntries → List (List PyStr)
  | .nil => []
  | .cons name item rest => oleListdirItem (path ++ [name]) item ++ oleListdirFrom path rest
end

/-- `olefile.listdir()` of the whole file. -/
def oleListdir (root : StgEntries) : List (List PyStr) := oleListdirFrom [] root

/-- plat/olefileio.py:150-156: the first names, each once. -/
def topItems (yielded : List PyStr) : List (List PyStr) → List PyStr
  | [] => []
  | [] :: rest => topItems yielded rest           -- does not occur: paths are not empty
  | (top :: _) :: rest =>
    if top ∈ yielded then topItems yielded rest
    else top :: topItems (yielded ++ [top]) rest

/-- plat/olefileio.py:144-166 `olefile_listdir(olefile, path)`.  Paths are given by
their segments (OLE names contain no '/'); comparison of names is exact here, while
`olefile.exists` ignores case. -/
def oleNames (root : StgEntries) (path : List PyStr) : Except PyErr (List PyStr) :=
  if path = [] then .ok (topItems [] (oleListdir root))
  else
    match openSegments (.storage root) path with
    | .error _ => .error .ioError
    | .ok (.stream _) => .error .ioError
    | .ok (.storage _) =>
      .ok ((oleListdir root).filterMap fun stream =>
        if stream.length = path.length + 1 ∧ stream.take path.length = path then stream.getLast?
        else none)

/-- plat/olefileio.py:121-134 `OleStorage.__getitem__`: storage (`true`) or stream. -/
def oleGetType (root : StgEntries) (path : List PyStr) : Except PyErr Bool :=
  match openSegments (.storage root) path with
  | .error _ => .error .keyError
  | .ok (.storage _) => .ok true
  | .ok (.stream _) => .ok false

/-- The loop `for name in stg` of `iter_storage_leafs`, given what one name yields
(`none`: depth exceeded). -/
def walkNames (item : PyStr → Option (Except PyErr (List (List PyStr)))) :
    List PyStr → Option (Except PyErr (List (List PyStr)))
  | [] => some (.ok [])
  | n :: ns =>
    match item n with
    | none => none
    | some (.error e) => some (.error e)
    | some (.ok xs) =>
      match walkNames item ns with
      | some (.ok ys) => some (.ok (xs ++ ys))
      | r => r

/-- storage/__init__.py:115-121 for one item of an `OleStorage`: a storage is walked, a
stream is yielded. -/
def oleItem (root : StgEntries) (walk : List PyStr → Option (Except PyErr (List (List PyStr))))
    (path : List PyStr) : Option (Except PyErr (List (List PyStr))) :=
  match oleGetType root path with
  | .error e => some (.error e)
  | .ok true => walk path
  | .ok false => some (.ok [path])

/-- `iter_storage_leafs` (storage/__init__.py:109-121) on an `OleStorage` with the
given path, to a given depth (`none`: the depth does not suffice). -/
def oleLeafs (root : StgEntries) : Nat → List PyStr → Option (Except PyErr (List (List PyStr)))
  | 0, _ => none
  | depth + 1, path =>
    match oleNames root path with
    | .error e => some (.error e)
    | .ok names => walkNames (fun name => oleItem root (oleLeafs root depth) (path ++ [name])) names

/-! ### Unpacking -/

/-- A node of the file system. -/
inductive Node where
  | dir
  | file (data : Bytes)
  deriving DecidableEq, Repr

/-- The file system: paths (as segments from the root) to nodes. -/
abbrev FS := List PyStr → Option Node

/-- Store a node. -/
def FS.set (fs : FS) (p : List PyStr) (n : Node) : FS := fun q => if q = p then some n else fs q

/-- How the operating system finds the place of a path: each segment is looked up in a directory, '..' is the
parent directory, '.' and the empty segment are the directory itself.  (Symbolic links are not modelled.) -/
def resolveFrom (fs : FS) (dir : List PyStr) : List PyStr → Option (List PyStr)
  | [] => some dir
  | s :: rest =>
    if fs dir = some .dir then
      if s = [0x2e, 0x2e] then resolveFrom fs dir.dropLast rest
      else if s = [0x2e] ∨ s = [] then resolveFrom fs dir rest
      else resolveFrom fs (dir ++ [s]) rest
    else none

/-- The place of a path; `none` if a directory on the way is missing. -/
def resolve (fs : FS) (p : List PyStr) : Option (List PyStr) := resolveFrom fs [] p

/-- `outpath.replace('\x05', '_05')` on one segment. -/
def replace05 (s : PyStr) : PyStr :=
  s.flatMap fun c => if c = 5 then [0x5f, 0x30, 0x35] else [c]

/-- `os.path.exists(path)`. -/
def pathExists (fs : FS) (p : List PyStr) : Bool :=
  match resolve fs p with
  | some q => (fs q).isSome
  | none => false

/-- `os.mkdir(path)`: the parent must be a directory and the path must not exist. -/
def mkdir (fs : FS) (p : List PyStr) : FS × Option PyErr :=
  match resolve fs p with
  | some q => if fs q = none then (fs.set q .dir, none) else (fs, some .ioError)
  | none => (fs, some .ioError)

/-- `io.open(path, 'wb')`, write the data and close: the parent must be a directory and
the path must not be one. -/
def writeFile (fs : FS) (p : List PyStr) (data : Bytes) : FS × Option PyErr :=
  match resolve fs p with
  | some q => if fs q = some .dir then (fs, some .ioError) else (fs.set q (.file data), none)
  | none => (fs, some .ioError)

mutual
/-- storage/__init__.py:124-144 `unpack(stg, outbase)`: one entry.  The replacement is
applied to the whole path. (Names with '/' are not modelled: an OLE storage has no item for them.) -/
def unpackItem (fs : FS) (outpath : List PyStr) : StgItem → FS × Option PyErr
  | .storage es =>
    andThen (if pathExists fs outpath then (fs, none) else mkdir fs outpath) fun fs => unpack fs outpath es
  | .stream data => writeFile fs (outpath.map replace05) data
/-- The loop over the entries. -/
def unpack (fs : FS) (outbase : List PyStr) : StgEntries → FS × Option PyErr
  | .nil => (fs, none)
  | .cons name item rest =>
    andThen (unpackItem fs (outbase ++ [name]) item) fun fs => unpack fs outbase rest
end

end Hwp
