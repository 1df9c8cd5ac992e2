import Verif.Model.Storage
import Verif.Model.Listing
/-!
Model of directories used as storages: /repo/src/hwp5/storage/fs.py.

Paths are given by their segments from the root.  The order in which `os.listdir` gives the names of a directory
is not specified: `ls` stands for it.  Symbolic links are not modelled, nor are permissions and files which
are removed while the storage is used.
-/
set_option autoImplicit false
namespace Hwp

/-- What `FileSystemStorage.__getitem__` gives: an object with a path, which is not resolved yet. -/
inductive FsItem where
  | stream (path : List PyStr)
  | storage (path : List PyStr)
  deriving DecidableEq, Repr

/-- posixpath.py `join(path, name)`: an absolute name replaces the path.  A '/' at the end leaves an empty segment,
which only a directory has. -/
def fsJoin (p : List PyStr) (name : PyStr) : List PyStr :=
  if name.head? = some slash then splitSlash name else p ++ splitSlash name

/-- `os.path.isdir(path)`. -/
def isDir (fs : FS) (p : List PyStr) : Bool :=
  match resolve fs p with
  | some q => fs q == some .dir
  | none => false

/-- storage/fs.py:35-42 `FileSystemStorage.__getitem__(name)`. -/
def fsGet (fs : FS) (p : List PyStr) (name : PyStr) : Except PyErr FsItem :=
  let path := fsJoin p name
  if isDir fs path then .ok (.storage path)
  else if pathExists fs path then .ok (.stream path)
  else .error .keyError

/-- storage/fs.py:32-33 `FileSystemStorage.__iter__()`; `os.listdir` raises if the path is no directory. -/
def fsIter (ls : List PyStr → List PyStr) (fs : FS) (p : List PyStr) : Except PyErr (List PyStr) :=
  if isDir fs p then .ok (sortNames (ls p)) else .error .ioError

/-- storage/fs.py:51-52 `FileSystemStream.open()`, and `read()`. -/
def fsRead (fs : FS) (p : List PyStr) : Except PyErr Bytes :=
  match resolve fs p with
  | some q =>
    match fs q with
    | some (.file d) => .ok d
    | _ => .error .ioError
  | none => .error .ioError

/-- storage/__init__.py:152-156: the loop of `open_storage_item` (a `FileSystemStream` is not subscriptable:
`TypeError`). -/
def fsOpen (fs : FS) (item : FsItem) : List PyStr → Except PyErr FsItem
  | [] => .ok item
  | name :: rest =>
    match item with
    | .stream _ => .error .typeError
    | .storage p =>
      match fsGet fs p name with
      | .error e => .error e
      | .ok i => fsOpen fs i rest

/-- storage/__init__.py:109-121 `iter_storage_leafs(stg, basepath)` on a `FileSystemStorage`, to a given depth
(`none`: the depth does not suffice). -/
def fsLeafs (ls : List PyStr → List PyStr) (fs : FS) : Nat → List PyStr → PyStr → Option (Except PyErr (List PyStr))
  | 0, _, _ => none
  | depth + 1, p, basepath =>
    match fsIter ls fs p with
    | .error e => some (.error e)
    | .ok names =>
      listNames (fun name =>
        match fsGet fs p name with
        | .error e => some (.error e)
        | .ok (.storage q) => fsLeafs ls fs depth q (basepath ++ name ++ [slash])
        | .ok (.stream _) => some (.ok [basepath ++ name])) names

end Hwp
