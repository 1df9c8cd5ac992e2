/-
Model of listing and opening the items of a document, with and without virtual streams:
/repo/src/hwp5/storage/__init__.py (`ExtraItemStorage`, `printstorage`, `open_storage_item`),
/repo/src/hwp5/proc/ls.py and proc/cat.py.

Simplifications: opening a stream gives its contents (for a virtual stream, what its
`open` function gives); reading in pieces of 4096 bytes (proc/cat.py:40-46) is not modelled.
-/
import Verif.Model.Storage
import Verif.Model.Json
namespace Hwp

mutual
/-- A storage item together with its `other_formats()`: extensions and contents.  Items
without this method have none. -/
inductive VItem where
  | stream (data : Bytes) (formats : List (PyStr × Bytes))
  | storage (entries : VEntries) (formats : List (PyStr × Bytes))
/-- The entries of a storage in iteration order. -/
inductive VEntries where
  | nil
  | cons (name : PyStr) (item : VItem) (rest : VEntries)
end

/-- `item.other_formats()`. -/
def VItem.formats : VItem → List (PyStr × Bytes)
  | .stream _ f => f
  | .storage _ f => f

/-- `stg[name]`; `none` is a `KeyError`. -/
def VEntries.lookup (name : PyStr) : VEntries → Option VItem
  | .nil => none
  | .cons n i rest => if n = name then some i else rest.lookup name

/-- `list(stg)`. -/
def VEntries.names : VEntries → List PyStr
  | .nil => []
  | .cons n _ rest => n :: rest.names

/-- storage/__init__.py:71-80 `ExtraItemStorage.__iter__`: each name, then its other
formats. -/
def extraNames : VEntries → List PyStr
  | .nil => []
  | .cons n i rest => n :: (i.formats.map fun f => n ++ f.1) ++ extraNames rest

/-- storage/__init__.py:91-99: the search for a format of an item. -/
def findFormat (name : PyStr) : VEntries → Option VItem
  | .nil => none
  | .cons root i rest =>
    match i.formats.find? fun f => root ++ f.1 = name with
    | some f => some (.stream f.2 [])
    | none => findFormat name rest

/-- storage/__init__.py:82-99 `ExtraItemStorage.__getitem__`.  (A storage that is found is
wrapped again; here that is done by the functions that take a `StorageView`.) -/
def extraGet (es : VEntries) (name : PyStr) : Option VItem :=
  match es.lookup name with
  | some i => some i
  | none => findFormat name es

/-- What a storage class offers: iteration and `stg[name]`. -/
structure StorageView where
  names : VEntries → List PyStr
  get : VEntries → PyStr → Option VItem

/-- A document without `--vstreams`, cli.py:86-95. -/
def plainView : StorageView := ⟨VEntries.names, fun es n => es.lookup n⟩

/-- A document with `--vstreams`. -/
def extraView : StorageView := ⟨extraNames, extraGet⟩

/-- Insert a name into the sorted names. -/
def insertName (n : PyStr) : List PyStr → List PyStr
  | [] => [n]
  | m :: ms => if strLt m n then m :: insertName n ms else n :: m :: ms

/-- `names.sort()`. -/
def sortNames : List PyStr → List PyStr
  | [] => []
  | n :: ns => insertName n (sortNames ns)

/-- A hexadecimal digit, lower case. -/
def escDigit (n : Nat) : Nat := if n < 10 then 0x30 + n else 0x57 + n

/-- `w` hexadecimal digits. -/
def escHex : Nat → Nat → PyStr
  | 0, _ => []
  | w + 1, n => escHex w (n / 16) ++ [escDigit (n % 16)]

/-- The codec `unicode_escape`, one character. -/
def escChar (c : Nat) : PyStr :=
  if c = 0x5c then [0x5c, 0x5c]
  else if c = 9 then [0x5c, 0x74]
  else if c = 10 then [0x5c, 0x6e]
  else if c = 13 then [0x5c, 0x72]
  else if 0x20 ≤ c ∧ c < 0x7f then [c]
  else if c < 0x100 then [0x5c, 0x78] ++ escHex 2 c
  else if c < 0x10000 then [0x5c, 0x75] ++ escHex 4 c
  else [0x5c, 0x55] ++ escHex 8 c

/-- `path.encode('unicode_escape').decode('utf-8')`. -/
def unicodeEscape (s : PyStr) : PyStr := s.flatMap escChar

/-- The loop `for name in names` of `printstorage`, given what one name yields (`none`: depth
exceeded). -/
def listNames (item : PyStr → Option (Except PyErr (List PyStr))) :
    List PyStr → Option (Except PyErr (List PyStr))
  | [] => some (.ok [])
  | n :: ns =>
    match item n with
    | none => none
    | some (.error e) => some (.error e)
    | some (.ok xs) =>
      match listNames item ns with
      | some (.ok ys) => some (.ok (xs ++ ys))
      | r => r

/-- storage/__init__.py:159-168 `printstorage(stg, basepath)` to a given depth (`none`: the
depth does not suffice): the lines printed. -/
def printStorage (v : StorageView) : Nat → PyStr → VEntries → Option (Except PyErr (List PyStr))
  | 0, _, _ => none
  | depth + 1, basepath, es =>
    listNames (fun name =>
      match v.get es name with
      | none => some (.error .keyError)
      | some (.storage es' _) => printStorage v depth (basepath ++ name ++ [slash]) es'
      | some (.stream _ _) => some (.ok [unicodeEscape (basepath ++ name)])) (sortNames (v.names es))

/-- storage/__init__.py:152-156: the loop of `open_storage_item`. -/
def openView (v : StorageView) (item : VItem) : List PyStr → Except PyErr VItem
  | [] => .ok item
  | name :: rest =>
    match item with
    | .stream _ _ => .error .typeError
    | .storage es _ =>
      match v.get es name with
      | none => .error .keyError
      | some i => openView v i rest

/-- proc/cat.py:31-49: the bytes written.  A storage has no `open`. -/
def catStream (v : StorageView) (es : VEntries) (path : PyStr) : Except PyErr Bytes :=
  match openView v (.storage es []) (splitSlash path) with
  | .error e => .error e
  | .ok (.storage _ _) => .error .attributeError
  | .ok (.stream data _) => .ok data

end Hwp
