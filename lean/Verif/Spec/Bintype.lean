/-
Specification of typed reading: a declaration is read member after member, item
after item.  References and conditions see the context and the enclosing value as
read so far.
-/
import Verif.Model.Bintype
namespace Hwp.Spec

/-- `v` is at least the required version (absent requirement or no document version:
always). Lexicographic order on tuples. -/
def versionOk (doc : Option Version) (required : Option Version) : Bool :=
  match doc, required with
  | some v, some r => !(Version.lt v r)
  | _, _ => true

/-- Read items one after another; `f` gets the items so far. -/
def readMany {V} (f : List (Value V) → Bytes → Except PyErr (Option (Value V) × Bytes)) :
    Nat → List (Value V) → Bytes → Except PyErr (List (Value V) × Bytes)
  | 0, acc, s => .ok (acc, s)
  | n + 1, acc, s =>
    match f acc s with
    | .error e => .error e
    | .ok (none, s) => readMany f n acc s
    | .ok (some v, s) => readMany f n (acc ++ [v]) s

/-- A function of the enclosing value; without one it is an error. -/
def withParent {V α} (parent : Option (Value V)) (f : Value V → Except PyErr α) : Except PyErr α :=
  match parent with
  | none => .error .indexError
  | some p => f p

/-- Read failure of a primitive. -/
def leafResult {V} (e : PyErr) (r : Except PyErr (V × Bytes)) :
    Except PyErr (Option (Value V) × Bytes) :=
  match r with
  | .ok (v, s) => .ok (some (.leaf v), s)
  | .error _ => .error e

/-- Build an array. -/
def arrayResult {V} (mk : List (Value V) → Value V) (r : Except PyErr (List (Value V) × Bytes)) :
    Except PyErr (Option (Value V) × Bytes) :=
  match r with
  | .ok (xs, s) => .ok (some (mk xs), s)
  | .error e => .error e

mutual
/-- Read a value of a type; `none` if a selective type selects nothing. `fe` is the
exception for unreadable flags. -/
def readTy {V C} (fe : PyErr) (ver : Option Version) (ctx : C) (parent : Option (Value V)) :
    Ty V C → Bytes → Except PyErr (Option (Value V) × Bytes)
  | .prim r, s => leafResult .parseError (r s)
  | .flags r conv, s => leafResult fe ((r s).map fun (v, s) => (conv v, s))
  | .struct ms, s =>
    match readMembers fe ver ctx ms [] s with
    | .ok (fs, s) => .ok (some (.struct fs), s)
    | .error e => .error e
  | .fixedArray t n, s =>
    arrayResult .tuple (readMany (fun acc s => readTy fe ver ctx (some (.list acc)) t s) n [] s)
  | .varArray count t, s =>
    match count s with
    | .error _ => .error .parseError
    | .ok (n, s) =>
      arrayResult .list (readMany (fun acc s => readTy fe ver ctx (some (.list acc)) t s) n [] s)
  | .xArray t count, s =>
    match withParent parent (count ctx) with
    | .error e => .error e
    | .ok n =>
      arrayResult .list (readMany (fun acc s => readTy fe ver ctx (some (.list acc)) t s) n [] s)
  | .selective sel ss, s =>
    match withParent parent (sel ctx) with
    | .error e => .error e
    | .ok key => readSelected fe ver ctx parent key ss s
/-- Read members into the fields so far: those whose version and condition allow
it. -/
def readMembers {V C} (fe : PyErr) (ver : Option Version) (ctx : C) :
    Members V C → List (String × Value V) → Bytes →
      Except PyErr (List (String × Value V) × Bytes)
  | .nil, fs, s => .ok (fs, s)
  | .cons name version condition t rest, fs, s =>
    if versionOk ver version then
      match (match condition with
        | none => Except.ok true
        | some c => c ctx (.struct fs)) with
      | .error e => .error e
      | .ok false => readMembers fe ver ctx rest fs s
      | .ok true =>
        match readTy fe ver ctx (some (.struct fs)) t s with
        | .error e => .error e
        | .ok (none, s) => readMembers fe ver ctx rest fs s
        | .ok (some v, s) => readMembers fe ver ctx rest (setField name v fs) s
    else readMembers fe ver ctx rest fs s
/-- Read the selection with the given key, if any. -/
def readSelected {V C} (fe : PyErr) (ver : Option Version) (ctx : C) (parent : Option (Value V))
    (key : Int) : Selections V C → Bytes → Except PyErr (Option (Value V) × Bytes)
  | .nil, s => .ok (none, s)
  | .cons k t rest, s =>
    if k = key then readTy fe ver ctx parent t s else readSelected fe ver ctx parent key rest s
end

/-- The result of reading a type on its own. -/
def readWhole {V C} (fe : PyErr) (ver : Option Version) (ctx : C) (t : Ty V C) (s : Bytes) :
    Except PyErr (Value V × Bytes) :=
  match readTy fe ver ctx none t s with
  | .ok (some v, s) => .ok (v, s)
  | .ok (none, _) => .error .indexError
  | .error e => .error e

/-- Is the type selective? -/
def IsSel {V C} : Ty V C → Prop
  | .selective _ _ => True
  | _ => False

/-- Keys of the selections. -/
def selKeys {V C} : Selections V C → List Int
  | .nil => []
  | .cons k _ rest => k :: selKeys rest

mutual
/-- Declarations: the keys of a selective type are distinct (they are the keys of a
dict), its choices are not selective themselves, and a selective member has no
condition. -/
def WfTy {V C} : Ty V C → Prop
  | .prim _ => True
  | .flags _ _ => True
  | .struct ms => WfMembers ms
  | .fixedArray t _ => WfTy t
  | .varArray _ t => WfTy t
  | .xArray t _ => WfTy t
  | .selective _ ss => (selKeys ss).Nodup ∧ WfSels ss
/-- Members. -/
def WfMembers {V C} : Members V C → Prop
  | .nil => True
  | .cons _ _ condition t rest => WfTy t ∧ (IsSel t → condition = none) ∧ WfMembers rest
/-- Selections. -/
def WfSels {V C} : Selections V C → Prop
  | .nil => True
  | .cons _ t rest => WfTy t ∧ ¬ IsSel t ∧ WfSels rest
end

mutual
/-- The declaration with the members removed that are newer than the document. -/
def filterTy {V C} (ver : Version) : Ty V C → Ty V C
  | .prim r => .prim r
  | .flags r c => .flags r c
  | .struct ms => .struct (filterMembers ver ms)
  | .fixedArray t n => .fixedArray (filterTy ver t) n
  | .varArray r t => .varArray r (filterTy ver t)
  | .xArray t r => .xArray (filterTy ver t) r
  | .selective r ss => .selective r (filterSels ver ss)
/-- Members. -/
def filterMembers {V C} (ver : Version) : Members V C → Members V C
  | .nil => .nil
  | .cons name version condition t rest =>
    if versionOk (some ver) version then
      .cons name version condition (filterTy ver t) (filterMembers ver rest)
    else filterMembers ver rest
/-- Selections. -/
def filterSels {V C} (ver : Version) : Selections V C → Selections V C
  | .nil => .nil
  | .cons k t rest => .cons k (filterTy ver t) (filterSels ver rest)
end

/-- Names of the direct members that are present for a document version. -/
def presentNames {V C} (ver : Version) : Members V C → List String
  | .nil => []
  | .cons name version _ _ rest =>
    if versionOk (some ver) version then name :: presentNames ver rest else presentNames ver rest

end Hwp.Spec
