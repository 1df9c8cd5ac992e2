/-
What the declarations in the Python source mean: names are looked up, `Flags(...)`, `Enum(...)`,
`ARRAY`, `N_ARRAY`, `X_ARRAY`, `SelectiveType` and the references are what `dataio.py` makes of
their arguments.  `fuel` bounds the depth of names that stand for other names.
-/
import Verif.Spec.PySource
import Verif.Model.Decls
namespace Hwp.Spec

/-- The class of a name. -/
def pyClass (name : String) : Option PyClass := pyClasses.find? fun c => c.name = name

/-- The expression of `cls.name`: of the class, or else of its base classes. -/
def classAttr : Nat → String → String → Option PyEx
  | 0, _, _ => none
  | fuel + 1, cls, name => do
    let c ← pyClass cls
    match c.attrs.lookup name with
    | some e => some e
    | none => c.bases.findSome? fun b => classAttr fuel b name

/-- The expression a name or `class.name` stands for, in the body of the class `cls`, and the
class in whose body it stands. -/
def pyLookup (cls : String) : PyEx → Option (String × PyEx)
  | .attr (.name c) a =>
    let c := if c = "cls" then cls else c
    (classAttr 4 c a).map fun e => (c, e)
  | .name n =>
    match classAttr 4 cls n with
    | some e => some (cls, e)
    | none => (pyDefs.lookup n).map fun e => ("", e)
  | _ => none

/-- Integer types by name (dataio.py:111-128). -/
def primNamed : String → Option Prim
  | "UINT32" => some .UINT32
  | "INT32" => some .INT32
  | "UINT16" => some .UINT16
  | "INT16" => some .INT16
  | "UINT8" => some .UINT8
  | "INT8" => some .INT8
  | "WORD" => some .WORD
  | "BYTE" => some .BYTE
  | "WCHAR" => some .WCHAR
  | "HWPUNIT" => some .HWPUNIT
  | "SHWPUNIT" => some .SHWPUNIT
  | "HWPUNIT16" => some .HWPUNIT16
  | _ => none

/-- Types that are not declared with members. -/
def typeNamed : String → Option PTy
  | "DOUBLE" => some .double
  | "BSTR" => some .bstr
  | "CHID" => some .chid
  | "COLORREF" => some .colorref
  | "BinStorageId" => some .binStorageId
  | "ParaTextChunks" => some .chunks
  | "VERSION" => some .version
  | n => (primNamed n).map .int

/-- A string. -/
def pyStr : PyEx → Option String
  | .str s => some s
  | _ => none

/-- `name=number`. -/
def pyKwNum : String × PyEx → Option (String × Nat)
  | (k, .num n) => some (k, n)
  | _ => none

/-- `'name': number`. -/
def pyDictNum : PyEx × PyEx → Option (String × Nat)
  | (.str k, .num n) => some (k, n)
  | _ => none

/-- `Enum('a', 'b', c=2)`, or `Enum(**dict)`. -/
def enumArgs (cls : String) : PyEx → Option EnumDecl
  | .call (.name "Enum") items [("**", d)] => do
    let (_, e) ← pyLookup cls d
    match items, e with
    | [], .dict kvs => kvs.mapM pyDictNum
    | _, _ => none
  | .call (.name "Enum") items kw => do
    let names ← items.mapM pyStr
    let more ← kw.mapM pyKwNum
    some (names.mapIdx (fun i n => (n, i)) ++ more)
  | _ => none

/-- An `Enum`, or a name for one. -/
def enumNamed : Nat → String → PyEx → Option EnumDecl
  | 0, _, _ => none
  | fuel + 1, cls, e =>
    match enumArgs cls e with
    | some d => some d
    | none => do
      let (c, e') ← pyLookup cls e
      enumNamed fuel c e'

/-- The arguments of `Flags` after the base type: least bit, most bit if there is more than one,
type if it is not a number, name. -/
def bitArgs (cls : String) : List PyEx → Option (List BitDecl)
  | [] => some []
  | .num l :: .str n :: rest => (bitArgs cls rest).map (⟨l, l, none, n⟩ :: ·)
  | .num l :: .num h :: .str n :: rest => (bitArgs cls rest).map (⟨l, h, none, n⟩ :: ·)
  | .num l :: .num h :: e :: .str n :: rest => do
    let d ← enumNamed 4 cls e
    (bitArgs cls rest).map (⟨l, h, some d, n⟩ :: ·)
  | .num l :: e :: .str n :: rest => do
    let d ← enumNamed 4 cls e
    (bitArgs cls rest).map (⟨l, l, some d, n⟩ :: ·)
  | _ => none

/-- `Flags(base, ...)`. -/
def flagsArgs (cls : String) : PyEx → Option FlagsDecl
  | .call (.name "Flags") (.name base :: args) [] => do
    let p ← primNamed base
    let bs ← bitArgs cls args
    some ⟨p, bs⟩
  | _ => none

/-- `Flags(...)`, or a name for one. -/
def flagsNamed : Nat → String → PyEx → Option FlagsDecl
  | 0, _, _ => none
  | fuel + 1, cls, e =>
    match flagsArgs cls e with
    | some d => some d
    | none => do
      let (c, e') ← pyLookup cls e
      flagsNamed fuel c e'

/-- A reference: `ref_member(name)`, `ref_member_flag(name, bit)`, `ref_parent_member(name)`,
and `n_entries(ref)`, which is one less (controls/columns_def.py:70-74). -/
def refNamed : PyEx → Option RefDecl
  | .call (.name "ref_member") [.str n] [] => some (.member n)
  | .call (.name "ref_member_flag") [.str n, .str b] [] => some (.flag n b)
  | .call (.name "ref_parent_member") [.str n] [] => some (.parentMember n)
  | .call (.name "n_entries") [.call (.name "ref_member_flag") [.str n, .str b] []] [] =>
    some (.flagMinusOne n b)
  | _ => none

/-- The text of `CHID.x`. -/
def chidNamed : PyEx → Option String
  | .attr (.name "CHID") x =>
    match classAttr 1 "CHID" x with
    | some (.str s) => some s
    | _ => none
  | _ => none

/-- A condition: `values[name].bit`, `not values[name].bit`, `values['chid'] == CHID.x`, both,
or the name of a function; `parent_must_be_gso` is the one in tagid60_shape_component.py:73-79. -/
def condNamed : Nat → PyEx → Option CondDecl
  | 0, _ => none
  | fuel + 1, e =>
    match e with
    | .attr (.index (.name "values") (.str n)) b => some (.flag n b)
    | .not (.attr (.index (.name "values") (.str n)) b) => some (.notFlag n b)
    | .eq (.index (.name "values") (.str "chid")) c => (chidNamed c).map .chidIs
    | .and (.eq (.index (.name "values") (.str "chid")) c)
        (.attr (.index (.name "values") (.str n)) b) => (chidNamed c).map fun s => .chidIsAndFlag s n b
    | .name "parent_must_be_gso" => some .parentIsGso
    | .name f => do condNamed fuel (← pyDefs.lookup f)
    | _ => none

/-- Members with their types. -/
def membersWith (ty : PyEx → Option DTy) : List PyMember → Option DMembers
  | [] => some .nil
  | m :: rest => do
    let t ← ty m.type
    let c ← match m.condition with
      | none => some none
      | some e => (condNamed 4 e).map some
    let rest ← membersWith ty rest
    some (.cons m.name (if m.version = [] then none else some m.version) c t rest)

/-- Members of the same type. -/
def sameMembers (t : DTy) : List String → DMembers
  | [] => .nil
  | n :: ns => .cons n none none t (sameMembers t ns)

/-- Selections: the keys are values of enums. -/
def selectionsWith (ty : PyEx → Option DTy) (cls : String) : List (PyEx × PyEx) → Option DSels
  | [] => some .nil
  | (.attr e k, v) :: rest => do
    let d ← enumNamed 4 cls e
    let n ← d.lookup k
    let t ← ty v
    let rest ← selectionsWith ty cls rest
    some (.cons n t rest)
  | _ => none

/-- The type an expression in the body of the class `cls` stands for. -/
def typeOf : Nat → String → PyEx → Option DTy
  | 0, _, _ => none
  | fuel + 1, cls, e =>
    match e with
    | .call (.name "ARRAY") [t, .num n] [] => (typeOf fuel cls t).map fun t => .array t n
    | .call (.name "N_ARRAY") [.name c, t] [] => do
      let c ← primNamed c
      (typeOf fuel cls t).map fun t => .nArray c t
    | .call (.name "X_ARRAY") [t, r] [] => do
      let r ← refNamed r
      (typeOf fuel cls t).map fun t => .xArray t r
    | .call (.name "SelectiveType") [r, .dict kvs] [] => do
      let r ← refNamed r
      (selectionsWith (typeOf fuel cls) cls kvs).map fun ss => .selective r ss
    | .call (.name "HexBytes") [.num n] [] => some (.prim (.hexBytes n))
    -- tagid21_char_shape.py:36-44
    | .call (.name "LanguageStruct") [.str name, t] [] =>
      (typeOf fuel cls t).map fun t => .struct name (sameMembers t ["ko", "en", "cn", "jp", "other", "symbol", "user"])
    | .name n =>
      match typeNamed n with
      | some p => some (.prim p)
      | none =>
        match pyClass n with
        | some c => do
          let ms ← membersWith (typeOf fuel n) (← c.members)
          some (.struct n ms)
        | none => (flagsNamed 4 cls e).map .flags
    | e => (flagsNamed 4 cls e).map .flags

/-- The members a class declares. -/
def declared (name : String) : Option DMembers := do
  let c ← pyClass name
  let ms ← c.members
  membersWith (typeOf 8 name) ms

/-- The number of a tag (tagids.py). -/
def tagNamed (name : String) : Option Nat :=
  match pyTags.lookup "HWPTAG_BEGIN", pyTags.lookup "tagnames" with
  | some (.num base), some (.dict kvs) => kvs.findSome? fun kv =>
    match kv with
    | (.add (.name "HWPTAG_BEGIN") (.num n), .str s) => if s = name then some (base + n) else none
    | _ => none
  | _, _ => none

/-- The classes with a tag, and the tag. -/
def taggedClasses : List (Nat × String) :=
  pyClasses.filterMap fun c =>
    match c.attrs.lookup "tagid" with
    | some (.name t) => (tagNamed t).map fun n => (n, c.name)
    | _ => none

/-- The classes with a control id, and the id. -/
def controlClasses : List (String × String) :=
  pyClasses.filterMap fun c =>
    match c.attrs.lookup "chid" with
    | some e => (chidNamed e).map fun s => (s, c.name)
    | _ => none

/-- The first base classes of a class, up to the root of the records. -/
def baseChain : Nat → String → List String
  | 0, _ => []
  | fuel + 1, name => name ::
    match pyClass name with
    | some ⟨_, [b], _, _⟩ => baseChain fuel b
    | _ => []

/-- The kinds of paragraph lists: the classes below `ListHeader` with a `parent_model_type`,
with it and `before_tablebody` (`False` if not given). -/
def listHeaderClasses : List ((String × Bool) × String) :=
  pyClasses.filterMap fun c =>
    if "ListHeader" ∈ baseChain 5 c.name then
      match c.attrs.lookup "parent_model_type", c.attrs.lookup "before_tablebody" with
      | some (.name p), none => some ((p, false), c.name)
      | some (.name p), some (.num b) => some ((p, b ≠ 0), c.name)
      | _, _ => none
    else none

/-- The kinds of control data. -/
def controlDataClasses : List (String × String) :=
  pyClasses.filterMap fun c =>
    if "ControlData" ∈ baseChain 5 c.name then
      match c.attrs.lookup "parent_model_type" with
      | some (.name p) => some (p, c.name)
      | _ => none
    else none

/-- The classes with members of their own in the chain of base classes, base class first. -/
def chainWithMembers (name : String) : List String :=
  ((baseChain 5 name).filter fun c =>
    match pyClass c with
    | some k => k.members.isSome
    | none => false).reverse

end Hwp.Spec
