/-
Model of the conversion of model events to XML events: /repo/src/hwp5/xmlformat.py:56-238,
typed_struct_attributes and parse_members of dataio.py:523-588, and
modelevents_to_xmlevents (xmlmodel.py:562-577).

Simplifications: `repr` of strings, floats and of objects is a parameter, and so are the
names of types that are not structs.  If two attributes of an element have the same name and
another value of it cannot be converted, the model reports the latter exception.
-/
import Verif.Model.Decls
import Verif.Model.Xml
import Verif.Model.Passes
namespace Hwp

/-- What the model does not compute: `repr` of leaves and `__name__` of types that are not
structs. -/
structure XmlEnv where
  leafRepr : PVal → PyStr
  typeName : DTy → PyStr

/-! ### Text of values -/

/-- `str(n)` of a natural number. -/
def natStr (n : Nat) : PyStr :=
  if n < 10 then [0x30 + n] else natStr (n / 10) ++ [0x30 + n % 10]
termination_by n

/-- `str(n)` of an integer. -/
def intStr (n : Int) : PyStr := if n < 0 then 0x2D :: natStr n.natAbs else natStr n.natAbs

/-- Code points of a list of characters. -/
def chars (s : List Char) : PyStr := s.map Char.toNat

/-- `'%0<w>X' % n`. -/
def hexPad (w : Nat) (n : Nat) : PyStr :=
  let d := chars (hexNatU n)
  List.replicate (w - d.length) 0x30 ++ d

/-- `'%0<w>X' % n` for an integer: the sign counts for the width. -/
def hexPadInt (w : Nat) (n : Int) : PyStr :=
  if n < 0 then 0x2D :: hexPad (w - 1) n.natAbs else hexPad w n.natAbs

/-- `', '.join(...)`. -/
def commaJoin : List PyStr → PyStr
  | [] => []
  | [s] => s
  | s :: ss => s ++ lit ", " ++ commaJoin ss

/-- `repr` of a tuple with the given items. -/
def tupleRepr (items : List PyStr) : PyStr :=
  match items with
  | [s] => lit "(" ++ s ++ lit ",)"
  | ss => lit "(" ++ commaJoin ss ++ lit ")"

/-- `repr` of a leaf.  The value of `HexBytes` is a `bytes` object of hexadecimal digits
(dataio.py:131-135). -/
def leafRepr (env : XmlEnv) : PVal → PyStr
  | .int n => intStr n
  | .flags _ n => natStr n
  | .hex b => lit "b'" ++ b.flatMap (fun x => chars (Colorref.hex2 x.toNat)) ++ lit "'"
  | .version ns => tupleRepr (ns.map natStr)
  | p => env.leafRepr p

mutual
/-- `repr(value)`. -/
def pyRepr (env : XmlEnv) : Value PVal → PyStr
  | .leaf p => leafRepr env p
  | .list xs => lit "[" ++ commaJoin (pyReprs env xs) ++ lit "]"
  | .tuple xs => tupleRepr (pyReprs env xs)
  | .struct fs => lit "{" ++ commaJoin (pyReprFields env fs) ++ lit "}"
/-- `repr` of each item. -/
def pyReprs (env : XmlEnv) : List (Value PVal) → List PyStr
  | [] => []
  | x :: xs => pyRepr env x :: pyReprs env xs
/-- Keys and values of a dict. -/
def pyReprFields (env : XmlEnv) : List (String × Value PVal) → List PyStr
  | [] => []
  | (k, v) :: fs => (env.leafRepr (.str (lit k)) ++ lit ": " ++ pyRepr env v) :: pyReprFields env fs
end

/-- xmlformat.py:56-67 `xmlattrval`, for values that are not enum instances. -/
def xmlattrval (env : XmlEnv) : Value PVal → PyStr
  | .leaf (.str s) => s
  | .leaf (.chid b) => b.map UInt8.toNat
  | .leaf (.cls name) => lit name
  | v => pyRepr env v

/-- `str.lower` of a character of an enum name (ASCII). -/
def lowerChar (c : Nat) : Nat := if 0x41 ≤ c ∧ c ≤ 0x5A then c + 0x20 else c

/-- The name of an enum value, dataio.py:311-319, 340-344. -/
def enumName (e : EnumDecl) (n : Nat) : Option String := (e.find? (fun x => x.2 = n)).map (·.1)

/-- xmlformat.py:62-63, 67: the text of a bit group with the integer value `n`. -/
def bitStr (enum : Option EnumDecl) (n : Nat) : PyStr :=
  match enum with
  | none => natStr n
  | some e =>
    match enumName e n with
    | some name => (lit name).map lowerChar
    | none => natStr n

/-- `get_int_value` (dataio.py:201-204) of any integer. -/
def bitGroupInt (lsb msb : Nat) (n : Int) : Nat := (n / 2 ^ lsb % 2 ^ (msb + 1 - lsb)).toNat

/-- xmlformat.py:72-78: the attributes of a flags value. -/
def expandFlags (name : String) (f : FlagsDecl) (n : Int) : List (PyStr × PyStr) :=
  (lit name, hexPadInt (2 * (fmtInfo f.base.binfmt).1) n) ::
    f.bits.map fun b => (lit b.name, bitStr b.enum (bitGroupInt b.lsb b.msb n))

/-- xmlformat.py:103-126 -/
def puaSymbols : List (Nat × Nat) :=
  [(0xF046, 0x261E), (0xF06C, 0x25CF), (0xF09F, 0x2022), (0xF0A1, 0x25CB), (0xF06E, 0x25A0),
   (0xF0A7, 0x25AA), (0xF06F, 0x2610), (0xF075, 0x25C6), (0xF077, 0x2B29), (0xF076, 0x2756),
   (0xF0A4, 0x25C9), (0xF0AB, 0x2605), (0xF0FC, 0x2713), (0xF0FE, 0x2611)]

/-- xmlformat.py:88-95: the text of a `WCHAR`. -/
def wcharStr (n : Int) : Except PyErr PyStr :=
  if n = 0 then .ok []
  else
    match puaSymbols.lookup n.toNat with
    | some c => if n < 0 then .error .valueError else .ok [c]
    | none => if n < 0 ∨ 0x110000 ≤ n then .error .valueError else .ok [n.toNat]

/-- `int(value)` of a value. -/
def intOf : Value PVal → Except PyErr Int
  | .leaf (.int n) => .ok n
  | .leaf (.flags _ n) => .ok n
  | _ => .error .typeError

/-- The positions of a `Margin`, xmlformat.py:80. -/
def marginNames : List String := ["left", "right", "top", "bottom"]

/-- xmlformat.py:79-81: `value.get(pos)` of each position; `None` if missing. -/
def expandMargin (env : XmlEnv) (name : String) : Value PVal → Except PyErr (List (PyStr × PyStr))
  | .struct fs => .ok (marginNames.map fun pos =>
      (lit name ++ lit "-" ++ lit pos,
        match fs.lookup pos with
        | some v => xmlattrval env v
        | none => lit "None"))
  | _ => .error .attributeError

/-- xmlformat.py:70-99 `expanded_xmlattribute`; the type is `none` for a Python type. -/
def expand (env : XmlEnv) (name : String) (t : Option DTy) (v : Value PVal) :
    Except PyErr (List (PyStr × PyStr)) :=
  match t with
  | some (.flags f) => do return expandFlags name f (← intOf v)
  | some (.struct "Margin" _) => expandMargin env name v
  | some (.prim .colorref) => do return [(lit name, chars (Colorref.str (← intOf v)))]
  | some (.prim .version) =>
    match v with
    | .leaf (.version ns) => .ok [(lit name, (ns.map natStr).intersperse (lit ".") |>.flatten)]
    | _ => .error .typeError
  | some (.prim (.int .WCHAR)) => do
    let s ← wcharStr (← intOf v)
    return [(lit name, s)]
  | some (.prim .binStorageId) => do
    return [(lit name, lit "BIN" ++ hexPadInt 4 (← intOf v))]
  | _ => .ok [(lit name, xmlattrval env v)]

/-! ### Typed attributes -/

/-- `type()` of a member type, dataio.py:531: a fresh default value. -/
def DTy.default : DTy → Value PVal
  | .prim (.int _) => .leaf (.int 0)
  | .prim .colorref => .leaf (.int 0)
  | .prim .binStorageId => .leaf (.int 0)
  | .prim .double => .leaf (.double (List.replicate 8 0))
  | .prim (.hexBytes _) => .leaf (.str [])
  | .prim .bstr => .leaf (.str [])
  | .prim .chid => .leaf (.str [])
  | .prim .chunks => .leaf (.inst "ParaTextChunks")
  | .prim .version => .leaf (.inst "VERSION")
  | .flags f => .leaf (.flags f 0)
  | .struct name _ => .leaf (.inst name)
  | .array _ _ => .tuple []
  | .nArray _ _ => .list []
  | .xArray _ _ => .tuple []
  | .selective _ _ => .leaf (.inst "Struct")

/-- The class `Struct`, dataio.py:471: a struct without members. -/
def emptyStruct : DTy := .struct "Struct" .nil

/-- dataio.py:471 `self.selections.get(selector, Struct)`. -/
def DSels.pick : DSels → Int → DTy
  | .nil, _ => emptyStruct
  | .cons k t rest, n => if n = k then t else rest.pick n

/-- A name with type and value, as in `typed_attributes`, and the events of its element if it
is a complex value (xmlformat.py:204-231). -/
structure AItem where
  name : String
  ty : Option DTy
  value : Value PVal
  sub : Gen XEv

/-- xmlformat.py:148-156 `is_complex_type`. -/
def isComplexType (t : Option DTy) (v : Value PVal) : Bool :=
  match v, t with
  | .struct _, _ => true
  | _, some (.array (.struct _ _) _) => true
  | _, some (.nArray _ (.struct _ _)) => true
  | _, some (.array (.prim .colorref) _) => true
  | _, some (.nArray _ (.prim .colorref)) => true
  | _, _ => false

/-- Is the type `Margin`? -/
def isMargin : Option DTy → Bool
  | some (.struct "Margin" _) => true
  | _ => false

/-- xmlformat.py:166-171: does the item become an element? -/
def AItem.complex (i : AItem) : Bool := !isMargin i.ty && isComplexType i.ty i.value

/-- `p[name] = item`, xmlformat.py:167, 171. -/
def setItem (i : AItem) : List AItem → List AItem
  | [] => [i]
  | j :: js => if j.name = i.name then i :: js else j :: setItem i js

/-- xmlformat.py:159-177 `separate_plainvalues`. -/
def separate (items : List AItem) : List AItem × List AItem :=
  (items.filter (·.complex), (items.filter (!·.complex)).foldl (fun p i => setItem i p) [])

/-- xmlformat.py:142-145 `xmlattributes_for_plainvalues`. -/
def plainAttributes (env : XmlEnv) (p : List AItem) : Except PyErr (List (PyStr × PyStr)) := do
  let ntvs ← p.mapM fun i => expand env i.name i.ty i.value
  xmlAttributes ntvs.flatten

/-- xmlformat.py:192-197: the value of the text and the remaining plain values. -/
def popText (isText : Bool) (p : List AItem) : Except PyErr (Option (Value PVal) × List AItem) :=
  let key := if isText then "text" else "<text>"
  match p.find? (·.name = key) with
  | some i => .ok (some i.value, p.filter (·.name ≠ key))
  | none => if isText then .error .keyError else .ok (none, p)

/-- xmlformat.py:201-202.  A value that is neither false nor a string makes `escape` fail. -/
def textEvents : Option (Value PVal) → Gen XEv
  | none => .done
  | some (.leaf (.str [])) => .done
  | some (.leaf (.str s)) => .ofList [.text s]
  | some (.leaf (.chid [])) => .done
  | some (.leaf (.chid b)) => .ofList [.text (b.map UInt8.toNat)]
  | some (.leaf (.int 0)) => .done
  | some (.list []) => .done
  | some (.tuple []) => .done
  | some _ => .raise .attributeError

/-- xmlformat.py:180-231 `startelement`, of typed attributes. -/
def startElement (env : XmlEnv) (isText : Bool) (name : PyStr) (items : Except PyErr (List AItem)) :
    Gen XEv :=
  match items with
  | .error e => .raise e
  | .ok items =>
    let (d, p) := separate items
    match popText isText p with
    | .error e => .raise e
    | .ok (text, p) =>
      match plainAttributes env p with
      | .error e => .raise e
      | .ok attrs =>
        .cons (.start name attrs) ((textEvents text).andThen (Gen.chain (d.map (·.sub))))

/-- xmlformat.py:234-238 `element`. -/
def elementOf (env : XmlEnv) (name : PyStr) (items : Except PyErr (List AItem)) : Gen XEv :=
  (startElement env false name items).andThen (.ofList [.stop name])

/-- `type(value)`: instances of flags know their type. -/
def pyType : Value PVal → Option DTy
  | .leaf (.flags f _) => some (.flags f)
  | _ => none

/-- The item `attribute-name`, xmlformat.py:208. -/
def attributeName (name : String) : AItem :=
  ⟨"attribute-name", none, .leaf (.str (lit name)), .raise .assertionError⟩

mutual
/-- xmlformat.py:187-188 (and the remnants of dataio.py:537-538). -/
def untypedItems (env : XmlEnv) : List (String × Value PVal) → List AItem
  | [] => []
  | (k, v) :: fs => ⟨k, pyType v, v, untypedSub env k v⟩ :: untypedItems env fs
/-- xmlformat.py:204-231 for a value of a Python type. -/
def untypedSub (env : XmlEnv) (name : String) : Value PVal → Gen XEv
  | .struct fs => elementOf env (lit "dict") (.ok (setItem (attributeName name) (untypedItems env fs)))
  | _ => .raise .assertionError
end

/-- xmlformat.py:220-229: an element of a `COLORREF` in an array. -/
def colorItem (name : String) (v : Value PVal) : Gen XEv :=
  match intOf v with
  | .error e => .raise e
  | .ok n => .ofList [.start (lit name)
      [(lit "r", natStr (bitGroupInt 0 7 n)), (lit "g", natStr (bitGroupInt 8 15 n)),
       (lit "b", natStr (bitGroupInt 16 23 n)), (lit "alpha", natStr (bitGroupInt 24 31 n)),
       (lit "hex", chars (Colorref.str n))], .stop (lit name)]

/-- xmlformat.py:214-219: the element of an array of structs. -/
def arrayElement (name : String) (items : List (Gen XEv)) : Gen XEv :=
  .cons (.start (lit "Array") [(lit "name", lit name)])
    ((Gen.chain items).andThen (.ofList [.stop (lit "Array")]))

/-- `dict(attributes)`, dataio.py:524. -/
def dictOf : Value PVal → Except PyErr Fields
  | .struct fs => .ok fs
  | _ => .error .typeError

/-- dataio.py:568-571: version and condition of a member. -/
def memberWanted (ctx : DCtx) (values : Fields) (version : Option Version)
    (condition : Option CondDecl) : Except PyErr Bool :=
  let cond : Except PyErr Bool :=
    match condition with
    | none => .ok true
    | some c => c.eval ctx values
  match version with
  | none => cond
  | some m =>
    match ctx.version with
    | none => .error .keyError
    | some v => if v.lt m then .ok false else cond

/-- dataio.py:526-531 `popvalue`. -/
def popValue (name : String) (t : DTy) (attrs : Fields) : Value PVal × Fields :=
  match attrs.lookup name with
  | some v => (v, attrs.filter (·.1 ≠ name))
  | none => (t.default, attrs)

/-- dataio.py:537-538: attributes that are left. -/
def withRemnants (env : XmlEnv) (r : Except PyErr (List AItem × Fields)) : Except PyErr (List AItem) := do
  let (items, attrs) ← r
  return items ++ untypedItems env attrs

mutual
/-- xmlformat.py:205-231: the element of the item `name` of type `t`; a dict of a type that
is not a struct has plain Python attributes. -/
def DTy.sub (env : XmlEnv) (ctx : DCtx) (name : String) : DTy → Value PVal → Gen XEv
  | .struct sn ms, .struct fs =>
    elementOf env (lit sn) (withRemnants env
      (ms.typed env ctx [] (setField "attribute-name" (.leaf (.str (lit name))) fs)))
  | .array t _, .tuple xs => t.items env ctx name xs
  | .array t _, .list xs => t.items env ctx name xs
  | .nArray _ t, .tuple xs => t.items env ctx name xs
  | .nArray _ t, .list xs => t.items env ctx name xs
  | t, .struct fs => elementOf env (env.typeName t)
      (.ok (setItem (attributeName name) (untypedItems env fs)))
  | _, _ => .raise .assertionError
/-- xmlformat.py:214-231, by the type of the items. -/
def DTy.items (env : XmlEnv) (ctx : DCtx) (name : String) : DTy → List (Value PVal) → Gen XEv
  | .struct sn ms, xs => arrayElement name (xs.map fun x =>
      elementOf env (lit sn) (withRemnants env (do ms.typed env ctx [] (← dictOf x))))
  | .prim .colorref, xs => Gen.chain (xs.map (colorItem name))
  | _, _ => .raise .assertionError
/-- The element of a selected type. -/
def DSels.sub (env : XmlEnv) (ctx : DCtx) (name : String) : DSels → Int → Value PVal → Gen XEv
  | .nil, _, v =>
    match v with
    | .struct fs => elementOf env (lit "Struct")
        (.ok (setItem (attributeName name) (untypedItems env fs)))
    | _ => .raise .assertionError
  | .cons k t rest, n, v => if n = k then t.sub env ctx name v else rest.sub env ctx name n v
/-- dataio.py:557-579 `parse_members` with `popvalue`: the items, and the attributes that are
left. -/
def DMembers.typed (env : XmlEnv) (ctx : DCtx) : DMembers → Fields → Fields →
    Except PyErr (List AItem × Fields)
  | .nil, _, attrs => .ok ([], attrs)
  | .cons name version condition t rest, values, attrs => do
    let (rt, sub) ← (match t with
      | .xArray it ref => do
        let n ← ref.eval ctx values
        return (DTy.array it n.toNat, fun v =>
          match v with
          | .tuple xs => it.items env ctx name xs
          | .list xs => it.items env ctx name xs
          | .struct fs => elementOf env (env.typeName (DTy.array it n.toNat))
              (.ok (setItem (attributeName name) (untypedItems env fs)))
          | _ => .raise .assertionError)
      | .selective ref ss => do
        let n ← ref.eval ctx values
        return (ss.pick n, ss.sub env ctx name n)
      | t => return (t, t.sub env ctx name) : Except PyErr (DTy × (Value PVal → Gen XEv)))
    if ← memberWanted ctx values version condition then
      let (v, attrs) := popValue name rt attrs
      let (items, attrs) ← rest.typed env ctx (setField name v values) attrs
      return (⟨name, some rt, v, sub v⟩ :: items, attrs)
    else rest.typed env ctx values attrs
end

/-- dataio.py:581-588 `parse_members_with_inherited`, base class first. -/
def typedChain (env : XmlEnv) (ctx : DCtx) : List DMembers → Fields → Except PyErr (List AItem × Fields)
  | [], attrs => .ok ([], attrs)
  | ms :: rest, attrs => do
    let (items, attrs) ← ms.typed env ctx [] attrs
    let (items', attrs) ← typedChain env ctx rest attrs
    return (items ++ items', attrs)

/-- dataio.py:523-538 `typed_struct_attributes` of a model class.  A class that is not a
struct has no members, which gives xmlformat.py:187-188. -/
def typedAttributes (env : XmlEnv) (ctx : DCtx) (model : String) (attrs : Fields) :
    Except PyErr (List AItem) :=
  withRemnants env (typedChain env ctx (classChain model) attrs)

/-! ### Model events -/

/-- `(model, attributes, context)`. -/
structure ModelItem where
  model : String
  attributes : Fields
  context : DCtx

/-- xmlformat.py:180-231 `startelement` of a model. -/
def startModel (env : XmlEnv) (m : ModelItem) : Gen XEv :=
  startElement env (m.model = "Text") (lit m.model)
    (typedAttributes env m.context m.model m.attributes)

/-- xmlmodel.py:562-577, one event. -/
def xmlOfEvent (env : XmlEnv) : Ev ModelItem → Gen XEv
  | .start m => startModel env m
  | .stop m => .ofList [.stop (lit m.model)]

/-- xmlmodel.py:562-577 `modelevents_to_xmlevents`. -/
def modelToXml (env : XmlEnv) (g : Gen (Ev ModelItem)) : Gen XEv :=
  (Gen.chain (g.out.map (xmlOfEvent env))).andThen ⟨[], g.err⟩

end Hwp
