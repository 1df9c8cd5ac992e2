/-
Specification of the XML form of record contents: what values a declaration allows, and the
element that shows such a content.  Nothing here takes values out of a dictionary, has
default values or can fail.
-/
import Verif.Model.XmlFormat
import Verif.Spec.Dataio
import Verif.Spec.Bintype
import Verif.Spec.Xml
namespace Hwp.Spec

/-! ### Values of declared types -/

/-- Values of a primitive type. -/
def PrimVal : PTy → PVal → Prop
  | .int p, .int n => InRange p n
  | .colorref, .int n => InRange .INT32 n
  | .binStorageId, .int n => InRange .UINT16 n
  | .double, .double b => b.length = 8
  | .hexBytes k, .hex b => b ≠ [] ∧ b.length ≤ k
  | .bstr, .str _ => True
  | .chid, .chid b => b.length = 4
  | .chunks, .chunks _ => True
  | .version, .version ns => ns.length = 4
  | _, _ => False

/-- A member is there: version and condition allow it. -/
def MemberThere (ctx : DCtx) (acc : Fields) (version : Option Version)
    (condition : Option CondDecl) : Prop :=
  versionOk ctx.version version = true ∧ ∀ c, condition = some c → c.eval ctx acc = .ok true

/-- A count or selector can be looked up. -/
def RefOk (ctx : DCtx) (acc : Fields) : DTy → Prop
  | .xArray _ ref => ∃ n, ref.eval ctx acc = .ok n
  | .selective ref _ => ∃ n, ref.eval ctx acc = .ok n
  | _ => True

/-- A member is not there. -/
def MemberAbsent (ctx : DCtx) (acc : Fields) (version : Option Version)
    (condition : Option CondDecl) : Prop :=
  versionOk ctx.version version = false ∨ ∃ c, condition = some c ∧ c.eval ctx acc = .ok false

mutual
/-- `v` is a value of the type `t`; `acc` are the fields before it. -/
def Shaped (ctx : DCtx) : DTy → Fields → Value PVal → Prop
  | .prim p, _, .leaf x => PrimVal p x
  | .flags f, _, .leaf (.flags g n) => g = f ∧ n < 2 ^ (8 * width f.base)
  | .struct _ ms, _, .struct fs => FieldsOf ctx ms [] fs
  | .array t n, _, .tuple xs => xs.length = n ∧ ∀ x ∈ xs, Shaped ctx t [] x
  | .nArray c t, _, .list xs => InRange c xs.length ∧ ∀ x ∈ xs, Shaped ctx t [] x
  | .xArray t ref, acc, .list xs =>
    (∃ n, ref.eval ctx acc = .ok n ∧ xs.length = n.toNat) ∧ ∀ x ∈ xs, Shaped ctx t [] x
  | .selective ref ss, acc, v => ∃ n, ref.eval ctx acc = .ok n ∧ Selected ctx ss n acc v
  | _, _, _ => False
/-- `fs` are fields of the members: one for each member that is there, in order. -/
def FieldsOf (ctx : DCtx) : DMembers → Fields → Fields → Prop
  | .nil, _, fs => fs = []
  | .cons name version condition t rest, acc, fs =>
    (MemberAbsent ctx acc version condition ∧ RefOk ctx acc t ∧ FieldsOf ctx rest acc fs) ∨
    (MemberThere ctx acc version condition ∧ ∃ v fs', fs = (name, v) :: fs' ∧
      Shaped ctx t acc v ∧ FieldsOf ctx rest (acc ++ [(name, v)]) fs')
/-- A value of the selected type. -/
def Selected (ctx : DCtx) : DSels → Int → Fields → Value PVal → Prop
  | .nil, _, _, _ => False
  | .cons k t rest, n, acc, v => if n = k then Shaped ctx t acc v else Selected ctx rest n acc v
end

/-! ### Text of values -/

/-- Decimal digits. -/
def decimal (n : Int) : PyStr := lit (toString n)

/-- Upper case hexadecimal digits, at least `w`. -/
def upperHex (w : Nat) (n : Nat) : PyStr :=
  (((Nat.toDigits 16 n).map Char.toUpper).leftpad w '0').map Char.toNat

/-- Two lower case hexadecimal digits of a byte. -/
def byteHex (n : Nat) : PyStr := ([Nat.digitChar (n / 16 % 16), Nat.digitChar (n % 16)]).map Char.toNat

/-- The symbols shown instead of characters of the private use area, xmlformat.py:103-126. -/
def symbolOf : Nat → Nat
  | 0xF046 => '☞'.toNat
  | 0xF06C => '●'.toNat
  | 0xF09F => '•'.toNat
  | 0xF0A1 => '○'.toNat
  | 0xF06E => '■'.toNat
  | 0xF0A7 => '▪'.toNat
  | 0xF06F => '☐'.toNat
  | 0xF075 => '◆'.toNat
  | 0xF077 => '⬩'.toNat
  | 0xF076 => '❖'.toNat
  | 0xF0A4 => '◉'.toNat
  | 0xF0AB => '★'.toNat
  | 0xF0FC => '✓'.toNat
  | 0xF0FE => '☑'.toNat
  | n => n

/-- Text of a primitive value. -/
def showPrim (env : XmlEnv) : PTy → PVal → PyStr
  | .int .WCHAR, .int n =>
    if n = 0 then [] else [symbolOf n.toNat]
  | .int _, .int n => decimal n
  | .colorref, .int n =>
    let u : Nat := (n % 2 ^ 32).toNat
    lit "#" ++ byteHex u ++ byteHex (u / 256) ++ byteHex (u / 65536)
  | .binStorageId, .int n => lit "BIN" ++ upperHex 4 n.toNat
  | .bstr, .str s => s
  | .chid, .chid b => b.map UInt8.toNat
  | .hexBytes _, .hex b => lit "b'" ++ b.flatMap (fun x => byteHex x.toNat) ++ lit "'"
  | .version, .version ns => ((ns.map fun (n : Nat) => decimal n).intersperse (lit ".")).flatten
  | _, x => env.leafRepr x

/-- Texts with a comma and a space between them. -/
def listed (items : List PyStr) : PyStr := (items.intersperse (lit ", ")).flatten

/-- Texts in parentheses; a single one has a comma. -/
def bracketed (items : List PyStr) : PyStr :=
  lit "(" ++ listed items ++ (if items.length = 1 then lit "," else []) ++ lit ")"

mutual
/-- Text of a value inside a list. -/
def reprOf (env : XmlEnv) : Value PVal → PyStr
  | .leaf (.int n) => decimal n
  | .leaf (.flags _ n) => decimal n
  | .leaf (.hex b) => lit "b'" ++ b.flatMap (fun x => byteHex x.toNat) ++ lit "'"
  | .leaf (.version ns) => bracketed (ns.map fun (n : Nat) => decimal n)
  | .leaf p => env.leafRepr p
  | .list xs => lit "[" ++ listed (reprsOf env xs) ++ lit "]"
  | .tuple xs => bracketed (reprsOf env xs)
  | .struct fs => lit "{" ++ listed (fieldReprs env fs) ++ lit "}"
/-- Texts of values. -/
def reprsOf (env : XmlEnv) : List (Value PVal) → List PyStr
  | [] => []
  | x :: xs => reprOf env x :: reprsOf env xs
/-- Texts of names and values. -/
def fieldReprs (env : XmlEnv) : List (String × Value PVal) → List PyStr
  | [] => []
  | (k, v) :: fs => (env.leafRepr (.str (lit k)) ++ lit ": " ++ reprOf env v) :: fieldReprs env fs
end

/-- Text of a bit group with value `n`: the first declared name in lower case, or the
number. -/
def showBits (b : BitDecl) (n : Nat) : PyStr :=
  match b.enum with
  | none => decimal n
  | some e =>
    match e.find? (fun x => x.2 = n) with
    | some x => (lit x.1).map fun c => if 0x41 ≤ c ∧ c ≤ 0x5A then c + 0x20 else c
    | none => decimal n

/-- Attributes of a flags value: the whole number in hexadecimal, and each bit group. -/
def showFlags (k : String) (f : FlagsDecl) (n : Nat) : List (PyStr × PyStr) :=
  (lit k, upperHex (2 * width f.base) n) ::
    f.bits.map fun b => (lit b.name, showBits b (bitsNumber n b.lsb (b.msb + 1 - b.lsb)))

/-- Attributes of a margin. -/
def showMargin (env : XmlEnv) (k : String) (fs : Fields) : List (PyStr × PyStr) :=
  fs.map fun p => (lit k ++ lit "-" ++ lit p.1,
    match p.2 with
    | .leaf (.int n) => decimal n
    | v => xmlattrval env v)

/-- Underscores in names become hyphens. -/
def hyphens (as : List (PyStr × PyStr)) : List (PyStr × PyStr) :=
  as.map fun kv => (kv.1.map fun c => if c = 0x5F then 0x2D else c, kv.2)

/-! ### Elements -/

/-- An element with attributes and content. -/
def elem (name : PyStr) (attrs : List (PyStr × PyStr)) (kids : List XEv) : List XEv :=
  .start name (hyphens attrs) :: (kids ++ [.stop name])

/-- The element of a colour in an array. -/
def colorElem (k : String) : Value PVal → List XEv
  | .leaf (.int n) =>
    let u : Nat := (n % 2 ^ 32).toNat
    elem (lit k) [(lit "r", decimal (u % 256 : Nat)), (lit "g", decimal (u / 256 % 256 : Nat)),
      (lit "b", decimal (u / 65536 % 256 : Nat)), (lit "alpha", decimal (u / 16777216 % 256 : Nat)),
      (lit "hex", lit "#" ++ byteHex u ++ byteHex (u / 256) ++ byteHex (u / 65536))] []
  | _ => []

mutual
/-- The attributes and the elements that show the value `v` of the member `k`. -/
def showTy (env : XmlEnv) (ctx : DCtx) (k : String) :
    DTy → Fields → Value PVal → List (PyStr × PyStr) × List XEv
  | .prim p, _, .leaf x => ([(lit k, showPrim env p x)], [])
  | .flags f, _, .leaf (.flags _ n) => (showFlags k f n, [])
  | .struct sn ms, _, .struct fs =>
    if sn = "Margin" then (showMargin env k fs, [])
    else
      let content := showMembers env ctx ms [] fs
      ([], elem (lit sn) (content.1 ++ [(lit "attribute-name", lit k)]) content.2)
  | .array t _, _, .tuple xs => showItems env ctx k t (.tuple xs) xs
  | .nArray _ t, _, .list xs => showItems env ctx k t (.list xs) xs
  | .xArray t _, _, .list xs => showItems env ctx k t (.list xs) xs
  | .selective ref ss, acc, v =>
    match ref.eval ctx acc with
    | .ok n => showSels env ctx k ss n acc v
    | .error _ => ([], [])
  | _, _, _ => ([], [])
/-- The items of an array. -/
def showItems (env : XmlEnv) (ctx : DCtx) (k : String) :
    DTy → Value PVal → List (Value PVal) → List (PyStr × PyStr) × List XEv
  | .struct sn ms, _, xs =>
    ([], elem (lit "Array") [(lit "name", lit k)] (xs.flatMap fun x =>
      let content := showMembers env ctx ms [] (fieldsOf x)
      elem (lit sn) content.1 content.2))
  | .prim .colorref, _, xs => ([], xs.flatMap (colorElem k))
  | _, whole, _ => ([(lit k, reprOf env whole)], [])
/-- A value of the selected type. -/
def showSels (env : XmlEnv) (ctx : DCtx) (k : String) :
    DSels → Int → Fields → Value PVal → List (PyStr × PyStr) × List XEv
  | .nil, _, _, _ => ([], [])
  | .cons key t rest, n, acc, v =>
    if n = key then showTy env ctx k t acc v else showSels env ctx k rest n acc v
/-- The attributes and the elements of all fields, in order. -/
def showMembers (env : XmlEnv) (ctx : DCtx) :
    DMembers → Fields → Fields → List (PyStr × PyStr) × List XEv
  | .nil, _, _ => ([], [])
  | .cons name _ _ t rest, acc, fs =>
    match fs with
    | [] => ([], [])
    | (n, v) :: fs' =>
      if n = name then
        let a := showTy env ctx name t acc v
        let b := showMembers env ctx rest (acc ++ [(name, v)]) fs'
        (a.1 ++ b.1, a.2 ++ b.2)
      else showMembers env ctx rest acc ((n, v) :: fs')
end

/-! ### Names of attributes -/

/-- Do items of this type become elements? -/
def itemsAreElems : DTy → Bool
  | .struct _ _ => true
  | .prim .colorref => true
  | _ => false

mutual
/-- The names of the attributes the member `k` of this type can have. -/
def attrNames (k : String) : DTy → List PyStr
  | .prim _ => [lit k]
  | .flags f => lit k :: f.bits.map fun b => lit b.name
  | .struct sn _ => if sn = "Margin" then marginNames.map fun p => lit k ++ lit "-" ++ lit p else []
  | .array t _ => if itemsAreElems t then [] else [lit k]
  | .nArray _ t => if itemsAreElems t then [] else [lit k]
  | .xArray t _ => if itemsAreElems t then [] else [lit k]
  | .selective _ ss => selAttrNames k ss
/-- Of all selections. -/
def selAttrNames (k : String) : DSels → List PyStr
  | .nil => []
  | .cons _ t rest => attrNames k t ++ selAttrNames k rest
end

/-- The names of the attributes of members. -/
def membersAttrNames : DMembers → List PyStr
  | .nil => []
  | .cons name _ _ t rest => attrNames name t ++ membersAttrNames rest

/-- A name in the document. -/
def hyphen (s : PyStr) : PyStr := s.map fun c => if c = 0x5F then 0x2D else c

/-- The members of a margin: four plain integers. -/
def isMarginMembers : DMembers → List String → Bool
  | .nil, [] => true
  | .cons name none none (.prim (.int p)) rest, n :: ns => name = n && p ≠ .WCHAR && isMarginMembers rest ns
  | _, _ => false

mutual
/-- A declaration is clear: in each struct (and the attribute `attribute-name` of its
element) no two attributes have the same name, no two members have the same name, and none
is called `<text>`; a selective type selects structs. -/
def clearTy : DTy → Bool
  | .prim _ => true
  | .flags _ => true
  | .struct sn ms =>
    if sn = "Margin" then isMarginMembers ms marginNames
    else clearMembers ms &&
      decide (((membersAttrNames ms ++ [lit "attribute-name"]).map hyphen).Nodup) &&
      decide ((ms.names ++ ["attribute-name", "<text>"]).Nodup)
  | .array t _ => clearItem t
  | .nArray _ t => clearItem t
  | .xArray t _ => clearItem t
  | .selective _ ss => clearSels ss
/-- Items of arrays: no margins. -/
def clearItem : DTy → Bool
  | .struct sn ms => sn ≠ "Margin" && clearMembers ms &&
      decide (((membersAttrNames ms).map hyphen).Nodup) && decide ((ms.names ++ ["<text>"]).Nodup)
  | .prim _ => true
  | .flags _ => true
  | .array t _ => clearItem t
  | .nArray _ t => clearItem t
  | .xArray _ _ => false
  | .selective _ _ => false
/-- Each member. -/
def clearMembers : DMembers → Bool
  | .nil => true
  | .cons _ _ _ t rest => clearTy t && clearMembers rest
/-- Each selection. -/
def clearSels : DSels → Bool
  | .nil => true
  | .cons _ t rest => (match t with | .struct sn _ => sn ≠ "Margin" | _ => false) && clearTy t && clearSels rest
end

/-! ### Records -/

/-- The content of a record consists of the fields of each class, base class first. -/
def PartsOf (ctx : DCtx) : List DMembers → List Fields → Prop
  | [], [] => True
  | ms :: mss, fs :: fss => FieldsOf ctx ms [] fs ∧ PartsOf ctx mss fss
  | _, _ => False

/-- The attributes and elements of all classes. -/
def showParts (env : XmlEnv) (ctx : DCtx) : List DMembers → List Fields → List (PyStr × PyStr) × List XEv
  | ms :: mss, fs :: fss =>
    let a := showMembers env ctx ms [] fs
    let b := showParts env ctx mss fss
    (a.1 ++ b.1, a.2 ++ b.2)
  | _, _ => ([], [])

/-- Text of a value that is not declared. -/
def plainText : Value PVal → Option PyStr
  | .leaf (.int n) => some (decimal n)
  | .leaf (.str s) => some s
  | .leaf (.chid b) => some (b.map UInt8.toNat)
  | .leaf (.cls c) => some (lit c)
  | _ => none

/-- Attributes that are not declared. -/
def showPlain (es : Fields) : List (PyStr × PyStr) := es.map fun p => (lit p.1, (plainText p.2).getD [])

/-- The names of the attributes of all classes. -/
def chainAttrNames (mss : List DMembers) : List PyStr := mss.flatMap membersAttrNames

/-- The class and its bases are clear. -/
def clearChain (mss : List DMembers) : Bool :=
  mss.all clearMembers && decide ((mss.flatMap DMembers.names ++ ["<text>"]).Nodup)

end Hwp.Spec
