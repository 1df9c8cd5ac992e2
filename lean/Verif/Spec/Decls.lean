/-
Specification of well formed declarations: every reference and every condition names an
earlier member that is there whenever it is asked for, and has the right type.
-/
import Verif.Spec.XmlFormat
namespace Hwp.Spec

/-- A member that was declared before: its name, the `chid` it depends on (`none` if it is
always there), and its type. -/
structure Declared where
  name : String
  chid : Option String
  type : DTy

/-- There is always an integer member `name`. -/
def intDeclared (ds : List Declared) (name : String) : Bool :=
  ds.any fun d => d.name = name && d.chid.isNone &&
    match d.type with
    | .prim (.int _) => true
    | _ => false

/-- There is a flags member `name` with the bit group `bit`, always or if the `chid` is `c`. -/
def bitDeclared (ds : List Declared) (c : Option String) (name bit : String) : Bool :=
  ds.any fun d => d.name = name && (d.chid.isNone || d.chid = c) &&
    match d.type with
    | .flags f => f.bits.any fun b => b.name = bit
    | _ => false

/-- There is always a member `chid`. -/
def chidDeclared (ds : List Declared) : Bool :=
  ds.any fun d => d.name = "chid" && d.chid.isNone &&
    match d.type with
    | .prim .chid => true
    | _ => false

/-- A reference is to an earlier member; `ps` are the integer members of the parent. -/
def refDeclared (ps : List String) (ds : List Declared) : RefDecl → Bool
  | .member n => intDeclared ds n
  | .flag n bit => bitDeclared ds none n bit
  | .flagMinusOne n bit => bitDeclared ds none n bit
  | .parentMember n => ps.contains n

/-- A condition is about earlier members. -/
def condDeclared (ds : List Declared) : CondDecl → Bool
  | .flag n bit => bitDeclared ds none n bit
  | .notFlag n bit => bitDeclared ds none n bit
  | .chidIs _ => chidDeclared ds
  | .chidIsAndFlag c n bit => chidDeclared ds && bitDeclared ds (some c) n bit
  | .parentIsGso => true

/-- What is known after a member. -/
def declare (name : String) (version : Option Version) (condition : Option CondDecl) (t : DTy)
    (ds : List Declared) : List Declared :=
  match version, condition with
  | none, none => ds ++ [⟨name, none, t⟩]
  | none, some (.chidIs c) => ds ++ [⟨name, some c, t⟩]
  | _, _ => ds

/-- The count of an array or the selector of a selective type is declared. -/
def dependsDeclared (ps : List String) (ds : List Declared) : DTy → Bool
  | .xArray _ ref => refDeclared ps ds ref
  | .selective ref _ => refDeclared ps ds ref
  | _ => true

/-- A type that looks at the parent has neither version nor condition. -/
def parentAlways (version : Option Version) (condition : Option CondDecl) : DTy → Bool
  | .xArray _ (.parentMember _) => version.isNone && condition.isNone
  | .selective (.parentMember _) _ => version.isNone && condition.isNone
  | _ => true

/-- The names of the members of selective types. -/
def selNames : DMembers → List String
  | .nil => []
  | .cons name _ _ (.selective _ _) rest => name :: selNames rest
  | .cons _ _ _ _ rest => selNames rest

mutual
/-- Inner types: only a member itself (`top`) is of a dependent type; counts and flags are
unsigned; the structs inside are well declared. -/
def innerOk (ps : List String) (top : Bool) : DTy → Bool
  | .prim _ => true
  | .flags f => !signed f.base
  | .struct _ ms => wellDeclared ps [] ms && decide ms.names.Nodup && decide (selNames ms = [])
  | .array t _ => innerOk ps false t
  | .nArray c t => !signed c && innerOk ps false t
  | .xArray t _ => top && innerOk ps false t
  | .selective _ ss => top && innerSels ps ss
/-- Selections. -/
def innerSels (ps : List String) : DSels → Bool
  | .nil => true
  | .cons _ t rest => innerOk ps false t && innerSels ps rest
/-- Well declared members; `ds` are the members before. -/
def wellDeclared (ps : List String) : List Declared → DMembers → Bool
  | _, .nil => true
  | ds, .cons name version condition t rest =>
    condition.all (condDeclared ds) && dependsDeclared ps ds t && parentAlways version condition t &&
      innerOk ps true t && wellDeclared ps (declare name version condition t ds) rest
end

/-! ### Independence of the parent -/

/-- A reference that looks neither at the parent nor at the member `x`. -/
def refIndep (x : String) : RefDecl → Bool
  | .member n => n ≠ x
  | .flag n _ => n ≠ x
  | .flagMinusOne n _ => n ≠ x
  | .parentMember _ => false

/-- A condition that looks neither at the parent nor at the member `x`. -/
def condIndep (x : String) : CondDecl → Bool
  | .flag n _ => n ≠ x
  | .notFlag n _ => n ≠ x
  | .chidIs _ => "chid" ≠ x
  | .chidIsAndFlag _ n _ => "chid" ≠ x && n ≠ x
  | .parentIsGso => false

mutual
/-- A type that depends neither on the parent nor on the member `x`. -/
def indepTy (x : String) : DTy → Bool
  | .prim _ => true
  | .flags _ => true
  | .struct _ ms => indepMembers "" ms
  | .array t _ => indepTy x t
  | .nArray _ t => indepTy x t
  | .xArray t ref => refIndep x ref && indepTy "" t
  | .selective ref ss => refIndep x ref && indepSels x ss
/-- Members that depend neither on the parent nor on the member `x`. -/
def indepMembers (x : String) : DMembers → Bool
  | .nil => true
  | .cons _ _ condition t rest => condition.all (condIndep x) && indepTy x t && indepMembers x rest
/-- Selections. -/
def indepSels (x : String) : DSels → Bool
  | .nil => true
  | .cons _ t rest => indepTy x t && indepSels x rest
end

/-! ### Names -/

/-- A valid attribute name. -/
def attrNameOk (k : PyStr) : Bool := decide (ValidName (hyphen k))

mutual
/-- All names of elements and attributes are valid. -/
def namedTy (k : String) : DTy → Bool
  | .prim _ => attrNameOk (lit k)
  | .flags f => attrNameOk (lit k) && f.bits.all fun b => attrNameOk (lit b.name)
  | .struct sn ms =>
    if sn = "Margin" then marginNames.all fun p => attrNameOk (lit k ++ lit "-" ++ lit p)
    else decide (ValidName (lit sn)) && namedMembers ms
  | .array t _ => namedItem k t
  | .nArray _ t => namedItem k t
  | .xArray t _ => namedItem k t
  | .selective _ ss => namedSels k ss
/-- Items. -/
def namedItem (k : String) : DTy → Bool
  | .struct sn ms => decide (ValidName (lit sn)) && namedMembers ms
  | .prim .colorref => decide (ValidName (lit k))
  | _ => attrNameOk (lit k)
/-- Members. -/
def namedMembers : DMembers → Bool
  | .nil => true
  | .cons name _ _ t rest => namedTy name t && namedMembers rest
/-- Selections. -/
def namedSels (k : String) : DSels → Bool
  | .nil => true
  | .cons _ t rest => namedTy k t && namedSels k rest
end

/-- The names of an event are valid, and the names of attributes distinct. -/
def NamesOk : XEv → Prop
  | .start n as => ValidName n ∧ (as.map (·.1)).Nodup ∧ ∀ a ∈ as, ValidName a.1
  | .stop n => ValidName n
  | .text _ => True

/-- Complete elements and text, which can stand in the content of an element. -/
def Kids (evs : List XEv) : Prop := ∀ top st r, Inside (top :: st) r → Inside (top :: st) (evs ++ r)

end Hwp.Spec
