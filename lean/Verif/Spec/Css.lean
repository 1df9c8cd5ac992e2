/-
Specification of the formatting of text in the conversion to HTML: how a browser applies a style sheet, and which of the
tables of a document a run of text refers to.

Of CSS: selectors made of names and classes with the combinator `>`, the cascade by specificity and order, and inheritance.
Rules with other selectors are dropped; those of the conversion declare nothing that is looked at here, except for
the alignment of bullets, which are boxes of their own.  Escapes are left out.
-/
import Verif.Model.Plaintext
import Verif.Spec.XmlFormat
set_option autoImplicit false
namespace Hwp.Spec

/-! ### Cascading style sheets -/

/-- The characters an identifier may begin with. -/
def identStart (c : Nat) : Bool := (0x41 ≤ c && c ≤ 0x5A) || (0x61 ≤ c && c ≤ 0x7A) || c = 0x5F || 0x80 ≤ c

/-- The characters of an identifier. -/
def identChar (c : Nat) : Bool := identStart c || (0x30 ≤ c && c ≤ 0x39) || c = 0x2D

/-- An identifier. -/
def isIdent : PyStr → Bool
  | [] => false
  | c :: s => (if c = 0x2D then (match s with | d :: _ => identStart d || d = 0x2D | [] => false) else identStart c) && s.all identChar

/-- The parts of a text between the characters `c`. -/
def partsAt (c : Nat) : PyStr → List PyStr
  | [] => [[]]
  | d :: s =>
    if d = c then [] :: partsAt c s
    else match partsAt c s with
      | [] => [[d]]
      | p :: ps => (d :: p) :: ps

/-- A text without the spaces around it. -/
def trimmed (s : PyStr) : PyStr := ((s.dropWhile (· = 0x20)).reverse.dropWhile (· = 0x20)).reverse

/-- A name, if any, and classes. -/
structure Simple where
  name : PyStr
  classes : List PyStr
  deriving DecidableEq

/-- `name.class.class`. -/
def readSimple (s : PyStr) : Option Simple :=
  match partsAt 0x2E s with
  | [] => none
  | n :: cs => if (n = [] → cs ≠ []) ∧ (n ≠ [] → isIdent n) ∧ cs.all isIdent then some ⟨n, cs⟩ else none

/-- A selector, from the element it selects to those around it; nothing if it is not understood. -/
def readSelector (s : PyStr) : Option (List Simple) := ((partsAt 0x3E s).map trimmed).reverse.mapM readSimple

/-- The classes of an element. -/
def classesOf (cls : PyStr) : List PyStr := (partsAt 0x20 cls).filter (· ≠ [])

/-- An element (its name and the attribute `class`) is as asked for. -/
def meets (q : Simple) (b : PyStr × PyStr) : Bool :=
  (q.name = [] || q.name = b.1) && q.classes.all fun c => (classesOf b.2).contains c

/-- An element with those around it is selected. -/
def selects : List Simple → List (PyStr × PyStr) → Bool
  | [], _ => true
  | _ :: _, [] => false
  | q :: qs, b :: bs => meets q b && selects qs bs

/-- How many classes and how many names a selector asks for. -/
def specificity (qs : List Simple) : Nat × Nat :=
  ((qs.map fun q => q.classes.length).sum, (qs.filter fun q => q.name ≠ []).length)

/-- The values of a property declared for an element, in their order, each with the specificity of the selector.  A
declaration without a value is dropped. -/
def cssDeclared (rules : List (PyStr × List (PyStr × PyStr))) (prop : PyStr) (path : List (PyStr × PyStr)) :
    List ((Nat × Nat) × PyStr) :=
  rules.flatMap fun r =>
    match readSelector r.1 with
    | none => []
    | some qs => if selects qs path then (r.2.filter fun d => d.1 = prop ∧ d.2 ≠ []).map fun d => (specificity qs, d.2) else []

/-- Less specific. -/
def weaker (a b : Nat × Nat) : Bool := a.1 < b.1 || (a.1 = b.1 && a.2 < b.2)

/-- The declaration that wins: the most specific one, of those the last. -/
def winning (ds : List ((Nat × Nat) × PyStr)) : Option ((Nat × Nat) × PyStr) :=
  ds.foldl (fun best d => match best with | none => some d | some b => if weaker d.1 b.1 then some b else some d) none

/-- The value of an inherited property of an element with those around it, if declared at all. -/
def styledValue (rules : List (PyStr × List (PyStr × PyStr))) (prop : PyStr) : List (PyStr × PyStr) → Option PyStr
  | [] => none
  | b :: bs =>
    match winning (cssDeclared rules prop (b :: bs)) with
    | some d => some d.2
    | none => styledValue rules prop bs

/-! ### The tables of a document -/

/-- All elements of this name. -/
def elementsNamed (name : String) : Forest XNode → List (List (PyStr × PyStr) × Forest XNode)
  | .nil => []
  | .node (.text _) _ sibs => elementsNamed name sibs
  | .node (.elem n as) cs sibs => (if n = lit name then [(as, cs)] else []) ++ elementsNamed name cs ++ elementsNamed name sibs

/-- The elements of this name among the nodes. -/
def entries (name : String) : Forest XNode → List (List (PyStr × PyStr) × Forest XNode)
  | .nil => []
  | .node (.text _) _ sibs => entries name sibs
  | .node (.elem n as) cs sibs => (if n = lit name then [(as, cs)] else []) ++ entries name sibs

/-- The value of an attribute. -/
def attrOf (as : List (PyStr × PyStr)) (name : String) : Option PyStr :=
  match as with
  | [] => none
  | a :: as => if a.1 = lit name then some a.2 else attrOf as name

/-- The document has one table of ids, with these attributes and entries, and what is in it is nowhere else. -/
structure TablesAre (doc : Forest XNode) (ids : List (PyStr × PyStr)) (T : Forest XNode) : Prop where
  hwpdoc : ∃ as D, entries "HwpDoc" doc = [(as, D)] ∧ ∃ bs I, entries "DocInfo" D = [(bs, I)] ∧ entries "IdMappings" I = [(ids, T)]
  ids : elementsNamed "IdMappings" doc = [(ids, T)]
  only : ∀ name ∈ ["Style", "ParaShape", "CharShape", "FaceName"], elementsNamed name doc = entries name T

/-- The class of a style: its name with dashes for spaces. -/
def styleClass (style : List (PyStr × PyStr) × Forest XNode) : PyStr :=
  ((attrOf style.1 "name").getD []).map fun c => if c = 0x20 then 0x2D else c

/-- The styles have names that can be written in a style sheet and tell them apart, from each other and from the classes of
paragraph shapes and bullets. -/
structure ProperNames (T : Forest XNode) : Prop where
  ident : ∀ s ∈ entries "Style" T, isIdent (styleClass s) = true
  distinct : ((entries "Style" T).map styleClass).Nodup
  shapes : ∀ s ∈ entries "Style" T, ¬ lit "parashape-" <+: styleClass s ∧ ¬ lit "Bullet-" <+: styleClass s

/-- A flag of a character shape is set. -/
def FlagOn (shape : List (PyStr × PyStr) × Forest XNode) (name : String) : Prop := attrOf shape.1 name = some (decimal 1)

/-- A flag of a character shape is not set. -/
def FlagOff (shape : List (PyStr × PyStr) × Forest XNode) (name : String) : Prop :=
  ∃ n : Nat, n ≠ 1 ∧ attrOf shape.1 name = some (decimal n)

/-- A run of text in the language `l`, with the character shape `k`, in a paragraph with the style `s`. -/
structure RunOf (para attrs : List (PyStr × PyStr)) (s k : Nat) (l : PyStr) : Prop where
  style : attrOf para "style-id" = some (decimal s)
  parashape : ∃ n : Nat, attrOf para "parashape-id" = some (decimal n)
  shape : attrOf attrs "charshape-id" = some (decimal k)
  lang : attrOf attrs "lang" = some l
  plain : 0x20 ∉ l

/-- The faces of a language, where the faces of the languages come one after the other. -/
def facesOf (count : String → Nat) (lang : String) : List String → List (List (PyStr × PyStr) × Forest XNode) →
    List (List (PyStr × PyStr) × Forest XNode)
  | [], _ => []
  | l :: ls, faces => if l = lang then faces.take (count l) else facesOf count lang ls (faces.drop (count l))

/-- The languages of fonts. -/
def languages : List String := ["ko", "en", "cn", "jp", "other", "symbol", "user"]

end Hwp.Spec
