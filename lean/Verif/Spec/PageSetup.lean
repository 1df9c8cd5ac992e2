/-
Specification of the pages in the conversions to HTML and ODT: how a browser sizes the paper, and on which pages an office program
puts paragraphs.
-/
import Verif.Spec.Lengths
import Verif.Spec.OdtStyles
import Verif.Spec.InfoRecords
set_option autoImplicit false
namespace Hwp.Spec

/-! ### Cascading style sheets -/

/-- A selector of elements within others, from the element it selects to those around it. -/
def readWithin (s : PyStr) : Option (List Simple) := ((partsAt 0x20 s).filter (· ≠ [])).reverse.mapM readSimple

/-- An element with those around it is selected: it is as asked for, and so are some around it, in this order. -/
def selectsWithin : List Simple → List (PyStr × PyStr) → Bool
  | [], _ => true
  | _ :: _, [] => false
  | q :: qs, b :: bs => meets q b && withinAny qs bs
where
  /-- Some element around is as asked for, and so are others around it. -/
  withinAny : List Simple → List (PyStr × PyStr) → Bool
    | [], _ => true
    | _ :: _, [] => false
    | q :: qs, b :: bs => (meets q b && withinAny qs bs) || withinAny (q :: qs) bs

/-- The values of a property declared for an element by rules with such selectors. -/
def declaredWithin (rules : List (PyStr × List (PyStr × PyStr))) (prop : PyStr) (path : List (PyStr × PyStr)) : List ((Nat × Nat) × PyStr) :=
  rules.flatMap fun r =>
    match readWithin r.1 with
    | none => []
    | some qs => if selectsWithin qs path then (r.2.filter fun d => d.1 = prop ∧ d.2 ≠ []).map fun d => (specificity qs, d.2) else []

/-- The value of a property that is not inherited. -/
def valueWithin (rules : List (PyStr × List (PyStr × PyStr))) (prop : String) (path : List (PyStr × PyStr)) : Option PyStr :=
  (winning (declaredWithin rules (lit prop) path)).map (·.2)

/-! ### Sections -/

/-- The paper of a section: its size, turned or not; margins; room for header and footer. -/
structure Paper where
  width : Nat
  height : Nat
  landscape : Bool
  left : Nat
  right : Nat
  top : Nat
  bottom : Nat
  header : Nat
  footer : Nat

/-- A definition of a section says so. -/
structure PaperIs (sec : List (PyStr × PyStr) × Forest XNode) (p : Paper) : Prop where
  page : ∃ as cs, entries "PageDef" sec.2 = [(as, cs)] ∧
    attrOf as "orientation" = some (lit (if p.landscape then "landscape" else "portrait")) ∧
    ∀ x ∈ [("width", p.width), ("height", p.height), ("left-offset", p.left), ("right-offset", p.right), ("top-offset", p.top),
      ("bottom-offset", p.bottom), ("header-offset", p.header), ("footer-offset", p.footer)], attrOf as x.1 = some (decimal (x.2 : Nat))

/-- How wide and how high the paper is in front of the reader. -/
def Paper.across (p : Paper) : Nat := if p.landscape then p.height else p.width
def Paper.down (p : Paper) : Nat := if p.landscape then p.width else p.height

/-- The sections of a document, numbered from 0. -/
structure SectionsAre (doc : Forest XNode) (secs : List (List (PyStr × PyStr) × Forest XNode)) : Prop where
  body : ∃ as D bs B, entries "HwpDoc" doc = [(as, D)] ∧ entries "BodyText" D = [(bs, B)] ∧ entries "SectionDef" B = secs
  numbered : ∀ (i : Nat) sec, secs[i]? = some sec → attrOf sec.1 "section-id" = some (decimal i)

/-! ### Records -/

/-- All records of this type, with the records below them. -/
def recordsWith (type : String) : Forest (Nat × PModel Fields) → List (PModel Fields × Forest (Nat × PModel Fields))
  | .nil => []
  | .node a cs sibs => (if a.2.type = type then [(a.2, cs)] else []) ++ recordsWith type cs ++ recordsWith type sibs

/-- A section has one definition of the section, one of its pages, and this is the first record below that. -/
structure SectionPaper (f : Forest (Nat × PModel Fields)) (page : PModel Fields) : Prop where
  one : ∃ sec i below rest, recordsWith "SectionDef" f = [(sec, .node (i, page) below rest)]
  page : recordsOf "PageDef" f = [page]

/-- What the definition of pages says. -/
structure RecordPaper (page : PModel Fields) (p : Paper) : Prop where
  lengths : ∀ x ∈ [("width", p.width), ("height", p.height), ("left_offset", p.left), ("right_offset", p.right), ("top_offset", p.top),
    ("bottom_offset", p.bottom), ("header_offset", p.header), ("footer_offset", p.footer)], intField x.1 page.content = some (x.2 : Nat)
  turned : ∃ n, flagsField "attr" page.content = some n ∧ p.landscape = n.testBit 0

/-- The sections of a document, numbered from 0, with these papers. -/
structure PapersAre (rd : ModelReader Fields) (d : DocSource) (papers : List Paper) : Prop where
  numbered : d.sections.map (·.1) = List.range d.sections.length
  count : papers.length = d.sections.length
  papers : ∀ (i : Nat) s p, d.sections[i]? = some s → papers[i]? = some p →
    ∃ f page, StreamTree rd s.2 f ∧ SectionPaper f page ∧ RecordPaper page p

/-! ### Office programs -/

/-- The last value set by this name. -/
def lastNamed {α : Type} (xs : List (PyStr × α)) (name : PyStr) : Option α := ((xs.filter fun x => x.1 = name).getLast?).map (·.2)

/-- A property of the pages of this master page: there is one page layout of the name it says, with one set of properties. -/
def pageValue (masters : List (PyStr × PyStr)) (layouts : List (PyStr × List (List (PyStr × PyStr)))) (prop : String) (master : PyStr) : Option PyStr :=
  match masters.filter fun m => m.1 = master with
  | [m] =>
    match layouts.filter fun l => l.1 = m.2 with
    | [(_, [props])] => lastSet props prop
    | _ => none
  | _ => none

/-- The master pages of paragraphs one after the other, after one with the master page `cur`: a paragraph whose style has a master page begins
a new page with it, and those after it follow. -/
def pagesFrom (masters : List (PyStr × PyStr)) : Option PyStr → List PyStr → List (Option PyStr)
  | _, [] => []
  | cur, p :: ps =>
    let now := (lastNamed masters p).orElse fun _ => cur
    now :: pagesFrom masters now ps

/-- The paragraphs of a section: those in its columns. -/
def topParagraphs (sec : List (PyStr × PyStr) × Forest XNode) : List (List (PyStr × PyStr) × Forest XNode) :=
  (entries "ColumnSet" sec.2).flatMap fun c => entries "Paragraph" c.2

/-- The elements among the nodes, with their names. -/
def elementKids : Forest XNode → List (PyStr × List (PyStr × PyStr) × Forest XNode)
  | .nil => []
  | .node (.text _) _ sibs => elementKids sibs
  | .node (.elem n as) cs sibs => (n, as, cs) :: elementKids sibs

/-- No paragraphs of a section but those in its columns and in these. -/
structure PlainSection (sec : List (PyStr × PyStr) × Forest XNode) : Prop where
  outside : ∀ e ∈ elementKids sec.2, e.1 ≠ lit "ColumnSet" → e.1 ≠ lit "Paragraph" ∧ elementsNamed "Paragraph" e.2.2 = []
  columns : ∀ c ∈ entries "ColumnSet" sec.2, ∀ e ∈ elementKids c.2, e.1 ≠ lit "Paragraph" → elementsNamed "Paragraph" e.2.2 = []

/-- A paragraph says that it begins a section, and begins a page or has another paragraph shape than its style. -/
def OpensSection (T : Forest XNode) (p : List (PyStr × PyStr)) : Prop :=
  attrOf p "new-section" = some (lit "1") ∧
  (attrOf p "new-page" = some (lit "1") ∨
    ∃ (k q j : Nat) (st : List (PyStr × PyStr) × Forest XNode), attrOf p "style-id" = some (decimal k) ∧ (entries "Style" T)[k]? = some st ∧
      attrOf st.1 "parashape-id" = some (decimal q) ∧ attrOf p "parashape-id" = some (decimal j) ∧ q ≠ j)

end Hwp.Spec
