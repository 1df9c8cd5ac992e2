/-
Specification of how what comes out of the passes over a section is shown: names and attributes.
The names of control characters and the line segment that stands for missing ones are those
written in the source.
-/
import Verif.Spec.Document
import Verif.Spec.PySource
namespace Hwp.Spec

/-- Name and kind of the control character in the source. -/
def sourceChar (code : Nat) : Option (String × String) :=
  match pyControlChars with
  | .dict items => items.findSome? fun
    | (.num n, .tuple [.str name, .name kind]) => if n = code then some (name, kind) else none
    | _ => none
  | _ => none

/-- The size of a kind of control characters in the source. -/
def sourceSize (kind : String) : Option Nat :=
  match pyControlSizes.lookup kind with
  | some (.num n) => some n
  | _ => none

/-- What a kind is called in the source: in the entry of a control character of the kind. -/
def kindText (kind : CtrlKind) : String :=
  (((List.range 32).find? fun code => kindOf code = some kind).bind fun code => (sourceChar code).map (·.2)).getD ""

/-- The attributes of the line segment that stands for missing ones. -/
def missingLineSeg : Fields :=
  match pyDummyLineSeg with
  | .call _ _ kvs => kvs.map fun
    | (k, .num n) => (k, .leaf (.int n))
    | (k, _) => (k, .leaf (.str []))
  | _ => []

/-- What languages are called. -/
def langText : Lang → PyStr
  | .ko => [0x6b, 0x6f]
  | .en => [0x65, 0x6e]
  | .cn => [0x63, 0x6e]
  | .symbol => [0x73, 0x79, 0x6d, 0x62, 0x6f, 0x6c]
  | .jp => [0x6a, 0x70]
  | .other => [0x6f, 0x74, 0x68, 0x65, 0x72]

/-- Number of the record an item stands for, if it stands for one. -/
def recordNo : Item → Option Nat
  | .paragraph _ i | .paraText _ i | .paraCharShape _ i | .paraLineSeg _ i | .paraRangeTag i
  | .sectionDef _ i | .tableBody _ i | .tableCell i | .listHeader _ i | .field _ i
  | .tableControl i | .gshapeControl i | .control _ i | .shapeComponent i | .other _ i => some i
  | .lineSeg _ | .text _ _ _ | .controlChar _ _ _ | .columnSet | .tableRow => none

/-- The attributes of a record as they are shown: with the number of the section at the
definition of the section, without the numbers of cells at a table whose rows are elements. -/
def shownAttrs (content : Fields) : Item → Fields
  | .sectionDef (some n) _ =>
    content.takeWhile (fun p => p.1 ≠ "section_id") ++ [("section_id", .leaf (.int n))] ++
      (content.dropWhile fun p => p.1 ≠ "section_id").drop 1
  | .tableBody none _ => content.filter fun p => p.1 ≠ "rowcols"
  | _ => content

/-- Name, attributes and context of what is shown for an item, if `ms` are the models of the
records of the section. -/
def shownItem (ms : List (PModel Fields)) (ctx : DCtx) (a : Item) : ModelItem :=
  match recordNo a with
  | some i => match ms[i]? with
    | some m => ⟨match a with | .sectionDef (some _) _ => "SectionDef" | .tableBody none _ => "TableBody" | _ => m.type,
        shownAttrs m.content a, ctx⟩
    | none => ⟨match a with | .sectionDef (some _) _ => "SectionDef" | .tableBody none _ => "TableBody" | _ => "",
        shownAttrs [] a, ctx⟩
  | none => match a with
    | .lineSeg (some i, k) => ⟨"LineSeg", (((ms[i]?).map fun m => linesegsOf m.content).bind fun ls => ls[k]?).getD [], ctx⟩
    | .lineSeg (none, _) => ⟨"LineSeg", missingLineSeg, ⟨none, none⟩⟩
    | .text s shape none => ⟨"Text", [("charshape_id", .leaf (.int shape)), ("text", .leaf (.str s))], ctx⟩
    | .text s shape (some l) => ⟨"Text", [("charshape_id", .leaf (.int shape)), ("lang", .leaf (.str (langText l))),
        ("text", .leaf (.str s))], ctx⟩
    | .controlChar code kind shape => ⟨"ControlChar", [("name", .leaf (.str (lit (((sourceChar code).map (·.1)).getD "")))),
        ("code", .leaf (.int code)), ("kind", .leaf (.cls (kindText kind))), ("charshape_id", .leaf (.int shape))] ++
        (if code ∈ [9, 10, 13] then [("char", .leaf (.str [code]))] else []), ctx⟩
    | .columnSet => ⟨"ColumnSet", [], ⟨none, none⟩⟩
    | _ => ⟨"TableRow", [], ctx⟩

end Hwp.Spec
