/-
Model of the command `hwp5proc find` (/repo/src/hwp5/proc/find.py).

Simplifications: `--dump` and `--from-stdin` are not modelled; `--format` is in Model/Format.  What is logged for a
`ParseError` is not modelled, only that the next file follows.
-/
import Verif.Model.ModelJson
namespace Hwp

/-- What there is to see of a file: opening it gives its version or an exception (binmodel
`Hwp5File(filename)`), its streams can be opened or not.  `bodytext` and `viewtext` are the items of these
storages in iteration order. -/
structure FindFile where
  name : PyStr
  version : Except PyErr Version
  docinfo : Except PyErr Bytes
  bodytext : Except PyErr (List (PyStr × Except PyErr Bytes))
  viewtext : Except PyErr (List (PyStr × Except PyErr Bytes))

/-- The options `--model`, `--tag` and `--incomplete`. -/
structure FindArgs where
  model : Option PyStr
  tag : Option PyStr
  incomplete : Bool

/-- A model with the keys `filename` and `stream` (proc/find.py:203, 209, 214). -/
structure FoundModel where
  filename : PyStr
  stream : PyStr
  model : PModel Fields

/-- proc/find.py:173-186: the name `--tag` stands for: `tagnames[int(tag)]`, or what is given if that is not
a number.  An absent or empty option is no condition. -/
def tagArg : Option PyStr → Except PyErr (Option PyStr)
  | none => .ok none
  | some [] => .ok none
  | some s =>
    match pyInt s with
    | none => .ok (some s)
    | some n =>
      match (if 0 ≤ n then tagnames.lookup n.toNat else none) with
      | none => .error .keyError
      | some name => .ok (some (lit name))

/-- proc/find.py:168-172 `with_model_name`. -/
def modelCond (arg : Option PyStr) (m : PModel Fields) : Bool :=
  match arg with
  | none => true
  | some [] => true
  | some s => s == lit m.type

/-- proc/find.py:183-185 `with_tag`. -/
def tagCond (tag : Option PyStr) (m : PModel Fields) : Bool :=
  match tag with
  | none => true
  | some s => tagname m.record.tagid == s

/-- proc/find.py:188-191 `with_incomplete`. -/
def incompleteCond (arg : Bool) (m : PModel Fields) : Bool := !arg || m.unparsed.isSome

/-- proc/find.py:212-215: the sections of the body text. -/
def sectionModels (rd : ModelReader Fields) : List (PyStr × Except PyErr Bytes) → Gen (PyStr × PModel Fields)
  | [] => .done
  | (_, .error e) :: _ => .raise e
  | (name, .ok s) :: rest =>
    let g := streamModels rd s
    match g.err with
    | some e => ⟨g.out.map fun m => (lit "BodyText/" ++ name, m), some e⟩
    | none => .prepend (g.out.map fun m => (lit "BodyText/" ++ name, m)) (sectionModels rd rest)

/-- proc/find.py:207-215 `flat_models`. -/
def flatModels (rd : ModelReader Fields) (f : FindFile) : Gen (PyStr × PModel Fields) :=
  match f.docinfo with
  | .error e => .raise e
  | .ok s =>
    let g := streamModels rd s
    match g.err with
    | some e => ⟨g.out.map fun m => (lit "DocInfo", m), some e⟩
    | none => .prepend (g.out.map fun m => (lit "DocInfo", m))
      (match f.bodytext with
       | .error e => .raise e
       | .ok sections => sectionModels rd sections)

/-- proc/find.py:200-204 `hwp5file_models`. -/
def fileModels (rd : Version → ModelReader Fields) (f : FindFile) : Gen FoundModel :=
  match f.version with
  | .error e => .raise e
  | .ok ver =>
    let g := flatModels (rd ver) f
    ⟨g.out.map fun p => ⟨f.name, p.1, p.2⟩, g.err⟩

/-- proc/find.py:218-226: the line of a model, with the format that is used if none is given. -/
def foundLine (m : FoundModel) : PyStr :=
  m.filename ++ [0x20] ++ m.stream ++ [0x20] ++ natStr m.model.record.seqno ++ [0x20] ++
    tagname m.model.record.tagid ++ [0x20] ++ lit m.model.type ++ [0x0a]

/-- proc/find.py:86-95: the loop over the files; after a `ParseError` the next file follows. -/
def findLoop (rd : Version → ModelReader Fields) (cond : PModel Fields → Bool) : List FindFile → Gen PyStr
  | [] => .done
  | f :: fs =>
    let g := fileModels rd f
    let lines := (g.out.filter fun m => cond m.model).map foundLine
    match g.err with
    | none => .prepend lines (findLoop rd cond fs)
    | some .parseError => .prepend lines (findLoop rd cond fs)
    | some e => ⟨lines, some e⟩

/-- proc/find.py:76-95 `main`: the lines printed. -/
def findMain (rd : Version → ModelReader Fields) (args : FindArgs) (files : List FindFile) : Gen PyStr :=
  match tagArg args.tag with
  | .error e => .raise e
  | .ok tag =>
    findLoop rd (fun m => modelCond args.model m && tagCond tag m && incompleteCond args.incomplete m) files

end Hwp
