/-
Specification of `hwp5proc find`: which models are meant, and the lines for them.
-/
import Verif.Model.Find
import Verif.Spec.Commands
namespace Hwp.Spec

/-- What is given as tag means the tag `t`: it is its number or its name. -/
def TagMeant (s : PyStr) (t : Nat) : Prop :=
  IntText s t ∨ ((∀ n, ¬ IntText s n) ∧ TagName t s)

/-- The options ask for the model.  Empty options ask for nothing. -/
structure Wanted (args : FindArgs) (m : PModel Fields) : Prop where
  model : ∀ s, args.model = some s → s ≠ [] → s = lit m.type
  tag : ∀ s, args.tag = some s → s ≠ [] → TagMeant s m.record.tagid
  incomplete : args.incomplete = true → ∃ u, m.unparsed = some u

/-- The tag option, if it is a number, is the number of a tag with a name of its own. -/
def TagKnown (args : FindArgs) : Prop :=
  ∀ s n, args.tag = some s → s ≠ [] → IntText s n → ∃ t name, n = ((t : Nat) : Int) ∧ (t, name) ∈ sourceTagnames

/-- The file can be opened and has the version `ver` and the record streams `streams`: first
`DocInfo`, then those of `BodyText`. -/
def Streams (f : FindFile) (ver : Version) (streams : List (PyStr × Bytes)) : Prop :=
  ∃ (docinfo : Bytes) (sections : List (PyStr × Bytes)), f.version = .ok ver ∧ f.docinfo = .ok docinfo ∧
    f.bodytext = .ok (sections.map fun p => (p.1, .ok p.2)) ∧
    streams = (lit "DocInfo", docinfo) :: sections.map fun p => (lit "BodyText/" ++ p.1, p.2)

/-- The line for a model: file, stream, number of the record, name of its tag, type. -/
def LineOf (file stream : PyStr) (m : PModel Fields) (line : PyStr) : Prop :=
  ∃ tag, TagName m.record.tagid tag ∧
    line = file ++ lit " " ++ stream ++ lit " " ++ decimal m.record.seqno ++ lit " " ++ tag ++ lit " " ++ lit m.type ++ lit "\n"

/-- The lines of the wanted ones among the models. -/
inductive FoundLines (args : FindArgs) (file stream : PyStr) : List (PModel Fields) → List PyStr → Prop
  | nil : FoundLines args file stream [] []
  | found (m : PModel Fields) (ms : List (PModel Fields)) (line : PyStr) (lines : List PyStr) :
      Wanted args m → LineOf file stream m line → FoundLines args file stream ms lines →
      FoundLines args file stream (m :: ms) (line :: lines)
  | other (m : PModel Fields) (ms : List (PModel Fields)) (lines : List PyStr) :
      ¬ Wanted args m → FoundLines args file stream ms lines → FoundLines args file stream (m :: ms) lines

/-- The lines for the streams of a file, one stream after the other. -/
inductive StreamLines (args : FindArgs) (rd : ModelReader Fields) (file : PyStr) : List (PyStr × Bytes) → List PyStr → Prop
  | nil : StreamLines args rd file [] []
  | cons (name : PyStr) (s : Bytes) (rest : List (PyStr × Bytes)) (xs ys : List PyStr) :
      FoundLines args file name (streamModels rd s).out xs → StreamLines args rd file rest ys →
      StreamLines args rd file ((name, s) :: rest) (xs ++ ys)

/-- The lines for files whose streams can all be read, one file after the other. -/
inductive FileLines (args : FindArgs) (rd : Version → ModelReader Fields) : List FindFile → List PyStr → Prop
  | nil : FileLines args rd [] []
  | cons (f : FindFile) (fs : List FindFile) (ver : Version) (streams : List (PyStr × Bytes)) (xs ys : List PyStr) :
      Streams f ver streams → StreamLines args (rd ver) f.name streams xs → FileLines args rd fs ys →
      FileLines args rd (f :: fs) (xs ++ ys)

end Hwp.Spec
