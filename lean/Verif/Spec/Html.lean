import Verif.Spec.Storage
import Verif.Model.Html
/-!
What the commands leave in the file system.
-/
set_option autoImplicit false
namespace Hwp.Spec

/-- A file system in which everything is in a directory. -/
def ProperFS (fs : FS) : Prop := ∀ p q, fs p ≠ none → q <+: p → q ≠ p → fs q = some .dir

/-- The nodes of the directory of a document, by the path below it. -/
def htmlNode (xhtml css : Bytes) (bindata : Option StgEntries) : List PyStr → Option Node
  | [] => some .dir
  | [n] =>
    if n = lit "index.xhtml" then some (.file xhtml)
    else if n = lit "styles.css" then some (.file css)
    else if n = lit "bindata" then bindata.map fun _ => .dir
    else none
  | n :: m :: q => if n = lit "bindata" then bindata.bind fun es => nodeAt es m q else none

/-- A path with the parts of its name: the directory (empty, or up to a '/'), the name before the last dot, the extension. -/
structure PathParts (p dir stem ext : PyStr) : Prop where
  eq : p = dir ++ stem ++ 0x2e :: ext
  dir : dir = [] ∨ dir.getLast? = some 0x2f
  stem : 0x2f ∉ stem ∧ ∃ c ∈ stem, c ≠ 0x2e
  ext : 0x2f ∉ ext ∧ 0x2e ∉ ext

/-- A name that can be used for a file in the current directory. -/
def OneSegment (s : PyStr) : Prop := PlainName s ∧ 0x2f ∉ s

instance (s : PyStr) : Decidable (OneSegment s) := inferInstanceAs (Decidable (_ ∧ _))

end Hwp.Spec
