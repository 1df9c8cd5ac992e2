/-
C20: the document tree after field matching.
-/
import Verif.Proofs.FieldTree
namespace Hwp.Props
open Hwp Spec

/-- C20: with properly placed fields, field matching yields the events of the tree
in which every field contains what comes up to its end character, with a copy in
every line it extends over. -/
theorem C20_tree (f : Forest Item) (h : FieldsPaired f) :
    matchFields (.ofList (eventsOf f)) = .ofList (eventsOf (fielded f)) :=
  matchFields_fielded f h

/-- A field over two lines around a text and a second field that ends first. -/
private def twoFields : Forest Item :=
  .node (.paragraph false 1)
    (.node (.lineSeg (some 9, 0))
      (.node (.text [65] 0 none) .nil
        (.node (.field 0 7) (.node (.other 3 3) .nil .nil) (.node (.text [66] 0 none) .nil .nil)))
      (.node (.lineSeg (some 9, 1))
        (.node (.text [67] 0 none) .nil
          (.node (.field 1 8) .nil
            (.node (.text [68] 0 none) .nil
              (.node (.controlChar 4 .inline 0) .nil
                (.node (.controlChar 4 .inline 0) .nil (.node (.text [69] 0 none) .nil .nil))))))
        .nil)) .nil

example : FieldsPaired twoFields ∧ eventsOf (fielded twoFields) = eventsOf
    (.node (.paragraph false 1)
      (.node (.lineSeg (some 9, 0))
        (.node (.text [65] 0 none) .nil
          (.node (.field 0 7) (.node (.other 3 3) .nil (.node (.text [66] 0 none) .nil .nil)) .nil))
        (.node (.lineSeg (some 9, 1))
          (.node (.field 0 7)
            (.node (.text [67] 0 none) .nil (.node (.field 1 8) (.node (.text [68] 0 none) .nil .nil) .nil))
            (.node (.text [69] 0 none) .nil .nil))
          .nil)) .nil) := by
  decide +kernel

end Hwp.Props
