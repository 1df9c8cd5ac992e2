/-
Specification of JSON array texts.
-/
import Verif.Model.Utils
namespace Hwp.Spec

/-- JSON white space. -/
def JsonSpace (s : PyStr) : Prop := ∀ c ∈ s, c = 0x20 ∨ c = 0x09 ∨ c = 0x0a ∨ c = 0x0d

/-- `t` is a comma separated list of JSON texts of the given values, where `val t v`
says that `t` is a text of the value `v`. -/
inductive JsonElements {J : Type} (val : PyStr → J → Prop) : PyStr → List J → Prop
  | one (pre t post : PyStr) (v : J) : JsonSpace pre → val t v → JsonSpace post →
      JsonElements val (pre ++ t ++ post) [v]
  | more (pre t post rest : PyStr) (v : J) (vs : List J) : JsonSpace pre → val t v → JsonSpace post →
      JsonElements val rest vs → JsonElements val (pre ++ t ++ post ++ 0x2c :: rest) (v :: vs)

/-- RFC 8259: the texts of the array of the given values. -/
inductive JsonArray {J : Type} (val : PyStr → J → Prop) : PyStr → List J → Prop
  | empty (ws : PyStr) : JsonSpace ws → JsonArray val (0x5b :: ws ++ [0x5d]) []
  | elements (t : PyStr) (vs : List J) : JsonElements val t vs → JsonArray val (0x5b :: t ++ [0x5d]) vs

end Hwp.Spec
