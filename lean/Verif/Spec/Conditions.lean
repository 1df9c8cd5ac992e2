/-
What the conditions and references in the declarations mean, in terms of the fields read
before and of the parent model.
-/
import Verif.Model.Decls
import Verif.Spec.Dataio
namespace Hwp.Spec

/-- The bit group `bit` of the flags `name` is the number `k`. -/
def GroupIs (fields : Fields) (name bit : String) (k : Nat) : Prop :=
  ∃ f n b, fields.lookup name = some (.leaf (.flags f n)) ∧
    f.bits.find? (fun b => b.name = bit) = some b ∧ k = bitsNumber n b.lsb (b.msb + 1 - b.lsb)

/-- The control id read before is this one. -/
def ChidIs (fields : Fields) (chid : String) : Prop :=
  fields.lookup "chid" = some (.leaf (.chid (asciiBytes chid)))

/-- The condition holds. -/
def CondHolds (ctx : DCtx) (fields : Fields) : CondDecl → Prop
  | .flag name bit => ∃ k, GroupIs fields name bit k ∧ 0 < k
  | .notFlag name bit => GroupIs fields name bit 0
  | .chidIs c => ChidIs fields c
  | .chidIsAndFlag c name bit => ChidIs fields c ∧ ∃ k, GroupIs fields name bit k ∧ 0 < k
  | .parentIsGso => ∃ content, ctx.parent = some (some ("GShapeObjectControl", content))

/-- The condition does not hold (and can be decided). -/
def CondFails (ctx : DCtx) (fields : Fields) : CondDecl → Prop
  | .flag name bit => GroupIs fields name bit 0
  | .notFlag name bit => ∃ k, GroupIs fields name bit k ∧ 0 < k
  | .chidIs c => (∃ v, fields.lookup "chid" = some v) ∧ ¬ ChidIs fields c
  | .chidIsAndFlag c name bit =>
    ((∃ v, fields.lookup "chid" = some v) ∧ ¬ ChidIs fields c) ∨
      (ChidIs fields c ∧ GroupIs fields name bit 0)
  | .parentIsGso => ctx.parent = none ∨
      ∃ type content, ctx.parent = some (some (type, content)) ∧ type ≠ "GShapeObjectControl"

/-- A field has this number. -/
def NumberIs (fields : Fields) (name : String) (n : Int) : Prop :=
  fields.lookup name = some (.leaf (.int n)) ∨
    ∃ f k, fields.lookup name = some (.leaf (.flags f k)) ∧ n = k

/-- A count or selector is this number. -/
def RefIs (ctx : DCtx) (fields : Fields) : RefDecl → Int → Prop
  | .member name, n => NumberIs fields name n
  | .flag name bit, n => ∃ k, GroupIs fields name bit k ∧ n = k
  | .flagMinusOne name bit, n => ∃ k, GroupIs fields name bit k ∧ n = (k : Int) - 1
  | .parentMember name, n => ∃ type content, ctx.parent = some (some (type, content)) ∧
      NumberIs content name n

end Hwp.Spec
