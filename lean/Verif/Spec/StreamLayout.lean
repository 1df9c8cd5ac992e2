/-
Specification of the bytes of a record stream that may have been cut off: which bytes stand
for which records.  Record headers may have either form.
-/
import Verif.Model.Records
import Verif.Spec.Records
namespace Hwp.Spec

/-- The bytes `h` are a header of a record with these fields: one word, or two if the size
does not fit in the first (the second word may be used for small sizes too). -/
def IsHeader (h : Bytes) (tagid level size : Nat) : Prop :=
  tagid < 1024 ∧ level < 1024 ∧
  ((size < 4095 ∧ h = le32 (tagid + 1024 * level + 1048576 * size)) ∨
   (size < 4294967296 ∧ h = le32 (tagid + 1024 * level + 1048576 * 4095) ++ le32 size))

/-- The bytes consist of these records, complete and none of them empty; the first of them
has number `n`. -/
inductive Whole : Nat → Bytes → List Record → Prop
  | nil (n : Nat) : Whole n [] []
  | cons (n : Nat) (h payload rest : Bytes) (tagid level : Nat) (rs : List Record)
      (hh : IsHeader h tagid level payload.length) (hp : payload ≠ []) (hr : Whole (n + 1) rest rs) :
      Whole n (h ++ payload ++ rest) (⟨tagid, level, payload.length, payload, n⟩ :: rs)

/-- What can be left of a record at the end of a stream that was cut off so that nobody
notices: a header without payload whose size is missing, or a part of the payload. -/
inductive CutOff (n : Nat) : Bytes → List Record → Prop
  | header (tagid level : Nat) (ht : tagid < 1024) (hl : level < 1024) :
      CutOff n (le32 (tagid + 1024 * level + 1048576 * 4095)) []
  | payload (h payload : Bytes) (tagid level size : Nat) (hh : IsHeader h tagid level size)
      (hp : payload ≠ []) (hs : payload.length < size) :
      CutOff n (h ++ payload) [⟨tagid, level, size, payload, n⟩]

end Hwp.Spec
