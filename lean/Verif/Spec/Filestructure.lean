/-
Specification of the file header and of what the streams of a document contain.
-/
import Verif.Model.Filestructure
namespace Hwp.Spec

/-- The layout of the file header: 32 bytes signature, four version bytes (least
significant first), 32 bit flags, reserved bytes of which at least one is present.
Shorter headers are errors. -/
def header (s : Bytes) : Except PyErr Header :=
  if 41 ≤ s.length then
    .ok ⟨s.take 32, [(s.getD 35 0).toNat, (s.getD 34 0).toNat, (s.getD 33 0).toNat, (s.getD 32 0).toNat],
      leNat ((s.drop 36).take 4)⟩
  else if 36 ≤ s.length ∧ s.length < 40 then .error .keyError
  else .error .parseError

/-- The storages whose streams are encrypted in distribution documents. -/
def encryptedStorages : List String := ["Scripts", "ViewText"]
/-- The storages whose streams are compressed in compressed documents. -/
def compressedStorages : List String := ["BinData", "BodyText", "ViewText", "Scripts"]

/-- What a stream directly inside a top level storage delivers. -/
def innerStream (c : Codec) (flags : Nat) (top : PyStr) (stored : Bytes) : Except PyErr Bytes := do
  if flags.testBit 1 then return stored
  else
    let d ← if flags.testBit 2 ∧ top ∈ encryptedStorages.map ustr then distDecode c.aes stored
      else pure stored
    if flags.testBit 0 ∧ top ∈ compressedStorages.map ustr then return (c.inflate d).getD d
    else return d

/-- What a stream at the top level delivers. -/
def topStream (c : Codec) (flags : Nat) (name : PyStr) (stored : Bytes) : Bytes :=
  if ¬ flags.testBit 1 ∧ flags.testBit 0 ∧ name = ustr "DocInfo" then (c.inflate stored).getD stored
  else stored

/-- The names of top level items that are expected to be streams. -/
def topStreams : List PyStr := [ustr "DocInfo", ustr "PrvText", Obj.summaryName, ustr "FileHeader"]

end Hwp.Spec
