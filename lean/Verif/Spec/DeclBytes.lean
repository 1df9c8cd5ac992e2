/-
Specification: the bytes of a value of a declared type, the inverse of reading.  `none` if the
value cannot be written.
-/
import Verif.Spec.DeclReader
namespace Hwp.Spec

instance (p : Prim) (n : Int) : Decidable (InRange p n) := by unfold InRange; infer_instance

/-- The bytes of a primitive value. -/
def writePrim : PTy → PVal → Option Bytes
  | .int p, .int n => if InRange p n then some (encodeInt p n) else none
  | .colorref, .int n => if InRange .INT32 n then some (encodeInt .INT32 n) else none
  | .binStorageId, .int n => if InRange .UINT16 n then some (encodeInt .UINT16 n) else none
  | .double, .double b => if b.length = 8 then some b else none
  | .hexBytes k, .hex b => if b ≠ [] ∧ b.length = k then some b else none
  | .bstr, .str s =>
    if (∀ c ∈ s, Scalar c) ∧ (strUnits s).length < 65536 then some (encodeBstr s) else none
  | .chid, .chid b => if b.length = 4 then some b.reverse else none
  | .version, .version ns =>
    if ns.length = 4 ∧ ∀ n ∈ ns, n < 256 then some (ns.reverse.map UInt8.ofNat) else none
  | _, _ => none

/-- One after the other. -/
def writeAll (f : Value PVal → Option Bytes) : List (Value PVal) → Option Bytes
  | [] => some []
  | x :: xs => do return (← f x) ++ (← writeAll f xs)

/-- Version and condition of a member allow it. -/
def isThere (ctx : DCtx) (acc : Fields) (version : Option Version) (condition : Option CondDecl) :
    Except PyErr Bool :=
  if versionOk ctx.version version then
    match condition with
    | none => .ok true
    | some c => c.eval ctx acc
  else .ok false

mutual
/-- The bytes of a value; `acc` are the fields before it in the same struct. -/
def writeTy (ctx : DCtx) : DTy → Fields → Value PVal → Option Bytes
  | .prim p, _, .leaf x => writePrim p x
  | .flags f, _, .leaf (.flags g n) =>
    if g = f ∧ InRange f.base n then some (encodeInt f.base n) else none
  | .struct _ ms, _, .struct fs => writeMembers ctx ms [] fs
  | .array t n, _, .tuple xs => if xs.length = n then writeAll (writeTy ctx t []) xs else none
  | .nArray c t, _, .list xs =>
    if InRange c xs.length then (writeAll (writeTy ctx t []) xs).map (encodeInt c xs.length ++ ·)
    else none
  | .xArray t ref, acc, .list xs =>
    match ref.eval ctx acc with
    | .ok n => if xs.length = n.toNat then writeAll (writeTy ctx t []) xs else none
    | .error _ => none
  | .selective ref ss, acc, v =>
    match ref.eval ctx acc with
    | .ok n => writeSels ctx ss n acc v
    | .error _ => none
  | _, _, _ => none
/-- The bytes of the fields of a struct: those members are written that version and condition
allow, and there are no other fields. -/
def writeMembers (ctx : DCtx) : DMembers → Fields → Fields → Option Bytes
  | .nil, _, fs => if fs = [] then some [] else none
  | .cons name version condition t rest, acc, fs =>
    match isThere ctx acc version condition, fs with
    | .ok true, (n, v) :: fs =>
      if n = name then do
        return (← writeTy ctx t acc v) ++ (← writeMembers ctx rest (acc ++ [(name, v)]) fs)
      else none
    | .ok false, fs => writeMembers ctx rest acc fs
    | _, _ => none
/-- The bytes of a value of the selected type. -/
def writeSels (ctx : DCtx) : DSels → Int → Fields → Value PVal → Option Bytes
  | .nil, _, _, _ => none
  | .cons k t rest, n, acc, v => if n = k then writeTy ctx t acc v else writeSels ctx rest n acc v
end

/-- The bytes of the parts of a content, class after class. -/
def writeParts (ctx : DCtx) : List DMembers → List Fields → Option Bytes
  | [], [] => some []
  | ms :: mss, fs :: fss => do return (← writeMembers ctx ms [] fs) ++ (← writeParts ctx mss fss)
  | _, _ => none

/-- A primitive type whose values are never cut off. -/
def fixedPrim : PTy → Bool
  | .bstr => false
  | .hexBytes _ => false
  | .chunks => false
  | _ => true

mutual
/-- A type whose values are never cut off. -/
def fixedTy : DTy → Bool
  | .prim p => fixedPrim p
  | .flags _ => true
  | .struct _ ms => fixedMembers ms
  | .array t _ => fixedTy t
  | .nArray _ t => fixedTy t
  | .xArray t _ => fixedTy t
  | .selective _ ss => fixedSels ss
/-- Members. -/
def fixedMembers : DMembers → Bool
  | .nil => true
  | .cons _ _ _ t rest => fixedTy t && fixedMembers rest
/-- Selections. -/
def fixedSels : DSels → Bool
  | .nil => true
  | .cons _ t rest => fixedTy t && fixedSels rest
end

mutual
/-- In each struct inside, no two members have the same name. -/
def writableTy : DTy → Bool
  | .prim _ => true
  | .flags _ => true
  | .struct _ ms => writableMembers ms && decide ms.names.Nodup
  | .array t _ => writableTy t
  | .nArray _ t => writableTy t
  | .xArray t _ => writableTy t
  | .selective _ ss => writableSels ss
/-- Members. -/
def writableMembers : DMembers → Bool
  | .nil => true
  | .cons _ _ _ t rest => writableTy t && writableMembers rest
/-- Selections. -/
def writableSels : DSels → Bool
  | .nil => true
  | .cons _ t rest => writableTy t && writableSels rest
end

/-- The part of a content that belongs to a class. -/
def partOf (content : Fields) (c : String) : Fields :=
  content.filter fun p => decide (p.1 ∈ (membersOf c).names)

/-- The bytes of a content of a model of the given type, whose parent is `parent`. -/
def contentBytes (ver : Version) (parent : Option (String × Fields)) (type : String)
    (content : Fields) : Option Bytes :=
  writeParts ⟨some ver, some parent⟩ ((memberClasses type).map membersOf)
    ((memberClasses type).map (partOf content))

/-- The types without values of variable length that can be cut off. -/
def fixedModel (type : String) : Bool := (memberClasses type).all fun c => fixedMembers (membersOf c)

end Hwp.Spec
