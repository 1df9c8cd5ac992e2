/-
Specification of the listing of a document: the real and virtual streams of a storage tree,
the order of paths, and reading back the escaped names.
-/
import Verif.Model.Listing
import Verif.Spec.Storage
namespace Hwp.Spec

mutual
/-- The streams of an item, with their paths relative to it. -/
def realItem : VItem → List (List PyStr × Bytes)
  | .stream data _ => [([], data)]
  | .storage es _ => realStreams es
/-- The streams of a storage with their paths; other formats do not count. -/
def realStreams : VEntries → List (List PyStr × Bytes)
  | .nil => []
  | .cons name item rest => (realItem item).map (fun p => (name :: p.1, p.2)) ++ realStreams rest
end

mutual
/-- The streams of an item, with those for other formats inside. -/
def allItem : VItem → List (List PyStr × Bytes)
  | .stream data _ => [([], data)]
  | .storage es _ => allStreams es
/-- The streams of a storage with their paths, and one for each other format of an item (a
stream or a storage): its name with the extension. -/
def allStreams : VEntries → List (List PyStr × Bytes)
  | .nil => []
  | .cons name item rest => (allItem item).map (fun p => (name :: p.1, p.2)) ++
      (match item with
      | .stream _ fs => fs.map fun f => ([name ++ f.1], f.2)
      | .storage _ fs => fs.map fun f => ([name ++ f.1], f.2)) ++ allStreams rest
end

mutual
/-- Sibling names are distinct and contain no '/'. -/
def RealNames : VItem → Prop
  | .stream _ _ => True
  | .storage es _ => RealEntries es
/-- Entries. -/
def RealEntries : VEntries → Prop
  | .nil => True
  | .cons name item rest => 0x2f ∉ name ∧ name ∉ rest.names ∧ RealNames item ∧ RealEntries rest
end

/-- The names in a storage, those of other formats included. -/
def allNames : VEntries → List PyStr
  | .nil => []
  | .cons name item rest => name :: (match item with
      | .stream _ fs => fs.map fun f => name ++ f.1
      | .storage _ fs => fs.map fun f => name ++ f.1) ++ allNames rest

mutual
/-- All names in a storage, those of other formats included, are distinct and contain no '/'. -/
def AllNamesOk : VItem → Prop
  | .stream _ _ => True
  | .storage es _ => (allNames es).Nodup ∧ (∀ n ∈ allNames es, 0x2f ∉ n) ∧ AllEntriesOk es
/-- The storages in the entries are like that. -/
def AllEntriesOk : VEntries → Prop
  | .nil => True
  | .cons _ item rest => AllNamesOk item ∧ AllEntriesOk rest
end

/-- How deep storages are nested. -/
def itemDepth : VItem → Nat
  | .stream _ _ => 0
  | .storage es _ => depth es
where
  /-- Of a storage. -/
  depth : VEntries → Nat
    | .nil => 1
    | .cons _ item rest => max (itemDepth item + 1) (depth rest)

/-- A hexadecimal digit. -/
def escVal (c : Nat) : Option Nat :=
  if 0x30 ≤ c ∧ c ≤ 0x39 then some (c - 0x30)
  else if 0x61 ≤ c ∧ c ≤ 0x66 then some (c - 0x57)
  else if 0x41 ≤ c ∧ c ≤ 0x46 then some (c - 0x37)
  else none

/-- The number written in hexadecimal digits. -/
def escNum (acc : Nat) : PyStr → Option Nat
  | [] => some acc
  | c :: cs => match escVal c with
    | none => none
    | some d => escNum (16 * acc + d) cs

/-- Reading a name with the escapes of Python's string literals. -/
def readEscaped : PyStr → Option PyStr
  | [] => some []
  | 0x5c :: 0x5c :: s => (readEscaped s).map (0x5c :: ·)
  | 0x5c :: 0x74 :: s => (readEscaped s).map (9 :: ·)
  | 0x5c :: 0x6e :: s => (readEscaped s).map (10 :: ·)
  | 0x5c :: 0x72 :: s => (readEscaped s).map (13 :: ·)
  | 0x5c :: 0x78 :: a :: b :: s => do (← readEscaped s) |> fun r => (escNum 0 [a, b]).map (· :: r)
  | 0x5c :: 0x75 :: a :: b :: c :: d :: s => do (← readEscaped s) |> fun r => (escNum 0 [a, b, c, d]).map (· :: r)
  | 0x5c :: 0x55 :: a :: b :: c :: d :: e :: f :: g :: h :: s => do
    (← readEscaped s) |> fun r => (escNum 0 [a, b, c, d, e, f, g, h]).map (· :: r)
  | 0x5c :: _ => none
  | c :: s => (readEscaped s).map (c :: ·)

end Hwp.Spec
