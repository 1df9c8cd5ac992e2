import Verif.Model.FsStorage
import Verif.Spec.Storage
/-!
Specification of directories used as storages: what it means that they show the same items.
-/
set_option autoImplicit false
namespace Hwp.Spec

/-- `os.listdir`: the names in a directory, each once, in any order. -/
def ListsDirs (ls : List PyStr → List PyStr) (fs : FS) : Prop :=
  ∀ p q, resolve fs p = some q → fs q = some .dir → (ls p).Nodup ∧ ∀ n, n ∈ ls p ↔ fs (q ++ [n]) ≠ none

mutual
/-- An item with the names under which it is unpacked. -/
def renamedItem : StgItem → StgItem
  | .stream d => .stream d
  | .storage es => .storage (renamed es)
/-- A storage with the names under which its items are unpacked. -/
def renamed : StgEntries → StgEntries
  | .nil => .nil
  | .cons n i rest => .cons (fileName n) (renamedItem i) (renamed rest)
end

mutual
/-- No name below an item contains control character 5. -/
def NoControlItem : StgItem → Prop
  | .stream _ => True
  | .storage es => NoControl es
/-- StgEntries. -/
def NoControl : StgEntries → Prop
  | .nil => True
  | .cons n i rest => 5 ∉ n ∧ NoControlItem i ∧ NoControl rest
end

mutual
/-- How many storages are nested in an item. -/
def stgItemDepth : StgItem → Nat
  | .stream _ => 0
  | .storage es => stgDepth es + 1
/-- StgEntries. -/
def stgDepth : StgEntries → Nat
  | .nil => 0
  | .cons _ i rest => max (stgItemDepth i) (stgDepth rest)
end

/-- A result of opening a path in a directory shows the same as a result in another storage: the same data, or
the same names in sorted order, or the same exception. -/
def SameResult (ls : List PyStr → List PyStr) (fs : FS) : Except PyErr FsItem → Except PyErr StgItem → Prop
  | .error e, r => r = .error e
  | .ok (.stream p), r => ∃ d, r = .ok (.stream d) ∧ fsRead fs p = .ok d
  | .ok (.storage p), r => ∃ es names, r = .ok (.storage es) ∧ fsIter ls fs p = .ok names ∧
      names.Perm es.names ∧ names.Pairwise (· < ·)

end Hwp.Spec
