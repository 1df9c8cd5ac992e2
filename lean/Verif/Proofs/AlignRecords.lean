/-
The paragraph shapes of the XML file of a document say what the records of `DocInfo` say.
-/
import Verif.Proofs.Align
import Verif.Proofs.InfoDoc
set_option autoImplicit false
set_option linter.unusedSimpArgs false
set_option linter.unusedVariables false
namespace Hwp
open Spec

/-- tagid25_para_shape.py:43-50 -/
def alignBits : BitDecl := Decl.bitsE 2 4 (enumOf ["BOTH", "LEFT", "RIGHT", "CENTER", "DISTRIBUTE", "DISTRIBUTE_SPACE"]) "align"

theorem align_shown (n : Nat) : shownAlign (noNul (showBits alignBits (n / 4 % 8))) = flagsAlign n := by
  have hk : n / 4 % 8 < 8 := Nat.mod_lt _ (by omega)
  have all : ∀ k < 8, shownAlign (noNul (showBits alignBits k)) = flagsAlign (4 * k) := by decide +kernel
  rw [all _ hk]
  unfold flagsAlign
  rw [show 4 * (n / 4 % 8) / 4 % 8 = n / 4 % 8 by omega]

section
variable {env : XmlEnv} {ver : Version} {rd : ModelReader Fields} (hrd : ReadsDecls ver rd)
include hrd

theorem entry_align {m : PModel Fields} {x : List (PyStr × PyStr) × Forest XNode} (h : Entry env ver rd "ParaShape" m x) :
    ∃ a, attrOf x.1 "align" = some a ∧ shownAlign a = shapeAlign m := by
  obtain ⟨acc, v, h1, h2, h3⟩ := record_attr (D := Decl.ParaShape) hrd h.read (by rw [h.type]; decide) (by rw [h.type]; rfl) (by decide +kernel) h.node
    "parashapeflags" (.flags Decl.ParaShapeFlags1) rfl
  obtain ⟨n, rfl⟩ : ∃ n, v = .leaf (.flags Decl.ParaShapeFlags1 n) := by
    cases v with
    | leaf x => cases x <;> simp [Shaped] at h2; exact ⟨_, by rw [h2.1]⟩
    | _ => simp [Shaped] at h2
  have key := h3 "align" _ (List.mem_cons_of_mem _ (List.mem_cons_of_mem _ List.mem_cons_self))
  refine ⟨_, key, ?_⟩
  change shownAlign (noNul (showBits alignBits (bitsNumber n 2 3))) = _
  rw [show bitsNumber n 2 3 = n / 4 % 8 from bitsNumber_eq n 2 3, align_shown]
  simp [shapeAlign, flagsField, h1]

theorem entry_parashape {m : PModel Fields} {x : List (PyStr × PyStr) × Forest XNode} (h : Entry env ver rd "Style" m x) :
    ∃ q : Nat, styleParaShape m = some q ∧ attrOf x.1 "parashape-id" = some (Spec.decimal q) := by
  obtain ⟨n, h1, h2, h3⟩ := record_int (D := Decl.Style) hrd h.read (by rw [h.type]; decide) (by rw [h.type]; rfl) (by decide +kernel) h.node "parashape_id" "parashape-id" .UINT16
    (by decide) rfl (by decide +kernel)
  obtain ⟨k, rfl⟩ : ∃ k : Nat, n = k := ⟨n.toNat, (Int.toNat_of_nonneg h2.1).symm⟩
  exact ⟨k, h1, by rw [h3, decimal_nat, noNul_natStr]⟩

theorem entry_kind {m : PModel Fields} {x : List (PyStr × PyStr) × Forest XNode} (h : Entry env ver rd "Style" m x) (hk : ofParagraphs m = true) :
    attrOf x.1 "kind" = some (lit "paragraph") := by
  obtain ⟨acc, v, h1, h2, h3⟩ := record_attr (D := Decl.Style) hrd h.read (by rw [h.type]; decide) (by rw [h.type]; rfl) (by decide +kernel) h.node
    "flags" (.flags Decl.StyleFlags) rfl
  obtain ⟨n, rfl⟩ : ∃ n, v = .leaf (.flags Decl.StyleFlags n) := by
    cases v with
    | leaf x => cases x <;> simp [Shaped] at h2; exact ⟨_, by rw [h2.1]⟩
    | _ => simp [Shaped] at h2
  have key := h3 "kind" _ (List.mem_cons_of_mem _ List.mem_cons_self)
  rw [key]
  change some (noNul (showBits (Decl.bitsE 0 1 (enumOf ["PARAGRAPH", "CHAR"]) "kind") (bitsNumber n 0 2))) = _
  rw [show bitsNumber n 0 2 = n % 4 from by rw [bitsNumber_eq n 0 2]; simp]
  have : n % 4 = 0 := by simpa [ofParagraphs, flagsField, h1] using hk
  rw [this]
  decide +kernel

end

end Hwp
