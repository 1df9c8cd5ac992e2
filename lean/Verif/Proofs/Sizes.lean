/-
Lemmas on the size of letters.
-/
import Verif.Spec.Sizes
import Verif.Proofs.Spacing
import Verif.Props.Layout
set_option linter.unusedSimpArgs false
set_option linter.unusedVariables false
set_option autoImplicit false
namespace Hwp
open Spec

theorem fontSize_eq {c : XElem} {l : String} {n p : Int} (h : ShapeSize c l n p) : fontSize c l = numberStr 4 (some (n * p)) ++ lit "pt" := by
  obtain ⟨as, kids, h1, h2⟩ := h.percent
  unfold fontSize sizeOf
  rw [number_at h.size, childrenNamed_eq, h1]
  have : firstAttr [(as, kids)] l = attrValue as l := by
    rw [attrValue_eq, firstAttr, attrNodes_one, h2]
    rfl
  rw [this, number_at h2]
  rfl

theorem fontSize_value {c : XElem} {l : String} {n p : Int} (h : ShapeSize c l n p) : signedLength "pt" (fontSize c l) = some ((n : ℚ) * p / 10000) := by
  rw [fontSize_eq h, number_value]
  push_cast
  norm_num

theorem fontSize_some (c : XElem) (l : String) : fontSize c l ≠ [] := by
  unfold fontSize sizeOf
  intro e
  have := (List.append_eq_nil_iff.1 e).2
  exact absurd this (by decide)

/-! ### ODT -/

theorem size_value (doc : Forest XNode) (c : XElem) (l prop : String) (h : (l, prop) ∈ sizeScripts) : lastSet (charProps doc c) prop = some (fontSize c l) := by
  rw [char_value]
  have hp : prop ∈ sizeNames := by
    have : ∀ x ∈ sizeScripts, x.2 ∈ sizeNames := by decide +kernel
    exact this _ h
  have a : lastSet [(lit "fo:font-weight", lit "bold"), (lit "style:font-weight-asian", lit "bold"), (lit "style:font-weight-complex", lit "bold")] prop = none := by
    clear h; revert prop; decide +kernel
  have i : lastSet [(lit "fo:font-style", lit "italic"), (lit "style:font-style-asian", lit "italic"), (lit "style:font-style-complex", lit "italic")] prop = none := by
    clear h a; revert prop; decide +kernel
  have b : ∀ x y z : PyStr, lastSet [(lit "style:text-underline-type", x), (lit "style:text-overline-type", y), (lit "style:text-line-through-type", z)] prop = none := by
    intro x y z
    refine lastSet_none ?_
    have : ∀ n ∈ ["style:text-underline-type", "style:text-overline-type", "style:text-line-through-type"], lit n ≠ lit prop := by clear h a i; revert prop; decide +kernel
    intro e he
    simp only [List.mem_cons, List.not_mem_nil, or_false] at he
    rcases he with rfl | rfl | rfl <;> exact this _ (by simp)
  have z : lastSet (sizeProps c) prop = some (fontSize c l) := by
    simp only [sizeScripts, List.mem_cons, Prod.mk.injEq, List.not_mem_nil, or_false] at h
    rcases h with ⟨rfl, rfl⟩ | ⟨rfl, rfl⟩ | ⟨rfl, rfl⟩ <;> simp [sizeProps, lastSet, lit_eq]
  rw [a, i, z]
  show (if isOne c.1 "bold" then none else none).orElse (fun _ => (lastSet [(lit "style:text-underline-type", _), (lit "style:text-overline-type", _),
    (lit "style:text-line-through-type", _)] prop).orElse _) = _
  rw [b]
  cases isOne c.1 "bold" <;> cases isOne c.1 "italic" <;> rfl

/-! ### Records -/

theorem fieldOf_lookup (name : String) (fs : Fields) : fs.lookup name = fieldOf name fs := by
  induction fs with
  | nil => rfl
  | cons f fs ih =>
    obtain ⟨k, v⟩ := f
    by_cases e : k = name
    · subst e; simp [fieldOf, List.lookup]
    · rw [List.lookup_cons, show (name == k) = false from by simpa using fun h => e h.symm, ih]
      simp [fieldOf, e]

/-- The sizes of a character shape. -/
theorem shape_sizes {env : XmlEnv} {ver : Version} {rd : ModelReader Fields} (hrd : ReadsDecls ver rd) {m : PModel Fields} (hm : ReadRecord ver rd m)
    (ht : m.type = "CharShape") {x : List (PyStr × PyStr) × Forest XNode} (hx : NodeOf env ver m x) :
    ∃ fs fk, entries "RelativeSize" x.2 = [(fs, fk)] ∧
      ∀ l ∈ languages, ∃ n : Int, valueAt (.struct m.content) ["relative_size", l] = some (.num n) ∧ attrOf fs l = some (Spec.decimal n) := by
  obtain ⟨rs, i, hm⟩ := hm
  obtain ⟨attrs, kids, K, C, h1, h2, rfl, -, hC⟩ := hx
  obtain ⟨g1, rfl, rfl, g4⟩ := single_record env ver rd hrd rs i m hm (by rw [ht]; decide) Decl.CharShape (by rw [ht]; rfl) attrs kids h1
  have c1 : clearMembers Decl.CharShape = true := by decide +kernel
  have c2 : namedMembers Decl.CharShape = true := by decide +kernel
  have c3 : Decl.CharShape.names.Nodup := by decide +kernel
  obtain ⟨u1, v1, K1, R1, e1, -, hf, rfl, -, hT⟩ := struct_step env _ _ _ _ _ _ _ (by decide) g1 c1 c2 c3 K h2
  have c1 : clearMembers (.cons _ _ _ _ _) = true := (Bool.and_eq_true_iff.1 c1).2
  have c2 : namedMembers (.cons _ _ _ _ _) = true := (Bool.and_eq_true_iff.1 c2).2
  have c3 : (DMembers.cons _ _ _ _ _).names.Nodup := (List.nodup_cons.1 c3).2
  obtain ⟨u2, v2, K2, R2, e2, -, hf, rfl, -, hT⟩ := struct_step env _ _ _ _ _ _ _ (by decide) hf c1 c2 c3 R1 hT
  have c1 : clearMembers (.cons _ _ _ _ _) = true := (Bool.and_eq_true_iff.1 c1).2
  have c2 : namedMembers (.cons _ _ _ _ _) = true := (Bool.and_eq_true_iff.1 c2).2
  have c3 : (DMembers.cons _ _ _ _ _).names.Nodup := (List.nodup_cons.1 c3).2
  obtain ⟨u3, v3, K3, R3, e3, -, hf, rfl, -, hT⟩ := struct_step env _ _ _ _ _ _ _ (by decide) hf c1 c2 c3 R2 hT
  have c1 : clearMembers (.cons _ _ _ _ _) = true := (Bool.and_eq_true_iff.1 c1).2
  have c2 : namedMembers (.cons _ _ _ _ _) = true := (Bool.and_eq_true_iff.1 c2).2
  have c3 : (DMembers.cons _ _ _ _ _).names.Nodup := (List.nodup_cons.1 c3).2
  obtain ⟨gs, v4, K4, R, e4, g2, hf, rfl, -, hR⟩ := struct_step env _ _ _ _ _ _ _ (by decide) hf c1 c2 c3 R3 hT
  have hr : entries "RelativeSize" R = [] := by
    refine List.sublist_nil.1 (every_elements (ok := fun n => decide (n ≠ lit "RelativeSize")) "RelativeSize" (by simp) ?_ ▸ entries_elements "RelativeSize" R)
    refine bal_every hR (fun n => decide (n ≠ lit "RelativeSize")) ?_
    intro n as hn
    obtain ⟨as', hn⟩ := joined_start hn
    simpa using flat_starts env _ "RelativeSize" _ _ _ (by decide +kernel) n as' hn
  have n1 : lit "FontFace" ≠ lit "RelativeSize" := by decide +kernel
  have n2 : lit "LetterWidthExpansion" ≠ lit "RelativeSize" := by decide +kernel
  have n3 : lit "LetterSpacing" ≠ lit "RelativeSize" := by decide +kernel
  refine ⟨_, _, by simp only [Forest.append, entries, if_neg n1, if_neg n2, if_neg n3, if_true, entries_append, hr, hC "RelativeSize" (by decide +kernel)]; rfl, ?_⟩
  intro l hl
  have hty : sureTy l (match Decl.LanguageStruct "RelativeSize" Decl.INT8 with | .struct _ ms => ms | _ => .nil) = some (.prim (.int .INT8)) := by
    simp only [languages, List.mem_cons, List.not_mem_nil, or_false] at hl
    rcases hl with rfl | rfl | rfl | rfl | rfl | rfl | rfl <;> rfl
  obtain ⟨acc, v, a1, a2, a3⟩ := sure_field env ⟨some ver, none⟩ l _ _ [] gs g2 (by decide +kernel) hty
  obtain ⟨n, rfl, hr'⟩ := int_of_shaped a2
  refine ⟨n, ?_, ?_⟩
  · have e : m.content.lookup "relative_size" = some (.struct gs) := by
      rw [e1, e2, e3, e4]
      simp [List.lookup]
    have f : gs.lookup l = some (.leaf (.int n)) := by rw [fieldOf_lookup]; exact a1
    simp [valueAt, e, f, leafDatum]
  · rw [← noNul_decimal]
    refine attrOf_mem ?_ ?_
    · have hs := showMembers_names env ⟨some ver, none⟩ _ [] gs g2 (by decide +kernel) (by decide +kernel)
      have hs' := List.Sublist.map (fun s : PyStr => s.map fun c => if c = 0x5F then 0x2D else c) (List.Sublist.append hs (.refl [lit "attribute-name"]))
      refine List.Sublist.nodup (l₂ := _) ?_ (show (List.map (fun s : PyStr => s.map fun c => if c = 0x5F then 0x2D else c)
        (membersAttrNames (match Decl.LanguageStruct "RelativeSize" Decl.INT8 with | .struct _ ms => ms | _ => .nil) ++ [lit "attribute-name"])).Nodup by decide +kernel)
      refine Eq.subst (motive := fun l => List.Sublist l _) ?_ hs'
      simp [hyphens, Function.comp_def]
    · rw [List.mem_map]
      refine ⟨(lit l, Spec.decimal n), ?_, rfl⟩
      simp only [hyphens, List.mem_map]
      refine ⟨(lit l, Spec.decimal n), List.mem_append_left _ (a3 _ (by simp [showTy, showPrim])), ?_⟩
      refine Prod.ext ?_ rfl
      simp only [languages, List.mem_cons, List.not_mem_nil, or_false] at hl
      rcases hl with rfl | rfl | rfl | rfl | rfl | rfl | rfl <;> (show List.map _ (lit _) = lit _; decide +kernel)

/-- The percents by the bytes of the record: those from 128 are taken for negative numbers. -/
theorem percent_read {ver : Version} {rd : ModelReader Fields} (hrd : ReadsDecls ver rd) {m : PModel Fields} (hm : ReadRecord ver rd m)
    (ht : m.type = "CharShape") (l : String) (hl : l ∈ languages) :
    ∃ p, shapePercent m l = some p ∧ p < 256 ∧ valueAt (.struct m.content) ["relative_size", l] = some (.num (if p < 128 then (p : Int) else (p : Int) - 256)) := by
  obtain ⟨rs, i, hm⟩ := hm
  have hm := List.mem_of_getElem? hm
  have size := (Props.C72_size ver rd hrd rs m hm 68 [] (by rw [ht]; decide +kernel)).1
  have z : sizeFor ver 68 [] = 68 := rfl
  rw [z] at size
  have table : ∃ fields, ("CharShape", fields) ∈ layoutTable ∧ ∀ l ∈ languages, (([] : Version), (⟨["relative_size", l], 28 + languages.idxOf l, 1, .signed⟩ : Slot)) ∈ fields := by
    refine ⟨(layoutTable.lookup "CharShape").getD [], ?_, ?_⟩ <;> decide +kernel
  obtain ⟨fields, t1, t2⟩ := table
  have := Props.C72_field_at ver rd hrd rs m hm fields (by rw [ht]; exact t1) [] _ (t2 l hl) (by cases ver <;> rfl)
  have hi : 28 + languages.idxOf l < m.record.payload.length := by
    have : ∀ l ∈ languages, languages.idxOf l < 7 := by decide
    have := this l hl
    omega
  refine ⟨(m.record.payload[28 + languages.idxOf l]).toNat, ?_, UInt8.toNat_lt _, ?_⟩
  · rw [shapePercent, List.getElem?_eq_getElem hi]; rfl
  · rw [this]
    have d : (m.record.payload.drop (28 + languages.idxOf l)).take 1 = [m.record.payload[28 + languages.idxOf l]] := by
      rw [List.drop_eq_getElem_cons hi]; rfl
    simp only [datumAt, d, number, Nat.mul_zero, Nat.add_zero]
    norm_num

theorem entry_sizes {env : XmlEnv} {ver : Version} {rd : ModelReader Fields} (hrd : ReadsDecls ver rd)
    {m : PModel Fields} {x : List (PyStr × PyStr) × Forest XNode} (h : Entry env ver rd "CharShape" m x) (l : String) (hl : l ∈ languages) :
    ∃ n p, shapeSize m = some n ∧ shapePercent m l = some p ∧ ShapeSize x l n (if p < 128 then (p : Int) else (p : Int) - 256) := by
  obtain ⟨n, n1, -, n2⟩ := record_int (D := Decl.CharShape) hrd h.read (by rw [h.type]; decide) (by rw [h.type]; rfl) (by decide +kernel) h.node
    "basesize" "basesize" _ (by decide) rfl (by decide +kernel)
  rw [noNul_decimal] at n2
  obtain ⟨fs, fk, f1, f2⟩ := shape_sizes hrd h.read h.type h.node
  obtain ⟨k, k1, k2⟩ := f2 l hl
  obtain ⟨p, p1, -, p2⟩ := percent_read hrd h.read h.type l hl
  rw [p2, Option.some.injEq, Datum.num.injEq] at k1
  subst k1
  exact ⟨n, p, n1, p1, n2, fs, fk, f1, k2⟩

end Hwp
