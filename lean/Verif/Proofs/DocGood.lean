/- Proofs: all items of a stream are shown as elements. -/
import Verif.Proofs.DocRecords
import Verif.Proofs.DocItems
set_option linter.unusedSimpArgs false
set_option linter.unusedVariables false
namespace Hwp
open Spec

/-- The item is shown as an element, also when it has got its id. -/
def IdShows (env : XmlEnv) (m : ModelItem) : Prop :=
  match idNameOf m.model with
  | none => Shows env m
  | some k => k ∉ m.attributes.map (·.1) ∧
      ∀ n : Nat, Shows env ⟨m.model, m.attributes ++ [(k, .leaf (.int n))], m.context⟩

theorem good_of_shows (env : XmlEnv) (m : ModelItem) (h : idNameOf m.model = none) (hs : Shows env m) : IdShows env m := by
  unfold IdShows; rw [h]; exact hs

theorem idNameOf_some {t k : String} (h : idNameOf t = some k) :
    (t = "Paragraph" ∧ k = "paragraph_id") ∨ (t = "TableControl" ∧ k = "table_id") ∨
    (t = "GShapeObjectControl" ∧ k = "gshape_id") ∨ (t = "ShapeComponent" ∧ k = "shape_id") := by
  unfold idNameOf at h
  split at h <;> simp_all

theorem idNameOf_fresh {t k : String} (h : idNameOf t = some k) :
    k ∈ idNames ∧ t ≠ "DocumentProperties" ∧ ∀ c ∈ memberClasses t, k ∉ (membersOf c).names := by
  rcases idNameOf_some h with ⟨rfl, rfl⟩ | ⟨rfl, rfl⟩ | ⟨rfl, rfl⟩ | ⟨rfl, rfl⟩ <;> decide +kernel

theorem idsFor_one {t k : String} (n : Nat) (hk : k ∈ idNames) (ht : t ≠ "DocumentProperties") :
    IdsFor t [(k, .leaf (.int n))] :=
  ⟨by simpa using hk, by simp, by simp [plainText], fun h => absurd h ht⟩

section
variable (env : XmlEnv) (ver : Version) (rd : ModelReader Fields) (hrd : ReadsDecls ver rd) (rs : Gen Record)
include hrd

theorem record_shows (i : Nat) (m : PModel Fields) (hm : (parseModels rd rs).out[i]? = some m)
    (ht : m.type ∉ paragraphParts) (hb : m.type ≠ "BinData" ∨ "bindata" ∈ m.content.map (·.1))
    (ids : Fields) (hi : IdsFor m.type ids) : Shows env ⟨m.type, m.content ++ ids, streamCtx ver⟩ := by
  obtain ⟨parts, plain, -, -, h1, h2, h3, h4⟩ := Props.C71_element_of_record env ver rd hrd rs i m hm ht hb ids hi
  exact ⟨_, _, h1, h2, h3, h4⟩

theorem record_good (i : Nat) (m : PModel Fields) (hm : (parseModels rd rs).out[i]? = some m)
    (ht : m.type ∉ paragraphParts) (hb : m.type ≠ "BinData" ∨ "bindata" ∈ m.content.map (·.1)) :
    IdShows env ⟨m.type, m.content, streamCtx ver⟩ := by
  unfold IdShows
  dsimp only
  cases hk : idNameOf m.type with
  | none =>
    have := record_shows env ver rd hrd rs i m hm ht hb [] ⟨by simp, by simp, by simp, by simp⟩
    simpa using this
  | some k =>
    obtain ⟨h1, h2, h3⟩ := idNameOf_fresh hk
    refine ⟨?_, fun n => record_shows env ver rd hrd rs i m hm ht hb _ (idsFor_one n h1 h2)⟩
    intro hmem
    obtain ⟨c, hc, hn⟩ := (Props.C68_fields ver rd hrd rs m (List.mem_of_getElem? hm)).2.2 k hmem
    exact h3 c hc hn

theorem sectionDef_good (i : Nat) (m : PModel Fields) (hm : (parseModels rd rs).out[i]? = some m) (ht : m.type = "SectionDef")
    (n : Nat) : IdShows env ⟨"SectionDef", setField "section_id" (.leaf (.int n)) m.content, streamCtx ver⟩ := by
  apply good_of_shows _ _ rfl
  have hfresh : "section_id" ∉ m.content.map (·.1) := by
    intro hmem
    obtain ⟨c, hc, hn⟩ := (Props.C68_fields ver rd hrd rs m (List.mem_of_getElem? hm)).2.2 _ hmem
    have : ∀ c ∈ memberClasses "SectionDef", "section_id" ∉ (membersOf c).names := by decide +kernel
    exact this c (ht ▸ hc) hn
  rw [setField_new _ _ _ hfresh]
  have := record_shows env ver rd hrd rs i m hm (by rw [ht]; decide) (Or.inl (by rw [ht]; decide)) _
    (idsFor_one (k := "section_id") n (by decide) (by rw [ht]; decide))
  rw [ht] at this
  exact this

theorem tableBody_good (i : Nat) (m : PModel Fields) (hm : (parseModels rd rs).out[i]? = some m) (ht : m.type = "TableBody") :
    IdShows env ⟨"TableBody", m.content.filter (fun p => p.1 ≠ "rowcols"), streamCtx ver⟩ := by
  apply good_of_shows _ _ rfl
  obtain ⟨parts, plain, h1, h2, -⟩ := Props.C71_element_of_record env ver rd hrd rs i m hm (by rw [ht]; decide)
    (Or.inl (by rw [ht]; decide)) [] ⟨by simp, by simp, by simp, by simp⟩
  have hch : classChain "TableBody" = [Decl.TableBody] := rfl
  rw [ht, hch] at h1
  rcases h2 with ⟨h2, -⟩ | ⟨h2, -⟩
  · rw [h2]
    match parts, h1 with
    | [fs], h1 =>
      simpa [streamCtx] using bare_table_shown env ver fs h1.1
  · rw [ht] at h2
    exact absurd h2 (by decide)

theorem lineSeg_good (i : Nat) (m : PModel Fields) (hm : (parseModels rd rs).out[i]? = some m) (ht : m.type = "ParaLineSeg")
    (k : Nat) (hk : k < (linesegsOf m.content).length) :
    IdShows env ⟨"LineSeg", ((linesegsOf m.content)[k]?).getD [], streamCtx ver⟩ := by
  apply good_of_shows _ _ rfl
  unfold linesegsOf at hk ⊢
  cases hl : m.content.lookup "linesegs" with
  | none => rw [hl] at hk; simp at hk
  | some v =>
    rw [hl] at hk
    obtain ⟨c, hc, t, before, h1, h2⟩ := Props.C68_value ver rd hrd rs i m hm (Or.inl (by rw [ht]; decide)) _ _ hl
    rw [ht] at hc
    have e : memberClasses "ParaLineSeg" = ["ParaLineSeg"] := by decide +kernel
    rw [e, List.mem_singleton] at hc
    subst hc
    have e2 : typesOf (membersOf "ParaLineSeg") = [("linesegs", .xArray Decl.LineSeg (.parentMember "linesegs"))] := rfl
    rw [e2, List.mem_singleton] at h1
    obtain ⟨-, rfl⟩ := Prod.mk.inj h1
    cases v with
    | list xs =>
      simp only [Shaped] at h2
      simp only [List.length_map] at hk
      simp only [List.getElem?_map, List.getElem?_eq_getElem hk, Option.map_some, Option.getD_some]
      have h3 := h2.2 xs[k] (List.getElem_mem hk)
      cases hx : xs[k] with
      | struct fs =>
        rw [hx] at h3
        exact lineSeg_shown env _ ver rfl fs (by simpa [Decl.LineSeg, Shaped] using h3)
      | _ => rw [hx] at h3; simp [Decl.LineSeg, Shaped] at h3
    | _ => simp [Shaped] at h2
end

/-! ### Items -/

/-- The model with this number. -/
theorem mem_items {ms : List (PModel Fields)} {a : Item} (h : a ∈ ms.mapIdx itemOf) :
    ∃ i m, ms[i]? = some m ∧ a = itemOf i m := by
  obtain ⟨i, hi, e⟩ := List.mem_mapIdx.1 h
  exact ⟨i, ms[i], List.getElem?_eq_getElem hi, e.symm⟩

theorem itemOf_cases (i : Nat) (m : PModel Fields) (P : Item → Prop)
    (h0 : m.type = "Paragraph" → P (.paragraph (newColumnsOf m.content) i))
    (h1 : m.type = "ParaText" → P (.paraText (chunksOf m.content) i))
    (h2 : m.type = "ParaCharShape" → P (.paraCharShape (charshapesOf m.content) i))
    (h3 : m.type = "ParaLineSeg" → P (.paraLineSeg ((linesegsOf m.content).map chposOf) i))
    (h4 : m.type = "ParaRangeTag" → P (.paraRangeTag i))
    (h5 : m.type = "SectionDef" → P (.sectionDef none i))
    (h6 : m.type = "TableBody" → P (.tableBody (some (rowcolsOf m.content)) i))
    (h7 : m.type = "TableCell" → P (.tableCell i))
    (h8 : m.type = "TableControl" → P (.tableControl i))
    (h9 : m.type = "GShapeObjectControl" → P (.gshapeControl i))
    (h10 : m.type = "ShapeComponent" → P (.shapeComponent i))
    (hr : (∀ n ∈ ["Paragraph", "ParaText", "ParaCharShape", "ParaLineSeg", "ParaRangeTag", "SectionDef", "TableBody", "TableCell", "TableControl", "GShapeObjectControl", "ShapeComponent"], m.type ≠ n) →
      (∀ c, P (.listHeader c i)) ∧ (∀ c, P (.field c i)) ∧ (∀ c, P (.control c i)) ∧ ∀ c, P (.other c i)) :
    P (itemOf i m) := by
  unfold itemOf
  dsimp only
  by_cases g0 : m.type = "Paragraph"
  · rw [if_pos g0]; exact h0 g0
  rw [if_neg g0]
  by_cases g1 : m.type = "ParaText"
  · rw [if_pos g1]; exact h1 g1
  rw [if_neg g1]
  by_cases g2 : m.type = "ParaCharShape"
  · rw [if_pos g2]; exact h2 g2
  rw [if_neg g2]
  by_cases g3 : m.type = "ParaLineSeg"
  · rw [if_pos g3]; exact h3 g3
  rw [if_neg g3]
  by_cases g4 : m.type = "ParaRangeTag"
  · rw [if_pos g4]; exact h4 g4
  rw [if_neg g4]
  by_cases g5 : m.type = "SectionDef"
  · rw [if_pos g5]; exact h5 g5
  rw [if_neg g5]
  by_cases g6 : m.type = "TableBody"
  · rw [if_pos g6]; exact h6 g6
  rw [if_neg g6]
  by_cases g7 : m.type = "TableCell"
  · rw [if_pos g7]; exact h7 g7
  rw [if_neg g7]
  by_cases g8 : m.type = "TableControl"
  · rw [if_pos g8]; exact h8 g8
  rw [if_neg g8]
  by_cases g9 : m.type = "GShapeObjectControl"
  · rw [if_pos g9]; exact h9 g9
  rw [if_neg g9]
  by_cases g10 : m.type = "ShapeComponent"
  · rw [if_pos g10]; exact h10 g10
  rw [if_neg g10]
  have hr' := hr (by
    intro n hn e
    simp only [List.mem_cons, List.not_mem_nil, or_false] at hn
    rcases hn with rfl | rfl | rfl | rfl | rfl | rfl | rfl | rfl | rfl | rfl | rfl <;> contradiction)
  by_cases l : isSubclass m.type "ListHeader" = true
  · rw [if_pos l]; exact hr'.1 _
  rw [if_neg l]
  by_cases l : isSubclass m.type "Field" = true
  · rw [if_pos l]; exact hr'.2.1 _
  rw [if_neg l]
  by_cases l : isSubclass m.type "Control" = true
  · rw [if_pos l]; exact hr'.2.2.1 _
  rw [if_neg l]; exact hr'.2.2.2 _

theorem itemOf_sectionDef {i : Nat} {m : PModel Fields} {o t} (h : itemOf i m = .sectionDef o t) :
    m.type = "SectionDef" ∧ o = none ∧ t = i := by
  exact itemOf_cases i m (fun a => a = .sectionDef o t → m.type = "SectionDef" ∧ o = none ∧ t = i)
    (fun _ h => by cases h)
    (fun _ h => by cases h)
    (fun _ h => by cases h)
    (fun _ h => by cases h)
    (fun _ h => by cases h)
    (fun e h => by cases h; exact ⟨e, rfl, rfl⟩)
    (fun _ h => by cases h)
    (fun _ h => by cases h)
    (fun _ h => by cases h)
    (fun _ h => by cases h)
    (fun _ h => by cases h)
    (fun _ => ⟨fun _ h => (by cases h), fun _ h => (by cases h), fun _ h => (by cases h), fun _ h => (by cases h)⟩) h

theorem itemOf_tableBody {i : Nat} {m : PModel Fields} {o t} (h : itemOf i m = .tableBody o t) :
    m.type = "TableBody" ∧ o = some (rowcolsOf m.content) ∧ t = i := by
  exact itemOf_cases i m (fun a => a = .tableBody o t → m.type = "TableBody" ∧ o = some (rowcolsOf m.content) ∧ t = i)
    (fun _ h => by cases h)
    (fun _ h => by cases h)
    (fun _ h => by cases h)
    (fun _ h => by cases h)
    (fun _ h => by cases h)
    (fun _ h => by cases h)
    (fun e h => by cases h; exact ⟨e, rfl, rfl⟩)
    (fun _ h => by cases h)
    (fun _ h => by cases h)
    (fun _ h => by cases h)
    (fun _ h => by cases h)
    (fun _ => ⟨fun _ h => (by cases h), fun _ h => (by cases h), fun _ h => (by cases h), fun _ h => (by cases h)⟩) h

theorem itemOf_paraLineSeg {i : Nat} {m : PModel Fields} {ls t} (h : itemOf i m = .paraLineSeg ls t) :
    m.type = "ParaLineSeg" ∧ ls = (linesegsOf m.content).map chposOf ∧ t = i := by
  exact itemOf_cases i m (fun a => a = .paraLineSeg ls t → m.type = "ParaLineSeg" ∧ ls = (linesegsOf m.content).map chposOf ∧ t = i)
    (fun _ h => by cases h)
    (fun _ h => by cases h)
    (fun _ h => by cases h)
    (fun e h => by cases h; exact ⟨e, rfl, rfl⟩)
    (fun _ h => by cases h)
    (fun _ h => by cases h)
    (fun _ h => by cases h)
    (fun _ h => by cases h)
    (fun _ h => by cases h)
    (fun _ h => by cases h)
    (fun _ h => by cases h)
    (fun _ => ⟨fun _ h => (by cases h), fun _ h => (by cases h), fun _ h => (by cases h), fun _ h => (by cases h)⟩) h

/-- The item of a model stands for it. -/
theorem concItem_itemOf {ms : List (PModel Fields)} {i : Nat} {m : PModel Fields} (h : ms[i]? = some m) (ctx : DCtx) :
    concItem ms ctx (itemOf i m) = ⟨m.type, m.content, ctx⟩ := by
  have hr : recordItem ms ctx i = ⟨m.type, m.content, ctx⟩ := by
    simp [recordItem, contentAt, h]
  exact itemOf_cases i m (fun a => concItem ms ctx a = _) (fun _ => hr) (fun _ => hr) (fun _ => hr) (fun _ => hr) (fun _ => hr) (fun _ => hr) (fun _ => hr) (fun _ => hr) (fun _ => hr) (fun _ => hr) (fun _ => hr)
    (fun _ => ⟨fun _ => hr, fun _ => hr, fun _ => hr, fun _ => hr⟩)

theorem itemOf_parts {i : Nat} {m : PModel Fields} (h : m.type ∈ paragraphParts) : isTextRecord (itemOf i m) = true := by
  simp only [paragraphParts, List.mem_cons, List.not_mem_nil, or_false] at h
  unfold itemOf
  rcases h with h | h | h <;> simp [h, isTextRecord]

theorem derived_record {I : List Item} {a : Item} (h : Derived I a) :
    isTextRecord a = false := by
  cases a <;> first | rfl | (simp [Derived] at h)

theorem plain_good (env : XmlEnv) (model : String) (attrs : Fields) (ctx : DCtx) (hc : classChain model = [])
    (hi : idNameOf model = none)
    (hm : model ≠ "Text") (hv : ValidName (lit model)) (hp : ∀ p ∈ attrs, (plainText p.2).isSome = true)
    (names : List String) (hnames : attrs.map (·.1) = names)
    (hn : ((names.map lit).map hyphen).Nodup) (hx : ∀ p ∈ names, ValidName (hyphen (lit p)))
    (ht : "<text>" ∉ names) : IdShows env ⟨model, attrs, ctx⟩ := by
  subst hnames
  apply good_of_shows _ _ hi
  refine (plain_model env model attrs ctx hc hm hv hp ?_ ?_ ht).2
  · simpa [List.map_map, Function.comp_def] using hn
  · intro p hp
    exact hx p.1 (List.mem_map_of_mem hp)

theorem derived_good (env : XmlEnv) (ver : Version) (rd : ModelReader Fields) (hrd : ReadsDecls ver rd) (rs : Gen Record)
    (hb : ∀ m ∈ (parseModels rd rs).out, m.type = "BinData" → "bindata" ∈ m.content.map (·.1))
    (a : Item) (h : Derived ((parseModels rd rs).out.mapIdx itemOf) a) :
    IdShows env (concItem (parseModels rd rs).out (streamCtx ver) a) := by
  have hrec : a ∈ (parseModels rd rs).out.mapIdx itemOf → IdShows env (concItem (parseModels rd rs).out (streamCtx ver) a) := by
    intro ha
    obtain ⟨i, m, hm, rfl⟩ := mem_items ha
    rw [concItem_itemOf hm]
    apply record_good env ver rd hrd rs i m hm
    · intro hp
      have h1 := itemOf_parts (i := i) hp
      rw [derived_record h] at h1
      cases h1
    · by_cases e : m.type = "BinData"
      · exact Or.inr (hb m (List.mem_of_getElem? hm) e)
      · exact Or.inl e
  cases a with
  | paragraph n t => exact hrec h
  | paraText c t => exact absurd h (by simp [Derived])
  | paraCharShape c t => exact absurd h (by simp [Derived])
  | paraLineSeg c t => exact absurd h (by simp [Derived])
  | paraRangeTag t => exact absurd h (by simp [Derived])
  | sectionDef o t =>
    obtain ⟨o', h'⟩ := h
    obtain ⟨i, m, hm, e⟩ := mem_items h'
    obtain ⟨h1, -, rfl⟩ := itemOf_sectionDef e.symm
    cases o with
    | none => 
      have := record_good env ver rd hrd rs t m hm (by rw [h1]; decide) (Or.inl (by rw [h1]; decide))
      simpa [concItem, recordItem, contentAt, hm] using this
    | some n =>
      have := sectionDef_good env ver rd hrd rs t m hm h1 n
      simpa [concItem, recordItem, contentAt, hm] using this
  | tableBody o t =>
    obtain ⟨o', h'⟩ := h
    obtain ⟨i, m, hm, e⟩ := mem_items h'
    obtain ⟨h1, -, rfl⟩ := itemOf_tableBody e.symm
    cases o with
    | some n => 
      have := record_good env ver rd hrd rs t m hm (by rw [h1]; decide) (Or.inl (by rw [h1]; decide))
      simpa [concItem, recordItem, contentAt, hm] using this
    | none =>
      have := tableBody_good env ver rd hrd rs t m hm h1
      simpa [concItem, recordItem, contentAt, hm] using this
  | lineSeg l =>
    obtain ⟨o, k⟩ := l
    cases o with
    | none => exact good_of_shows _ _ rfl (dummy_shown env).2
    | some t =>
      obtain ⟨ls, h', hk⟩ := h
      obtain ⟨i, m, hm, e⟩ := mem_items h'
      obtain ⟨h1, rfl, rfl⟩ := itemOf_paraLineSeg e.symm
      have := lineSeg_good env ver rd hrd rs t m hm h1 k (by simpa using hk)
      simpa [concItem, recordItem, contentAt, hm] using this
  | text s sh l =>
    refine good_of_shows _ _ rfl ?_
    have := (text_shown env (streamCtx ver) s sh l).2
    cases l <;> exact this
  | controlChar code kind sh =>
    simp only [concItem]
    by_cases hc : code = 0x9 ∨ code = 0xa ∨ code = 0xd
    · rw [if_pos hc]
      exact plain_good env "ControlChar" _ _ rfl rfl (by decide) (by decide +kernel) (by simp [natAttr, strAttr, plainText])
        ["name", "code", "kind", "charshape_id", "char"] rfl (by decide +kernel) (by decide +kernel) (by decide)
    · rw [if_neg hc]
      exact plain_good env "ControlChar" _ _ rfl rfl (by decide) (by decide +kernel) (by simp [natAttr, strAttr, plainText])
        ["name", "code", "kind", "charshape_id"] rfl (by decide +kernel) (by decide +kernel) (by decide)
  | columnSet => exact plain_good env "ColumnSet" [] _ rfl rfl (by decide) (by decide +kernel) (by simp) [] rfl (by simp) (by simp) (by simp)
  | tableRow => exact plain_good env "TableRow" [] _ rfl rfl (by decide) (by decide +kernel) (by simp) [] rfl (by simp) (by simp) (by simp)
  | tableCell t => exact hrec h
  | listHeader c t => exact hrec h
  | field c t => exact hrec h
  | tableControl t => exact hrec h
  | gshapeControl t => exact hrec h
  | control c t => exact hrec h
  | shapeComponent t => exact hrec h
  | other c t => exact hrec h

end Hwp
