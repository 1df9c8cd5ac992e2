/-
What the items of a section contribute to the text.
-/
import Verif.Proofs.DocGood
import Verif.Proofs.DocXml
import Verif.Proofs.DocParts
set_option linter.unusedSimpArgs false
set_option linter.unusedVariables false
namespace Hwp
open Spec

/-- The attribute `text`. -/
def heardText (m : ModelItem) : PyStr :=
  match m.attributes.lookup "text" with
  | some (.leaf (.str s)) => s
  | _ => []

/-- Only texts have text. -/
def Heard (env : XmlEnv) (m : ModelItem) : Prop :=
  ∃ attrs kids, startModel env m = .ofList (.start (lit m.model) attrs :: kids) ∧
    if m.model = "Text" then kids = (if heardText m = [] then [] else [.text (heardText m)]) else Quieted kids

/-- Also with an id. -/
def IdHeard (env : XmlEnv) (m : ModelItem) : Prop :=
  match idNameOf m.model with
  | none => Heard env m
  | some k => ∀ n : Nat, Heard env ⟨m.model, m.attributes ++ [(k, .leaf (.int n))], m.context⟩

theorem heard_of_quiet {env : XmlEnv} {m : ModelItem} (hm : m.model ≠ "Text") (h : Quiet env m) : Heard env m := by
  obtain ⟨a, k, h1, h2⟩ := h
  exact ⟨a, k, h1, by rw [if_neg hm]; exact h2⟩

theorem idHeard_of (env : XmlEnv) (m : ModelItem) (h : idNameOf m.model = none) (hs : Heard env m) : IdHeard env m := by
  unfold IdHeard; rw [h]; exact hs

theorem model_not_text {t : String} (h : t ∈ modelNames) : t ≠ "Text" := by
  rintro rfl
  have : "Text" ∉ modelNames := by decide +kernel
  exact this h

section
variable (env : XmlEnv) (ver : Version) (rd : ModelReader Fields) (hrd : ReadsDecls ver rd) (rs : Gen Record)
include hrd

theorem record_type (i : Nat) (m : PModel Fields) (hm : (parseModels rd rs).out[i]? = some m) : m.type ∈ modelNames :=
  (Props.C68_fields ver rd hrd rs m (List.mem_of_getElem? hm)).1

theorem record_quiet (i : Nat) (m : PModel Fields) (hm : (parseModels rd rs).out[i]? = some m)
    (ht : m.type ∉ paragraphParts) (hb : m.type ≠ "BinData" ∨ "bindata" ∈ m.content.map (·.1))
    (ids : Fields) (hi : IdsFor m.type ids) : Heard env ⟨m.type, m.content ++ ids, streamCtx ver⟩ := by
  obtain ⟨parts, plain, -, -, h1, -⟩ := Props.C71_element_of_record env ver rd hrd rs i m hm ht hb ids hi
  have hty := record_type ver rd hrd rs i m hm
  exact heard_of_quiet (model_not_text hty) ⟨_, _, h1, quiet_parts env _ _ _ (chain_quiet _ hty)⟩

theorem record_heard (i : Nat) (m : PModel Fields) (hm : (parseModels rd rs).out[i]? = some m)
    (ht : m.type ∉ paragraphParts) (hb : m.type ≠ "BinData" ∨ "bindata" ∈ m.content.map (·.1)) :
    IdHeard env ⟨m.type, m.content, streamCtx ver⟩ := by
  unfold IdHeard
  dsimp only
  cases hk : idNameOf m.type with
  | none =>
    have := record_quiet env ver rd hrd rs i m hm ht hb [] ⟨by simp, by simp, by simp, by simp⟩
    simpa using this
  | some k =>
    obtain ⟨h1, h2, h3⟩ := idNameOf_fresh hk
    exact fun n => record_quiet env ver rd hrd rs i m hm ht hb _ (idsFor_one n h1 h2)

theorem sectionDef_heard (i : Nat) (m : PModel Fields) (hm : (parseModels rd rs).out[i]? = some m) (ht : m.type = "SectionDef")
    (n : Nat) : IdHeard env ⟨"SectionDef", setField "section_id" (.leaf (.int n)) m.content, streamCtx ver⟩ := by
  apply idHeard_of _ _ rfl
  have hfresh : "section_id" ∉ m.content.map (·.1) := by
    intro hmem
    obtain ⟨c, hc, hn⟩ := (Props.C68_fields ver rd hrd rs m (List.mem_of_getElem? hm)).2.2 _ hmem
    have : ∀ c ∈ memberClasses "SectionDef", "section_id" ∉ (membersOf c).names := by decide +kernel
    exact this c (ht ▸ hc) hn
  rw [setField_new _ _ _ hfresh]
  have := record_quiet env ver rd hrd rs i m hm (by rw [ht]; decide) (Or.inl (by rw [ht]; decide)) _
    (idsFor_one (k := "section_id") n (by decide) (by rw [ht]; decide))
  rw [ht] at this
  exact this

theorem tableBody_heard (i : Nat) (m : PModel Fields) (hm : (parseModels rd rs).out[i]? = some m) (ht : m.type = "TableBody") :
    IdHeard env ⟨"TableBody", m.content.filter (fun p => p.1 ≠ "rowcols"), streamCtx ver⟩ := by
  apply idHeard_of _ _ rfl
  apply heard_of_quiet (show "TableBody" ≠ "Text" by decide)
  obtain ⟨parts, plain, h1, h2, -⟩ := Props.C71_element_of_record env ver rd hrd rs i m hm (by rw [ht]; decide)
    (Or.inl (by rw [ht]; decide)) [] ⟨by simp, by simp, by simp, by simp⟩
  have hch : classChain "TableBody" = [Decl.TableBody] := rfl
  rw [ht, hch] at h1
  rcases h2 with ⟨h2, -⟩ | ⟨h2, -⟩
  · rw [h2]
    match parts, h1 with
    | [fs], h1 =>
      simpa [streamCtx] using (bare_table_both env ver fs h1.1).1
  · rw [ht] at h2
    exact absurd h2 (by decide)

theorem lineSeg_heard (i : Nat) (m : PModel Fields) (hm : (parseModels rd rs).out[i]? = some m) (ht : m.type = "ParaLineSeg")
    (k : Nat) (hk : k < (linesegsOf m.content).length) :
    IdHeard env ⟨"LineSeg", ((linesegsOf m.content)[k]?).getD [], streamCtx ver⟩ := by
  apply idHeard_of _ _ rfl
  apply heard_of_quiet (show "LineSeg" ≠ "Text" by decide)
  unfold linesegsOf at hk ⊢
  cases hl : m.content.lookup "linesegs" with
  | none => rw [hl] at hk; simp at hk
  | some v =>
    rw [hl] at hk
    obtain ⟨c, hc, t, before, h1, h2⟩ := Props.C68_value ver rd hrd rs i m hm (Or.inl (by rw [ht]; decide)) _ _ hl
    rw [ht] at hc
    have e : memberClasses "ParaLineSeg" = ["ParaLineSeg"] := by decide +kernel
    rw [e, List.mem_singleton] at hc
    subst hc
    have e2 : typesOf (membersOf "ParaLineSeg") = [("linesegs", .xArray Decl.LineSeg (.parentMember "linesegs"))] := rfl
    rw [e2, List.mem_singleton] at h1
    obtain ⟨-, rfl⟩ := Prod.mk.inj h1
    cases v with
    | list xs =>
      simp only [Shaped] at h2
      simp only [List.length_map] at hk
      simp only [List.getElem?_map, List.getElem?_eq_getElem hk, Option.map_some, Option.getD_some]
      have h3 := h2.2 xs[k] (List.getElem_mem hk)
      cases hx : xs[k] with
      | struct fs =>
        rw [hx] at h3
        exact (lineSeg_both env _ ver rfl fs (by simpa [Decl.LineSeg, Shaped] using h3)).1
      | _ => rw [hx] at h3; simp [Decl.LineSeg, Shaped] at h3
    | _ => simp [Shaped] at h2
end

theorem plain_heard (env : XmlEnv) (model : String) (attrs : Fields) (ctx : DCtx) (hc : classChain model = [])
    (hi : idNameOf model = none)
    (hm : model ≠ "Text") (hv : ValidName (lit model)) (hp : ∀ p ∈ attrs, (plainText p.2).isSome = true)
    (names : List String) (hnames : attrs.map (·.1) = names)
    (hn : ((names.map lit).map hyphen).Nodup) (hx : ∀ p ∈ names, ValidName (hyphen (lit p)))
    (ht : "<text>" ∉ names) : IdHeard env ⟨model, attrs, ctx⟩ := by
  subst hnames
  apply idHeard_of _ _ hi
  apply heard_of_quiet hm
  refine ⟨_, [], (plain_model env model attrs ctx hc hm hv hp ?_ ?_ ht).1, quieted_nil⟩
  · simpa [List.map_map, Function.comp_def] using hn
  · intro p hp
    exact hx p.1 (List.mem_map_of_mem hp)

theorem derived_heard (env : XmlEnv) (ver : Version) (rd : ModelReader Fields) (hrd : ReadsDecls ver rd) (rs : Gen Record)
    (hb : ∀ m ∈ (parseModels rd rs).out, m.type = "BinData" → "bindata" ∈ m.content.map (·.1))
    (a : Item) (h : Derived ((parseModels rd rs).out.mapIdx itemOf) a) :
    IdHeard env (concItem (parseModels rd rs).out (streamCtx ver) a) := by
  have hrec : a ∈ (parseModels rd rs).out.mapIdx itemOf → IdHeard env (concItem (parseModels rd rs).out (streamCtx ver) a) := by
    intro ha
    obtain ⟨i, m, hm, rfl⟩ := mem_items ha
    rw [concItem_itemOf hm]
    apply record_heard env ver rd hrd rs i m hm
    · intro hp
      have h1 := itemOf_parts (i := i) hp
      rw [derived_record h] at h1
      cases h1
    · by_cases e : m.type = "BinData"
      · exact Or.inr (hb m (List.mem_of_getElem? hm) e)
      · exact Or.inl e
  cases a with
  | paragraph n t => exact hrec h
  | paraText c t => exact absurd h (by simp [Derived])
  | paraCharShape c t => exact absurd h (by simp [Derived])
  | paraLineSeg c t => exact absurd h (by simp [Derived])
  | paraRangeTag t => exact absurd h (by simp [Derived])
  | sectionDef o t =>
    obtain ⟨o', h'⟩ := h
    obtain ⟨i, m, hm, e⟩ := mem_items h'
    obtain ⟨h1, -, rfl⟩ := itemOf_sectionDef e.symm
    cases o with
    | none =>
      have := record_heard env ver rd hrd rs t m hm (by rw [h1]; decide) (Or.inl (by rw [h1]; decide))
      simpa [concItem, recordItem, contentAt, hm] using this
    | some n =>
      have := sectionDef_heard env ver rd hrd rs t m hm h1 n
      simpa [concItem, recordItem, contentAt, hm] using this
  | tableBody o t =>
    obtain ⟨o', h'⟩ := h
    obtain ⟨i, m, hm, e⟩ := mem_items h'
    obtain ⟨h1, -, rfl⟩ := itemOf_tableBody e.symm
    cases o with
    | some n =>
      have := record_heard env ver rd hrd rs t m hm (by rw [h1]; decide) (Or.inl (by rw [h1]; decide))
      simpa [concItem, recordItem, contentAt, hm] using this
    | none =>
      have := tableBody_heard env ver rd hrd rs t m hm h1
      simpa [concItem, recordItem, contentAt, hm] using this
  | lineSeg l =>
    obtain ⟨o, k⟩ := l
    cases o with
    | none => exact idHeard_of _ _ rfl (heard_of_quiet (show "LineSeg" ≠ "Text" by decide) ⟨_, _, (dummy_shown env).1, quieted_nil⟩)
    | some t =>
      obtain ⟨ls, h', hk⟩ := h
      obtain ⟨i, m, hm, e⟩ := mem_items h'
      obtain ⟨h1, rfl, rfl⟩ := itemOf_paraLineSeg e.symm
      have := lineSeg_heard env ver rd hrd rs t m hm h1 k (by simpa using hk)
      simpa [concItem, recordItem, contentAt, hm] using this
  | text s sh l =>
    refine idHeard_of _ _ rfl ?_
    have := (text_shown env (streamCtx ver) s sh l).1
    cases l <;> exact ⟨_, _, this, rfl⟩
  | controlChar code kind sh =>
    simp only [concItem]
    by_cases hc : code = 0x9 ∨ code = 0xa ∨ code = 0xd
    · rw [if_pos hc]
      exact plain_heard env "ControlChar" _ _ rfl rfl (by decide) (by decide +kernel) (by simp [natAttr, strAttr, plainText])
        ["name", "code", "kind", "charshape_id", "char"] rfl (by decide +kernel) (by decide +kernel) (by decide)
    · rw [if_neg hc]
      exact plain_heard env "ControlChar" _ _ rfl rfl (by decide) (by decide +kernel) (by simp [natAttr, strAttr, plainText])
        ["name", "code", "kind", "charshape_id"] rfl (by decide +kernel) (by decide +kernel) (by decide)
  | columnSet => exact plain_heard env "ColumnSet" [] _ rfl rfl (by decide) (by decide +kernel) (by simp) [] rfl (by simp) (by simp) (by simp)
  | tableRow => exact plain_heard env "TableRow" [] _ rfl rfl (by decide) (by decide +kernel) (by simp) [] rfl (by simp) (by simp) (by simp)
  | tableCell t => exact hrec h
  | listHeader c t => exact hrec h
  | field c t => exact hrec h
  | tableControl t => exact hrec h
  | gshapeControl t => exact hrec h
  | control c t => exact hrec h
  | shapeComponent t => exact hrec h
  | other c t => exact hrec h

/-! ### The kinds of items -/

/-- The item is an element of this kind. -/
def Sounds (a : Item) (m : ModelItem) : Prop :=
  match a with
  | .text s _ _ => m.model = "Text" ∧ heardText m = s
  | .controlChar _ _ _ => m.model = "ControlChar"
  | .tableControl _ => m.model = "TableControl"
  | .gshapeControl _ => m.model = "GShapeObjectControl"
  | .paragraph _ _ => m.model = "Paragraph"
  | _ => m.model ∉ ["Paragraph", "Text", "ControlChar", "TableControl", "GShapeObjectControl"]

theorem record_sounds (i : Nat) (m : PModel Fields) (ctx : DCtx) (hm : m.type ∈ modelNames) :
    Sounds (itemOf i m) ⟨m.type, m.content, ctx⟩ := by
  have h1 : m.type ≠ "Text" := model_not_text hm
  have h2 : m.type ≠ "ControlChar" := by
    intro h
    rw [h] at hm
    have : "ControlChar" ∉ modelNames := by decide +kernel
    exact this hm
  have hr : (∀ n ∈ ["Paragraph", "ParaText", "ParaCharShape", "ParaLineSeg", "ParaRangeTag", "SectionDef", "TableBody", "TableCell", "TableControl", "GShapeObjectControl", "ShapeComponent"], m.type ≠ n) →
      m.type ∉ ["Paragraph", "Text", "ControlChar", "TableControl", "GShapeObjectControl"] := by
    intro h hx
    simp only [List.mem_cons, List.not_mem_nil, or_false] at hx
    rcases hx with hx | hx | hx | hx | hx
    · exact h "Paragraph" (by simp) hx
    · exact h1 hx
    · exact h2 hx
    · exact h "TableControl" (by simp) hx
    · exact h "GShapeObjectControl" (by simp) hx
  refine itemOf_cases i m (fun a => Sounds a ⟨m.type, m.content, ctx⟩) (fun e => e) ?_ ?_ ?_ ?_ ?_ ?_ ?_ (fun e => e) (fun e => e) ?_
    (fun h => ⟨fun _ => hr h, fun _ => hr h, fun _ => hr h, fun _ => hr h⟩)
  all_goals
    intro e
    simp only [Sounds, e]
    decide

theorem derived_sounds (ver : Version) (rd : ModelReader Fields) (hrd : ReadsDecls ver rd) (rs : Gen Record) (ctx : DCtx)
    (a : Item) (h : Derived ((parseModels rd rs).out.mapIdx itemOf) a) :
    Sounds a (concItem (parseModels rd rs).out ctx a) := by
  have hrec : a ∈ (parseModels rd rs).out.mapIdx itemOf → Sounds a (concItem (parseModels rd rs).out ctx a) := by
    intro ha
    obtain ⟨i, m, hm, rfl⟩ := mem_items ha
    rw [concItem_itemOf hm]
    exact record_sounds i m ctx (record_type ver rd hrd rs i m hm)
  cases a with
  | sectionDef o t =>
    obtain ⟨o', h'⟩ := h
    obtain ⟨i, m, hm, e⟩ := mem_items h'
    obtain ⟨h1, -, rfl⟩ := itemOf_sectionDef e.symm
    cases o <;> simp [Sounds, concItem, recordItem, contentAt, hm, h1]
  | tableBody o t =>
    obtain ⟨o', h'⟩ := h
    obtain ⟨i, m, hm, e⟩ := mem_items h'
    obtain ⟨h1, -, rfl⟩ := itemOf_tableBody e.symm
    cases o <;> simp [Sounds, concItem, recordItem, contentAt, hm, h1]
  | lineSeg l =>
    obtain ⟨o, k⟩ := l
    cases o <;> simp [Sounds, concItem]
  | text s sh l => cases l <;> exact ⟨rfl, rfl⟩
  | controlChar code kind sh => exact rfl
  | columnSet => simp [Sounds, concItem]
  | tableRow => simp [Sounds, concItem]
  | paraText c t => exact absurd h (by simp [Derived])
  | paraCharShape c t => exact absurd h (by simp [Derived])
  | paraLineSeg c t => exact absurd h (by simp [Derived])
  | paraRangeTag t => exact absurd h (by simp [Derived])
  | paragraph n t => exact hrec h
  | tableCell t => exact hrec h
  | listHeader c t => exact hrec h
  | field c t => exact hrec h
  | tableControl t => exact hrec h
  | gshapeControl t => exact hrec h
  | control c t => exact hrec h
  | shapeComponent t => exact hrec h
  | other c t => exact hrec h

end Hwp
