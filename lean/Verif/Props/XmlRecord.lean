/- C67, C71: the XML elements of records. -/
import Verif.Proofs.XmlModel
import Verif.Props.DeclReader
set_option linter.unusedVariables false
namespace Hwp.Props
open Hwp Spec
set_option autoImplicit false

/-! ### C67 -/

/-- C67: the element of a record shows its fields: the attributes and elements of the
fields in the order of declaration, then the ids. -/
theorem C67_record_element (env : XmlEnv) (ctx : DCtx) (ver : Version) (hv : ctx.version = some ver) (type : String)
    (ht : type ∈ modelNames) (parts : List Fields) (hp : PartsOf ctx (classChain type) parts) (ids : Fields)
    (hi : IdsFor type ids) :
    startModel env ⟨type, parts.flatten ++ ids, ctx⟩ = .ofList (.start (lit type)
      (hyphens ((showParts env ctx (classChain type) parts).1 ++ showPlain ids)) ::
      (showParts env ctx (classChain type) parts).2) :=
  model_shown env ctx ver hv type ht parts hp ids hi

/-- C67: in such an element all names are valid, no two attributes have the same name, and
the elements of the fields are complete. -/
theorem C67_well_formed (env : XmlEnv) (ctx : DCtx) (ver : Version) (hv : ctx.version = some ver) (type : String)
    (ht : type ∈ modelNames) (parts : List Fields) (hp : PartsOf ctx (classChain type) parts) (ids : Fields)
    (hi : IdsFor type ids) :
    ∃ attrs kids, startModel env ⟨type, parts.flatten ++ ids, ctx⟩ = .ofList (.start (lit type) attrs :: kids) ∧
      ValidName (lit type) ∧ (attrs.map (·.1)).Nodup ∧ (∀ a ∈ attrs, ValidName a.1) ∧
      (∀ e ∈ kids, NamesOk e) ∧
      ∀ inner, Kids inner → Kids (.start (lit type) attrs :: (kids ++ inner) ++ [.stop (lit type)]) := by
  obtain ⟨⟨h1, h2, h3⟩, h4, h5⟩ := shown_neat env ctx type ht parts hp ids hi
  refine ⟨_, _, model_shown env ctx ver hv type ht parts hp ids hi, h1, h2, h3, h5, ?_⟩
  intro inner hin top st r hr
  simp only [List.cons_append, List.append_assoc, List.nil_append, Inside]
  apply h4
  apply hin
  simp only [Inside]
  exact ⟨trivial, hr⟩

/-- C67: every declared member of every model is shown: its attributes have names no other
member of the model has. -/
theorem C67_names_distinct (type : String) (ht : type ∈ modelNames) :
    ((chainAttrNames (classChain type)).map hyphen).Nodup ∧
    ∀ n ∈ chainAttrNames (classChain type), ValidName (hyphen n) := by
  refine ⟨?_, chain_attr_valid _ (chain_named type ht)⟩
  by_cases hd : type = "DocumentProperties"
  · subst hd; exact docprops_distinct
  · have := chain_attrs_distinct type ht hd
    rw [List.map_append] at this
    exact (List.nodup_append.1 this).1

theorem C67_models : modelNames.length = 109 ∧ modelNames.Nodup := by decide +kernel

/-- An environment for the examples: objects are shown as in Python, other values that the
model does not show as `?`. -/
def sampleEnv : XmlEnv where
  leafRepr
    | .inst c => lit "<hwp5.dataio." ++ lit c ++ lit " object at 0x7f00>"
    | _ => lit "?"
  typeName _ := lit "?"

/-- Texts of lists and tuples of numbers, and of a bullet. -/
example : reprOf sampleEnv (.list [.leaf (.int 1), .leaf (.int (-2))]) = lit "[1, -2]" ∧
    reprOf sampleEnv (.tuple [.leaf (.int 1), .leaf (.int 20), .leaf (.int 3)]) = lit "(1, 20, 3)" ∧
    reprOf sampleEnv (.tuple [.leaf (.int 7)]) = lit "(7,)" ∧
    showPrim sampleEnv (.int .WCHAR) (.int 0xF06C) = [0x25CF] := by decide +kernel

/-- C67 fails for binary data whose storage type is none of the three known ones: the
missing member is shown as the text of a Python object, which names a memory address. -/
theorem C67_unknown_storage :
    (directRead [5, 0, 1, 7] none "BinData" [3, 0] = .ok ([("flags", .leaf (.flags Decl.BinDataFlags 3))], [])) ∧
    startModel sampleEnv ⟨"BinData", [("flags", .leaf (.flags Decl.BinDataFlags 3))], ⟨some [5, 0, 1, 7], none⟩⟩ =
      .ofList [.start (lit "BinData") [(lit "flags", lit "0003"), (lit "storage", lit "3"),
        (lit "compression", lit "storage_default"), (lit "access", lit "never"),
        (lit "bindata", lit "<hwp5.dataio.Struct object at 0x7f00>")]] := by
  constructor
  · rfl
  · decide +kernel

example : startModel sampleEnv ⟨"Control", [("chid", .leaf (.chid (asciiBytes "abcd"))), ("shape_id", .leaf (.int 3))],
      ⟨some [5, 0, 1, 7], none⟩⟩ =
    .ofList [.start (lit "Control") [(lit "chid", lit "abcd"), (lit "shape-id", lit "3")]] := by decide +kernel

example : startModel sampleEnv ⟨"TextboxParagraphList",
      [("paragraphs", .leaf (.int 1)), ("unknown1", .leaf (.int 0)), ("listflags", .leaf (.flags Decl.ListHeaderFlags 0x200041)),
       ("padding", .struct [("left", .leaf (.int 1)), ("right", .leaf (.int 2)), ("top", .leaf (.int 3)), ("bottom", .leaf (.int 4))]),
       ("maxwidth", .leaf (.int 900))], ⟨some [5, 0, 1, 7], none⟩⟩ =
    .ofList [.start (lit "TextboxParagraphList") [(lit "paragraphs", lit "1"), (lit "unknown1", lit "0"),
      (lit "listflags", lit "00200041"), (lit "textdirection", lit "1"), (lit "linebreak", lit "0"),
      (lit "valign", lit "bottom"), (lit "padding-left", lit "1"), (lit "padding-right", lit "2"),
      (lit "padding-top", lit "3"), (lit "padding-bottom", lit "4"), (lit "maxwidth", lit "900")]] := by decide +kernel

/-! ### C71 -/

/-- C71: from the payload to the element: the element of a parsed record shows the fields
that were read.  `chid0` of a shape component in a group comes last. -/
theorem C71_element_of_record (env : XmlEnv) (ver : Version) (rd : ModelReader Fields) (hrd : ReadsDecls ver rd)
    (rs : Gen Record) (i : Nat) (m : PModel Fields) (hm : (parseModels rd rs).out[i]? = some m)
    (ht : m.type ∉ paragraphParts) (hb : m.type ≠ "BinData" ∨ "bindata" ∈ m.content.map (·.1))
    (ids : Fields) (hi : IdsFor m.type ids) :
    ∃ parts plain, PartsOf ⟨some ver, none⟩ (classChain m.type) parts ∧
      ((m.content = parts.flatten ∧ plain = []) ∨
        (m.type = "ShapeComponent" ∧ m.content = plain ++ parts.flatten ∧
          ∃ b, b.length = 4 ∧ plain = [("chid0", .leaf (.chid b))])) ∧
      startModel env ⟨m.type, m.content ++ ids, ⟨some ver, none⟩⟩ = .ofList (.start (lit m.type)
        (hyphens ((showParts env ⟨some ver, none⟩ (classChain m.type) parts).1 ++ showPlain (plain ++ ids))) ::
        (showParts env ⟨some ver, none⟩ (classChain m.type) parts).2) ∧
      NamesOk (.start (lit m.type)
        (hyphens ((showParts env ⟨some ver, none⟩ (classChain m.type) parts).1 ++ showPlain (plain ++ ids)))) ∧
      Kids (showParts env ⟨some ver, none⟩ (classChain m.type) parts).2 ∧
      ∀ e ∈ (showParts env ⟨some ver, none⟩ (classChain m.type) parts).2, NamesOk e := by
  obtain ⟨parts0, h1, h2⟩ := C68_content ver rd hrd rs i m hm hb
  have htm := (C68_fields ver rd hrd rs m (List.mem_of_getElem? hm)).1
  by_cases hs : m.type = "ShapeComponent"
  · have e : memberClasses m.type = ["ShapeComponent"] := by rw [hs]; decide +kernel
    rw [e] at h2
    obtain ⟨fs, rfl⟩ : ∃ fs, parts0 = [fs] := by
      cases parts0 with
      | nil => simp [PartsOf] at h2
      | cons a as =>
        cases as with
        | nil => exact ⟨a, rfl⟩
        | cons b bs => simp [PartsOf] at h2
    simp only [List.map_cons, List.map_nil, PartsOf, and_true] at h2
    simp only [List.flatten_cons, List.flatten_nil, List.append_nil] at h1
    obtain ⟨fs', h3, h4⟩ := shape_indep h2
    have hpo : PartsOf ⟨some ver, none⟩ (classChain m.type) [fs'] := by
      obtain ⟨rest, hch, hmo, -⟩ := shape_chain
      rw [hs, hch, ← hmo]
      simp only [PartsOf, and_true]
      exact h3
    obtain ⟨h5, h6, h7⟩ := shown_neat env ⟨some ver, none⟩ m.type htm [fs'] hpo ids hi
    rcases h4 with rfl | ⟨b, hb4, rfl⟩
    · refine ⟨[fs], [], hpo, Or.inl ⟨by simp [h1], rfl⟩, ?_, h5, h6, h7⟩
      have := model_shown env ⟨some ver, none⟩ ver rfl m.type htm [fs] hpo ids hi
      simpa [h1] using this
    · refine ⟨[fs'], [("chid0", .leaf (.chid b))], hpo, Or.inr ⟨hs, by simp [h1], b, hb4, rfl⟩, ?_, ?_, h6, h7⟩
      · have := (shape_shown env ver fs' b h3 ids (hs ▸ hi)).1
        rw [h1, hs]
        exact this
      · have := (shape_shown env ver fs' b h3 ids (hs ▸ hi)).2
        rw [hs]
        exact this
  · have h3 := parts_indep (ctx := ⟨some ver, some (parentOf rs.out (parseModels rd rs).out i)⟩) (ctx' := ⟨some ver, none⟩) rfl _ _ (by
      intro ms hms
      obtain ⟨c, hc, rfl⟩ := List.mem_map.1 hms
      exact indep_parts m.type htm ht hs c hc) h2
    obtain ⟨parts, h4, h5⟩ := parts_declared _ _ h3
    rw [← chain_classes m.type htm] at h5
    obtain ⟨h6, h7, h8⟩ := shown_neat env ⟨some ver, none⟩ m.type htm parts h5 ids hi
    refine ⟨parts, [], h5, Or.inl ⟨by rw [h1, h4], rfl⟩, ?_, h6, h7, h8⟩
    have := model_shown env ⟨some ver, none⟩ ver rfl m.type htm parts h5 ids hi
    rw [h1, ← h4]
    exact this

/-- From the record of a curve with two points. -/
example : (((parseModels (directReader [5, 0, 1, 7]) (.ofList [⟨83, 0, 18, [2, 0, 1, 0, 0, 0, 2, 0, 0, 0, 3, 0, 0, 0, 255, 255, 255, 255], 0⟩])).out.map
      fun m => startModel sampleEnv ⟨m.type, m.content, ⟨some [5, 0, 1, 7], none⟩⟩) =
    [.ofList [.start (lit "ShapeCurve") [], .start (lit "Array") [(lit "name", lit "points")],
      .start (lit "Coord") [(lit "x", lit "1"), (lit "y", lit "2")], .stop (lit "Coord"),
      .start (lit "Coord") [(lit "x", lit "3"), (lit "y", lit "-1")], .stop (lit "Coord"),
      .stop (lit "Array")]]) := by decide +kernel

end Hwp.Props
