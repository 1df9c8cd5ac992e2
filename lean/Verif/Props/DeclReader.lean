/- C68–C70: contents of records as their classes declare them. -/
import Verif.Proofs.DeclModel
import Verif.Props.ModelParse
import Verif.Proofs.Conditions
set_option linter.unusedVariables false
namespace Hwp.Props
open Hwp Spec

/-! ### C68 -/

/-- C68: the reader used by the parser, which works with events and a stack, reads the
members of a class one after the other; there is no other such reader. -/
theorem C68_reader (ver : Version) (rd : ModelReader Fields) : ReadsDecls ver rd ↔ rd = directReader ver :=
  reader_unique ver rd

/-- C68: the content of a model has, class after class and in the order of declaration, one
field for each member that version and condition allow, with a value of its type. -/
theorem C68_content (ver : Version) (rd : ModelReader Fields) (hrd : ReadsDecls ver rd) (rs : Gen Record)
    (i : Nat) (m : PModel Fields) (hm : (parseModels rd rs).out[i]? = some m)
    (hb : m.type ≠ "BinData" ∨ "bindata" ∈ m.content.map (·.1)) :
    ∃ parts, m.content = parts.flatten ∧
      PartsOf ⟨some ver, some (parentOf rs.out (parseModels rd rs).out i)⟩
        ((memberClasses m.type).map membersOf) parts := by
  obtain rfl := (reader_unique ver rd).1 hrd
  exact (model_parts hm).2.1 hb

/-- C68: no model has a type that is not declared, or a field its classes do not declare, or
two fields of the same name. -/
theorem C68_fields (ver : Version) (rd : ModelReader Fields) (hrd : ReadsDecls ver rd) (rs : Gen Record)
    (m : PModel Fields) (hm : m ∈ (parseModels rd rs).out) :
    m.type ∈ modelNames ∧ (m.content.map (·.1)).Nodup ∧
    ∀ n ∈ m.content.map (·.1), ∃ c ∈ memberClasses m.type, n ∈ (membersOf c).names := by
  obtain rfl := (reader_unique ver rd).1 hrd
  obtain ⟨i, hi⟩ := List.mem_iff_getElem?.mp hm
  obtain ⟨rest, h1, -⟩ := C64_members (directReader ver) rs i m hi
  exact ⟨(model_parts hi).1, (reads_names h1).1, (model_parts hi).2.2⟩

/-- C68: a field has a value of the type it is declared with. -/
theorem C68_value (ver : Version) (rd : ModelReader Fields) (hrd : ReadsDecls ver rd) (rs : Gen Record)
    (i : Nat) (m : PModel Fields) (hm : (parseModels rd rs).out[i]? = some m)
    (hb : m.type ≠ "BinData" ∨ "bindata" ∈ m.content.map (·.1)) (n : String) (v : Value PVal)
    (hv : m.content.lookup n = some v) :
    ∃ c ∈ memberClasses m.type, ∃ t before, (n, t) ∈ typesOf (membersOf c) ∧
      Shaped ⟨some ver, some (parentOf rs.out (parseModels rd rs).out i)⟩ t before v := by
  obtain ⟨parts, h1, h2⟩ := C68_content ver rd hrd rs i m hm hb
  rw [h1] at hv
  exact parts_lookup _ parts n v h2 hv

/-- C68: the payload of a record is the bytes of one class after the other, and what is left
is kept as `unparsed`. -/
theorem C68_payload (ver : Version) (rd : ModelReader Fields) (hrd : ReadsDecls ver rd) (rs : Gen Record)
    (m : PModel Fields) (hm : m ∈ (parseModels rd rs).out) :
    ∃ parts : List Bytes, parts.length = (memberClasses m.type).length ∧
      m.record.payload = parts.flatten ++ m.unparsed.getD [] := by
  obtain rfl := (reader_unique ver rd).1 hrd
  exact C64_payload_accounted (directReader ver) rs m (fun p c s v r h => directRead_consumes ver p c s v r h) hm

/-- C68: a condition of a member is what the declaration says about the bits of a field
before it, the control id or the parent. -/
theorem C68_conditions (ctx : DCtx) (before : Fields) (version : Option Version) (c : CondDecl) :
    (MemberThere ctx before version (some c) ↔
      versionOk ctx.version version = true ∧ CondHolds ctx before c) ∧
    (MemberAbsent ctx before version (some c) ↔
      versionOk ctx.version version = false ∨ CondFails ctx before c) ∧
    ¬ (CondHolds ctx before c ∧ CondFails ctx before c) := by
  refine ⟨?_, ?_, ?_⟩
  · simp [MemberThere, cond_true]
  · simp [MemberAbsent, cond_false]
  · rw [← cond_true, ← cond_false]
    rintro ⟨h1, h2⟩
    rw [h1] at h2
    simp at h2

/-- C68: a count or selector is the number the declaration refers to: there is at most one. -/
theorem C68_references (ctx : DCtx) (before : Fields) (r : RefDecl) (n : Int) :
    (r.eval ctx before = .ok n ↔ RefIs ctx before r n) ∧
    ∀ n', RefIs ctx before r n → RefIs ctx before r n' → n = n' := by
  refine ⟨ref_iff ctx before r n, fun n' h h' => ?_⟩
  rw [← ref_iff] at h h'
  rw [h] at h'
  simpa using h'

/-- C68: a control without a control id cannot be given a class: a KeyError. -/
theorem C68_control_id (ver : Version) (rd : ModelReader Fields) (hrd : ReadsDecls ver rd) (content : Fields)
    (b : Bytes) :
    (rd.chid content = .ok b ↔ content.lookup "chid" = some (.leaf (.chid b))) ∧
    ("chid" ∉ content.map (·.1) → rd.chid content = .error .keyError) := by
  rw [hrd.chid]
  unfold contentChid
  constructor
  · cases h : content.lookup "chid" with
    | none => simp
    | some v =>
      cases v with
      | leaf p => cases p <;> simp
      | _ => simp
  · intro h
    have : content.lookup "chid" = none := by
      rw [List.lookup_eq_none_iff]
      intro p hp
      simp only [bne_iff_ne, ne_eq]
      rintro e
      exact h (List.mem_map.2 ⟨p, hp, e.symm⟩)
    rw [this]

/-- Columns have widths of their own (two bytes each) only if they are not of the same width:
`same_widths` is bit 12 of the flags. -/
example : CondHolds ⟨some [5, 0, 1, 7], none⟩ [("flags", .leaf (.flags Decl.ColumnsDefFlags 8))]
      (.notFlag "flags" "same_widths") ∧
    CondFails ⟨some [5, 0, 1, 7], none⟩ [("flags", .leaf (.flags Decl.ColumnsDefFlags 0x1008))]
      (.notFlag "flags" "same_widths") ∧
    RefIs ⟨some [5, 0, 1, 7], none⟩ [("flags", .leaf (.flags Decl.ColumnsDefFlags 8))]
      (.flagMinusOne "flags" "count") 1 := by
  refine ⟨?_, ?_, ?_⟩
  · rw [← cond_true]; rfl
  · rw [← cond_false]; rfl
  · rw [← ref_iff]; rfl

/-- C68: a record with an unknown tag has no fields and keeps its payload. -/
theorem C68_unknown_tag (ver : Version) (rd : ModelReader Fields) (hrd : ReadsDecls ver rd) (rs : Gen Record)
    (m : PModel Fields) (hm : m ∈ (parseModels rd rs).out)
    (htag : m.record.tagid < 16 ∨ m.record.tagid = 29 ∨ (32 < m.record.tagid ∧ m.record.tagid < 66) ∨
      m.record.tagid = 89 ∨ (95 < m.record.tagid ∧ m.record.tagid < 115) ∨ 115 < m.record.tagid) :
    m.type = "UnknownTagModel" ∧ m.content = [] ∧ m.unparsed.getD [] = m.record.payload := by
  have hf := C68_fields ver rd hrd rs m hm
  obtain rfl := (reader_unique ver rd).1 hrd
  have e : membersOf "UnknownTagModel" = .nil := rfl
  obtain ⟨h1, h2⟩ := C64_unknown_tag (directReader ver) rs m (by
    intro p s v r h
    simp only [directReader, directRead, e, DMembers.toMembers, readMembers, Except.ok.injEq, Prod.mk.injEq] at h
    exact h.2.symm) hm htag
  refine ⟨h1, ?_, h2⟩
  cases hc : m.content with
  | nil => rfl
  | cons p ps =>
    obtain ⟨c, h3, h4⟩ := hf.2.2 p.1 (by rw [hc]; simp)
    have e2 : memberClasses "UnknownTagModel" = ["UnknownTagModel"] := by decide +kernel
    rw [h1, e2, List.mem_singleton] at h3
    rw [h3, e] at h4
    simp [DMembers.names] at h4

/-- The records of a paragraph with one character shape, a bookmark control in it, and a
record of no known tag. -/
def sampleRecords : List Record :=
  [⟨66, 0, 22, [2, 0, 0, 0, 0, 0, 0, 0, 1, 0, 2, 3, 1, 0, 0, 0, 1, 0, 0, 0, 0, 0], 0⟩,
   ⟨68, 1, 8, [0, 0, 0, 0, 7, 0, 0, 0], 1⟩,
   ⟨71, 1, 5, [0x6D, 0x6B, 0x6F, 0x62, 9], 2⟩,
   ⟨200, 1, 2, [3, 4], 3⟩]

example : ReadsDecls [5, 0, 1, 7] (directReader [5, 0, 1, 7]) := (C68_reader _ _).2 rfl

example : (parseModels (directReader [5, 0, 1, 7]) (.ofList sampleRecords)).out.map
    (fun m => (m.type, m.content.map (·.1), m.unparsed)) =
    [("Paragraph", ["text", "controlmask", "parashape_id", "style_id", "split", "charshapes",
        "rangetags", "linesegs", "instance_id"], none),
     ("ParaCharShape", ["charshapes"], none), ("BookmarkControl", ["chid"], some [9]),
     ("UnknownTagModel", [], some [3, 4])] := by decide +kernel

/-! ### C69 -/

/-- C69: what is written as a content of a class is read as this content, and nothing behind
it is touched. -/
theorem C69_write_read (ver : Version) (parent : Option (String × Fields)) (c : String) (fs : Fields) (b r : Bytes)
    (h : writeMembers ⟨some ver, some parent⟩ (membersOf c) [] fs = some b) :
    directRead ver parent c (b ++ r) = .ok (fs, r) :=
  class_write_read r h

/-- C69: the payload of a record is the bytes of the content of its model, followed by what
is left; so nothing of it is lost or changed by parsing.  Strings and `HexBytes` at the very
end of the payload may be cut off. -/
theorem C69_payload_partial (ver : Version) (rd : ModelReader Fields) (hrd : ReadsDecls ver rd) (rs : Gen Record)
    (i : Nat) (m : PModel Fields) (hm : (parseModels rd rs).out[i]? = some m)
    (hb : m.type ≠ "BinData" ∨ "bindata" ∈ m.content.map (·.1))
    (hf : m.unparsed ≠ none ∨ fixedModel m.type = true) :
    ∃ b, contentBytes ver (parentOf rs.out (parseModels rd rs).out i) m.type m.content = some b ∧
      m.record.payload = b ++ m.unparsed.getD [] := by
  obtain rfl := (reader_unique ver rd).1 hrd
  obtain ⟨rest, h1, h2⟩ := C64_members (directReader ver) rs i m hm
  have ht := (model_parts hm).1
  have hr : m.unparsed.getD [] = rest := by
    rw [h2]
    by_cases hr : rest = [] <;> simp [hr]
  obtain ⟨b, h3, h4, h5⟩ := reads_write h1 (by
    intro c hc n hn
    by_cases hbd : m.type = "BinData"
    · have hb := hb.resolve_left (fun h => h hbd)
      have e : memberClasses m.type = ["BinData"] := by rw [hbd]; decide +kernel
      rw [e, List.mem_singleton] at hc
      subst hc
      have e2 : selNames (membersOf "BinData") = ["bindata"] := by decide +kernel
      rw [e2, List.mem_singleton] at hn
      subst hn
      exact hb
    · rw [classes_plain m.type ht hbd c hc] at hn
      simp at hn) (classes_disjoint m.type ht) (by
    rcases hf with hf | hf
    · left
      intro e
      rw [h2, if_pos e] at hf
      exact hf rfl
    · exact Or.inr hf)
  exact ⟨b, h4, by rw [h5, hr]⟩

/-- C69: the content is the only one of its type with these bytes: if the bytes of a content
stand at the beginning of the payload, the model has this content. -/
theorem C69_content_of_bytes (ver : Version) (rd : ModelReader Fields) (hrd : ReadsDecls ver rd) (rs : Gen Record)
    (i : Nat) (m : PModel Fields) (hm : (parseModels rd rs).out[i]? = some m)
    (parts : List Fields) (b r : Bytes)
    (h : writeParts ⟨some ver, some (parentOf rs.out (parseModels rd rs).out i)⟩
      ((memberClasses m.type).map membersOf) parts = some b) (hp : m.record.payload = b ++ r) :
    m.content = parts.flatten ∧ m.unparsed.getD [] = r := by
  obtain rfl := (reader_unique ver rd).1 hrd
  obtain ⟨rest, h1, h2⟩ := C64_members (directReader ver) rs i m hm
  have ht := (model_parts hm).1
  have h3 := writeParts_reads (memberClasses m.type) parts b r (reads_ne h1) h (classes_disjoint m.type ht)
  rw [hp] at h1
  obtain ⟨h4, h5⟩ := reads_det h1 h3
  refine ⟨h4, ?_⟩
  rw [h2, ← h5]
  by_cases hr : rest = [] <;> simp [hr]

/-- C69: two records whose models agree have the same payload. -/
theorem C69_payload_determined (ver : Version) (rd : ModelReader Fields) (hrd : ReadsDecls ver rd) (rs rs' : Gen Record)
    (i j : Nat) (m m' : PModel Fields) (hm : (parseModels rd rs).out[i]? = some m)
    (hm' : (parseModels rd rs').out[j]? = some m')
    (hb : m.type ≠ "BinData" ∨ "bindata" ∈ m.content.map (·.1))
    (hf : m.unparsed ≠ none ∨ fixedModel m.type = true)
    (hp : parentOf rs.out (parseModels rd rs).out i = parentOf rs'.out (parseModels rd rs').out j)
    (ht : m.type = m'.type) (hc : m.content = m'.content) (hu : m.unparsed = m'.unparsed) :
    m.record.payload = m'.record.payload := by
  obtain ⟨b, h1, h2⟩ := C69_payload_partial ver rd hrd rs i m hm hb hf
  obtain ⟨b', h3, h4⟩ := C69_payload_partial ver rd hrd rs' j m' hm' (by rwa [← ht, ← hc]) (by rwa [← ht, ← hu])
  rw [hp, ht, hc, h3] at h1
  injection h1 with h1
  rw [h2, h4, h1, hu]

/-- C69 fails for strings and `HexBytes` at the end of a payload: cut off, they are accepted
without an error, and the announced length is forgotten.  Records with different payloads
have the same model. -/
theorem C69_cut_off_string :
    directRead [5, 0, 1, 7] none "TCPSControl" [2, 0, 0x41, 0] =
      directRead [5, 0, 1, 7] none "TCPSControl" [1, 0, 0x41, 0] ∧
    directRead [5, 0, 1, 7] none "TCPSControl" [2, 0, 0x41, 0] =
      .ok ([("textlength", .leaf (.str [0x41]))], []) ∧
    directRead [5, 0, 1, 7] none "SectionDefData" [1, 2] =
      .ok ([("unknown", .leaf (.hex [1, 2]))], []) := by
  refine ⟨?_, ?_, ?_⟩ <;> rfl

theorem C69_fixed_models :
    (modelNames.filter fixedModel).length = 63 ∧ fixedModel "Paragraph" = true ∧ fixedModel "CharShape" = true ∧
    fixedModel "TableCell" = true ∧ fixedModel "FaceName" = false := by
  decide +kernel

example : contentBytes [5, 0, 1, 7] none "BookmarkControl" [("chid", .leaf (.chid (asciiBytes "bokm")))] =
    some [0x6D, 0x6B, 0x6F, 0x62] := by decide +kernel

example : contentBytes [5, 0, 1, 7] none "IndexMarker" [("chid", .leaf (.chid (asciiBytes "idxm"))),
      ("keyword1", .leaf (.str [0x41, 0xAC00])), ("keyword2", .leaf (.str [])), ("dummy", .leaf (.int 5))] =
    some [0x6D, 0x78, 0x64, 0x69, 2, 0, 0x41, 0, 0, 0xAC, 0, 0, 5, 0] := by decide +kernel

/-! ### C70 -/

/-- C70: parsing the records of a stream raises an exception only if reading the records
does, or the payload of a record is too short or a text in it damaged (`ParseError`, or
`KeyError` where flags are cut off), or a record stands at a place where it must not stand
(`KeyError`), or directly in a `ParaCharShape` or `ParaLineSeg` record (`TypeError`). -/
theorem C70_errors_partial (ver : Version) (rd : ModelReader Fields) (hrd : ReadsDecls ver rd) (rs : Gen Record)
    (hl : TreeLevels (levelsOf rs.out)) (e : PyErr) (h : (parseModels rd rs).err = some e) :
    rs.err = some e ∨ e = .parseError ∨ e = .keyError ∨
    (e = .typeError ∧ ∃ m ∈ (parseModels rd rs).out, m.type = "ParaCharShape" ∨ m.type = "ParaLineSeg") := by
  obtain rfl := (reader_unique ver rd).1 hrd
  rcases parse_errors (directReader ver) rs hl e h with h1 | ⟨r, hr, parent, h1, h2⟩
  · exact Or.inl h1
  · right
    rcases resolveModel_error h1 with h3 | h3 | ⟨h3, t, content, h4, h5⟩
    · exact Or.inl h3
    · exact Or.inr (Or.inl h3)
    · refine Or.inr (Or.inr ⟨h3, ?_⟩)
      rcases h2 with h2 | ⟨m, hm, h2⟩
      · rw [h2] at h4; cases h4
      · refine ⟨m, hm, ?_⟩
        rw [h2] at h4
        injection h4 with h4
        injection h4 with h4 h6
        by_cases ha : m.type = "ParaCharShape"
        · exact Or.inl ha
        · by_cases hb : m.type = "ParaLineSeg"
          · exact Or.inr hb
          · exact absurd (h6 ▸ counts_ok hm ha hb) h5

/-- C70: not only `ParseError` is raised for damaged data: a shape component or character
shapes outside of a paragraph, flags cut off, and character shapes inside character
shapes. -/
theorem C70_not_only_parse_errors :
    (parseModels (directReader [5, 0, 1, 7]) (.ofList [⟨76, 0, 4, [0, 0, 0, 0], 0⟩])).err = some .keyError ∧
    (parseModels (directReader [5, 0, 1, 7]) (.ofList [⟨68, 0, 4, [0, 0, 0, 0], 0⟩])).err = some .keyError ∧
    (parseModels (directReader [5, 0, 1, 7]) (.ofList [⟨66, 0, 4, [2, 0, 0], 0⟩])).err = some .keyError ∧
    (parseModels (directReader [5, 0, 1, 7]) (.ofList [sampleRecords[0], sampleRecords[1], ⟨68, 2, 0, [], 2⟩])).err =
      some .typeError := by decide +kernel

/-- C70: a payload that is too short. -/
theorem C70_short_payload :
    (parseModels (directReader [5, 0, 1, 7]) (.ofList [⟨66, 0, 9, [2, 0, 0, 0, 1, 0, 0, 0, 7], 0⟩])).err = some .parseError := by
  decide +kernel

end Hwp.Props
