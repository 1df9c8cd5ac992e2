/- C63–C65: parsing records into models. -/
import Verif.Proofs.ModelParse
import Verif.Props.Grouping
namespace Hwp.Props
open Hwp Spec
variable {κ : Type}

/-- A reader for the examples: every class with members takes two bytes, `Control` four,
which are its id. -/
def toyReader : ModelReader Bytes where
  read _ c s :=
    if c = "UnknownTagModel" ∨ c = "ControlData" then .ok ([], s)
    else if c = "Control" then (if s.length < 4 then .error .eof else .ok (s.take 4, s.drop 4))
    else if s.length < 2 then .error .eof else .ok (s.take 2, s.drop 2)
  chid c := .ok c
  update c d := c ++ d

/-- A table control with a caption, a body and two cells; the first cell holds a further
table control with a caption. -/
def toyTable : List Record :=
  [⟨66, 0, 2, [1, 2], 0⟩, ⟨71, 1, 6, asciiBytes "tbl " ++ [3, 4], 1⟩, ⟨72, 2, 4, [5, 6, 7, 8], 2⟩,
   ⟨77, 2, 2, [9, 9], 3⟩, ⟨72, 2, 5, [5, 6, 7, 8, 9], 4⟩, ⟨71, 3, 6, asciiBytes "tbl " ++ [3, 4], 5⟩,
   ⟨72, 4, 4, [5, 6, 7, 8], 6⟩, ⟨72, 2, 4, [5, 6, 7, 8], 7⟩]

/-! ### C63 -/

/-- C63: the type of a list header is decided by the type of the record directly
enclosing it and, in a table control, by whether a table body came before it directly in
that control (not in a nested or another one). -/
theorem C63_list_headers (rd : ModelReader κ) (rs : Gen Record) (i p : Nat) (m mp : PModel κ)
    (after : Bool)
    (hm : (parseModels rd rs).out[i]? = some m) (htag : m.record.tagid = 72)
    (hp : enclosing (levelsOf rs.out) i = some p) (hmp : (parseModels rd rs).out[p]? = some mp)
    (hafter : after = true ↔ BodyBefore rs.out p i) :
    m.type = listType mp.type after := by
  obtain ⟨parent, s, h⟩ := parseModels_good rd rs i m hm
  obtain ⟨-, mp', h1, h2, h3⟩ := h.inside p hp
  rw [hmp] at h1; injection h1 with h1; subst h1
  have h2 : parent.type = some mp.type := by simp [PFrame.type, h2]
  have hb : baseType m.record.tagid = "ListHeader" := by rw [htag]; decide +kernel
  obtain ⟨c0, s0, -, h4⟩ := resolveModel_ok h.resolved
  rw [hb] at h4
  have he : extensionOf rd "ListHeader" parent c0 =
      .ok (listHeaderModels.lookup (mp.type, parent.seen)) := by
    simp [extensionOf, h2]
  rw [he] at h4
  by_cases ht : mp.type = "TableControl"
  · have hs : parent.seen = after := by
      rw [Bool.eq_iff_iff, h3, hafter]; simp [ht]
    rw [ht, hs] at h4
    rw [ht]
    cases after with
    | true =>
      have e : listHeaderModels.lookup ("TableControl", true) = some "TableCell" := by decide +kernel
      rw [e] at h4
      rcases h4 with ⟨h4, -⟩ | ⟨h4, -⟩
      · cases h4
      · injection h4 with h4; injection h4 with h4; rw [← h4]; decide +kernel
    | false =>
      have e : listHeaderModels.lookup ("TableControl", false) = some "TableCaption" := by decide +kernel
      rw [e] at h4
      rcases h4 with ⟨h4, -⟩ | ⟨h4, -⟩
      · cases h4
      · injection h4 with h4; injection h4 with h4; rw [← h4]; decide +kernel
  · have hs : parent.seen = false := by
      cases hh : parent.seen with
      | false => rfl
      | true => exact absurd (h3.mp hh).1 ht
    rw [hs] at h4
    unfold listType
    rw [if_neg ht]
    have hl : listHeaderModels.lookup (mp.type, false) =
        if mp.type = "GShapeObjectControl" then some "GShapeObjectCaption"
        else if mp.type = "ShapeComponent" then some "TextboxParagraphList"
        else if mp.type = "Header" then some "HeaderParagraphList"
        else if mp.type = "Footer" then some "FooterParagraphList" else none := by
      simp only [listHeaderModels, List.lookup_cons, List.lookup_nil]
      by_cases e1 : mp.type = "GShapeObjectControl"
      · rw [e1]; decide +kernel
      · by_cases e2 : mp.type = "ShapeComponent"
        · rw [e2]; decide +kernel
        · by_cases e3 : mp.type = "Header"
          · rw [e3]; decide +kernel
          · by_cases e4 : mp.type = "Footer"
            · rw [e4]; decide +kernel
            · have f0 : ((mp.type, false) == ("TableControl", false)) = false := by simp [ht]
              have f5 : ((mp.type, false) == ("TableControl", true)) = false := by simp [ht]
              have f1 : ((mp.type, false) == ("GShapeObjectControl", false)) = false := by simp [e1]
              have f2 : ((mp.type, false) == ("ShapeComponent", false)) = false := by simp [e2]
              have f3 : ((mp.type, false) == ("Header", false)) = false := by simp [e3]
              have f4 : ((mp.type, false) == ("Footer", false)) = false := by simp [e4]
              simp only [f0, f1, f2, f3, f4, f5]
              rw [if_neg e1, if_neg e2, if_neg e3, if_neg e4]
    rw [hl] at h4
    rcases h4 with ⟨h4, h5, -⟩ | ⟨h4, -⟩
    · injection h4 with h4
      rw [h5]
      by_cases e1 : mp.type = "GShapeObjectControl"
      · rw [if_pos e1] at h4; cases h4
      by_cases e2 : mp.type = "ShapeComponent"
      · rw [if_neg e1, if_pos e2] at h4; cases h4
      by_cases e3 : mp.type = "Header"
      · rw [if_neg e1, if_neg e2, if_pos e3] at h4; cases h4
      by_cases e4 : mp.type = "Footer"
      · rw [if_neg e1, if_neg e2, if_neg e3, if_pos e4] at h4; cases h4
      rw [if_neg e1, if_neg e2, if_neg e3, if_neg e4]
    · injection h4 with h4
      by_cases e1 : mp.type = "GShapeObjectControl"
      · rw [if_pos e1] at h4 ⊢; injection h4 with h4; exact h4.symm
      by_cases e2 : mp.type = "ShapeComponent"
      · rw [if_neg e1, if_pos e2] at h4 ⊢; injection h4 with h4; exact h4.symm
      by_cases e3 : mp.type = "Header"
      · rw [if_neg e1, if_neg e2, if_pos e3] at h4 ⊢; injection h4 with h4; exact h4.symm
      by_cases e4 : mp.type = "Footer"
      · rw [if_neg e1, if_neg e2, if_neg e3, if_pos e4] at h4 ⊢; injection h4 with h4; exact h4.symm
      rw [if_neg e1, if_neg e2, if_neg e3, if_neg e4] at h4
      cases h4

/-- C63, the case of tables: captions stand before the body and cells after it. -/
theorem C63_table_lists (rd : ModelReader κ) (rs : Gen Record) (i p : Nat) (m mp : PModel κ)
    (hm : (parseModels rd rs).out[i]? = some m) (htag : m.record.tagid = 72)
    (hp : enclosing (levelsOf rs.out) i = some p) (hmp : (parseModels rd rs).out[p]? = some mp)
    (ht : mp.type = "TableControl") :
    (BodyBefore rs.out p i → m.type = "TableCell") ∧
    (¬ BodyBefore rs.out p i → m.type = "TableCaption") := by
  constructor
  · intro h
    rw [C63_list_headers rd rs i p m mp true hm htag hp hmp (by simp [h]), ht]; decide +kernel
  · intro h
    rw [C63_list_headers rd rs i p m mp false hm htag hp hmp (by simp [h]), ht]; decide +kernel

/-- The enclosing record of a parsed record has been parsed. -/
theorem C63_parent_parsed (rd : ModelReader κ) (rs : Gen Record) (i p : Nat) (m : PModel κ)
    (hm : (parseModels rd rs).out[i]? = some m) (hp : enclosing (levelsOf rs.out) i = some p) :
    ∃ mp, (parseModels rd rs).out[p]? = some mp := by
  obtain ⟨parent, s, h⟩ := parseModels_good rd rs i m hm
  obtain ⟨-, mp, h1, -⟩ := h.inside p hp
  exact ⟨mp, h1⟩

/-- C63 fails for list headers (and control data) that no record encloses: there the
parser raises `KeyError` instead of giving a plain list header.  For all readers. -/
theorem C63_top_level_list_header_fails (rd : ModelReader κ) (rs : Gen Record) (i : Nat) (m : PModel κ)
    (hm : (parseModels rd rs).out[i]? = some m) (h : m.record.tagid = 72 ∨ m.record.tagid = 87) :
    ∃ p, enclosing (levelsOf rs.out) i = some p := by
  obtain ⟨parent, s, hg⟩ := parseModels_good rd rs i m hm
  cases he : enclosing (levelsOf rs.out) i with
  | some p => exact ⟨p, rfl⟩
  | none =>
    exfalso
    have hpar := hg.top he
    obtain ⟨c0, s0, -, h4⟩ := resolveModel_ok hg.resolved
    have hb : baseType m.record.tagid = "ListHeader" ∨ baseType m.record.tagid = "ControlData" := by
      rcases h with h | h <;> rw [h]
      · left; decide +kernel
      · right; decide +kernel
    rw [hpar] at h4
    rcases hb with hb | hb <;> rw [hb] at h4 <;>
      rcases h4 with ⟨h4, -⟩ | ⟨h4, -⟩ <;> simp [extensionOf, rootFrame, PFrame.type] at h4

example : (parseModels toyReader (.ofList toyTable)).out.map (·.type) =
    ["Paragraph", "TableControl", "TableCaption", "TableBody", "TableCell", "TableControl",
     "TableCaption", "TableCell"] := by decide +kernel

example : enclosing (levelsOf toyTable) 7 = some 1 := by decide +kernel

example : (parseModels toyReader (.ofList [⟨72, 0, 2, [1, 2], 0⟩])).err = some .keyError := by
  decide +kernel

/-! ### C64 -/

/-- C64: the models come in the order of their records, one for each, up to an
exception. -/
theorem C64_order (rd : ModelReader κ) (rs : Gen Record) :
    (parseModels rd rs).out.map (·.record) <+: rs.out ∧
    ((parseModels rd rs).err = none →
      (parseModels rd rs).out.map (·.record) = rs.out ∧ rs.err = none) :=
  parseModelsGo_prefix rd rs.err rs.out none [⟨none, false⟩]

/-- C64: the content of a model is what reading the classes of its type, from the base
class to the derived one, out of the payload gives, each with the enclosing model as
parent; what is left over is `unparsed`. -/
theorem C64_members (rd : ModelReader κ) (rs : Gen Record) (i : Nat) (m : PModel κ)
    (hm : (parseModels rd rs).out[i]? = some m) :
    ∃ rest, Reads (rd.read (parentOf rs.out (parseModels rd rs).out i)) rd.update (memberClasses m.type)
        m.record.payload m.content rest ∧
      (m.unparsed = if rest = [] then none else some rest) := by
  obtain ⟨parent, s, h⟩ := parseModels_good rd rs i m hm
  rw [← h.parentOf]
  exact ⟨s, resolveModel_reads h.resolved, h.unparsed⟩

/-- C64: no byte of the payload is lost: if every class reads a prefix of its input, the
payload is one part for each class followed by `unparsed`. -/
theorem C64_payload_accounted (rd : ModelReader κ) (rs : Gen Record) (m : PModel κ)
    (hrd : ∀ p c s v r, rd.read p c s = .ok (v, r) → ∃ part, s = part ++ r)
    (hm : m ∈ (parseModels rd rs).out) :
    ∃ parts : List Bytes, parts.length = (memberClasses m.type).length ∧
      m.record.payload = parts.flatten ++ m.unparsed.getD [] := by
  obtain ⟨i, hi⟩ := List.mem_iff_getElem?.mp hm
  obtain ⟨rest, h1, h2⟩ := C64_members rd rs i m hi
  have e : m.unparsed.getD [] = rest := by
    rw [h2]
    by_cases hr : rest = []
    · simp [hr]
    · simp [hr]
  rw [e]
  clear h2 e
  generalize m.content = c at h1
  generalize memberClasses m.type = cs at h1 ⊢
  generalize m.record.payload = s at h1 ⊢
  induction h1 with
  | one h =>
    obtain ⟨p, hp⟩ := hrd _ _ _ _ _ h
    exact ⟨[p], rfl, by simp [hp]⟩
  | snoc _ h ih =>
    obtain ⟨parts, h3, h4⟩ := ih
    obtain ⟨p, hp⟩ := hrd _ _ _ _ _ h
    exact ⟨parts ++ [p], by simp [h3], by simp [h4, hp]⟩

/-- C64: a control has the type registered for its id; different ids have different
types, and only an id without a class is a plain `Control`. -/
theorem C64_control_type (rd : ModelReader κ) (rs : Gen Record) (i : Nat) (m : PModel κ)
    (hi : (parseModels rd rs).out[i]? = some m) (htag : m.record.tagid = 71) :
    ∃ c s id, rd.read (parentOf rs.out (parseModels rd rs).out i) "Control" m.record.payload = .ok (c, s) ∧
      rd.chid c = .ok id ∧
      ((id, m.type) ∈ controlModels ∨ ((∀ t, (id, t) ∉ controlModels) ∧ m.type = "Control")) := by
  obtain ⟨parent, s, h⟩ := parseModels_good rd rs i m hi
  rw [← h.parentOf]
  obtain ⟨c0, s0, h1, h4⟩ := resolveModel_ok h.resolved
  have hb : baseType m.record.tagid = "Control" := by rw [htag]; decide +kernel
  rw [hb] at h1 h4
  cases hid : rd.chid c0 with
  | error e =>
    have : extensionOf rd "Control" parent c0 = .error e := by
      simp [extensionOf, hid, bind, Except.bind]
    rw [this] at h4
    rcases h4 with ⟨h4, -⟩ | ⟨h4, -⟩ <;> cases h4
  | ok id =>
    have : extensionOf rd "Control" parent c0 = .ok (controlModels.lookup id) := by
      simp [extensionOf, hid, bind, Except.bind, pure, Except.pure]
    rw [this] at h4
    refine ⟨c0, s0, id, h1, hid, ?_⟩
    rcases h4 with ⟨h4, h5, -⟩ | ⟨h4, -⟩
    · right
      injection h4 with h4
      refine ⟨?_, h5⟩
      intro t ht
      rw [List.lookup_eq_none_iff] at h4
      have := h4 _ ht
      simp at this
    · left
      injection h4 with h4
      exact lookup_mem h4

theorem C64_control_types_distinct :
    controlModels.length = 51 ∧ (controlModels.map (·.1)).Nodup ∧ (controlModels.map (·.2)).Nodup ∧
    "Control" ∉ controlModels.map (·.2) ∧ ∀ p ∈ controlModels, p.1.length = 4 := by
  decide +kernel

/-- C64: a record whose tag is none of the known ones is kept whole, provided the class
for such records, which has no members, reads nothing. -/
theorem C64_unknown_tag (rd : ModelReader κ) (rs : Gen Record) (m : PModel κ)
    (hrd : ∀ p s v r, rd.read p "UnknownTagModel" s = .ok (v, r) → r = s)
    (hm : m ∈ (parseModels rd rs).out)
    (htag : m.record.tagid < 16 ∨ m.record.tagid = 29 ∨ (32 < m.record.tagid ∧ m.record.tagid < 66) ∨
      m.record.tagid = 89 ∨ (95 < m.record.tagid ∧ m.record.tagid < 115) ∨ 115 < m.record.tagid) :
    m.type = "UnknownTagModel" ∧ m.unparsed.getD [] = m.record.payload := by
  obtain ⟨i, hi⟩ := List.mem_iff_getElem?.mp hm
  obtain ⟨parent, s, h⟩ := parseModels_good rd rs i m hi
  have hb : baseType m.record.tagid = "UnknownTagModel" := by
    unfold baseType
    cases hl : tagModels.lookup m.record.tagid with
    | none => rfl
    | some t =>
      exfalso
      have := List.mem_map_of_mem (f := Prod.fst) (lookup_mem hl)
      simp [tagModels] at this
      omega
  obtain ⟨c0, s0, h1, h4⟩ := resolveModel_ok h.resolved
  rw [hb] at h1 h4
  have he : extensionOf rd "UnknownTagModel" parent c0 = .ok none := by
    unfold extensionOf
    rw [if_neg (by decide), if_neg (by decide), if_neg (by decide)]
  rw [he] at h4
  rcases h4 with ⟨-, h5, -, h6⟩ | ⟨h4, -⟩
  · refine ⟨h5, ?_⟩
    rw [h.unparsed, h6, hrd _ _ _ _ h1]
    by_cases hp : m.record.payload = []
    · simp [hp]
    · simp [hp]
  · injection h4 with h4; cases h4

/-- C64: the types of the other tags are fixed and all different. -/
theorem C64_tag_type (rd : ModelReader κ) (rs : Gen Record) (m n : PModel κ)
    (hm : m ∈ (parseModels rd rs).out) (hn : n ∈ (parseModels rd rs).out)
    (hm1 : m.record.tagid ≠ 71 ∧ m.record.tagid ≠ 72 ∧ m.record.tagid ≠ 87)
    (hn1 : n.record.tagid ≠ 71 ∧ n.record.tagid ≠ 72 ∧ n.record.tagid ≠ 87)
    (hk : m.type ≠ "UnknownTagModel") :
    m.type = n.type ↔ m.record.tagid = n.record.tagid := by
  have key : ∀ x ∈ (parseModels rd rs).out, (x.record.tagid ≠ 71 ∧ x.record.tagid ≠ 72 ∧ x.record.tagid ≠ 87) →
      x.type = baseType x.record.tagid := by
    intro x hx hx1
    obtain ⟨i, hi⟩ := List.mem_iff_getElem?.mp hx
    obtain ⟨parent, s, h⟩ := parseModels_good rd rs i x hi
    obtain ⟨c0, s0, h1, h4⟩ := resolveModel_ok h.resolved
    rcases h4 with ⟨-, h5, -, -⟩ | ⟨h4, -⟩
    · exact h5
    · exfalso
      have hx2 : ∀ p ∈ tagModels, (p.2 = "Control" → p.1 = 71) ∧ (p.2 = "ListHeader" → p.1 = 72) ∧
          (p.2 = "ControlData" → p.1 = 87) := by decide +kernel
      have hl : ∀ t, t ≠ "UnknownTagModel" → baseType x.record.tagid = t → (x.record.tagid, t) ∈ tagModels := by
        intro t ht hbt
        unfold baseType at hbt
        cases hl : tagModels.lookup x.record.tagid with
        | none => rw [hl] at hbt; exact absurd hbt.symm ht
        | some t' => rw [hl] at hbt; simp at hbt; subst hbt; exact lookup_mem hl
      rcases extensionOf_some h4 with ⟨hb, -⟩ | ⟨hb, -⟩ | ⟨hb, -⟩
      · exact hx1.1 ((hx2 _ (hl _ (by decide) hb)).1 rfl)
      · exact hx1.2.1 ((hx2 _ (hl _ (by decide) hb)).2.1 rfl)
      · exact hx1.2.2 ((hx2 _ (hl _ (by decide) hb)).2.2 rfl)
  rw [key m hm hm1] at hk ⊢
  rw [key n hn hn1]
  constructor
  · intro h
    unfold baseType at h hk
    cases hl : tagModels.lookup m.record.tagid with
    | none => rw [hl] at hk; simp at hk
    | some t =>
      rw [hl] at h hk
      cases hl2 : tagModels.lookup n.record.tagid with
      | none => rw [hl2] at h; exact absurd h hk
      | some t2 =>
        rw [hl2] at h; simp at h; subst h
        have hinj : ∀ p ∈ tagModels, ∀ q ∈ tagModels, p.2 = q.2 → p.1 = q.1 := by decide +kernel
        exact hinj _ (lookup_mem hl) _ (lookup_mem hl2) rfl
  · intro h; rw [h]

example : (parseModels toyReader (.ofList toyTable)).out.map (fun m => (m.content, m.unparsed)) =
    [([1, 2], none), (asciiBytes "tbl " ++ [3, 4], none), ([5, 6, 7, 8], none), ([9, 9], none),
     ([5, 6, 7, 8], some [9]), (asciiBytes "tbl " ++ [3, 4], none), ([5, 6, 7, 8], none),
     ([5, 6, 7, 8], none)] := by decide +kernel

example : (parseModels toyReader (.ofList [⟨500, 0, 2, [1, 2], 0⟩])).out.map (fun m => (m.type, m.unparsed)) =
    [("UnknownTagModel", some [1, 2])] := by decide +kernel

/-! ### C65 -/

/-- C65: parsing a stream group by group gives the same models, and the same exception,
as parsing all its records at once, if the first record has level 0. -/
theorem C65_models_of_stream (rd : ModelReader κ) (s : Bytes) (h : (readRecords s).err = none)
    (h0 : ∀ r, (readRecords s).out[0]? = some r → r.level = 0) :
    streamModels rd s = parseModels rd (readRecords s) := by
  unfold streamModels parseModels groupByTop
  rw [h]
  cases hr : (readRecords s).out with
  | nil => rfl
  | cons t rs =>
    have ht : t.level = 0 := h0 t (by simp [hr])
    simp only
    rw [(groupLoop_ok t rs).1]
    exact chain_groups rd rs.length t rs rfl ht

/-- C65: so the `i`-th model belongs to the `i`-th record. -/
theorem C65_model_of_record (rd : ModelReader κ) (s : Bytes) (h : (readRecords s).err = none)
    (h0 : ∀ r, (readRecords s).out[0]? = some r → r.level = 0) (i : Nat) (m : PModel κ)
    (hm : (streamModels rd s).out[i]? = some m) :
    recordAt s i = .ok (some m.record) := by
  rw [C65_models_of_stream rd s h h0] at hm
  have h1 := (C64_order rd (readRecords s)).1
  obtain ⟨t, ht⟩ := h1
  unfold recordAt nth
  have : (readRecords s).out[i]? = some m.record := by
    rw [← ht, List.getElem?_append_left, List.getElem?_map, hm]
    · rfl
    · have := List.getElem?_eq_some_iff.mp hm
      simp; exact this.1
  rw [this]

/-- C65: the models selected by `treegroup` are consecutive parts of all the models; a
number too high is a `TypeError`. -/
theorem C65_treegroups (rd : ModelReader κ) (s : Bytes) (h : (readRecords s).err = none)
    (hm : (streamModels rd s).err = none) :
    ∃ gs : List (List (PModel κ)), gs.flatten = (streamModels rd s).out ∧
      (∀ n g, gs[n]? = some g → treegroupModels rd s n = ⟨g, none⟩ ∧
        ∃ rs, recordsTreegroup s n = .ok (some rs) ∧ g.map (·.record) = rs) ∧
      (∀ n, gs.length ≤ n → treegroupModels rd s n = .raise .typeError) := by
  obtain ⟨gs, h1, -, -⟩ := C05_groups_partition (readRecords s).out
  have e : readRecords s = .ofList (readRecords s).out := by
    ext1
    · rfl
    · exact h
  have hg : groupByTop (readRecords s) = ⟨gs, none⟩ := by rw [e]; exact h1
  unfold streamModels at hm ⊢
  rw [hg] at hm ⊢
  obtain ⟨h2, h3⟩ := chain_parts rd gs hm
  refine ⟨gs.map fun g => (parseModels rd (.ofList g)).out, h2.symm, ?_, ?_⟩
  · intro n g hn
    rw [List.getElem?_map] at hn
    cases hgn : gs[n]? with
    | none => rw [hgn] at hn; simp at hn
    | some rs =>
      rw [hgn] at hn; simp at hn
      have ht : recordsTreegroup s n = .ok (some rs) := by
        unfold recordsTreegroup nth
        rw [hg]; simp [hgn]
      have herr := h3 rs (List.mem_of_getElem? hgn)
      refine ⟨?_, rs, ht, ?_⟩
      · unfold treegroupModels
        rw [ht]
        simp only
        ext1
        · exact hn
        · exact herr
      · rw [← hn]
        exact ((C64_order rd (.ofList rs)).2 herr).1
  · intro n hn
    unfold treegroupModels recordsTreegroup nth
    rw [hg]
    simp only [List.length_map] at hn
    simp [List.getElem?_eq_none hn]

/-- C65 does not extend to damaged streams: the models of the last group before the
damage are lost, although its records and, parsed at once, its models are given out. -/
theorem C65_damaged_stream_loses_group :
    ∃ s : Bytes, (readRecords s).err = some .eof ∧
      (readRecords s).out.map (·.tagid) = [500, 501] ∧
      (parseModels toyReader (readRecords s)).out.map (·.type) = ["UnknownTagModel", "UnknownTagModel"] ∧
      (streamModels toyReader s).out = [] ∧ (streamModels toyReader s).err = some .eof := by
  refine ⟨[0xf4, 0x01, 0x10, 0x00, 0xaa, 0xf5, 0x05, 0x10, 0x00, 0xbb, 0xf5, 0x05, 0x10, 0x00], ?_⟩
  decide +kernel

example : (streamModels toyReader
    [0xf4, 0x01, 0x10, 0x00, 0xaa, 0xf5, 0x05, 0x10, 0x00, 0xbb, 0xf6, 0x01, 0x10, 0x00, 0xcc]).out.map
      (fun m => (m.record.tagid, m.unparsed)) =
    [(500, some [0xaa]), (501, some [0xbb]), (502, some [0xcc])] := by decide +kernel

end Hwp.Props
