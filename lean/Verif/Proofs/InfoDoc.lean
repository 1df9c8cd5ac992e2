/-
The tables of the XML file of a document say what the records of `DocInfo` say.
-/
import Verif.Proofs.ParaIds
set_option linter.unusedSimpArgs false
set_option linter.unusedVariables false
set_option autoImplicit false
namespace Hwp
open Spec

theorem recordsOf_start {t : String} {m : PModel Fields} : ∀ (f : Forest (Nat × PModel Fields)), m ∈ recordsOf t f →
    m.type = t ∧ ∃ i, .start (i, m) ∈ eventsOf f := by
  intro f
  induction f with
  | nil => intro h; cases h
  | node a cs sibs ih1 ih2 =>
    intro h
    simp only [recordsOf, List.mem_append] at h
    rcases h with (h | h) | h
    · split at h
      · next e =>
        simp only [List.mem_singleton] at h
        subst h
        exact ⟨e, a.1, by simp [eventsOf]⟩
      · cases h
    · obtain ⟨h1, i, h2⟩ := ih1 h
      exact ⟨h1, i, by simp [eventsOf, h2]⟩
    · obtain ⟨h1, i, h2⟩ := ih2 h
      exact ⟨h1, i, by simp [eventsOf, h2]⟩

/-- A record of the tables, as read, with its element. -/
structure Entry (env : XmlEnv) (ver : Version) (rd : ModelReader Fields) (t : String) (m : PModel Fields) (x : List (PyStr × PyStr) × Forest XNode) : Prop where
  type : m.type = t
  read : ReadRecord ver rd m
  node : NodeOf env ver m x

theorem forall₂_and {α β : Type} {R : α → β → Prop} {P : α → Prop} : ∀ {as : List α} {bs : List β}, List.Forall₂ R as bs → (∀ a ∈ as, P a) →
    List.Forall₂ (fun a b => P a ∧ R a b) as bs
  | _, _, .nil, _ => .nil
  | _, _, .cons h hs, hp => .cons ⟨hp _ (by simp), h⟩ (forall₂_and hs fun a ha => hp a (by simp [ha]))

theorem forall₂_get {α β : Type} {R : α → β → Prop} : ∀ {as : List α} {bs : List β}, List.Forall₂ R as bs → ∀ (i : Nat) (a : α), as[i]? = some a →
    ∃ b, bs[i]? = some b ∧ R a b
  | _, _, .nil, i, a, h => by simp at h
  | _, _, .cons h hs, 0, a, e => by simp only [List.getElem?_cons_zero, Option.some.injEq] at e ⊢; exact ⟨_, rfl, e ▸ h⟩
  | _, _, .cons h hs, i + 1, a, e => by simp only [List.getElem?_cons_succ] at e ⊢; exact forall₂_get hs i a e

theorem forall₂_mem {α β : Type} {R : α → β → Prop} : ∀ {as : List α} {bs : List β}, List.Forall₂ R as bs → ∀ b ∈ bs, ∃ a ∈ as, R a b
  | _, _, .nil, b, h => by cases h
  | _, _, .cons h hs, b, e => by
    rcases List.mem_cons.1 e with rfl | e
    · exact ⟨_, by simp, h⟩
    · obtain ⟨a, h1, h2⟩ := forall₂_mem hs b e
      exact ⟨a, by simp [h1], h2⟩

theorem forall₂_map {α β γ : Type} {R : α → β → Prop} {f : α → γ} {g : β → γ} (h : ∀ a b, R a b → g b = f a) :
    ∀ {as : List α} {bs : List β}, List.Forall₂ R as bs → bs.map g = as.map f
  | _, _, .nil => rfl
  | _, _, .cons h1 hs => by simp only [List.map_cons, h _ _ h1, forall₂_map h hs]

theorem forall₂_take {α β : Type} {R : α → β → Prop} : ∀ {as : List α} {bs : List β}, List.Forall₂ R as bs → ∀ n, List.Forall₂ R (as.take n) (bs.take n)
  | _, _, h, 0 => by simp
  | _, _, .nil, n + 1 => by simp
  | _, _, .cons h hs, n + 1 => .cons h (forall₂_take hs n)

theorem forall₂_drop {α β : Type} {R : α → β → Prop} : ∀ {as : List α} {bs : List β}, List.Forall₂ R as bs → ∀ n, List.Forall₂ R (as.drop n) (bs.drop n)
  | _, _, h, 0 => by simpa using h
  | _, _, .nil, n + 1 => by simp
  | _, _, .cons h hs, n + 1 => forall₂_drop hs n

theorem info_entries (env : XmlEnv) (rd : ModelReader Fields) (filetime : Nat → PyStr) (d : DocSource) (hrd : ReadsDecls d.version rd)
    (h : ProperDocument rd d) (table : PModel Fields) (rows : Forest (Nat × PModel Fields)) (hI : InfoDocument rd d table rows)
    (evs : List XEv) (he : documentXml env rd filetime d = .ofList evs) :
    ∃ ids T, TablesAre (xmlTree (joined evs)) ids T ∧ Entry env d.version rd "IdMappings" table (ids, T) ∧
      ∀ t ∈ tableTypes, List.Forall₂ (Entry env d.version rd t) (tableRecords rows t) (entries t T) := by
  obtain ⟨docinfo, hf, ht⟩ := hI.tree
  obtain ⟨ids, T, h1, h2, h3⟩ := tables_of_records env rd filetime d hrd h hI.separate evs he docinfo rows table hf ht hI.sections
  have read : ∀ t, ∀ m ∈ recordsOf t docinfo, m.type = t ∧ ReadRecord d.version rd m := by
    intro t m hm
    obtain ⟨e, i, hs⟩ := recordsOf_start docinfo hm
    have := tree_model hf _ hs
    rw [tree_parse hf] at this
    exact ⟨e, _, i, this⟩
  refine ⟨ids, T, h1, ⟨(read "IdMappings" table (by rw [ht.one]; simp)).1, (read "IdMappings" table (by rw [ht.one]; simp)).2, h2⟩, ?_⟩
  intro t hty
  have := forall₂_and (P := fun m => m.type = t ∧ ReadRecord d.version rd m) (h3 t hty) (fun m hm => read t m (by rw [ht.only t hty]; exact hm))
  exact List.Forall₂.imp (fun a b h => ⟨h.1.1, h.1.2, h.2⟩) this

/-! ### What the entries say -/

section
variable {env : XmlEnv} {ver : Version} {rd : ModelReader Fields} (hrd : ReadsDecls ver rd)
include hrd

theorem entry_color {m : PModel Fields} {x : List (PyStr × PyStr) × Forest XNode} (h : Entry env ver rd "CharShape" m x) :
    ∃ n, intField "text_color" m.content = some n ∧ attrOf x.1 "text-color" = some (colorText n) := shape_color hrd h.read h.type h.node

theorem entry_bold {m : PModel Fields} {x : List (PyStr × PyStr) × Forest XNode} (h : Entry env ver rd "CharShape" m x) :
    (shapeBold m = true → FlagOn x "bold") ∧ (shapeBold m = false → FlagOff x "bold") := by
  have := (shape_flags hrd h.read h.type h.node).2
  exact ⟨fun e => by rw [e] at this; exact this, fun e => ⟨0, by decide, by rw [e] at this; exact this⟩⟩

theorem entry_italic {m : PModel Fields} {x : List (PyStr × PyStr) × Forest XNode} (h : Entry env ver rd "CharShape" m x) :
    (shapeItalic m = true → FlagOn x "italic") ∧ (shapeItalic m = false → FlagOff x "italic") := by
  have := (shape_flags hrd h.read h.type h.node).1
  exact ⟨fun e => by rw [e] at this; exact this, fun e => ⟨0, by decide, by rw [e] at this; exact this⟩⟩

theorem entry_faces {m : PModel Fields} {x : List (PyStr × PyStr) × Forest XNode} (h : Entry env ver rd "CharShape" m x) :
    ∃ fs fk, entries "FontFace" x.2 = [(fs, fk)] ∧ ∀ l ∈ languages, ∃ i : Nat, shapeFace m l = some i ∧ attrOf fs l = some (Spec.decimal i) :=
  shape_faces hrd h.read h.type h.node

theorem entry_class {m : PModel Fields} {x : List (PyStr × PyStr) × Forest XNode} (h : Entry env ver rd "Style" m x) : styleClass x = styleRecordClass m := by
  obtain ⟨s, h1, h2⟩ := record_str (D := Decl.Style) hrd h.read (by rw [h.type]; decide) (by rw [h.type]; rfl) (by decide +kernel) h.node "name" "name" rfl (by decide +kernel)
  simp [styleClass, styleRecordClass, h1, h2, noNul]

theorem entry_office {m : PModel Fields} {x : List (PyStr × PyStr) × Forest XNode} (h : Entry env ver rd "Style" m x) : officeName x = officeRecordName m := by
  obtain ⟨s, h1, h2⟩ := record_str (D := Decl.Style) hrd h.read (by rw [h.type]; decide) (by rw [h.type]; rfl) (by decide +kernel) h.node "local_name" "local-name" rfl (by decide +kernel)
  simp [officeName, officeRecordName, h1, h2, noNul]

theorem entry_shape {m : PModel Fields} {x : List (PyStr × PyStr) × Forest XNode} (h : Entry env ver rd "Style" m x) :
    ∃ q : Nat, styleShape m = some q ∧ attrOf x.1 "charshape-id" = some (Spec.decimal q) := by
  obtain ⟨n, h1, h2, h3⟩ := record_int (D := Decl.Style) hrd h.read (by rw [h.type]; decide) (by rw [h.type]; rfl) (by decide +kernel) h.node "charshape_id" "charshape-id" .UINT16
    (by decide) rfl (by decide +kernel)
  obtain ⟨k, rfl⟩ : ∃ k : Nat, n = k := ⟨n.toNat, (Int.toNat_of_nonneg h2.1).symm⟩
  exact ⟨k, h1, by rw [h3, decimal_nat, noNul_natStr]⟩

theorem entry_face {m : PModel Fields} {x : List (PyStr × PyStr) × Forest XNode} (h : Entry env ver rd "FaceName" m x) :
    ∃ s, strField "name" m.content = some s ∧ attrOf x.1 "name" = some (noNul s) :=
  record_str (D := Decl.FaceName) hrd h.read (by rw [h.type]; decide) (by rw [h.type]; rfl) (by decide +kernel) h.node "name" "name" rfl (by decide +kernel)

/-- How many faces the table says there are for a language. -/
def faceCount (table : PModel Fields) (l : String) : Nat := ((intField (l ++ "_fonts") table.content).getD 0).toNat

theorem entry_counts {m : PModel Fields} {x : List (PyStr × PyStr) × Forest XNode} (h : Entry env ver rd "IdMappings" m x) :
    ∀ l ∈ languages, attrOf x.1 (l ++ "-fonts") = some (Spec.decimal (faceCount m l)) := by
  intro l hl
  have hty : sureTy (l ++ "_fonts") Decl.IdMappings = some (.prim (.int .UINT32)) := by
    simp only [languages, List.mem_cons, List.not_mem_nil, or_false] at hl
    rcases hl with rfl | rfl | rfl | rfl | rfl | rfl | rfl <;> rfl
  have hk : lit (l ++ "-fonts") = (lit (l ++ "_fonts")).map fun c => if c = 0x5F then 0x2D else c := by
    clear hty
    revert l; decide +kernel
  obtain ⟨n, h1, h2, h3⟩ := record_int (D := Decl.IdMappings) hrd h.read (by rw [h.type]; decide) (by rw [h.type]; rfl) (by decide +kernel) h.node (l ++ "_fonts") (l ++ "-fonts") .UINT32
    (by decide) hty hk
  obtain ⟨k, rfl⟩ : ∃ k : Nat, n = k := ⟨n.toNat, (Int.toNat_of_nonneg h2.1).symm⟩
  rw [h3, decimal_nat, noNul_natStr]
  simp [faceCount, h1, decimal_nat]

omit hrd in
theorem faces_entries {R : PModel Fields → List (PyStr × PyStr) × Forest XNode → Prop} (table : PModel Fields) (l : String) : ∀ (ls : List String) (as : List (PModel Fields))
    (bs : List (List (PyStr × PyStr) × Forest XNode)), List.Forall₂ R as bs → List.Forall₂ R (facesFor table l ls as) (facesOf (faceCount table) l ls bs)
  | [], as, bs, h => .nil
  | l' :: ls, as, bs, h => by
    simp only [facesFor, facesOf]
    split
    · exact forall₂_take h _
    · exact faces_entries table l ls _ _ (forall₂_drop h _)

theorem entries_names {styles : List (PModel Fields)} {T : Forest XNode} (h : List.Forall₂ (Entry env ver rd "Style") styles (entries "Style" T)) (hp : ProperStyles styles) :
    ProperNames T := by
  refine ⟨?_, ?_, ?_⟩
  · intro s hs
    obtain ⟨m, h1, h2⟩ := forall₂_mem h s hs
    rw [entry_class hrd h2]; exact hp.ident m h1
  · rw [forall₂_map (fun a b h => entry_class hrd h) h]; exact hp.distinct
  · intro s hs
    obtain ⟨m, h1, h2⟩ := forall₂_mem h s hs
    rw [entry_class hrd h2]; exact hp.shapes m h1

theorem entries_office {styles : List (PModel Fields)} {T : Forest XNode} (h : List.Forall₂ (Entry env ver rd "Style") styles (entries "Style" T)) (hp : OfficeStyles styles) :
    OfficeNames T := by
  refine ⟨?_, ?_⟩
  · rw [forall₂_map (fun a b h => entry_office hrd h) h]; exact hp.distinct
  · intro s hs
    obtain ⟨m, h1, h2⟩ := forall₂_mem h s hs
    rw [entry_office hrd h2]; exact hp.free m h1

def lineStyleBits : BitDecl := Decl.bitsE 4 7 (enumOf ["SOLID", "DASHED", "DOTTED", "DASH_DOT", "DASH_DOT_DOT", "LONG_DASHED", "LARGE_DOTTED", "DOUBLE",
    "LOWER_WEIGHTED", "UPPER_WEIGHTED", "MIDDLE_WEIGHTED"]) "underline_style"

omit hrd in
theorem lineStyle_shown : ∀ k < 11, some (noNul (showBits lineStyleBits k)) = ((singleLines ++ doubleLines)[k]?).map lit := by decide +kernel

/-- The names of the kinds of lines. -/
def lineNames : List String := ["none", "underline", "line_through", "overline"]

theorem entry_line {m : PModel Fields} {x : List (PyStr × PyStr) × Forest XNode} (h : Entry env ver rd "CharShape" m x) :
    ∃ k j, k < 4 ∧ shapeLine m = some k ∧ shapeLineStyle m = some j ∧ attrOf x.1 "underline" = (lineNames[k]?).map lit ∧
      (∀ s, (singleLines ++ doubleLines)[j]? = some s → attrOf x.1 "underline-style" = some (lit s)) := by
  obtain ⟨acc, v, h1, h2, h3⟩ := record_attr (D := Decl.CharShape) hrd h.read (by rw [h.type]; decide) (by rw [h.type]; rfl) (by decide +kernel) h.node
    "charshapeflags" (.flags Decl.CharShapeFlags) rfl
  obtain ⟨n, rfl⟩ : ∃ n, v = .leaf (.flags Decl.CharShapeFlags n) := by
    cases v with
    | leaf x => cases x <;> simp [Shaped] at h2; exact ⟨_, by rw [h2.1]⟩
    | _ => simp [Shaped] at h2
  have hk : n / 4 % 4 < 4 := Nat.mod_lt _ (by omega)
  have hj : n / 16 % 16 < 16 := Nat.mod_lt _ (by omega)
  refine ⟨n / 4 % 4, n / 16 % 16, hk, by simp [shapeLine, flagsField, h1], by simp [shapeLineStyle, flagsField, h1], ?_, ?_⟩
  · have key := h3 "underline" _ (List.mem_cons_of_mem _ (List.mem_cons_of_mem _ (List.mem_cons_of_mem _ List.mem_cons_self)))
    rw [key]
    dsimp only
    rw [show bitsNumber n (Decl.bitsE 2 3 (enumOf ["NONE", "UNDERLINE", "LINE_THROUGH", "OVERLINE"]) "underline").lsb
      ((Decl.bitsE 2 3 (enumOf ["NONE", "UNDERLINE", "LINE_THROUGH", "OVERLINE"]) "underline").msb + 1 -
        (Decl.bitsE 2 3 (enumOf ["NONE", "UNDERLINE", "LINE_THROUGH", "OVERLINE"]) "underline").lsb) = n / 4 % 4 from bitsNumber_eq n 2 2]
    generalize n / 4 % 4 = k at hk
    clear key h3 h2 h1
    revert k; decide +kernel
  · intro s hs
    have key := h3 "underline-style" _ (List.mem_cons_of_mem _ (List.mem_cons_of_mem _ (List.mem_cons_of_mem _ (List.mem_cons_of_mem _ List.mem_cons_self))))
    rw [key]
    dsimp only
    change some (noNul (showBits lineStyleBits (bitsNumber n 4 4))) = _
    rw [show bitsNumber n 4 4 = n / 16 % 16 from bitsNumber_eq n 4 4]
    have hl : n / 16 % 16 < 11 := (List.getElem?_eq_some_iff.1 hs).1
    have := lineStyle_shown _ hl
    rw [hs] at this
    exact this

end

end Hwp
