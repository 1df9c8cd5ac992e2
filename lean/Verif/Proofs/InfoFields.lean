/-
The attributes of the elements of records are the fields of the records.
-/
import Verif.Proofs.InfoRecords
set_option linter.unusedSimpArgs false
set_option linter.unusedVariables false
set_option autoImplicit false
namespace Hwp
open Spec

/-! ### Members -/

/-- The type of a member that is there in all versions and under all conditions. -/
def sureTy (name : String) : DMembers → Option DTy
  | .nil => none
  | .cons n version condition t rest => if n = name then (if version.isNone && condition.isNone then some t else none) else sureTy name rest

theorem sure_field (env : XmlEnv) (ctx : DCtx) (name : String) (t : DTy) : ∀ (ms : DMembers) (acc fs : Fields), FieldsOf ctx ms acc fs → ms.names.Nodup →
    sureTy name ms = some t → ∃ acc' v, fieldOf name fs = some v ∧ Shaped ctx t acc' v ∧
      ∀ x ∈ (showTy env ctx name t acc' v).1, x ∈ (showMembers env ctx ms acc fs).1
  | .nil, acc, fs, _, _, ht => by cases ht
  | .cons n version condition t' rest, acc, fs, h, hn, ht => by
    rw [FieldsOf.eq_def] at h
    simp only at h
    simp only [DMembers.names, List.nodup_cons] at hn
    simp only [sureTy] at ht
    rcases h with ⟨ha, _, hr⟩ | ⟨_, v, fs', rfl, hs, hr⟩
    · have hni : n ∉ fs.map (·.1) := fun hm => hn.1 ((fields_sublist ctx rest acc fs hr).subset hm)
      rw [showMembers_skip env ctx n version condition t' rest acc fs hni hr]
      by_cases e : n = name
      · rw [if_pos e] at ht
        split at ht
        · next hv =>
          simp only [Bool.and_eq_true, Option.isNone_iff_eq_none] at hv
          obtain ⟨rfl, rfl⟩ := hv
          simp [MemberAbsent, versionOk] at ha
        · cases ht
      · rw [if_neg e] at ht
        exact sure_field env ctx name t rest acc fs hr hn.2 ht
    · simp only [showMembers, if_true]
      by_cases e : n = name
      · subst e
        rw [if_pos rfl] at ht
        split at ht
        · obtain rfl := Option.some.inj ht
          exact ⟨acc, v, by simp [fieldOf], hs, fun x hx => List.mem_append_left _ hx⟩
        · cases ht
      · rw [if_neg e] at ht
        obtain ⟨acc', w, h1, h2, h3⟩ := sure_field env ctx name t rest _ fs' hr hn.2 ht
        exact ⟨acc', w, by simpa [fieldOf, e] using h1, h2, fun x hx => List.mem_append_right _ (h3 x hx)⟩

theorem attrOf_mem {as : List (PyStr × PyStr)} (hn : (as.map (·.1)).Nodup) {name : String} {v : PyStr} (h : (lit name, v) ∈ as) : attrOf as name = some v := by
  induction as with
  | nil => cases h
  | cons a as ih =>
    simp only [List.map_cons, List.nodup_cons] at hn
    rcases List.mem_cons.1 h with rfl | h
    · simp [attrOf]
    · have : a.1 ≠ lit name := by
        intro e
        exact hn.1 (e ▸ List.mem_map_of_mem (f := (·.1)) h)
      rw [attrOf, if_neg this]
      exact ih hn.2 h

/-- The element of a record of a class without bases. -/
theorem single_record (env : XmlEnv) (ver : Version) (rd : ModelReader Fields) (hrd : ReadsDecls ver rd) (rs : Gen Record) (i : Nat) (m : PModel Fields)
    (hm : (parseModels rd rs).out[i]? = some m) (ht : m.type ∈ "IdMappings" :: tableTypes) (D : DMembers) (hD : classChain m.type = [D])
    (attrs : List (PyStr × PyStr)) (kids : List XEv) (hs : startModel env ⟨m.type, m.content, ⟨some ver, none⟩⟩ = .ofList (.start (lit m.type) attrs :: kids)) :
    FieldsOf ⟨some ver, none⟩ D [] m.content ∧ attrs = hyphens (showMembers env ⟨some ver, none⟩ D [] m.content).1 ∧
      kids = (showMembers env ⟨some ver, none⟩ D [] m.content).2 ∧ (attrs.map (·.1)).Nodup := by
  have hp : ∀ t ∈ "IdMappings" :: tableTypes, t ∉ paragraphParts ∧ t ≠ "BinData" ∧ t ≠ "ShapeComponent" := by decide +kernel
  obtain ⟨parts, plain, h1, h2, h3, h4, -⟩ := Props.C71_element_of_record env ver rd hrd rs i m hm (hp _ ht).1 (.inl (hp _ ht).2.1) []
    ⟨by simp, by simp, by simp, by simp⟩
  rw [hD] at h1 h3 h4
  obtain ⟨fs, rfl, hfs⟩ : ∃ fs, parts = [fs] ∧ FieldsOf ⟨some ver, none⟩ D [] fs := by
    match parts, h1 with
    | [fs], h1 => exact ⟨fs, rfl, h1.1⟩
    | [], h1 => simp [PartsOf] at h1
    | _ :: _ :: _, h1 => simp [PartsOf] at h1
  obtain ⟨rfl, rfl⟩ : fs = m.content ∧ plain = [] := by
    rcases h2 with ⟨h2, h5⟩ | ⟨h2, -⟩
    · exact ⟨by rw [h2]; simp, h5⟩
    · exact absurd h2 (hp _ ht).2.2
  rw [List.append_nil] at h3
  have e := ofList_injective (hs.symm.trans h3)
  simp only [List.cons.injEq, XEv.start.injEq, true_and] at e
  simp only [showParts, List.append_nil, showPlain, List.map_nil] at e h4
  obtain ⟨rfl, rfl⟩ := e
  exact ⟨hfs, rfl, rfl, h4.2.1⟩

/-- Records as read, and the element of one of the tables. -/
def ReadRecord (ver : Version) (rd : ModelReader Fields) (m : PModel Fields) : Prop := ∃ (rs : Gen Record) (i : Nat), (parseModels rd rs).out[i]? = some m

theorem record_attr {env : XmlEnv} {ver : Version} {rd : ModelReader Fields} (hrd : ReadsDecls ver rd) {m : PModel Fields} (hm : ReadRecord ver rd m)
    (ht : m.type ∈ "IdMappings" :: tableTypes) {D : DMembers} (hD : classChain m.type = [D]) (hN : D.names.Nodup) {x : List (PyStr × PyStr) × Forest XNode}
    (hx : NodeOf env ver m x) (name : String) (t : DTy) (hty : sureTy name D = some t) :
    ∃ acc v, fieldOf name m.content = some v ∧ Shaped ⟨some ver, none⟩ t acc v ∧
      ∀ (key : String) (w : PyStr), (key.toList.map Char.toNat, w) ∈ hyphens (showTy env ⟨some ver, none⟩ name t acc v).1 → attrOf x.1 key = some (noNul w) := by
  obtain ⟨rs, i, hm⟩ := hm
  obtain ⟨attrs, kids, K, C, h1, h2, rfl, -, -⟩ := hx
  obtain ⟨g1, rfl, rfl, g4⟩ := single_record env ver rd hrd rs i m hm ht D hD attrs kids h1
  obtain ⟨acc, v, e1, e2, e3⟩ := sure_field env ⟨some ver, none⟩ name t D [] m.content g1 hN hty
  refine ⟨acc, v, e1, e2, ?_⟩
  intro key w hw
  refine attrOf_mem ?_ ?_
  · rw [List.map_map]
    exact g4
  · rw [List.mem_map]
    refine ⟨(lit key, w), ?_, rfl⟩
    simp only [hyphens, List.mem_map] at hw ⊢
    obtain ⟨q, hq, e⟩ := hw
    exact ⟨q, e3 q hq, e⟩

theorem record_int {env : XmlEnv} {ver : Version} {rd : ModelReader Fields} (hrd : ReadsDecls ver rd) {m : PModel Fields} (hm : ReadRecord ver rd m)
    (ht : m.type ∈ "IdMappings" :: tableTypes) {D : DMembers} (hD : classChain m.type = [D]) (hN : D.names.Nodup) {x : List (PyStr × PyStr) × Forest XNode}
    (hx : NodeOf env ver m x) (name key : String) (p : Prim) (hw : p ≠ .WCHAR) (hty : sureTy name D = some (.prim (.int p)))
    (hk : lit key = (lit name).map fun c => if c = 0x5F then 0x2D else c) :
    ∃ n, intField name m.content = some n ∧ InRange p n ∧ attrOf x.1 key = some (noNul (Spec.decimal n)) := by
  obtain ⟨acc, v, h1, h2, h3⟩ := record_attr hrd hm ht hD hN hx name _ hty
  obtain ⟨n, rfl, hr⟩ := int_of_shaped h2
  refine ⟨n, by simp [intField, h1], hr, h3 key _ ?_⟩
  have : showPrim env (.int p) (.int n) = Spec.decimal n := by cases p <;> first | rfl | exact absurd rfl hw
  simp only [showTy, hyphens, List.map_cons, List.map_nil, this, List.mem_singleton]
  exact Prod.ext hk rfl

theorem record_str {env : XmlEnv} {ver : Version} {rd : ModelReader Fields} (hrd : ReadsDecls ver rd) {m : PModel Fields} (hm : ReadRecord ver rd m)
    (ht : m.type ∈ "IdMappings" :: tableTypes) {D : DMembers} (hD : classChain m.type = [D]) (hN : D.names.Nodup) {x : List (PyStr × PyStr) × Forest XNode}
    (hx : NodeOf env ver m x) (name key : String) (hty : sureTy name D = some (.prim .bstr))
    (hk : lit key = (lit name).map fun c => if c = 0x5F then 0x2D else c) :
    ∃ s, strField name m.content = some s ∧ attrOf x.1 key = some (noNul s) := by
  obtain ⟨acc, v, h1, h2, h3⟩ := record_attr hrd hm ht hD hN hx name _ hty
  obtain ⟨s, rfl⟩ : ∃ s, v = .leaf (.str s) := by
    cases v with
    | leaf x => cases x <;> simp [Shaped, PrimVal] at h2; exact ⟨_, rfl⟩
    | _ => simp [Shaped] at h2
  refine ⟨s, by simp [strField, h1], h3 key _ ?_⟩
  simp only [showTy, hyphens, List.map_cons, List.map_nil, showPrim, List.mem_singleton]
  exact Prod.ext hk rfl

/-! ### Character shapes -/

theorem noNul_byteHex (n : Nat) : noNul (byteHex n) = byteHex n := by
  refine noNul_id _ ?_
  have h : ∀ k < 16, (Nat.digitChar k).toNat ≠ 0 := by decide
  simp only [byteHex, List.map_cons, List.map_nil, List.mem_cons, List.not_mem_nil, or_false, not_or]
  exact ⟨fun e => h _ (Nat.mod_lt _ (by omega)) e.symm, fun e => h _ (Nat.mod_lt _ (by omega)) e.symm⟩

theorem noNul_color (n : Int) : noNul (colorText n) = colorText n := by
  simp only [colorText, noNul_append, noNul_byteHex]
  rfl

theorem shape_color {env : XmlEnv} {ver : Version} {rd : ModelReader Fields} (hrd : ReadsDecls ver rd) {m : PModel Fields} (hm : ReadRecord ver rd m)
    (ht : m.type = "CharShape") {x : List (PyStr × PyStr) × Forest XNode} (hx : NodeOf env ver m x) :
    ∃ n, intField "text_color" m.content = some n ∧ attrOf x.1 "text-color" = some (colorText n) := by
  obtain ⟨acc, v, h1, h2, h3⟩ := record_attr (D := Decl.CharShape) hrd hm (by rw [ht]; decide) (by rw [ht]; rfl) (by decide +kernel) hx "text_color" (.prim .colorref) rfl
  obtain ⟨n, rfl⟩ : ∃ n, v = .leaf (.int n) := by
    cases v with
    | leaf x => cases x <;> simp [Shaped, PrimVal] at h2; exact ⟨_, rfl⟩
    | _ => simp [Shaped] at h2
  refine ⟨n, by simp [intField, h1], ?_⟩
  rw [← noNul_color]
  refine h3 "text-color" _ ?_
  simp only [showTy, hyphens, List.map_cons, List.map_nil, showPrim, List.mem_singleton]
  exact Prod.ext (show lit "text-color" = (lit "text_color").map (fun c => if c = 95 then 45 else c) by decide +kernel) rfl

theorem shape_flags {env : XmlEnv} {ver : Version} {rd : ModelReader Fields} (hrd : ReadsDecls ver rd) {m : PModel Fields} (hm : ReadRecord ver rd m)
    (ht : m.type = "CharShape") {x : List (PyStr × PyStr) × Forest XNode} (hx : NodeOf env ver m x) :
    (attrOf x.1 "italic" = some (Spec.decimal (if shapeItalic m then 1 else 0 : Nat))) ∧ (attrOf x.1 "bold" = some (Spec.decimal (if shapeBold m then 1 else 0 : Nat))) := by
  obtain ⟨acc, v, h1, h2, h3⟩ := record_attr (D := Decl.CharShape) hrd hm (by rw [ht]; decide) (by rw [ht]; rfl) (by decide +kernel) hx "charshapeflags" (.flags Decl.CharShapeFlags) rfl
  obtain ⟨n, rfl⟩ : ∃ n, v = .leaf (.flags Decl.CharShapeFlags n) := by
    cases v with
    | leaf x => cases x <;> simp [Shaped] at h2; exact ⟨_, by rw [h2.1]⟩
    | _ => simp [Shaped] at h2
  have hd : ∀ k : Nat, noNul (Spec.decimal k) = Spec.decimal k := fun k => by rw [decimal_nat, noNul_natStr]
  refine ⟨?_, ?_⟩
  · rw [← hd]
    refine h3 "italic" _ ?_
    have e : (if shapeItalic m then 1 else 0 : Nat) = bitsNumber n 0 1 := by
      simp [shapeItalic, flagsField, h1, bitsNumber, Nat.testBit_zero]
    rw [e]
    simp only [showTy, showFlags, Decl.CharShapeFlags, List.map_cons, hyphens]
    exact List.mem_cons_of_mem _ List.mem_cons_self
  · rw [← hd]
    refine h3 "bold" _ ?_
    have e : (if shapeBold m then 1 else 0 : Nat) = bitsNumber n 1 1 := by
      simp [shapeBold, flagsField, h1, bitsNumber, Nat.testBit_eq_decide_div_mod_eq]
    rw [e]
    simp only [showTy, showFlags, Decl.CharShapeFlags, List.map_cons, hyphens]
    exact List.mem_cons_of_mem _ (List.mem_cons_of_mem _ List.mem_cons_self)

/-- Only numbers and flags. -/
def primMembers : DMembers → Bool
  | .nil => true
  | .cons _ _ _ t rest => (match t with | .prim _ => true | .flags _ => true | _ => false) && primMembers rest

theorem prim_kids (env : XmlEnv) (ctx : DCtx) : ∀ (ms : DMembers) (acc fs : Fields), primMembers ms = true → (showMembers env ctx ms acc fs).2 = []
  | .nil, acc, fs, _ => by simp [showMembers]
  | .cons name ver c t rest, acc, [], _ => by simp [showMembers]
  | .cons name ver c t rest, acc, (n, v) :: fs, h => by
    simp only [primMembers, Bool.and_eq_true] at h
    simp only [showMembers]
    split
    · simp only [prim_kids env ctx rest _ fs h.2, List.append_nil]
      cases t with
      | prim p => cases v <;> simp [showTy]
      | flags f =>
        cases v with
        | leaf x => cases x <;> simp [showTy]
        | _ => simp [showTy]
      | _ => simp at h
    · exact prim_kids env ctx rest acc ((n, v) :: fs) h.2

/-- Besides those, structs of them with other names than this. -/
def flatMembers (sn : String) : DMembers → Bool
  | .nil => true
  | .cons _ _ _ t rest => (match t with | .prim _ => true | .flags _ => true | .struct n ms => n != sn && primMembers ms | _ => false) && flatMembers sn rest

theorem flat_starts (env : XmlEnv) (ctx : DCtx) (sn : String) : ∀ (ms : DMembers) (acc fs : Fields), flatMembers sn ms = true →
    ∀ n as, .start n as ∈ (showMembers env ctx ms acc fs).2 → n ≠ lit sn
  | .nil, acc, fs, _ => by simp [showMembers]
  | .cons name ver c t rest, acc, [], _ => by simp [showMembers]
  | .cons name ver c t rest, acc, (k, v) :: fs, h => by
    simp only [flatMembers, Bool.and_eq_true] at h
    intro n as
    simp only [showMembers]
    split
    · simp only [List.mem_append]
      rintro (hn | hn)
      · cases t with
        | prim p => cases v <;> simp [showTy] at hn
        | flags f =>
          cases v with
          | leaf x => cases x <;> simp [showTy] at hn
          | _ => simp [showTy] at hn
        | struct s ms =>
          cases v with
          | struct gs =>
            simp only [Bool.and_eq_true, bne_iff_ne] at h
            simp only [showTy] at hn
            split at hn
            · cases hn
            · simp only [prim_kids env ctx ms [] gs h.1.2, elem, List.nil_append, List.mem_cons, XEv.start.injEq, reduceCtorEq, List.not_mem_nil, or_false] at hn
              rw [hn.1, Ne, lit_eq]
              exact h.1.1
          | _ => simp [showTy] at hn
        | _ => simp at h
      · exact flat_starts env ctx sn rest _ fs h.2 n as hn
    · exact flat_starts env ctx sn rest acc ((k, v) :: fs) h.2 n as

/-- The faces of a character shape. -/
theorem shape_faces {env : XmlEnv} {ver : Version} {rd : ModelReader Fields} (hrd : ReadsDecls ver rd) {m : PModel Fields} (hm : ReadRecord ver rd m)
    (ht : m.type = "CharShape") {x : List (PyStr × PyStr) × Forest XNode} (hx : NodeOf env ver m x) :
    ∃ fs fk, entries "FontFace" x.2 = [(fs, fk)] ∧ ∀ l ∈ languages, ∃ i : Nat, shapeFace m l = some i ∧ attrOf fs l = some (Spec.decimal i) := by
  obtain ⟨rs, i, hm⟩ := hm
  obtain ⟨attrs, kids, K, C, h1, h2, rfl, -, hC⟩ := hx
  obtain ⟨g1, rfl, rfl, g4⟩ := single_record env ver rd hrd rs i m hm (by rw [ht]; decide) Decl.CharShape (by rw [ht]; rfl) attrs kids h1
  have c1 : clearMembers Decl.CharShape = true := by decide +kernel
  have c2 : namedMembers Decl.CharShape = true := by decide +kernel
  have c3 : Decl.CharShape.names.Nodup := by decide +kernel
  obtain ⟨gs, fs', K1, R, e1, e2, e3, rfl, -, hR⟩ := struct_step env _ _ _ _ _ _ _ (by decide) g1 c1 c2 c3 K h2
  have hr : entries "FontFace" R = [] := by
    refine List.sublist_nil.1 (every_elements (ok := fun n => decide (n ≠ lit "FontFace")) "FontFace" (by simp) ?_ ▸ entries_elements "FontFace" R)
    refine bal_every hR (fun n => decide (n ≠ lit "FontFace")) ?_
    intro n as hn
    obtain ⟨as', hn⟩ := joined_start hn
    simpa using flat_starts env _ "FontFace" _ _ _ (by decide +kernel) n as' hn
  refine ⟨_, _, by simp only [Forest.append, entries, if_true, entries_append, hr, hC "FontFace" (by decide +kernel)]; rfl, ?_⟩
  intro l hl
  have hty : sureTy l (match Decl.LanguageStruct "FontFace" Decl.WORD with | .struct _ ms => ms | _ => .nil) = some (.prim (.int .WORD)) := by
    simp only [languages, List.mem_cons, List.not_mem_nil, or_false] at hl
    rcases hl with rfl | rfl | rfl | rfl | rfl | rfl | rfl <;> rfl
  obtain ⟨acc, v, a1, a2, a3⟩ := sure_field env ⟨some ver, none⟩ l _ _ [] gs e2 (by decide +kernel) hty
  obtain ⟨n, rfl, hr'⟩ := int_of_shaped a2
  obtain ⟨k, rfl⟩ : ∃ k : Nat, n = k := ⟨n.toNat, (Int.toNat_of_nonneg hr'.1).symm⟩
  refine ⟨k, ?_, ?_⟩
  · have : fieldOf "font_face" m.content = some (.struct gs) := by rw [e1]; simp [fieldOf]
    simp [shapeFace, this, intField, a1]
  · have hd : noNul (Spec.decimal k) = Spec.decimal k := by rw [decimal_nat, noNul_natStr]
    rw [← hd]
    refine attrOf_mem ?_ ?_
    · have hs := showMembers_names env ⟨some ver, none⟩ _ [] gs e2 (by decide +kernel) (by decide +kernel)
      have hs' := List.Sublist.map (fun s : PyStr => s.map fun c => if c = 0x5F then 0x2D else c) (List.Sublist.append hs (.refl [lit "attribute-name"]))
      refine List.Sublist.nodup (l₂ := _) ?_ (show (List.map (fun s : PyStr => s.map fun c => if c = 0x5F then 0x2D else c)
        (membersAttrNames (match Decl.LanguageStruct "FontFace" Decl.WORD with | .struct _ ms => ms | _ => .nil) ++ [lit "attribute-name"])).Nodup by decide +kernel)
      refine Eq.subst (motive := fun l => List.Sublist l _) ?_ hs'
      simp [hyphens, Function.comp_def]
    · rw [List.mem_map]
      refine ⟨(lit l, Spec.decimal k), ?_, rfl⟩
      simp only [hyphens, List.mem_map]
      refine ⟨(lit l, Spec.decimal k), List.mem_append_left _ (a3 _ (by simp [showTy, showPrim])), ?_⟩
      refine Prod.ext ?_ rfl
      simp only [languages, List.mem_cons, List.not_mem_nil, or_false] at hl
      rcases hl with rfl | rfl | rfl | rfl | rfl | rfl | rfl <;> (show List.map _ (lit _) = lit _; decide +kernel)

end Hwp
