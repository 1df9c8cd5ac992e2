/- Proofs: table bodies, line segments and embedded binary data as elements. -/
import Verif.Proofs.DocShow
import Verif.Proofs.Quiet
set_option linter.unusedSimpArgs false
set_option linter.unusedVariables false
namespace Hwp
open Spec

theorem fieldsOf_m (ctx : DCtx) (name : String) (t : DTy) (rest : DMembers) (acc fs : Fields) :
    FieldsOf ctx (.cons name none none t rest) acc fs ↔ ∃ v fs', fs = (name, v) :: fs' ∧ Shaped ctx t acc v ∧
      FieldsOf ctx rest (acc ++ [(name, v)]) fs' := by
  simp [FieldsOf, MemberAbsent, MemberThere, versionOk]

/-- The fields of a table body. -/
theorem tableBody_fields (ctx : DCtx) (fs : Fields) (h : FieldsOf ctx Decl.TableBody [] fs) :
    ∃ (n : Nat) (r c s b : Int) (mg : Fields) (xs : List (Value PVal)) (zs : Fields), fs = [("flags", .leaf (.flags Decl.TableBodyFlags n)), ("rows", .leaf (.int r)), ("cols", .leaf (.int c)),
        ("cellspacing", .leaf (.int s)), ("padding", .struct mg), ("rowcols", .list xs), ("borderfill_id", .leaf (.int b))] ++ zs ∧
      InRange .UINT16 r ∧ InRange .UINT16 c ∧ InRange .HWPUNIT16 s ∧ Shaped ctx Decl.Margin [] (.struct mg) ∧ InRange .UINT16 b ∧
      ((versionOk ctx.version (some [5, 0, 0, 7]) = false ∧ zs = []) ∨ (versionOk ctx.version (some [5, 0, 0, 7]) = true ∧
        ∃ v, zs = [("validZones", v)] ∧ Shaped ctx (.nArray .UINT16 Decl.ZoneInfo) [] v)) := by
  simp only [Decl.TableBody, Decl.m, fieldsOf_m] at h
  obtain ⟨v1, _, rfl, h1, v2, _, rfl, h2, v3, _, rfl, h3, v4, _, rfl, h4, v5, _, rfl, h5, v6, _, rfl, h6, v7, zs, rfl, h7, h8⟩ := h
  have l : ∀ t acc v, Shaped ctx (.prim (.int t)) acc v → ∃ n, v = .leaf (.int n) ∧ InRange t n := by
    intro t acc v hv
    cases v with
    | leaf x => cases x <;> simp [Shaped, PrimVal] at hv; exact ⟨_, rfl, hv⟩
    | _ => simp [Shaped] at hv
  obtain ⟨r, rfl, hr⟩ := l _ _ _ h2
  obtain ⟨c, rfl, hc⟩ := l _ _ _ h3
  obtain ⟨s, rfl, hs⟩ := l _ _ _ h4
  obtain ⟨b, rfl, hb⟩ := l _ _ _ h7
  obtain ⟨n, rfl⟩ : ∃ n, v1 = .leaf (.flags Decl.TableBodyFlags n) := by
    cases v1 with
    | leaf x => cases x <;> simp [Shaped] at h1; exact ⟨_, by rw [h1.1]⟩
    | _ => simp [Shaped] at h1
  obtain ⟨mg, rfl⟩ : ∃ mg, v5 = .struct mg := by
    cases v5 with
    | struct mg => exact ⟨mg, rfl⟩
    | _ => simp [Decl.Margin, Shaped] at h5
  obtain ⟨xs, rfl⟩ : ∃ xs, v6 = .list xs := by
    cases v6 with
    | list mg => exact ⟨mg, rfl⟩
    | _ => simp [Shaped] at h6
  refine ⟨n, r, c, s, b, mg, xs, zs, rfl, hr, hc, hs, ?_, hb, ?_⟩
  · simpa [Decl.Margin, Shaped] using h5
  · simp only [Decl.mv, FieldsOf, MemberAbsent, MemberThere] at h8
    rcases h8 with ⟨h8, -, h9⟩ | ⟨⟨h8, -⟩, v, fs', rfl, h9, rfl⟩
    · left
      refine ⟨?_, h9⟩
      simpa using h8
    · right
      refine ⟨h8, v, rfl, ?_⟩
      cases v <;> simp [Shaped] at h9 ⊢
      exact h9

theorem allShow_cons (env : XmlEnv) {i : AItem} {is : List AItem} {a b} (h : ItemShows env i a) (hs : AllShow env is b) :
    AllShow env (i :: is) (a.1 ++ b.1, a.2 ++ b.2) := ⟨a, b, h, hs, rfl⟩

/-- The attributes and elements of a table body whose row widths have been removed. -/
def showBareTable (env : XmlEnv) (ctx : DCtx) (n : Nat) (r c s b : Int) (mg zs : Fields) : List (PyStr × PyStr) × List XEv :=
  (showFlags "flags" Decl.TableBodyFlags n ++ [(lit "rows", Spec.decimal r), (lit "cols", Spec.decimal c), (lit "cellspacing", Spec.decimal s)] ++
    showMargin env "padding" mg ++ [(lit "rowcols", lit "()"), (lit "borderfill_id", Spec.decimal b)],
   match zs with
   | [(_, v)] => (showTy env ctx "validZones" (.nArray .UINT16 Decl.ZoneInfo) [] v).2
   | _ => [])

/-- The item of a member. -/
def tyItem (env : XmlEnv) (ctx : DCtx) (k : String) (t : DTy) (v : Value PVal) : AItem := ⟨k, some t, v, t.sub env ctx k v⟩

/-- A member of a plain type. -/
theorem typed_plain (env : XmlEnv) (ctx : DCtx) (k : String) (t : DTy) (rest : DMembers) (values attrs : Fields)
    (h1 : ∀ it ref, t ≠ .xArray it ref) (h2 : ∀ ref ss, t ≠ .selective ref ss) :
    (DMembers.cons k none none t rest).typed env ctx values attrs =
      (rest.typed env ctx (setField k (popValue k t attrs).1 values) (popValue k t attrs).2).map
        (fun r => (tyItem env ctx k t (popValue k t attrs).1 :: r.1, r.2)) := by
  cases t with
  | xArray it ref => exact absurd rfl (h1 it ref)
  | selective ref ss => exact absurd rfl (h2 ref ss)
  | _ =>
    simp only [DMembers.typed, memberWanted, bind, Except.bind, pure, Except.pure, tyItem, if_true]
    generalize DMembers.typed env ctx rest _ _ = x
    cases x <;> rfl

theorem bare_table_items (env : XmlEnv) (ver : Version) (n : Nat) (r c s b : Int) (mg zs : Fields)
    (hr : InRange .UINT16 r) (hc : InRange .UINT16 c) (hs : InRange .HWPUNIT16 s) (hm : Shaped ⟨some ver, none⟩ Decl.Margin [] (.struct mg))
    (hb : InRange .UINT16 b)
    (hz : (versionOk (some ver) (some [5, 0, 0, 7]) = false ∧ zs = []) ∨ (versionOk (some ver) (some [5, 0, 0, 7]) = true ∧
        ∃ v, zs = [("validZones", v)] ∧ Shaped ⟨some ver, none⟩ (.nArray .UINT16 Decl.ZoneInfo) [] v)) :
    ∃ items, typedAttributes env ⟨some ver, none⟩ "TableBody" ([("flags", .leaf (.flags Decl.TableBodyFlags n)), ("rows", .leaf (.int r)), ("cols", .leaf (.int c)),
        ("cellspacing", .leaf (.int s)), ("padding", .struct mg), ("borderfill_id", .leaf (.int b))] ++ zs) = .ok items ∧
      AllShow env items (showBareTable env ⟨some ver, none⟩ n r c s b mg zs) ∧
      items.map (·.name) = ["flags", "rows", "cols", "cellspacing", "padding", "rowcols", "borderfill_id"] ++ zs.map (·.1) := by
  have hch : classChain "TableBody" = [Decl.TableBody] := rfl
  have hp : ∀ k p x, InRange p x → p ≠ .WCHAR → ItemShows env ⟨k, some (.prim (.int p)), .leaf (.int x),
      DTy.sub env ⟨some ver, none⟩ k (.prim (.int p)) (.leaf (.int x))⟩ ([(lit k, Spec.decimal x)], []) := by
    intro k p x hx hw
    refine ⟨fun h => by simp [AItem.complex, isComplexType] at h, fun _ => ⟨?_, rfl⟩⟩
    refine (expand_prim env k (.int p) (.int x) hx).trans ?_
    cases p <;> first | rfl | exact absurd rfl hw
  have hpad := shows_ty env ⟨some ver, none⟩ ver rfl "padding" Decl.Margin [] (.struct mg) hm (by decide +kernel)
    (by simp [Decl.Margin]) (by simp [Decl.Margin])
  have hpe : showTy env ⟨some ver, none⟩ "padding" Decl.Margin [] (.struct mg) = (showMargin env "padding" mg, []) := by
    simp [Decl.Margin, showTy]
  rw [hpe] at hpad
  have hrc : ItemShows env (tyItem env ⟨some ver, none⟩ "rowcols" (.array Decl.UINT16 r.toNat) (.tuple [])) ([(lit "rowcols", lit "()")], []) := by
    refine ⟨fun h => by simp [AItem.complex, isComplexType, Decl.UINT16, tyItem] at h, fun _ => ⟨?_, rfl⟩⟩
    simp [expand, xmlattrval, pyRepr, pyReprs, tupleRepr, commaJoin, Decl.UINT16, tyItem]
    decide +kernel
  have hfl : ItemShows env (tyItem env ⟨some ver, none⟩ "flags" (.flags Decl.TableBodyFlags) (.leaf (.flags Decl.TableBodyFlags n)))
      (showFlags "flags" Decl.TableBodyFlags n, []) :=
    ⟨fun h => by simp [AItem.complex, isComplexType, tyItem] at h, fun _ => ⟨expand_flags env _ _ _, rfl⟩⟩
  let items := [tyItem env ⟨some ver, none⟩ "flags" (.flags Decl.TableBodyFlags) (.leaf (.flags Decl.TableBodyFlags n)),
      tyItem env ⟨some ver, none⟩ "rows" (.prim (.int .UINT16)) (.leaf (.int r)), tyItem env ⟨some ver, none⟩ "cols" (.prim (.int .UINT16)) (.leaf (.int c)),
      tyItem env ⟨some ver, none⟩ "cellspacing" (.prim (.int .HWPUNIT16)) (.leaf (.int s)), tyItem env ⟨some ver, none⟩ "padding" Decl.Margin (.struct mg),
      tyItem env ⟨some ver, none⟩ "rowcols" (.array Decl.UINT16 r.toNat) (.tuple []), tyItem env ⟨some ver, none⟩ "borderfill_id" (.prim (.int .UINT16)) (.leaf (.int b))]
  have hall : ∀ is2 t, AllShow env is2 t → AllShow env (items ++ is2) ((showBareTable env ⟨some ver, none⟩ n r c s b mg []).1 ++ t.1, t.2) := by
    intro is2 t ht
    refine cast ?_ (allShow_cons env hfl (allShow_cons env (hp "rows" .UINT16 r hr (by decide)) (allShow_cons env (hp "cols" .UINT16 c hc (by decide))
        (allShow_cons env (hp "cellspacing" .HWPUNIT16 s hs (by decide)) (allShow_cons env hpad (allShow_cons env hrc
        (allShow_cons env (hp "borderfill_id" .UINT16 b hb (by decide)) ht)))))))
    simp [showBareTable, items, tyItem]
  rcases hz with ⟨hv, rfl⟩ | ⟨hv, v, rfl, hz⟩
  · have hl : Version.lt ver [5, 0, 0, 7] = true := by simpa [versionOk] using hv
    refine ⟨items, ?_, ?_, rfl⟩
    · rw [typedAttributes, hch]
      simp [typedChain, Decl.TableBody, Decl.m, Decl.mv, DMembers.typed, memberWanted, popValue, List.lookup,
        bind, Except.bind, pure, Except.pure, withRemnants, setField, Decl.UINT16, Decl.HWPUNIT16, DTy.default,
        Decl.Margin, untypedItems, RefDecl.eval, getInt, getValue, items, tyItem, hl]
      rfl
    · have := hall [] ([], []) rfl
      simpa [showBareTable] using this
  · have hl : Version.lt ver [5, 0, 0, 7] = false := by simpa [versionOk] using hv
    refine ⟨items ++ [tyItem env ⟨some ver, none⟩ "validZones" (.nArray .UINT16 Decl.ZoneInfo) v], ?_, ?_, rfl⟩
    · rw [typedAttributes, hch]
      simp [typedChain, Decl.TableBody, Decl.m, Decl.mv, DMembers.typed, memberWanted, popValue, List.lookup,
        bind, Except.bind, pure, Except.pure, withRemnants, setField, Decl.UINT16, Decl.HWPUNIT16, DTy.default,
        Decl.Margin, untypedItems, RefDecl.eval, getInt, getValue, items, tyItem, hl]
      rfl
    · have h8 := shows_ty env ⟨some ver, none⟩ ver rfl "validZones" (.nArray .UINT16 Decl.ZoneInfo) [] v hz (by decide +kernel)
        (by simp) (by simp)
      have := hall _ _ (allShow_cons env h8 (is := []) (b := ([], [])) rfl)
      have e : (showTy env ⟨some ver, none⟩ "validZones" (.nArray .UINT16 Decl.ZoneInfo) [] v).1 = [] := by
        cases v <;> simp [showTy, showItems, Decl.ZoneInfo]
      rw [e] at this
      simpa [showBareTable, tyItem] using this

/-- The content is shown without text. -/
def Quiet (env : XmlEnv) (m : ModelItem) : Prop :=
  ∃ attrs kids, startModel env m = .ofList (.start (lit m.model) attrs :: kids) ∧ Quieted kids

/-- A table body without row widths. -/
theorem bare_table_both (env : XmlEnv) (ver : Version) (fs : Fields) (h : FieldsOf ⟨some ver, none⟩ Decl.TableBody [] fs) :
    Quiet env ⟨"TableBody", fs.filter (fun p => p.1 ≠ "rowcols"), ⟨some ver, none⟩⟩ ∧
    Shows env ⟨"TableBody", fs.filter (fun p => p.1 ≠ "rowcols"), ⟨some ver, none⟩⟩ := by
  obtain ⟨n, r, c, s, b, mg, xs, zs, rfl, hr, hc, hs, hm, hb, hz⟩ := tableBody_fields _ fs h
  have hzn : zs.map (·.1) = [] ∨ zs.map (·.1) = ["validZones"] := by
    rcases hz with ⟨_, rfl⟩ | ⟨_, v, rfl, _⟩
    · exact Or.inl rfl
    · exact Or.inr rfl
  have hf : ([("flags", .leaf (.flags Decl.TableBodyFlags n)), ("rows", .leaf (.int r)), ("cols", .leaf (.int c)),
        ("cellspacing", .leaf (.int s)), ("padding", .struct mg), ("rowcols", .list xs), ("borderfill_id", .leaf (.int b))] ++ zs : Fields).filter
        (fun p => p.1 ≠ "rowcols") = [("flags", .leaf (.flags Decl.TableBodyFlags n)), ("rows", .leaf (.int r)), ("cols", .leaf (.int c)),
        ("cellspacing", .leaf (.int s)), ("padding", .struct mg), ("borderfill_id", .leaf (.int b))] ++ zs := by
    rcases hz with ⟨_, rfl⟩ | ⟨_, v, rfl, _⟩ <;> simp
  rw [hf]
  obtain ⟨items, h1, h2, h3⟩ := bare_table_items env ver n r c s b mg zs hr hc hs hm hb hz
  have hmn := showTy_names env ⟨some ver, none⟩ "padding" Decl.Margin [] (.struct mg) hm (by decide +kernel)
  have hpe : showTy env ⟨some ver, none⟩ "padding" Decl.Margin [] (.struct mg) = (showMargin env "padding" mg, []) := by
    simp [Decl.Margin, showTy]
  rw [hpe] at hmn
  have hsub : ((showBareTable env ⟨some ver, none⟩ n r c s b mg zs).1.map (·.1)).Sublist
      (["flags", "split_page", "repeat_header", "rows", "cols", "cellspacing"].map lit ++ attrNames "padding" Decl.Margin ++
        ["rowcols", "borderfill_id"].map lit) := by
    have : (showBareTable env ⟨some ver, none⟩ n r c s b mg zs).1.map (·.1) =
        ["flags", "split_page", "repeat_header", "rows", "cols", "cellspacing"].map lit ++ (showMargin env "padding" mg).map (·.1) ++
        ["rowcols", "borderfill_id"].map lit := by
      simp [showBareTable, showFlags, Decl.TableBodyFlags, Decl.bit, Decl.bits, Decl.bitsE]
    rw [this]
    exact (List.Sublist.append (List.Sublist.append (List.Sublist.refl _) hmn) (List.Sublist.refl _))
  have hneat : Neat (showBareTable env ⟨some ver, none⟩ n r c s b mg zs).2 := by
    rcases hz with ⟨_, rfl⟩ | ⟨_, v, rfl, hv⟩
    · exact neat_nil
    · exact neat_ty env _ _ _ _ _ hv (by decide +kernel) (by decide +kernel)
  have hquiet : Quieted (showBareTable env ⟨some ver, none⟩ n r c s b mg zs).2 := by
    rcases hz with ⟨_, rfl⟩ | ⟨_, v, rfl, hv⟩
    · exact quieted_nil
    · exact quiet_ty env _ _ _ _ _ (by decide +kernel)
  refine (shows_of_items env ⟨"TableBody", _, ⟨some ver, none⟩⟩ items _ h1 h2 ?_ ?_ (show "TableBody" ≠ "Text" by decide)
    (show ValidName (lit "TableBody") by decide +kernel) ?_ ?_ hneat.1 hneat.2).imp (fun h => ⟨_, _, h, hquiet⟩) id
  · rw [h3]
    rcases hzn with e | e <;> rw [e] <;> decide
  · rw [h3]
    rcases hzn with e | e <;> rw [e] <;> decide
  · exact List.Nodup.sublist (hsub.map _) (by decide +kernel)
  · intro k hk
    have : ∀ k ∈ (["flags", "split_page", "repeat_header", "rows", "cols", "cellspacing"].map lit ++ attrNames "padding" Decl.Margin ++
        ["rowcols", "borderfill_id"].map lit), ValidName (hyphen k) := by decide +kernel
    exact this k (hsub.subset hk)

theorem bare_table_shown (env : XmlEnv) (ver : Version) (fs : Fields) (h : FieldsOf ⟨some ver, none⟩ Decl.TableBody [] fs) :
    Shows env ⟨"TableBody", fs.filter (fun p => p.1 ≠ "rowcols"), ⟨some ver, none⟩⟩ := (bare_table_both env ver fs h).2

/-- A line segment. -/
theorem lineSeg_both (env : XmlEnv) (ctx : DCtx) (ver : Version) (hv : ctx.version = some ver) (fs : Fields)
    (h : FieldsOf ctx Decl.LineSegMembers [] fs) :
    Quiet env ⟨"LineSeg", fs, ⟨some ver, none⟩⟩ ∧ Shows env ⟨"LineSeg", fs, ⟨some ver, none⟩⟩ := by
  have h1 : FieldsOf ⟨some ver, none⟩ Decl.LineSegMembers [] fs :=
    (fields_indep (ctx := ctx) (ctx' := ⟨some ver, none⟩) hv "" Decl.LineSegMembers [] [] fs (fun _ _ => rfl) (by decide +kernel)).1 h
  have hch : classChain "LineSeg" = [Decl.LineSegMembers] := rfl
  have hp : PartsOf ⟨some ver, none⟩ (classChain "LineSeg") [fs] := by
    rw [hch]; exact ⟨h1, trivial⟩
  have hi : IdsFor "LineSeg" [] := ⟨by simp, by simp, by simp, by simp⟩
  have h2 := model_shown env ⟨some ver, none⟩ ver rfl "LineSeg" (by decide +kernel) [fs] hp [] hi
  obtain ⟨h3, h4, h5⟩ := shown_neat env ⟨some ver, none⟩ "LineSeg" (by decide +kernel) [fs] hp [] hi
  simp only [List.flatten_cons, List.flatten_nil, List.append_nil] at h2
  exact ⟨⟨_, _, h2, quiet_parts env _ _ _ (chain_quiet "LineSeg" (by decide +kernel))⟩, _, _, h2, h3, h4, h5⟩

theorem lineSeg_shown (env : XmlEnv) (ctx : DCtx) (ver : Version) (hv : ctx.version = some ver) (fs : Fields)
    (h : FieldsOf ctx Decl.LineSegMembers [] fs) : Shows env ⟨"LineSeg", fs, ⟨some ver, none⟩⟩ := (lineSeg_both env ctx ver hv fs h).2

/-- The fields of embedded binary data. -/
theorem embedding_fields (ctx : DCtx) (fs : Fields) (h : FieldsOf ctx Decl.BinData [] fs) :
    ∃ n v, fs = [("flags", .leaf (.flags Decl.BinDataFlags n)), ("bindata", v)] ∧
      (Decl.BinDataFlags.get n "storage" = .ok 1 →
        ∃ id ext, v = .struct [("storage_id", .leaf (.int id)), ("ext", .leaf (.str ext))] ∧ InRange .UINT16 id) := by
  simp only [Decl.BinData, Decl.m, fieldsOf_m] at h
  obtain ⟨v1, _, rfl, h1, v2, _, rfl, h2, h3⟩ := h
  obtain ⟨n, rfl⟩ : ∃ n, v1 = .leaf (.flags Decl.BinDataFlags n) := by
    cases v1 with
    | leaf x => cases x <;> simp [Shaped] at h1; exact ⟨_, by rw [h1.1]⟩
    | _ => simp [Shaped] at h1
  rw [FieldsOf.eq_def] at h3
  simp only at h3
  subst h3
  refine ⟨n, v2, rfl, ?_⟩
  intro hst
  simp only [Shaped] at h2
  obtain ⟨k, hk, hsel⟩ := h2
  have hk1 : k = 1 := by
    have : RefDecl.eval ctx ([] ++ [("flags", .leaf (.flags Decl.BinDataFlags n))]) (.flag "flags" "storage") = .ok 1 := by
      simp [RefDecl.eval, getValue, getBit, hst, List.lookup, bind, Except.bind, pure, Except.pure]
    rw [this] at hk
    cases hk
    rfl
  subst hk1
  simp only [Selected, if_neg (show ¬ (1 : Int) = 0 by decide), if_pos] at hsel
  cases v2 with
  | struct fs =>
    simp only [Decl.BinDataEmbedding, Decl.m, Shaped, fieldsOf_m] at hsel
    obtain ⟨w1, _, rfl, g1, w2, _, rfl, g2, g3⟩ := hsel
    rw [FieldsOf.eq_def] at g3
    simp only at g3
    subst g3
    obtain ⟨id, rfl, hid⟩ : ∃ n, w1 = .leaf (.int n) ∧ InRange .UINT16 n := by
      cases w1 with
      | leaf x => cases x <;> simp [Decl.BinStorageId, Shaped, PrimVal] at g1; exact ⟨_, rfl, g1⟩
      | _ => simp [Decl.BinStorageId, Shaped] at g1
    obtain ⟨ext, rfl⟩ : ∃ n, w2 = .leaf (.str n) := by
      cases w2 with
      | leaf x => cases x <;> simp [Decl.BSTR, Shaped, PrimVal] at g2; exact ⟨_, rfl⟩
      | _ => simp [Decl.BSTR, Shaped] at g2
    exact ⟨id, ext, rfl, hid⟩
  | _ => simp [Decl.BinDataEmbedding, Shaped] at hsel

/-- The attributes of embedded binary data. -/
def embedAttrs (id : Int) (ext : PyStr) : List (PyStr × PyStr) :=
  [(lit "storage_id", lit "BIN" ++ upperHex 4 id.toNat), (lit "ext", ext), (lit "inline", lit "true"), (lit "attribute-name", lit "bindata")]

theorem embedded_shown (env : XmlEnv) (ctx : DCtx) (n : Nat) (id : Int) (ext text : PyStr) (hst : Decl.BinDataFlags.get n "storage" = .ok 1)
    (hid : InRange .UINT16 id) :
    startModel env ⟨"BinData", [("flags", .leaf (.flags Decl.BinDataFlags n)), ("bindata", .struct [("storage_id", .leaf (.int id)),
        ("ext", .leaf (.str ext)), ("<text>", .leaf (.str text)), ("inline", .leaf (.str (lit "true")))])], ctx⟩ =
      .ofList (.start (lit "BinData") (hyphens (showFlags "flags" Decl.BinDataFlags n)) ::
        .start (lit "BinDataEmbedding") (hyphens (embedAttrs id ext)) :: ((if text = [] then [] else [.text text]) ++ [.stop (lit "BinDataEmbedding")])) ∧
    Shows env ⟨"BinData", [("flags", .leaf (.flags Decl.BinDataFlags n)), ("bindata", .struct [("storage_id", .leaf (.int id)),
        ("ext", .leaf (.str ext)), ("<text>", .leaf (.str text)), ("inline", .leaf (.str (lit "true")))])], ctx⟩ := by
  have hch : classChain "BinData" = [Decl.BinData] := rfl
  let inner : Fields := [("storage_id", .leaf (.int id)), ("ext", .leaf (.str ext)), ("<text>", .leaf (.str text)), ("inline", .leaf (.str (lit "true")))]
  let items : List AItem := [tyItem env ctx "storage_id" (.prim .binStorageId) (.leaf (.int id)), tyItem env ctx "ext" (.prim .bstr) (.leaf (.str ext))] ++
    untypedItems env [("<text>", .leaf (.str text)), ("inline", .leaf (.str (lit "true"))), ("attribute-name", .leaf (.str (lit "bindata")))]
  have htx : textEvents (some (.leaf (.str text))) = .ofList (if text = [] then [] else [.text text]) := by
    cases text <;> rfl
  have hA : AllShow env (items.filter (fun i => decide (i.name ≠ "<text>"))) (embedAttrs id ext, []) := by
    have e : items.filter (fun i => decide (i.name ≠ "<text>")) = [tyItem env ctx "storage_id" (.prim .binStorageId) (.leaf (.int id)), tyItem env ctx "ext" (.prim .bstr) (.leaf (.str ext))] ++
        untypedItems env [("inline", .leaf (.str (lit "true"))), ("attribute-name", .leaf (.str (lit "bindata")))] := by
      simp [items, untypedItems, tyItem]
    rw [e]
    have h4 := plain_shows env [("inline", .leaf (.str (lit "true"))), ("attribute-name", .leaf (.str (lit "bindata")))] (by simp [plainText])
    exact allShow_plain env (i := tyItem env ctx "storage_id" (.prim .binStorageId) (.leaf (.int id))) rfl
      (expand_prim env "storage_id" .binStorageId (.int id) hid)
      (allShow_plain env (i := tyItem env ctx "ext" (.prim .bstr) (.leaf (.str ext))) rfl (expand_prim env "ext" .bstr (.str ext) trivial) h4)
  have hnames : ((embedAttrs id ext).map (·.1)) = ["storage_id", "ext", "inline", "attribute-name"].map lit := rfl
  have hsub : (DSels.sub env ctx "bindata" (.cons 0 Decl.BinDataLink <| .cons 1 Decl.BinDataEmbedding <| .cons 2 Decl.BinDataStorage .nil) 1 (.struct inner)) =
      .ofList (.start (lit "BinDataEmbedding") (hyphens (embedAttrs id ext)) :: ((if text = [] then [] else [.text text]) ++ [.stop (lit "BinDataEmbedding")])) := by
    simp only [DSels.sub, if_neg (show ¬ (1 : Int) = 0 by decide), if_pos, Decl.BinDataEmbedding, DTy.sub]
    have hty : withRemnants env (DMembers.typed env ctx (Decl.m "storage_id" Decl.BinStorageId (Decl.m "ext" Decl.BSTR .nil)) []
        (setField "attribute-name" (.leaf (.str (lit "bindata"))) inner)) = .ok items := by
      simp [Decl.m, DMembers.typed, memberWanted, popValue, List.lookup, inner, items, tyItem, Decl.BinStorageId, Decl.BSTR,
        bind, Except.bind, pure, Except.pure, withRemnants, setField]
    rw [hty, elementOf, startElement_text env false (lit "BinDataEmbedding") items
      ⟨"<text>", none, .leaf (.str text), untypedSub env "<text>" (.leaf (.str text))⟩ (embedAttrs id ext, []) _ "<text>" rfl
      (by simp [items, untypedItems, pyType]) rfl rfl htx hA (by simp [items, untypedItems, tyItem]) (by rw [hnames]; decide +kernel)]
    simp [Gen.ofList, Gen.andThen, Gen.prepend]
  have hev : (RefDecl.flag "flags" "storage").eval ctx [("flags", .leaf (.flags Decl.BinDataFlags n))] = .ok 1 := by
    simp [RefDecl.eval, getValue, getBit, hst, List.lookup, bind, Except.bind, pure, Except.pure]
  have hty : typedAttributes env ctx "BinData" [("flags", .leaf (.flags Decl.BinDataFlags n)), ("bindata", .struct inner)] =
      .ok [tyItem env ctx "flags" (.flags Decl.BinDataFlags) (.leaf (.flags Decl.BinDataFlags n)),
        ⟨"bindata", some Decl.BinDataEmbedding, .struct inner, DSels.sub env ctx "bindata" (.cons 0 Decl.BinDataLink <|
          .cons 1 Decl.BinDataEmbedding <| .cons 2 Decl.BinDataStorage .nil) 1 (.struct inner)⟩] := by
    rw [typedAttributes, hch, typedChain, Decl.BinData, Decl.m, typed_plain _ _ _ _ _ _ _ (by simp) (by simp)]
    simp only [Decl.m, DMembers.typed, popValue, List.lookup, beq_self_eq_true, setField, hev, bind, Except.bind, pure, Except.pure,
      memberWanted]
    simp [popValue, List.lookup, DSels.pick, untypedItems, withRemnants, bind, Except.bind, pure, Except.pure, Except.map,
      typedChain, tyItem]
  have hall : AllShow env [tyItem env ctx "flags" (.flags Decl.BinDataFlags) (.leaf (.flags Decl.BinDataFlags n)),
        ⟨"bindata", some Decl.BinDataEmbedding, .struct inner, DSels.sub env ctx "bindata" (.cons 0 Decl.BinDataLink <|
          .cons 1 Decl.BinDataEmbedding <| .cons 2 Decl.BinDataStorage .nil) 1 (.struct inner)⟩]
      (showFlags "flags" Decl.BinDataFlags n ++ [], .start (lit "BinDataEmbedding") (hyphens (embedAttrs id ext)) ::
        ((if text = [] then [] else [.text text]) ++ [.stop (lit "BinDataEmbedding")]) ++ []) := by
    refine allShow_plain env (i := tyItem env ctx "flags" (.flags Decl.BinDataFlags) (.leaf (.flags Decl.BinDataFlags n))) rfl
      (expand_flags env _ _ _) (b := ([] ++ [], _ ++ [])) (allShow_cons env (a := ([], _)) ⟨fun _ => ⟨hsub, rfl⟩, fun h => ?_⟩ (is := []) (b := ([], [])) rfl)
    simp [AItem.complex, isComplexType, isMargin, Decl.BinDataEmbedding] at h
  have hfn : ((showFlags "flags" Decl.BinDataFlags n ++ [] : List (PyStr × PyStr)).map (fun p => p.1)) = ["flags", "storage", "compression", "access"].map lit := by
    simp [showFlags, Decl.BinDataFlags, Decl.bitsE]
  have hen : ∀ e ∈ (.start (lit "BinDataEmbedding") (hyphens (embedAttrs id ext)) ::
        ((if text = [] then [] else [.text text]) ++ [.stop (lit "BinDataEmbedding")]) ++ [] : List XEv), NamesOk e := by
    intro e he
    simp only [List.append_nil, List.mem_cons, List.mem_append, List.not_mem_nil, or_false] at he
    rcases he with rfl | he | rfl
    · refine ⟨show ValidName (lit "BinDataEmbedding") by decide +kernel, ?_, hyphens_valid ?_⟩
      · rw [hyphens_names', hnames]; decide +kernel
      · rw [hnames]; decide +kernel
    · split at he
      · simp at he
      · simp only [List.mem_singleton] at he; subst he; trivial
    · show ValidName (lit "BinDataEmbedding"); decide +kernel
  have hkids : Kids (.start (lit "BinDataEmbedding") (hyphens (embedAttrs id ext)) ::
        ((if text = [] then [] else [.text text]) ++ [.stop (lit "BinDataEmbedding")]) ++ [] : List XEv) := by
    intro top st r hr
    split <;> simpa [Inside] using hr
  have := shows_of_items env ⟨"BinData", [("flags", .leaf (.flags Decl.BinDataFlags n)), ("bindata", .struct inner)], ctx⟩ _ _ hty hall
    (by simp [tyItem]) (by simp [tyItem]) (show "BinData" ≠ "Text" by decide) (show ValidName (lit "BinData") by decide +kernel)
    (by rw [hfn]; decide +kernel) (by rw [hfn]; decide +kernel) hkids hen
  refine ⟨?_, this.2⟩
  rw [this.1]
  simp
end Hwp
