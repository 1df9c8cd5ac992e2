/- Proofs: the items of a document are shown as elements. -/
import Verif.Spec.Document
import Verif.Props.XmlRecord
set_option linter.unusedSimpArgs false
set_option linter.unusedVariables false
namespace Hwp
open Spec

/-- The item is shown as an element: valid names, complete content. -/
def Shows (env : XmlEnv) (m : ModelItem) : Prop :=
  ∃ attrs kids, startModel env m = .ofList (.start (lit m.model) attrs :: kids) ∧
    NamesOk (.start (lit m.model) attrs) ∧ Kids kids ∧ ∀ e ∈ kids, NamesOk e

theorem hyphens_names' (as : List (PyStr × PyStr)) : (hyphens as).map (·.1) = (as.map (·.1)).map hyphen := by
  simp [hyphens, hyphen]

theorem hyphens_valid {as : List (PyStr × PyStr)} (h : ∀ n ∈ as.map (·.1), ValidName (hyphen n)) :
    ∀ a ∈ hyphens as, ValidName a.1 := by
  intro a ha
  have : a.1 ∈ (hyphens as).map (·.1) := List.mem_map_of_mem ha
  rw [hyphens_names', List.mem_map] at this
  obtain ⟨n, hn, e⟩ := this
  rw [← e]; exact h n hn

/-- A model without declared members. -/
theorem plain_model (env : XmlEnv) (model : String) (attrs : Fields) (ctx : DCtx) (hc : classChain model = [])
    (hm : model ≠ "Text") (hv : ValidName (lit model)) (hp : ∀ p ∈ attrs, (plainText p.2).isSome = true)
    (hn : ((attrs.map (fun p => lit p.1)).map hyphen).Nodup) (hx : ∀ p ∈ attrs, ValidName (hyphen (lit p.1)))
    (ht : "<text>" ∉ attrs.map (·.1)) :
    startModel env ⟨model, attrs, ctx⟩ = .ofList [.start (lit model) (hyphens (showPlain attrs))] ∧
    Shows env ⟨model, attrs, ctx⟩ := by
  have hk : (attrs.map (·.1)).Nodup := by
    rw [List.map_map, List.Nodup, List.pairwise_map] at hn
    rw [List.Nodup, List.pairwise_map]
    exact hn.imp fun h e => h (by simp [e])
  have hall := plain_shows env attrs hp
  have h1 : startModel env ⟨model, attrs, ctx⟩ = .ofList [.start (lit model) (hyphens (showPlain attrs))] := by
    simp only [startModel, typedAttributes, hc, typedChain, withRemnants, bind, Except.bind, pure, Except.pure, hm,
      List.nil_append]
    have := startElement_show env (lit model) _ _ hall (by rw [untypedItems_names]; exact hk) ?_ (by
      rw [showPlain_names]; exact hn)
    · simpa using this
    · intro i hi e
      apply ht
      rw [← untypedItems_names env, ← e]
      exact List.mem_map_of_mem hi
  refine ⟨h1, _, _, h1, ⟨hv, ?_, ?_⟩, fun _ _ _ h => h, by simp⟩
  · rw [hyphens_names', showPlain_names]; exact hn
  · apply hyphens_valid
    intro n hn
    rw [showPlain_names] at hn
    obtain ⟨p, hp, rfl⟩ := List.mem_map.1 hn
    exact hx p hp

theorem allShow_plain (env : XmlEnv) {i : AItem} {is : List AItem} {a b} (hc : i.complex = false)
    (he : expand env i.name i.ty i.value = .ok a) (hs : AllShow env is b) : AllShow env (i :: is) (a ++ b.1, b.2) :=
  ⟨(a, []), b, ⟨fun h => absurd h (by rw [hc]; exact Bool.false_ne_true), fun _ => ⟨he, rfl⟩⟩, hs, rfl⟩

/-- The start of an element with text. -/
theorem startElement_text (env : XmlEnv) (isText : Bool) (name : PyStr) (is : List AItem) (ti : AItem) (s) (txt : List XEv)
    (key : String) (hkey : key = if isText then "text" else "<text>") (hti : ti ∈ is) (hk : ti.name = key)
    (hc : ti.complex = false) (htx : textEvents (some ti.value) = .ofList txt)
    (h : AllShow env (is.filter (fun i => decide (i.name ≠ key))) s) (hn : (is.map (·.name)).Nodup)
    (hu : ((s.1.map (·.1)).map hyphen).Nodup) :
    startElement env isText name (.ok is) = .ofList (.start name (hyphens s.1) :: (txt ++ s.2)) := by
  obtain ⟨xss, h1, h2⟩ := h.complex
  obtain ⟨ass, h3, h4⟩ := h.plain
  have huniq : ∀ i ∈ is, i.name = key → i = ti := by
    intro i hi e
    have hn' := hn
    rw [List.Nodup, List.pairwise_map] at hn'
    by_contra hne
    have : ∀ (l : List AItem), l.Pairwise (fun a b => a.name ≠ b.name) → i ∈ l → ti ∈ l → False := by
      intro l hl hi hti
      induction l with
      | nil => simp at hi
      | cons x l ih =>
        rw [List.pairwise_cons] at hl
        rcases List.mem_cons.1 hi with rfl | hi'
        · rcases List.mem_cons.1 hti with e' | hti'
          · exact hne e'.symm
          · exact hl.1 ti hti' (e.trans hk.symm)
        · rcases List.mem_cons.1 hti with rfl | hti'
          · exact hl.1 i hi' (hk.trans e.symm)
          · exact ih hl.2 hi' hti'
    exact this is hn' hi hti
  have hp : (is.filter (!·.complex)).foldl (fun p i => setItem i p) [] = is.filter (!·.complex) := by
    rw [setItems_nodup _ []]
    · rfl
    · simp only [List.nil_append]
      exact List.Nodup.sublist (List.Sublist.map _ List.filter_sublist) hn
  have hf : (is.filter (!·.complex)).find? (fun i => decide (i.name = key)) = some ti := by
    cases hx : (is.filter (!·.complex)).find? (fun i => decide (i.name = key)) with
    | none =>
      rw [List.find?_eq_none] at hx
      exact absurd hk (by simpa using hx ti (by simp [hti, hc]))
    | some j =>
      have hj := List.mem_of_find?_eq_some hx
      have hj2 := List.find?_some hx
      rw [huniq j (List.mem_filter.1 hj).1 (by simpa using hj2)]
  have hfc : (is.filter (fun i => decide (i.name ≠ key))).filter (·.complex) = is.filter (·.complex) := by
    rw [List.filter_filter]
    apply List.filter_congr
    intro i hi
    by_cases e : i.name = key
    · rw [huniq i hi e]; simp [hc]
    · simp [e]
  have hfp : (is.filter (!·.complex)).filter (fun i => decide (i.name ≠ key)) =
      (is.filter (fun i => decide (i.name ≠ key))).filter (!·.complex) := by
    rw [List.filter_filter, List.filter_filter]
    apply List.filter_congr
    intro i hi
    rw [Bool.and_comm]
  rw [hfc] at h1
  have hx : plainAttributes env ((is.filter (!·.complex)).filter (fun i => decide (i.name ≠ key))) = .ok (hyphens s.1) := by
    rw [hfp]
    simp only [plainAttributes, h3, bind, Except.bind]
    rw [← h4, uniq_ok s.1 hu]
  have hpt : popText isText (is.filter (!·.complex)) =
      .ok (some ti.value, (is.filter (!·.complex)).filter (fun i => decide (i.name ≠ key))) := by
    unfold popText
    rw [← hkey]
    simp only [hf]
  simp only [startElement, separate, hp, hpt, hx, htx, h1, Gen.chain_ofList, ← h2]
  rfl

/-- The attributes of the line segment of paragraphs without line segments. -/
def dummyLineAttrs : List (PyStr × PyStr) :=
  (["chpos", "y", "height", "height_text", "height_baseline", "space_below", "x", "width"].map fun k => (lit k, lit "0")) ++
    (lit "lineseg_flags", lit "00000000") ::
    (["line_head", "line_tail", "indented", "bullet", "height2", "height85", "a8", "flags"].map fun k => (lit k, lit "0"))

/-- A member with a whole number. -/
def intItem (env : XmlEnv) (p : Prim) (k : String) : AItem :=
  ⟨k, some (.prim (.int p)), .leaf (.int 0), DTy.sub env noCtx k (.prim (.int p)) (.leaf (.int 0))⟩

/-- The items of the line segment. -/
def dummyItems (env : XmlEnv) : List AItem :=
  intItem env .INT32 "chpos" ::
  (["y", "height", "height_text", "height_baseline", "space_below", "x", "width"].map (intItem env .SHWPUNIT) ++
  ⟨"lineseg_flags", some (.flags Decl.LineSegFlags), .leaf (.flags Decl.LineSegFlags 0),
    DTy.sub env noCtx "lineseg_flags" (.flags Decl.LineSegFlags) (.leaf (.flags Decl.LineSegFlags 0))⟩ ::
  untypedItems env (["height2", "height85", "a8", "flags"].map fun k => (k, .leaf (.int 0))))

theorem dummy_typed (env : XmlEnv) : typedAttributes env noCtx "LineSeg" dummyLineSeg = .ok (dummyItems env) := by
  have hch : classChain "LineSeg" = [Decl.LineSegMembers] := rfl
  rw [typedAttributes, hch]
  simp [typedChain, Decl.LineSegMembers, Decl.m, DMembers.typed, memberWanted, popValue, dummyLineSeg, List.lookup,
      bind, Except.bind, pure, Except.pure, withRemnants, setField, noCtx, dummyItems, intItem,
      Decl.INT32, Decl.SHWPUNIT, DTy.default]

theorem dummy_allShow (env : XmlEnv) : AllShow env (dummyItems env) (dummyLineAttrs, []) := by
  have h4 := plain_shows env (["height2", "height85", "a8", "flags"].map fun k => (k, .leaf (.int 0))) (by
    intro p hp
    obtain ⟨k, _, rfl⟩ := List.mem_map.1 hp
    rfl)
  have h3 := allShow_plain env (i := ⟨"lineseg_flags", some (.flags Decl.LineSegFlags), .leaf (.flags Decl.LineSegFlags 0),
    DTy.sub env noCtx "lineseg_flags" (.flags Decl.LineSegFlags) (.leaf (.flags Decl.LineSegFlags 0))⟩) rfl
    (expand_flags env _ _ _) h4
  have hd : Spec.decimal 0 = lit "0" := by decide +kernel
  have h2 : ∀ (ks : List String) (r s), AllShow env r s →
      AllShow env ((ks.map (intItem env .SHWPUNIT)) ++ r) ((ks.map fun k => (lit k, lit "0")) ++ s.1, s.2) := by
    intro ks r s hs
    induction ks with
    | nil => exact hs
    | cons k ks ih =>
      refine allShow_plain env (i := ⟨k, _, _, _⟩) (a := [(lit k, lit "0")]) rfl ?_ ih
      refine (expand_prim env k (.int .SHWPUNIT) (.int 0) (show InRange _ _ by decide +kernel)).trans ?_
      rw [showPrim, hd]
      decide
  have h1 := allShow_plain env (i := intItem env .INT32 "chpos") (a := [(lit "chpos", lit "0")]) rfl (by
      refine (expand_prim env "chpos" (.int .INT32) (.int 0) (show InRange _ _ by decide +kernel)).trans ?_
      rw [showPrim, hd]
      decide) (h2 ["y", "height", "height_text", "height_baseline", "space_below", "x", "width"] _ _ h3)
  have e : dummyLineAttrs = [(lit "chpos", lit "0")] ++ (["y", "height", "height_text", "height_baseline",
      "space_below", "x", "width"].map (fun k => (lit k, lit "0")) ++ (showFlags "lineseg_flags" Decl.LineSegFlags 0 ++
      showPlain (["height2", "height85", "a8", "flags"].map fun k => (k, .leaf (.int 0))))) := by decide +kernel
  rw [e]; exact h1

/-- An item whose typed attributes are known. -/
theorem shows_of_items (env : XmlEnv) (m : ModelItem) (items : List AItem) (s) (h : typedAttributes env m.context m.model m.attributes = .ok items)
    (hs : AllShow env items s) (hn : (items.map (·.name)).Nodup) (ht : "<text>" ∉ items.map (·.name)) (hm : m.model ≠ "Text")
    (hv : ValidName (lit m.model)) (hu : ((s.1.map (·.1)).map hyphen).Nodup) (hx : ∀ n ∈ s.1.map (·.1), ValidName (hyphen n))
    (hk : Kids s.2) (hk2 : ∀ e ∈ s.2, NamesOk e) :
    startModel env m = .ofList (.start (lit m.model) (hyphens s.1) :: s.2) ∧ Shows env m := by
  have h1 : startModel env m = .ofList (.start (lit m.model) (hyphens s.1) :: s.2) := by
    simp only [startModel, h, hm, decide_false]
    exact startElement_show env _ _ _ hs hn (fun i hi e => ht (by rw [← e]; exact List.mem_map_of_mem hi)) hu
  refine ⟨h1, _, _, h1, ⟨hv, ?_, hyphens_valid hx⟩, hk, hk2⟩
  rw [hyphens_names']; exact hu

theorem dummy_shown (env : XmlEnv) : startModel env ⟨"LineSeg", dummyLineSeg, noCtx⟩ =
      .ofList [.start (lit "LineSeg") (hyphens dummyLineAttrs)] ∧ Shows env ⟨"LineSeg", dummyLineSeg, noCtx⟩ := by
  refine shows_of_items env ⟨"LineSeg", dummyLineSeg, noCtx⟩ _ _ (dummy_typed env) (dummy_allShow env) ?_ ?_ (by decide)
    (show ValidName (lit "LineSeg") by decide +kernel) ?_ ?_ (fun _ _ _ h => h) (by simp)
  · show (List.Nodup ["chpos", "y", "height", "height_text", "height_baseline", "space_below", "x", "width",
      "lineseg_flags", "height2", "height85", "a8", "flags"])
    decide
  · show "<text>" ∉ ["chpos", "y", "height", "height_text", "height_baseline", "space_below", "x", "width",
      "lineseg_flags", "height2", "height85", "a8", "flags"]
    decide
  · decide +kernel
  · decide +kernel

theorem hwpdoc_shown (env : XmlEnv) (ver : Version) (hver : ver.length = 4) :
    startModel env ⟨"HwpDoc", [("version", .leaf (.version ver))], noCtx⟩ =
      .ofList [.start (lit "HwpDoc") [(lit "version", ((ver.map fun (n : Nat) => Spec.decimal n).intersperse (lit ".")).flatten)]] ∧
    Shows env ⟨"HwpDoc", [("version", .leaf (.version ver))], noCtx⟩ := by
  have hch : classChain "HwpDoc" = [Decl.HwpDoc] := rfl
  have hty : typedAttributes env noCtx "HwpDoc" [("version", .leaf (.version ver))] =
      .ok [⟨"version", some (.prim .version), .leaf (.version ver), DTy.sub env noCtx "version" (.prim .version) (.leaf (.version ver))⟩] := by
    rw [typedAttributes, hch]
    simp [typedChain, Decl.HwpDoc, Decl.m, DMembers.typed, memberWanted, popValue, List.lookup,
      bind, Except.bind, pure, Except.pure, withRemnants, setField, noCtx, untypedItems]
  have hs : AllShow env [⟨"version", some (.prim .version), .leaf (.version ver), DTy.sub env noCtx "version" (.prim .version) (.leaf (.version ver))⟩]
      ([(lit "version", showPrim env .version (.version ver))] ++ [], []) :=
    allShow_plain env (i := ⟨"version", _, _, _⟩) rfl (expand_prim env _ _ _ hver) (b := ([], [])) rfl
  have := shows_of_items env ⟨"HwpDoc", [("version", .leaf (.version ver))], noCtx⟩ _ _ hty hs (by simp) (by simp) (show "HwpDoc" ≠ "Text" by decide)
    (show ValidName (lit "HwpDoc") by decide +kernel) (by simp) (by
      intro n hn
      simp only [List.append_nil, List.map_cons, List.map_nil, List.mem_singleton] at hn
      subst hn
      decide +kernel) (fun _ _ _ h => h) (by simp)
  refine ⟨?_, this.2⟩
  rw [this.1]
  have e : hyphen (lit "version") = lit "version" := by decide +kernel
  rw [← e]
  rfl

/-- The attributes of a text. -/
def textAttrs (shape : Nat) (lang : Option Lang) : Fields :=
  natAttr "charshape_id" shape :: (match lang with
       | some l => [strAttr "lang" (lit (langName l))]
       | none => [])

theorem text_shown (env : XmlEnv) (ctx : DCtx) (s : PyStr) (shape : Nat) (lang : Option Lang) :
    startModel env ⟨"Text", textAttrs shape lang ++ [strAttr "text" s], ctx⟩ =
      .ofList (.start (lit "Text") (hyphens (showPlain (textAttrs shape lang))) :: (if s = [] then [] else [.text s])) ∧
    Shows env ⟨"Text", textAttrs shape lang ++ [strAttr "text" s], ctx⟩ := by
  have hch : classChain "Text" = [] := rfl
  have hp : ∀ p ∈ textAttrs shape lang, (plainText p.2).isSome = true := by
    cases lang <;> simp [textAttrs, natAttr, strAttr, plainText]
  have hall := plain_shows env (textAttrs shape lang) hp
  have happ : ∀ (xs ys : Fields), untypedItems env (xs ++ ys) = untypedItems env xs ++ untypedItems env ys := by
    intro xs ys
    induction xs with
    | nil => simp [untypedItems]
    | cons x xs ih => obtain ⟨k, v⟩ := x; simp [untypedItems, ih]
  have hn : ((textAttrs shape lang ++ [strAttr "text" s]).map (·.1)).Nodup := by
    cases lang <;> simp [textAttrs, natAttr, strAttr]
  have hnm : ((showPlain (textAttrs shape lang)).map (·.1)).map hyphen = 
      (["charshape_id"] ++ (if lang.isSome then ["lang"] else [])).map (fun k => hyphen (lit k)) := by
    cases lang <;> simp [textAttrs, natAttr, strAttr, showPlain]
  have hnd : (((showPlain (textAttrs shape lang)).map (·.1)).map hyphen).Nodup := by
    rw [hnm]
    cases lang.isSome <;> decide +kernel
  have htx : textEvents (some (.leaf (.str s))) = .ofList (if s = [] then [] else [.text s]) := by
    cases s <;> rfl
  have h1 : startModel env ⟨"Text", textAttrs shape lang ++ [strAttr "text" s], ctx⟩ =
      .ofList (.start (lit "Text") (hyphens (showPlain (textAttrs shape lang))) :: (if s = [] then [] else [.text s])) := by
    simp only [startModel, typedAttributes, hch, typedChain, withRemnants, bind, Except.bind, pure, Except.pure,
      List.nil_append, decide_true]
    have hf : (untypedItems env (textAttrs shape lang ++ [strAttr "text" s])).filter (fun i => decide (i.name ≠ "text")) =
        untypedItems env (textAttrs shape lang) := by
      cases lang <;> simp [textAttrs, natAttr, strAttr, untypedItems]
    have := startElement_text env true (lit "Text") (untypedItems env (textAttrs shape lang ++ [strAttr "text" s]))
      ⟨"text", none, .leaf (.str s), untypedSub env "text" (.leaf (.str s))⟩ (showPlain (textAttrs shape lang), []) _ "text" rfl
      (by rw [happ]; simp [untypedItems, strAttr, pyType]) rfl rfl htx (by rw [hf]; exact hall)
      (by rw [untypedItems_names]; exact hn) hnd
    rw [this]
    simp
  refine ⟨h1, _, _, h1, ⟨show ValidName (lit "Text") by decide +kernel, ?_, ?_⟩, ?_, ?_⟩
  · rw [hyphens_names']; exact hnd
  · apply hyphens_valid
    intro n hn
    have h2 : hyphen n ∈ ((showPlain (textAttrs shape lang)).map (·.1)).map hyphen := List.mem_map_of_mem hn
    rw [hnm] at h2
    have h3 : ∀ b : Bool, ∀ x ∈ (["charshape_id"] ++ (if b then ["lang"] else [])).map (fun k => hyphen (lit k)), ValidName x := by
      decide +kernel
    exact h3 _ _ h2
  · intro top st r hr
    split
    · exact hr
    · simpa [Inside] using hr
  · intro e he
    split at he
    · simp at he
    · simp only [List.mem_singleton] at he
      subst he
      trivial
end Hwp
