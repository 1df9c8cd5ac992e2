/-
Proofs about the formatting of text in the conversion to HTML.
-/
import Verif.Model.Css
import Verif.Spec.Css
import Verif.Proofs.Pictures
set_option autoImplicit false
set_option linter.unusedSimpArgs false
set_option linter.unusedVariables false
namespace Hwp
open Spec

/-! ### Attributes and elements -/

theorem attrNode_eq (as : List (PyStr × PyStr)) (name : String) : attrNode as name = attrOf as name := by
  induction as with
  | nil => rfl
  | cons a as ih =>
    unfold attrOf
    rw [attrNode, List.find?_cons]
    by_cases h : a.1 = lit name
    · simp [h]
    · simp only [h, beq_eq_false_iff_ne.2 h, if_false]
      exact ih

theorem attrValue_eq (as : List (PyStr × PyStr)) (name : String) : attrValue as name = (attrOf as name).getD [] := by
  rw [← attrNode_eq]; rfl

theorem childrenNamed_eq (name : String) (f : Forest XNode) : childrenNamed (lit name) f = entries name f := by
  induction f with
  | nil => rfl
  | node a cs sibs ih1 ih2 =>
    cases a with
    | text t => rw [childrenNamed, entries]; exact ih2
    | elem n as => rw [childrenNamed, entries, ih2]

theorem forEach_entries {β : Type} (name : String) (g : Forest XNode → List β) (f : Forest XNode) :
    forEach (lit name) g f = (entries name f).flatMap fun e => g e.2 := by
  induction f with
  | nil => rfl
  | node a cs sibs ih1 ih2 =>
    cases a with
    | text t => rw [forEach, entries]; exact ih2
    | elem n as =>
      rw [forEach, entries, ih2, List.flatMap_append]
      split <;> simp

theorem elements_perm (name : String) (f : Forest XNode) :
    ((f :: kidLists f).flatMap (entries name)).Perm (elementsNamed name f) := by
  induction f with
  | nil => exact List.Perm.refl _
  | node a cs sibs ih1 ih2 =>
    cases a with
    | text t => rw [kidLists, elementsNamed]; simpa only [List.flatMap_cons, entries] using ih2
    | elem n as =>
      rw [kidLists, elementsNamed]
      simp only [List.flatMap_cons, entries, List.flatMap_append, List.cons_append] at ih1 ih2 ⊢
      rw [List.append_assoc, List.append_assoc]
      refine List.Perm.append_left _ ?_
      refine (List.perm_append_comm_assoc _ _ _).trans ?_
      rw [← List.append_assoc]
      have e : (elementsNamed name cs ++ elementsNamed name sibs) = elementsNamed name cs ++ elementsNamed name sibs := rfl
      refine List.Perm.trans ?_ (ih1.append ih2)
      rw [List.append_assoc, List.append_assoc]
      refine List.Perm.append_left _ ?_
      exact List.perm_append_comm_assoc _ _ _

theorem kidLists_entries (name : String) (f : Forest XNode) : ∀ e ∈ entries name f, e.2 ∈ kidLists f ∧ ∀ g ∈ kidLists e.2, g ∈ kidLists f := by
  induction f with
  | nil => intro e he; simp [entries] at he
  | node a cs sibs ih1 ih2 =>
    intro e he
    cases a with
    | text t => rw [entries] at he; rw [kidLists]; exact ih2 e he
    | elem n as =>
      rw [entries, List.mem_append] at he
      rw [kidLists]
      rcases he with he | he
      · have : e = (as, cs) := by
          split at he
          · simpa using he
          · simp at he
        subst this
        exact ⟨by simp, fun g hg => by simp [hg]⟩
      · have i := ih2 e he
        exact ⟨by simp [i.1], fun g hg => by simp [i.2 g hg]⟩

theorem tables_kids {doc T : Forest XNode} {ids : List (PyStr × PyStr)} (h : TablesAre doc ids T) : T ∈ kidLists doc := by
  obtain ⟨as, D, h1, bs, I, h2, h3⟩ := h.hwpdoc
  have k1 := kidLists_entries "HwpDoc" doc (as, D) (by rw [h1]; simp)
  have k2 := kidLists_entries "DocInfo" D (bs, I) (by rw [h2]; simp)
  have k3 := kidLists_entries "IdMappings" I (ids, T) (by rw [h3]; simp)
  exact k1.2 _ (k2.2 _ k3.1)

theorem flatMap_only {α β γ : Type} (E : α → List β) (g : List β → List γ) (hg : g [] = []) (xs : List α) (T : α) (hT : T ∈ xs)
    (hl : (xs.flatMap E).length = (E T).length) : xs.flatMap (fun x => g (E x)) = g (E T) := by
  obtain ⟨A, B, rfl⟩ := List.append_of_mem hT
  simp only [List.flatMap_append, List.flatMap_cons, List.length_append] at hl
  have hA : A.flatMap E = [] := List.length_eq_zero_iff.1 (by omega)
  have hB : B.flatMap E = [] := List.length_eq_zero_iff.1 (by omega)
  have none : ∀ xs : List α, xs.flatMap E = [] → xs.flatMap (fun x => g (E x)) = [] := by
    intro xs h
    rw [List.flatMap_eq_nil_iff] at h ⊢
    intro x hx
    show g (E x) = []
    rw [h x hx, hg]
  rw [List.flatMap_append, List.flatMap_cons, none A hA, none B hB]
  simp

theorem nthOf_eq {doc T : Forest XNode} {ids : List (PyStr × PyStr)} (h : TablesAre doc ids T) (name : String)
    (hn : name ∈ ["Style", "ParaShape", "CharShape", "FaceName"]) (n : Nat) :
    nthOf doc name (some n) = ((entries name T)[n]?).toList := by
  unfold nthOf
  simp only [childrenNamed_eq]
  refine flatMap_only (entries name) (fun l => (l[n]?).toList) (by simp) _ T (List.mem_cons_of_mem _ (tables_kids h)) ?_
  rw [(elements_perm name doc).length_eq, h.only name hn]

theorem allOf_ids {doc T : Forest XNode} {ids : List (PyStr × PyStr)} (h : TablesAre doc ids T) : allOf doc "IdMappings" = [(ids, T)] := by
  have p := elements_perm "IdMappings" doc
  rw [h.ids] at p
  have e : allOf doc "IdMappings" = (doc :: kidLists doc).flatMap (entries "IdMappings") := by
    unfold allOf
    congr 1
    funext f
    exact childrenNamed_eq _ f
  rw [e]
  exact List.perm_singleton.1 p

theorem pageRules_eq {doc T : Forest XNode} {ids : List (PyStr × PyStr)} (h : TablesAre doc ids T) (embed : Bool) :
    pageRules embed doc = (if embed then [] else fixedRules) ++ tableRules doc T := by
  obtain ⟨as, D, h1, bs, I, h2, h3⟩ := h.hwpdoc
  unfold pageRules
  rw [forEach_entries, h1]
  simp only [List.flatMap_cons, List.flatMap_nil, List.append_nil]
  rw [forEach_entries, h2]
  simp only [List.flatMap_cons, List.flatMap_nil, List.append_nil]
  rw [forEach_entries, h3]
  simp

/-! ### Selectors -/

theorem partsAt_self (c : Nat) (s : PyStr) (h : c ∉ s) : partsAt c s = [s] := by
  induction s with
  | nil => rfl
  | cons d s ih =>
    have hd : d ≠ c := fun e => h (by simp [e])
    rw [partsAt, if_neg hd, ih (fun hm => h (by simp [hm]))]

theorem partsAt_cut (c : Nat) (a b : PyStr) (h : c ∉ a) : partsAt c (a ++ c :: b) = a :: partsAt c b := by
  induction a with
  | nil => simp [partsAt]
  | cons d s ih =>
    have hd : d ≠ c := fun e => h (by simp [e])
    rw [List.cons_append, partsAt, if_neg hd, ih (fun hm => h (by simp [hm]))]

theorem isIdent_all {s : PyStr} (h : isIdent s = true) : s ≠ [] ∧ ∀ c ∈ s, identChar c = true := by
  cases s with
  | nil => simp [isIdent] at h
  | cons c s =>
    refine ⟨by simp, ?_⟩
    simp only [isIdent, Bool.and_eq_true] at h
    intro d hd
    rcases List.mem_cons.1 hd with rfl | hd
    · have h1 := h.1
      by_cases e : d = 0x2D
      · simp [identChar, e]
      · rw [if_neg e] at h1; simp [identChar, h1]
    · exact List.all_eq_true.1 h.2 d hd

theorem ident_free {s : PyStr} (h : isIdent s = true) : 0x20 ∉ s ∧ 0x2E ∉ s ∧ 0x3E ∉ s := by
  have a := (isIdent_all h).2
  refine ⟨fun m => ?_, fun m => ?_, fun m => ?_⟩ <;> · have := a _ m; revert this; decide

theorem trimmed_none (s : PyStr) (h : 0x20 ∉ s) : trimmed s = s := by
  have d : ∀ t : PyStr, 0x20 ∉ t → t.dropWhile (· = 0x20) = t := by
    intro t ht
    cases t with
    | nil => rfl
    | cons c t => rw [List.dropWhile_cons_of_neg]; simpa using fun e => ht (by simp [e])
  unfold trimmed
  rw [d s h, d s.reverse (by simpa using h), List.reverse_reverse]

theorem trimmed_before (s : PyStr) : trimmed (0x20 :: s) = trimmed s := by
  unfold trimmed
  rw [List.dropWhile_cons_of_pos (by simp)]

theorem trimmed_after (s : PyStr) (h : 0x20 ∉ s) : trimmed (s ++ [0x20]) = s := by
  by_cases hs : s = []
  · subst hs; decide
  unfold trimmed
  have d : ∀ t u : PyStr, t ≠ [] → 0x20 ∉ t → (t ++ u).dropWhile (· = 0x20) = t ++ u := by
    intro t u hn ht
    cases t with
    | nil => exact absurd rfl hn
    | cons c t => rw [List.cons_append, List.dropWhile_cons_of_neg]; simpa using fun e => ht (by simp [e])
  rw [d s _ hs h, List.reverse_append, List.reverse_singleton, List.singleton_append, List.dropWhile_cons_of_pos (by simp)]
  have e := d s.reverse [] (by simpa using hs) (by simpa using h)
  rw [List.append_nil] at e
  rw [e, List.reverse_reverse]

/-- Parts of a selector of one element: a name or nothing, then classes. -/
theorem readSimple_parts (n : PyStr) (cs : List PyStr) (hn : n = [] ∨ isIdent n = true) (hcs : ∀ c ∈ cs, isIdent c = true)
    (hne : n = [] → cs ≠ []) : readSimple (n ++ cs.flatMap (fun c => 0x2E :: c)) = some ⟨n, cs⟩ := by
  have nd : 0x2E ∉ n := by
    rcases hn with rfl | hn
    · simp
    · exact (ident_free hn).2.1
  have p : ∀ (a : PyStr), 0x2E ∉ a → partsAt 0x2E (a ++ cs.flatMap (fun c => 0x2E :: c)) = a :: cs := by
    clear hn hne nd
    induction cs with
    | nil => intro a ha; simp only [List.flatMap_nil, List.append_nil]; exact partsAt_self _ _ ha
    | cons c cs ih =>
      intro a ha
      rw [List.flatMap_cons, List.cons_append, partsAt_cut _ _ _ ha, ih (fun d hd => hcs d (by simp [hd])) c
        (ident_free (hcs c (by simp))).2.1]
  unfold readSimple
  rw [p n nd]
  have h2 : n ≠ [] → isIdent n = true := fun h => hn.resolve_left h
  simp only [List.all_eq_true]
  rw [if_pos ⟨hne, h2, hcs⟩]

/-- `name.class.class`. -/
def simpleText (n : PyStr) (cs : List PyStr) : PyStr := n ++ cs.flatMap fun c => 0x2E :: c

/-- A name or nothing, and classes, that can be written in a selector. -/
def Writable (n : PyStr) (cs : List PyStr) : Prop :=
  (n = [] ∨ isIdent n = true) ∧ (∀ c ∈ cs, isIdent c = true) ∧ (n = [] → cs ≠ [])

theorem simpleText_free {n : PyStr} {cs : List PyStr} (h : Writable n cs) : 0x20 ∉ simpleText n cs ∧ 0x3E ∉ simpleText n cs := by
  have hn : 0x20 ∉ n ∧ 0x3E ∉ n := by
    rcases h.1 with rfl | hn
    · simp
    · exact ⟨(ident_free hn).1, (ident_free hn).2.2⟩
  refine ⟨fun m => ?_, fun m => ?_⟩ <;>
  · rcases List.mem_append.1 m with m | m
    · first | exact hn.1 m | exact hn.2 m
    · obtain ⟨c, hc, m⟩ := List.mem_flatMap.1 m
      rcases List.mem_cons.1 m with m | m
      · revert m; decide
      · first | exact (ident_free (h.2.1 c hc)).1 m | exact (ident_free (h.2.1 c hc)).2.2 m

theorem readSelector_one {n : PyStr} {cs : List PyStr} (h : Writable n cs) : readSelector (simpleText n cs) = some [⟨n, cs⟩] := by
  unfold readSelector
  rw [partsAt_self _ _ (simpleText_free h).2]
  simp only [List.map_cons, List.map_nil, List.reverse_singleton, List.mapM_cons, List.mapM_nil]
  rw [trimmed_none _ (simpleText_free h).1]
  show (readSimple (n ++ _) >>= _) = _
  rw [readSimple_parts n cs h.1 h.2.1 h.2.2]
  rfl

theorem readSelector_child {n m : PyStr} {cs ds : List PyStr} (h : Writable n cs) (g : Writable m ds) :
    readSelector (simpleText n cs ++ lit " > " ++ simpleText m ds) = some [⟨m, ds⟩, ⟨n, cs⟩] := by
  unfold readSelector
  have e : simpleText n cs ++ lit " > " ++ simpleText m ds = (simpleText n cs ++ [0x20]) ++ 0x3E :: (0x20 :: simpleText m ds) := by
    rw [show lit " > " = [0x20, 0x3E, 0x20] from by decide]; simp
  rw [e, partsAt_cut _ _ _ (by simpa using (simpleText_free h).2), partsAt_self _ _ (by simpa using (simpleText_free g).2)]
  simp only [List.map_cons, List.map_nil, List.reverse_cons, List.reverse_nil, List.nil_append, List.singleton_append, List.mapM_cons, List.mapM_nil]
  rw [trimmed_before, trimmed_none _ (simpleText_free g).1, trimmed_after _ (simpleText_free h).1]
  show (readSimple (m ++ _) >>= fun _ => (readSimple (n ++ _) >>= _) >>= _) = _
  rw [readSimple_parts n cs h.1 h.2.1 h.2.2, readSimple_parts m ds g.1 g.2.1 g.2.2]
  rfl

/-! ### Classes of the conversion -/

/-- The class of a character shape. -/
def shapeClass (n : Nat) : PyStr := lit "charshape-" ++ natStr n

/-- The class of a language. -/
def langClass (l : PyStr) : PyStr := lit "lang-" ++ l

theorem ident_more (c : Nat) (a s : PyStr) (hc : c ≠ 0x2D) (h : isIdent (c :: a) = true) (hs : ∀ d ∈ s, identChar d = true) :
    isIdent (c :: a ++ s) = true := by
  simp only [isIdent, if_neg hc, Bool.and_eq_true, List.all_eq_true, List.cons_append] at h ⊢
  refine ⟨h.1, fun d hd => ?_⟩
  rcases List.mem_append.1 hd with hd | hd
  · exact h.2 d hd
  · exact hs d hd

theorem natStr_ident (n : Nat) : ∀ c ∈ natStr n, identChar c = true := by
  intro c hc
  have := natStr_digit n c hc
  simp [identChar, this]

theorem shapeClass_ident (n : Nat) : isIdent (shapeClass n) = true := by
  unfold shapeClass
  rw [show lit "charshape-" = 99 :: [104, 97, 114, 115, 104, 97, 112, 101, 45] from by decide]
  exact ident_more _ _ _ (by decide) (by decide) (natStr_ident n)

theorem langClass_ident : ∀ l ∈ fontLangs, isIdent (langClass (lit l)) = true := by decide

theorem shapeClass_inj {m n : Nat} (h : shapeClass m = shapeClass n) : m = n := by
  have := List.append_cancel_left h
  have e := congrArg xpathNumber this
  rw [xpathNumber_natStr, xpathNumber_natStr] at e
  exact Option.some.inj e

theorem shapeClass_lang (n : Nat) (l : PyStr) : shapeClass n ≠ langClass l := by
  unfold shapeClass langClass
  rw [show lit "charshape-" = 99 :: [104, 97, 114, 115, 104, 97, 112, 101, 45] from by decide,
    show lit "lang-" = 108 :: [97, 110, 103, 45] from by decide]
  intro h
  exact absurd (List.cons.inj h).1 (by decide)

theorem writable_span : Writable (lit "span") [] := ⟨.inr (by decide), by simp, by simp [show lit "span" ≠ [] from by decide]⟩

theorem writable_spanLang {l : String} (hl : l ∈ fontLangs) : Writable (lit "span") [langClass (lit l)] :=
  ⟨.inr (by decide), by simpa using langClass_ident l hl, by simp⟩

theorem writable_shape (n : Nat) : Writable (lit "span") [shapeClass n] :=
  ⟨.inr (by decide), by simpa using shapeClass_ident n, by simp⟩

theorem writable_shapeLang (n : Nat) {l : String} (hl : l ∈ fontLangs) : Writable (lit "span") [shapeClass n, langClass (lit l)] :=
  ⟨.inr (by decide), by simpa using ⟨shapeClass_ident n, langClass_ident l hl⟩, by simp⟩

theorem writable_style {N : PyStr} (h : isIdent N = true) : Writable [] [N] := ⟨.inl rfl, by simpa using h, by simp⟩

theorem style_selector (N : PyStr) : lit "." ++ N ++ lit " > span" = simpleText [] [N] ++ lit " > " ++ simpleText (lit "span") [] := by
  simp only [simpleText, List.flatMap_cons, List.flatMap_nil, List.append_nil, List.nil_append]
  rw [show lit "." = [0x2E] from by decide, show lit " > span" = lit " > " ++ lit "span" from by decide]
  simp

theorem style_lang_selector (N l : PyStr) : lit "." ++ N ++ lit " > span" ++ lit ".lang-" ++ l =
    simpleText [] [N] ++ lit " > " ++ simpleText (lit "span") [langClass l] := by
  rw [style_selector]
  simp only [simpleText, List.flatMap_cons, List.flatMap_nil, List.append_nil, List.nil_append, langClass]
  rw [show lit ".lang-" = 0x2E :: lit "lang-" from by decide]
  simp

theorem shape_selector (n : Nat) : lit "span.charshape-" ++ natStr n = simpleText (lit "span") [shapeClass n] := by
  simp only [simpleText, List.flatMap_cons, List.flatMap_nil, List.append_nil, List.nil_append, shapeClass]
  rw [show lit "span.charshape-" = lit "span" ++ 0x2E :: lit "charshape-" from by decide]
  simp

theorem shape_lang_selector (n : Nat) (l : PyStr) : lit "span.charshape-" ++ natStr n ++ lit ".lang-" ++ l =
    simpleText (lit "span") [shapeClass n, langClass l] := by
  rw [shape_selector]
  simp only [simpleText, List.flatMap_cons, List.flatMap_nil, List.append_nil, List.nil_append, langClass]
  rw [show lit ".lang-" = 0x2E :: lit "lang-" from by decide]
  simp

/-! ### What the rules declare -/

theorem declared_append (r s : List CssRule) (prop : PyStr) (path : List Box) :
    cssDeclared (r ++ s) prop path = cssDeclared r prop path ++ cssDeclared s prop path := by
  unfold cssDeclared; rw [List.flatMap_append]

theorem declared_flatMap {α : Type} (xs : List α) (f : α → List CssRule) (prop : PyStr) (path : List Box) :
    cssDeclared (xs.flatMap f) prop path = xs.flatMap fun x => cssDeclared (f x) prop path := by
  unfold cssDeclared; rw [List.flatMap_assoc]

theorem declared_cons (r : CssRule) (s : List CssRule) (prop : PyStr) (path : List Box) :
    cssDeclared (r :: s) prop path = cssDeclared [r] prop path ++ cssDeclared s prop path := declared_append [r] s prop path

theorem declared_none (r : List CssRule) (prop : PyStr) (path : List Box) (h : ∀ x ∈ r, ∀ d ∈ x.2, d.1 ≠ prop) : cssDeclared r prop path = [] := by
  unfold cssDeclared
  rw [List.flatMap_eq_nil_iff]
  intro x hx
  have e : x.2.filter (fun d => decide (d.1 = prop ∧ d.2 ≠ [])) = [] := by
    rw [List.filter_eq_nil_iff]; intro d hd; simp [h x hx d hd]
  simp only [e, List.map_nil]
  cases readSelector x.1 <;> simp

theorem declared_one {sel : PyStr} {qs : List Simple} (h : readSelector sel = some qs) (ds : List (PyStr × PyStr)) (prop : PyStr)
    (path : List Box) : cssDeclared [(sel, ds)] prop path =
      if selects qs path then ((ds.filter fun d => d.1 = prop ∧ d.2 ≠ []).map (·.2)).map fun v => (specificity qs, v) else [] := by
  unfold cssDeclared
  simp only [List.flatMap_cons, List.flatMap_nil, List.append_nil, h, List.map_map]
  rfl

/-- The values of a property that a character shape declares for itself. -/
def ownValues (prop : PyStr) (shape : XElem) : List PyStr := ((charDecls shape.1).filter fun d => d.1 = prop ∧ d.2 ≠ []).map (·.2)

/-- The properties that rules declare for each language. -/
def langNames : List PyStr := ["font-family", "font-size"].map lit

theorem mem_langRules (doc : Forest XNode) (sel : PyStr) (shape : XElem) : ∀ x ∈ langRules doc sel shape, ∀ d ∈ x.2, d.1 ∈ langNames := by
  intro x hx d hd
  have m : ∀ n ∈ ["font-family", "font-size"], lit n ∈ langNames := by decide +kernel
  unfold langRules at hx
  obtain ⟨l, hl, rfl⟩ := List.mem_map.1 hx
  simp only [List.mem_cons, List.not_mem_nil, or_false] at hd
  rcases hd with rfl | rfl
  exacts [m "font-family" (by decide), m "font-size" (by decide)]

theorem declared_char_plain (doc : Forest XNode) (sel : PyStr) (shape : XElem) (prop : PyStr) (path : List Box) (hp : prop ∉ langNames) :
    cssDeclared (charRules doc sel shape) prop path = cssDeclared [(sel, charDecls shape.1)] prop path := by
  unfold charRules
  rw [declared_cons, declared_none (langRules doc sel shape), List.append_nil]
  exact fun x hx d hd e => hp (e ▸ mem_langRules _ _ _ x hx d hd)

/-- The properties declared for the line at the letters. -/
def decoNames : List PyStr := ["text-decoration", "text-decoration-color", "-moz-text-decoration-color", "-webkit-text-decoration-color",
  "text-decoration-style", "-moz-text-decoration-style", "-webkit-text-decoration-style"].map lit

theorem mem_lineDecls (as : List (PyStr × PyStr)) : ∀ d ∈ lineDecls as, d.1 ∈ decoNames := by
  intro d hd
  unfold lineDecls at hd
  split at hd
  · cases hd
  · have : d.1 ∈ (["text-decoration", "text-decoration-color", "-moz-text-decoration-color", "-webkit-text-decoration-color",
        "text-decoration-style", "-moz-text-decoration-style", "-webkit-text-decoration-style"].map lit) := by
      have := List.mem_map_of_mem (f := fun d : PyStr × PyStr => d.1) hd
      exact this
    exact this

theorem line_filter (as : List (PyStr × PyStr)) {prop : PyStr} (hp : prop ∉ decoNames) :
    (lineDecls as).filter (fun d => decide (d.1 = prop ∧ d.2 ≠ [])) = [] := by
  rw [List.filter_eq_nil_iff]
  intro d hd h
  simp only [decide_eq_true_eq] at h
  exact hp (h.1 ▸ mem_lineDecls as d hd)

theorem mem_charDecls (as : List (PyStr × PyStr)) : ∀ d ∈ charDecls as, d.1 ∉ langNames := by
  intro d hd
  unfold charDecls at hd
  rcases List.mem_append.1 hd with hd | hd
  swap
  · have : ∀ n ∈ decoNames, n ∉ langNames := by decide +kernel
    exact this _ (mem_lineDecls as d hd)
  rcases List.mem_cons.1 hd with rfl | hd
  · show lit "color" ∉ langNames
    decide +kernel
  · rcases List.mem_append.1 hd with hd | hd
    · split at hd
      · simp at hd; subst hd; exact (by decide +kernel)
      · simp at hd
    · split at hd
      · simp at hd; subst hd; exact (by decide +kernel)
      · simp at hd

theorem styleClass_eq (s : XElem) : dashes (attrValue s.1 "name") = styleClass s := by rw [attrValue_eq]; rfl

/-- The properties that rules declare for paragraphs, and for the page. -/
def paraNames : List PyStr := ["margin", "text-align", "text-indent", "padding-left", "min-height", "padding", "margin-top", "margin-bottom", "line-height"].map lit

theorem paraDecls_names (shape : XElem) : ∀ d ∈ paraDecls shape, d.1 ∈ paraNames := by
  intro d hd
  have m : ∀ n ∈ ["margin", "text-align", "text-indent", "padding-left", "min-height"], lit n ∈ paraNames := by decide +kernel
  unfold paraDecls indentDecls at hd
  rcases List.mem_append.1 hd with hd | hd
  · rcases List.mem_append.1 hd with hd | hd
    · simp only [List.mem_cons, List.not_mem_nil, or_false] at hd
      rcases hd with rfl | rfl
      · exact m "margin" (by decide)
      · exact m "text-align" (by decide)
    · rcases List.mem_cons.1 hd with rfl | hd
      · exact m "text-indent" (by decide)
      · split at hd
        · split at hd
          · obtain rfl := List.mem_singleton.1 hd
            exact m "padding-left" (by decide)
          · simp at hd
        · simp at hd
  · split at hd
    · obtain rfl := List.mem_singleton.1 hd
      exact m "min-height" (by decide)
    · simp at hd

theorem spanDecls_names (shape : XElem) : ∀ d ∈ spanDecls shape, d.1 = lit "line-height" := by
  intro d hd
  unfold spanDecls at hd
  split at hd
  · obtain rfl := List.mem_singleton.1 hd; rfl
  · simp at hd

theorem line_height_name : lit "line-height" ∈ paraNames := by decide +kernel

theorem declared_tables (doc T : Forest XNode) (prop : PyStr) (ht : prop ∉ paraNames) (path : List Box) (V : XElem → List PyStr) (σ : Nat × Nat) (pc sc : PyStr → Bool)
    (hstyle : ∀ s ∈ entries "Style" T, ∀ c, cssDeclared (charRules doc (lit "." ++ styleClass s ++ lit " > span") c) prop path =
      if pc (styleClass s) then (V c).map (fun v => (σ, v)) else [])
    (hchar : ∀ i c, cssDeclared (charRules doc (lit "span.charshape-" ++ natStr i) c) prop path =
      if sc (shapeClass i) then (V c).map (fun v => (σ, v)) else []) :
    cssDeclared (tableRules doc T) prop path =
      ((entries "Style" T).flatMap fun s =>
        if pc (styleClass s) then ((nthOf doc "CharShape" (xpathNumber (attrValue s.1 "charshape-id"))).flatMap V).map (fun v => (σ, v)) else []) ++
      (entries "CharShape" T).zipIdx.flatMap fun e => if sc (shapeClass e.2) then (V e.1).map (fun v => (σ, v)) else [] := by
  unfold tableRules
  simp only [childrenNamed_eq]
  rw [declared_append, declared_append, declared_append, declared_append]
  rw [declared_none (List.map _ (entries "BorderFill" T).zipIdx), declared_none (List.map _ (entries "Bullet" T).zipIdx),
    declared_none (List.flatMap _ (entries "ParaShape" T).zipIdx), List.append_nil, List.append_nil, List.append_nil]
  · congr 1
    · rw [declared_flatMap]
      refine List.flatMap_congr fun s hs => ?_
      unfold styleRules
      simp only [styleClass_eq]
      rw [declared_append, declared_none, List.nil_append, declared_flatMap]
      · simp only [hstyle s hs]
        split
        · rw [List.map_flatMap]
        · simp
      · intro x hx d hd
        split at hx
        · simp only [List.mem_cons, List.not_mem_nil, or_false] at hx
          rcases hx with rfl | rfl
          · obtain ⟨e, _, hd⟩ := List.mem_flatMap.1 hd
            exact fun e => ht (e ▸ paraDecls_names _ d hd)
          · obtain ⟨e, _, hd⟩ := List.mem_flatMap.1 hd
            exact fun e => ht (e ▸ spanDecls_names _ d hd ▸ line_height_name)
        · simp at hx
    · rw [declared_flatMap]
      refine List.flatMap_congr fun e he => ?_
      exact hchar e.2 e.1
  · intro x hx d hd
    obtain ⟨e, _, he⟩ := List.mem_flatMap.1 hx
    simp only [paraRules, List.mem_cons, List.not_mem_nil, or_false] at he
    rcases he with rfl | rfl
    · exact fun e => ht (e ▸ paraDecls_names _ d hd)
    · exact fun e => ht (e ▸ spanDecls_names _ d hd ▸ line_height_name)
  · intro x hx d hd
    obtain ⟨e, _, rfl⟩ := List.mem_map.1 hx
    obtain rfl := List.mem_singleton.1 hd
    have m : lit "text-align" ∈ paraNames := by decide +kernel
    exact fun e => ht (e ▸ m)
  · intro x hx d hd
    obtain ⟨e, _, rfl⟩ := List.mem_map.1 hx
    simp at hd

theorem declared_page (doc T : Forest XNode) (embed : Bool) (prop : PyStr) (hp : prop ∉ ["padding", "margin", "margin-top", "margin-bottom"].map lit) (path : List Box) :
    cssDeclared ((if embed then [] else fixedRules) ++ tableRules doc T) prop path = cssDeclared (tableRules doc T) prop path := by
  rw [declared_append, declared_none, List.nil_append]
  intro x hx d hd
  cases embed
  · simp only [Bool.false_eq_true, if_false, fixedRules, List.mem_cons, List.not_mem_nil, or_false] at hx
    simp only [List.map_cons, List.map_nil, List.mem_cons, List.not_mem_nil, or_false, not_or] at hp
    rcases hx with rfl | rfl | rfl | rfl
    · simp only [List.mem_cons, List.not_mem_nil, or_false] at hd
      rcases hd with rfl | rfl
      · exact fun e => hp.1 e.symm
      · exact fun e => hp.2.1 e.symm
    · obtain rfl := List.mem_singleton.1 hd; exact fun e => hp.2.1 e.symm
    · obtain rfl := List.mem_singleton.1 hd; exact fun e => hp.2.2.1 e.symm
    · obtain rfl := List.mem_singleton.1 hd; exact fun e => hp.2.2.2 e.symm
  · simp at hx

theorem page_names {prop : PyStr} (h : prop ∉ paraNames) : prop ∉ ["padding", "margin", "margin-top", "margin-bottom"].map lit := by
  have : ∀ x ∈ ["padding", "margin", "margin-top", "margin-bottom"].map lit, x ∈ paraNames := by decide +kernel
  exact fun m => h (this _ m)

/-! ### The cascade -/

theorem winning_append (xs : List ((Nat × Nat) × PyStr)) (d : (Nat × Nat) × PyStr) :
    winning (xs ++ [d]) = match winning xs with | none => some d | some b => if weaker d.1 b.1 then some b else some d := by
  unfold winning
  rw [List.foldl_append]
  rfl

theorem weaker_irrefl (a : Nat × Nat) : weaker a a = false := by simp [weaker]

theorem winning_same (σ : Nat × Nat) (vs : List PyStr) : winning (vs.map fun v => (σ, v)) = vs.getLast?.map fun v => (σ, v) := by
  generalize hn : vs.length = n
  induction n generalizing vs with
  | zero => rw [List.length_eq_zero_iff.1 hn]; rfl
  | succ n ih =>
    have hne : vs ≠ [] := by rintro rfl; simp at hn
    have e := (List.dropLast_concat_getLast hne).symm
    rw [e, List.map_append, List.map_singleton, winning_append, ih vs.dropLast (by simp [hn])]
    cases vs.dropLast.getLast? with
    | none => simp
    | some b => simp [weaker_irrefl]

/-! ### Plain properties -/

theorem selects_style (cs : List PyStr) (N : PyStr) (t scls pcls : PyStr) (rest : List Box) :
    selects [⟨lit "span", cs⟩, ⟨[], [N]⟩] ((lit "span", scls) :: (t, pcls) :: rest) =
      (cs.all (fun c => (classesOf scls).contains c) && (classesOf pcls).contains N) := by
  simp [selects, meets]

theorem selects_char (cs : List PyStr) (scls : PyStr) (rest : List Box) :
    selects [⟨lit "span", cs⟩] ((lit "span", scls) :: rest) = cs.all (fun c => (classesOf scls).contains c) := by
  simp [selects, meets]

theorem declared_plain (doc T : Forest XNode) (hN : ∀ s ∈ entries "Style" T, isIdent (styleClass s) = true) (prop : PyStr) (hp : prop ∉ langNames)
    (ht : prop ∉ paraNames) (scls t pcls : PyStr) (rest : List Box) :
    cssDeclared (tableRules doc T) prop ((lit "span", scls) :: (t, pcls) :: rest) =
      (((entries "Style" T).flatMap fun s =>
        if (classesOf pcls).contains (styleClass s) then
          (nthOf doc "CharShape" (xpathNumber (attrValue s.1 "charshape-id"))).flatMap (ownValues prop) else []) ++
      (entries "CharShape" T).zipIdx.flatMap fun e =>
        if (classesOf scls).contains (shapeClass e.2) then ownValues prop e.1 else []).map fun v => ((1, 1), v) := by
  rw [declared_tables doc T prop ht _ (ownValues prop) (1, 1) (classesOf pcls).contains (classesOf scls).contains]
  · rw [List.map_append, List.map_flatMap, List.map_flatMap]
    congr 1
    · refine List.flatMap_congr fun s hs => ?_
      split <;> simp
    · refine List.flatMap_congr fun s hs => ?_
      split <;> simp
  · intro s hs c
    rw [declared_char_plain _ _ _ _ _ hp, style_selector, declared_one (readSelector_child (writable_style (hN s hs)) writable_span)]
    rw [selects_style]
    simp [ownValues, specificity, show lit "span" ≠ [] from by decide]
  · intro i c
    rw [declared_char_plain _ _ _ _ _ hp, shape_selector, declared_one (readSelector_one (writable_shape i)), selects_char]
    simp [ownValues, specificity, show lit "span" ≠ [] from by decide]

/-! ### Fonts -/

/-- The family of a character shape in a language. -/
def familyOf (doc : Forest XNode) (l : String) (shape : XElem) : PyStr :=
  fontFamily doc (addNumbers (fontBase doc l) (xpathNumber (firstAttr (childrenNamed (lit "FontFace") shape.2) l)))

theorem flatMap_if_eq {α β : Type} [DecidableEq α] (xs : List α) (hx : xs.Nodup) (a : α) (ha : a ∈ xs) (f : α → List β) :
    (xs.flatMap fun x => if x = a then f x else []) = f a := by
  induction xs with
  | nil => simp at ha
  | cons y ys ih =>
    rw [List.flatMap_cons]
    have hy := List.nodup_cons.1 hx
    by_cases e : y = a
    · subst e
      rw [if_pos rfl]
      have : (ys.flatMap fun x => if x = y then f x else []) = [] := by
        rw [List.flatMap_eq_nil_iff]
        intro x hm
        rw [if_neg]
        rintro rfl; exact hy.1 hm
      rw [this, List.append_nil]
    · rw [if_neg e, List.nil_append]
      exact ih hy.2 (by simpa [Ne.symm e] using ha)

/-- What the rules for a language declare. -/
def langValue (doc : Forest XNode) (prop : PyStr) (l : String) (shape : XElem) : PyStr := if prop = lit "font-size" then fontSize shape l else familyOf doc l shape

/-- The same, if there is any. -/
def langValues (doc : Forest XNode) (prop : PyStr) (l : String) (shape : XElem) : List PyStr :=
  if langValue doc prop l shape = [] then [] else [langValue doc prop l shape]

theorem lang_filter (doc : Forest XNode) {prop : PyStr} (hp : prop ∈ langNames) (l : String) (shape : XElem) :
    ((([(lit "font-family", familyOf doc l shape), (lit "font-size", fontSize shape l)] : List (PyStr × PyStr)).filter
      fun d => decide (d.1 = prop ∧ d.2 ≠ [])).map (·.2)) = langValues doc prop l shape := by
  have ne : lit "font-family" ≠ lit "font-size" := by decide +kernel
  have hp' : prop = lit "font-family" ∨ prop = lit "font-size" := by simpa [langNames] using hp
  unfold langValues langValue
  rcases hp' with rfl | rfl
  · by_cases e : familyOf doc l shape = [] <;> simp [ne, ne.symm, e]
  · by_cases e : fontSize shape l = [] <;> simp [ne, ne.symm, e]

/-- Of the classes of languages, an element has that of `l` only. -/
def OneLang (l : String) (scls : PyStr) : Prop := ∀ m ∈ fontLangs, (classesOf scls).contains (langClass (lit m)) = decide (m = l)

theorem lang_para {prop : PyStr} (hp : prop ∈ langNames) : prop ∉ paraNames := by
  have : ∀ p ∈ langNames, p ∉ paraNames := by decide +kernel
  exact this _ hp

theorem declared_font (doc T : Forest XNode) (hN : ∀ s ∈ entries "Style" T, isIdent (styleClass s) = true) (l : String) (hl : l ∈ fontLangs)
    {prop : PyStr} (hp : prop ∈ langNames) (scls t pcls : PyStr) (rest : List Box) (h1 : OneLang l scls) :
    cssDeclared (tableRules doc T) prop ((lit "span", scls) :: (t, pcls) :: rest) =
      (((entries "Style" T).flatMap fun s =>
        if (classesOf pcls).contains (styleClass s) then
          (nthOf doc "CharShape" (xpathNumber (attrValue s.1 "charshape-id"))).flatMap (langValues doc prop l) else []) ++
      (entries "CharShape" T).zipIdx.flatMap fun e =>
        if (classesOf scls).contains (shapeClass e.2) then langValues doc prop l e.1 else []).map fun v => ((2, 1), v) := by
  have hd : fontLangs.Nodup := by decide
  rw [declared_tables doc T _ (lang_para hp) _ (langValues doc prop l) (2, 1) (classesOf pcls).contains (classesOf scls).contains]
  · rw [List.map_append, List.map_flatMap, List.map_flatMap]
    congr 1
    · refine List.flatMap_congr fun s hs => ?_
      split
      · rfl
      · simp
    · refine List.flatMap_congr fun s hs => ?_
      split <;> simp
  · intro s hs c
    unfold charRules
    rw [declared_cons, declared_none [_], List.nil_append]
    · unfold langRules
      rw [List.map_eq_flatMap, declared_flatMap]
      have e : ∀ m ∈ fontLangs, cssDeclared [(lit "." ++ styleClass s ++ lit " > span" ++ lit ".lang-" ++ lit m, [(lit "font-family", familyOf doc m c), (lit "font-size", fontSize c m)])]
          prop ((lit "span", scls) :: (t, pcls) :: rest) =
          if m = l then (if (classesOf pcls).contains (styleClass s) then (langValues doc prop m c).map (fun v => ((2, 1), v)) else []) else [] := by
        intro m hm
        rw [style_lang_selector, declared_one (readSelector_child (writable_style (hN s hs)) (writable_spanLang hm)), selects_style, lang_filter doc hp]
        simp only [List.all_cons, List.all_nil, Bool.and_true, h1 m hm]
        by_cases e : m = l
        · subst e
          simp [specificity, show lit "span" ≠ [] from by decide]
        · simp [e]
      refine (List.flatMap_congr e).trans ?_
      rw [flatMap_if_eq _ hd l hl]
    · intro x hx d hdm
      simp only [List.mem_singleton] at hx
      subst hx
      exact fun e => mem_charDecls _ d hdm (e ▸ hp)
  · intro i c
    unfold charRules
    rw [declared_cons, declared_none [_], List.nil_append]
    · unfold langRules
      rw [List.map_eq_flatMap, declared_flatMap]
      have e : ∀ m ∈ fontLangs, cssDeclared [(lit "span.charshape-" ++ natStr i ++ lit ".lang-" ++ lit m, [(lit "font-family", familyOf doc m c), (lit "font-size", fontSize c m)])]
          prop ((lit "span", scls) :: (t, pcls) :: rest) =
          if m = l then (if (classesOf scls).contains (shapeClass i) then (langValues doc prop m c).map (fun v => ((2, 1), v)) else []) else [] := by
        intro m hm
        rw [shape_lang_selector, declared_one (readSelector_one (writable_shapeLang i hm)), selects_char, lang_filter doc hp]
        simp only [List.all_cons, List.all_nil, Bool.and_true, h1 m hm]
        by_cases e : m = l
        · subst e
          simp [specificity, show lit "span" ≠ [] from by decide]
        · simp [e]
      refine (List.flatMap_congr e).trans ?_
      rw [flatMap_if_eq _ hd l hl]
    · intro x hx d hdm
      simp only [List.mem_singleton] at hx
      subst hx
      exact fun e => mem_charDecls _ d hdm (e ▸ hp)

/-! ### The classes of an element -/

theorem classesOf_one (a : PyStr) (h : 0x20 ∉ a) (hn : a ≠ []) : classesOf a = [a] := by
  unfold classesOf
  rw [partsAt_self _ _ h]
  simp [hn]

theorem classesOf_cut (a b : PyStr) (h : 0x20 ∉ a) (hn : a ≠ []) : classesOf (a ++ 0x20 :: b) = a :: classesOf b := by
  unfold classesOf
  rw [partsAt_cut _ _ _ h, List.filter_cons_of_pos (by simpa using hn)]

theorem xpathNumber_digits {s : PyStr} {n : Nat} (h : xpathNumber s = some n) : ∀ c ∈ s, 0x30 ≤ c ∧ c ≤ 0x39 := by
  unfold xpathNumber at h
  split at h
  · rename_i g
    intro c hc
    simpa using List.all_eq_true.1 g.2 c hc
  · exact absurd h (by simp)

/-- No more classes, or the class of a bullet. -/
def BulletText (b : PyStr) : Prop := b = [] ∨ ∃ x, b = 0x20 :: (lit "Bullet-" ++ x) ∧ 0x20 ∉ x

theorem attrNodes_one (e : XElem) (name : String) : attrNodes [e] name = (attrOf e.1 name).toList := by
  unfold attrNodes
  rw [List.filterMap_cons, attrNode_eq]
  cases attrOf e.1 name <;> rfl

theorem bulletClass_text {doc T : Forest XNode} {ids : List (PyStr × PyStr)} (h : TablesAre doc ids T) (as : List (PyStr × PyStr)) :
    BulletText (bulletClass doc as) := by
  unfold bulletClass
  cases hx : xpathNumber (attrValue as "parashape-id") with
  | none => left; simp [nthOf, attrNodes]
  | some n =>
    rw [nthOf_eq h "ParaShape" (by simp)]
    cases hp : (entries "ParaShape" T)[n]? with
    | none => left; simp [attrNodes]
    | some e =>
      rw [Option.toList_some, attrNodes_one]
      cases ha : attrOf e.1 "numbering-bullet-id" with
      | none => left; simp
      | some v =>
        simp only [Option.toList_some]
        simp only [List.any_cons, List.any_nil, Bool.or_false, List.head?_cons, Option.getD_some]
        cases hv : xpathNumber v with
        | none => left; simp
        | some k =>
          by_cases hk : 0 < k
          · right
            refine ⟨v, ?_, fun m => absurd (xpathNumber_digits hv _ m).1 (by decide)⟩
            simp only [hk, decide_true, if_true]
            rw [show lit " Bullet-" = 0x20 :: lit "Bullet-" from by decide]
            rfl
          · left; simp [hk]

theorem bullet_classes {b : PyStr} (h : BulletText b) (a : PyStr) (ha : 0x20 ∉ a) (hn : a ≠ []) :
    ∃ more, classesOf (a ++ b) = a :: more ∧ ∀ w ∈ more, lit "Bullet-" <+: w := by
  rcases h with rfl | ⟨x, rfl, hx⟩
  · exact ⟨[], by rw [List.append_nil, classesOf_one a ha hn], by simp⟩
  · refine ⟨[lit "Bullet-" ++ x], ?_, by simp⟩
    rw [classesOf_cut a _ ha hn, classesOf_one]
    · intro m
      rcases List.mem_append.1 m with m | m
      · revert m; decide
      · exact hx m
    · simp [show lit "Bullet-" ≠ [] from by decide]

theorem styleNodes_eq {doc T : Forest XNode} {ids : List (PyStr × PyStr)} (h : TablesAre doc ids T) {para : List (PyStr × PyStr)} {k : Nat}
    {st : XElem} (hk : attrOf para "style-id" = some (natStr k)) (hs : (entries "Style" T)[k]? = some st) : styleNodes doc para = [st] := by
  unfold styleNodes
  rw [attrValue_eq, hk]
  show nthOf doc "Style" (xpathNumber (natStr k)) = _
  rw [xpathNumber_natStr, nthOf_eq h "Style" (by simp), hs]
  rfl

theorem paragraph_classes {doc T : Forest XNode} {ids : List (PyStr × PyStr)} (h : TablesAre doc ids T) {para : List (PyStr × PyStr)} {k j : Nat}
    {st : XElem} (hk : attrOf para "style-id" = some (natStr k)) (hs : (entries "Style" T)[k]? = some st)
    (hj : attrOf para "parashape-id" = some (natStr j)) (hi : isIdent (styleClass st) = true) :
    ∃ more, classesOf (paragraphClass doc para) = styleClass st :: more ∧ ∀ w ∈ more, lit "parashape-" <+: w ∨ lit "Bullet-" <+: w := by
  have hN : 0x20 ∉ styleClass st := (ident_free hi).1
  have hne := (isIdent_all hi).1
  unfold paragraphClass
  rw [styleNodes_eq h hk hs]
  have e1 : dashes (firstAttr [st] "name") = styleClass st := by
    unfold firstAttr
    rw [← styleClass_eq, attrValue_eq, attrNodes_one]
    cases attrOf st.1 "name" <;> rfl
  simp only [e1]
  split
  · simp only [List.flatMap_cons, List.flatMap_nil, List.append_nil]
    obtain ⟨more, m1, m2⟩ := bullet_classes (bulletClass_text h st.1) _ hN hne
    exact ⟨more, m1, fun w hw => .inr (m2 w hw)⟩
  · rw [attrValue_eq para, hj]
    obtain ⟨more, m1, m2⟩ := bullet_classes (bulletClass_text h para) (lit "parashape-" ++ natStr j)
      (by
        intro m
        rcases List.mem_append.1 m with m | m
        · revert m; decide
        · exact absurd (natStr_digit j _ m).1 (by decide)) (by simp [show lit "parashape-" ≠ [] from by decide])
    refine ⟨(lit "parashape-" ++ natStr j) :: more, ?_, ?_⟩
    · rw [show lit " parashape-" = 0x20 :: lit "parashape-" from by decide]
      simp only [Option.getD_some, List.cons_append]
      rw [classesOf_cut _ _ hN hne, m1]
    · intro w hw
      rcases List.mem_cons.1 hw with rfl | hw
      · exact .inl (List.prefix_append _ _)
      · exact .inr (m2 w hw)

theorem text_classes {doc T : Forest XNode} {ids : List (PyStr × PyStr)} (h : TablesAre doc ids T) {para as : List (PyStr × PyStr)} {s k : Nat}
    {st : XElem} {l : PyStr} (hs : attrOf para "style-id" = some (natStr s)) (hst : (entries "Style" T)[s]? = some st)
    (hk : attrOf as "charshape-id" = some (natStr k)) (hl : attrOf as "lang" = some l) (hsp : 0x20 ∉ l) :
    classesOf (textClass doc para as) = langClass l :: if attrOf st.1 "charshape-id" = some (natStr k) then [] else [shapeClass k] := by
  have h1 : 0x20 ∉ langClass l := by
    intro m
    rcases List.mem_append.1 m with m | m
    · revert m; decide
    · exact hsp m
  have h2 : langClass l ≠ [] := by simp [langClass, show lit "lang-" ≠ [] from by decide]
  unfold textClass
  rw [styleNodes_eq h hs hst, attrValue_eq as, hl, attrValue_eq as, hk, attrNode_eq, hk]
  show classesOf (langClass l ++ _) = _
  have e : (attrNodes [st] "charshape-id").any (fun v => some (natStr k) == some v) = decide (attrOf st.1 "charshape-id" = some (natStr k)) := by
    rw [attrNodes_one]
    cases attrOf st.1 "charshape-id" with
    | none => simp
    | some v =>
      simp only [Option.toList_some, List.any_cons, List.any_nil, Bool.or_false]
      by_cases hv : v = natStr k
      · simp [hv]
      · simp [hv, Ne.symm hv]
  rw [e]
  by_cases c : attrOf st.1 "charshape-id" = some (natStr k)
  · simp only [c, decide_true, if_true, List.append_nil]
    exact classesOf_one _ h1 h2
  · simp only [c, decide_false, Bool.false_eq_true, if_false, Option.getD_some]
    rw [show lit " charshape-" = 0x20 :: lit "charshape-" from by decide, List.cons_append, classesOf_cut _ _ h1 h2]
    congr 1
    refine classesOf_one _ (ident_free (shapeClass_ident k)).1 (isIdent_all (shapeClass_ident k)).1

/-! ### Runs -/

/-- No element around is taken for a run with a character shape. -/
def Framed (path : List Box) : Prop := ∀ b ∈ path, b.1 = lit "span" → ∀ n, shapeClass n ∉ classesOf b.2

/-- A run of text in its paragraph. -/
def RunPath (doc : Forest XNode) (r : HtmlRun) : Prop :=
  ∃ rest, r.path = (lit "span", textClass doc r.para r.attrs) :: (lit "p", paragraphClass doc r.para) :: rest ∧ Framed rest

theorem framed_append {a b : List Box} (ha : Framed a) (hb : Framed b) : Framed (a ++ b) := by
  intro x hx
  rcases List.mem_append.1 hx with hx | hx
  · exact ha x hx
  · exact hb x hx

theorem shapeClass_not (n : Nat) (s : PyStr) (h : s.head? ≠ some 99) : shapeClass n ≠ s := by
  rintro rfl
  apply h
  unfold shapeClass
  rw [show lit "charshape-" = 99 :: [104, 97, 114, 115, 104, 97, 112, 101, 45] from by decide]
  rfl

theorem framed_boxes (doc : Forest XNode) (n : PyStr) (as : List (PyStr × PyStr)) (cs : Forest XNode) (w : HtmlWay) :
    Framed (htmlBoxes doc n as cs w) := by
  have nospan : ∀ (t c : PyStr), t ≠ lit "span" → ∀ b ∈ [(t, c)], b.1 = lit "span" → ∀ n, shapeClass n ∉ classesOf b.2 := by
    intro t c ht b hb hs
    simp only [List.mem_singleton] at hb
    subst hb
    exact absurd hs ht
  have tc : Framed [(lit "span", lit "TableControl")] := by
    intro b hb _ n
    simp only [List.mem_singleton] at hb
    subst hb
    rw [show classesOf (lit "TableControl") = [lit "TableControl"] from by decide]
    simpa using shapeClass_not n _ (by decide)
  have gc : Framed [(lit "span", lit "GShapeObjectControl")] := by
    intro b hb _ n
    simp only [List.mem_singleton] at hb
    subst hb
    rw [show classesOf (lit "GShapeObjectControl") = [lit "GShapeObjectControl"] from by decide]
    simpa using shapeClass_not n _ (by decide)
  have nil : Framed [] := by intro b hb; simp at hb
  unfold htmlBoxes
  split
  · split
    · exact nospan _ _ (by decide)
    · exact nil
  split
  · split
    · exact framed_append (a := [(lit "table", tableBorder cs)]) (nospan _ _ (by decide)) tc
    split
    · exact nospan _ _ (by decide)
    · exact nil
  split
  · split
    · exact gc
    split
    · exact nospan _ _ (by decide)
    · exact nil
  split
  · exact nospan _ _ (by decide)
  split
  · exact nospan _ _ (by decide)
  split
  · exact nospan _ _ (by decide)
  · exact nil

/-- In the lines of a paragraph, its element is around. -/
def InParagraph (doc : Forest XNode) (m : HtmlWay) (path : List Box) (para : List (PyStr × PyStr)) : Prop :=
  Framed path ∧ (m = .lines ∨ m = .line → ∃ rest, path = (lit "p", paragraphClass doc para) :: rest)

theorem htmlRule_run {m : HtmlWay} {n : PyStr} {as : List (PyStr × PyStr)} (h : htmlRule m n as = .run) : m = .line := by
  cases m <;> simp only [htmlRule] at h
  case all => split at h <;> [skip; split at h <;> [skip; split at h <;> [skip; split at h]]] <;> simp [htmlParagraph, htmlControlChar, htmlNumbering] at h
  case paragraphs => split at h <;> simp [htmlParagraph] at h
  case lines => split at h <;> simp at h
  case line => rfl
  case floats => split at h <;> simp at h
  case floatsIn => split at h <;> simp at h

theorem htmlRule_into {m : HtmlWay} {n : PyStr} {as : List (PyStr × PyStr)} {b : PyStr} {ways : List HtmlWay} (h : htmlRule m n as = .into b ways) :
    (n = lit "Paragraph" ∧ ways = [.lines, .floats (lit "TableControl"), .floats (lit "GShapeObjectControl")]) ∨
    (m = .lines ∧ n = lit "LineSeg" ∧ ways = [.line]) ∨ ∀ w ∈ ways, w ≠ .lines ∧ w ≠ .line := by
  cases m <;> simp only [htmlRule] at h
  case all =>
    split at h
    · rename_i hn; simp only [htmlParagraph, Act.into.injEq] at h; exact .inl ⟨hn, h.2.symm⟩
    split at h
    · simp only [htmlControlChar, Act.into.injEq] at h; rw [← h.2]; simp
    split at h
    · simp only [htmlNumbering, Act.into.injEq] at h; rw [← h.2]; simp
    split at h <;> · simp only [Act.into.injEq] at h; rw [← h.2]; simp
  case paragraphs =>
    split at h
    · rename_i hn; simp only [htmlParagraph, Act.into.injEq] at h; exact .inl ⟨hn, h.2.symm⟩
    · simp only [Act.into.injEq] at h; rw [← h.2]; simp
  case lines =>
    split at h
    · rename_i hn; simp only [Act.into.injEq] at h; exact .inr (.inl ⟨rfl, hn, h.2.symm⟩)
    · simp only [Act.into.injEq] at h; rw [← h.2]; simp
  case line =>
    split at h
    · simp at h
    split at h
    · simp only [htmlControlChar, Act.into.injEq] at h; rw [← h.2]; simp
    split at h
    · simp only [htmlNumbering, Act.into.injEq] at h; rw [← h.2]; simp
    split at h <;> · simp only [Act.into.injEq] at h; rw [← h.2]; simp
  case floats => split at h <;> · simp only [Act.into.injEq] at h; rw [← h.2]; simp
  case floatsIn => split at h <;> · simp only [Act.into.injEq] at h; rw [← h.2]; simp

theorem walkRuns_path (doc : Forest XNode) (f : Forest XNode) : ∀ m path para, InParagraph doc m path para →
    ∀ r ∈ walkRuns doc f m path para, RunPath doc r := by
  induction f with
  | nil => intro m path para _ r hr; simp [walkRuns] at hr
  | node a cs sibs ih1 ih2 =>
    intro m path para hp r hr
    cases a with
    | text t => rw [walkRuns] at hr; exact ih2 m path para hp r hr
    | elem n as =>
      rw [walkRuns] at hr
      rcases List.mem_append.1 hr with hr | hr
      · have boxes : ∀ w, Framed (htmlBoxes doc n as cs w ++ path) := fun w => framed_append (framed_boxes doc n as cs w) hp.1
        have into : ∀ ways : List HtmlWay, (∀ w ∈ ways, InParagraph doc w (htmlBoxes doc n as cs w ++ path) (if n = lit "Paragraph" then as else para)) →
            ∀ r ∈ ways.flatMap (fun w => walkRuns doc cs w (htmlBoxes doc n as cs w ++ path) (if n = lit "Paragraph" then as else para)),
              RunPath doc r := by
          intro ways hw r hr
          obtain ⟨w, hwm, hr⟩ := List.mem_flatMap.1 hr
          exact ih1 _ _ _ (hw w hwm) r hr
        have other : ∀ ways : List HtmlWay, (∀ w ∈ ways, w ≠ .lines ∧ w ≠ .line) → ∀ w ∈ ways,
            InParagraph doc w (htmlBoxes doc n as cs w ++ path) (if n = lit "Paragraph" then as else para) := by
          intro ways hw w hwm
          refine ⟨boxes w, fun h => ?_⟩
          rcases h with h | h
          · exact absurd h (hw w hwm).1
          · exact absurd h (hw w hwm).2
        have para' : n = lit "Paragraph" → ∀ w ∈ [HtmlWay.lines, .floats (lit "TableControl"), .floats (lit "GShapeObjectControl")],
            InParagraph doc w (htmlBoxes doc n as cs w ++ path) (if n = lit "Paragraph" then as else para) := by
          intro hn w hwm
          refine ⟨boxes w, fun h => ?_⟩
          rcases h with rfl | rfl
          · exact ⟨path, by rw [htmlBoxes, if_pos hn, if_pos rfl, if_pos hn]; rfl⟩
          · simp at hwm
        cases hR : htmlRule m n as with
        | run =>
          rw [hR] at hr
          simp only [List.mem_singleton] at hr
          subst hr
          obtain ⟨rest, hrest⟩ := hp.2 (.inr (htmlRule_run hR))
          exact ⟨rest, by rw [hrest], fun b hb => hp.1 b (by rw [hrest]; simp [hb])⟩
        | into b ways =>
          rw [hR] at hr
          refine into ways ?_ r hr
          rcases htmlRule_into hR with ⟨hn, rfl⟩ | ⟨rfl, hn, rfl⟩ | h
          · exact para' hn
          · intro w hw
            obtain ⟨rest, hrest⟩ := hp.2 (.inl rfl)
            have hnp : ¬ n = lit "Paragraph" := by rw [hn]; decide +kernel
            refine ⟨boxes w, fun _ => ⟨rest, ?_⟩⟩
            have hb : htmlBoxes doc n as cs w = [] := by
              subst hn
              unfold htmlBoxes
              rw [if_neg (by decide +kernel), if_neg (by decide +kernel), if_neg (by decide +kernel), if_neg (by decide +kernel),
                if_neg (by decide +kernel), if_neg (by decide +kernel)]
            rw [hb, if_neg hnp, hrest]; rfl
          · exact other ways h
      · exact ih2 m path para hp r hr

theorem mem_descend {β : Type} (name : PyStr) (g : Forest XNode → List β) (f : Forest XNode) : ∀ x ∈ descend name g f, ∃ cs, x ∈ g cs := by
  induction f with
  | nil => intro x hx; simp [descend] at hx
  | node a cs sibs ih1 ih2 =>
    intro x hx
    cases a with
    | text t => rw [descend] at hx; exact ih2 x hx
    | elem n as =>
      rw [descend] at hx
      rcases List.mem_append.1 hx with hx | hx
      · rcases List.mem_append.1 hx with hx | hx
        · split at hx
          · exact ⟨cs, hx⟩
          · simp at hx
        · exact ih1 x hx
      · exact ih2 x hx

theorem mem_forEach {β : Type} (name : PyStr) (g : Forest XNode → List β) (f : Forest XNode) : ∀ x ∈ forEach name g f, ∃ cs, x ∈ g cs := by
  induction f with
  | nil => intro x hx; simp [forEach] at hx
  | node a cs sibs ih1 ih2 =>
    intro x hx
    cases a with
    | text t => rw [forEach] at hx; exact ih2 x hx
    | elem n as =>
      rw [forEach] at hx
      rcases List.mem_append.1 hx with hx | hx
      · split at hx
        · exact ⟨cs, hx⟩
        · simp at hx
      · exact ih2 x hx

theorem htmlRuns_path (doc : Forest XNode) : ∀ r ∈ htmlRuns doc, RunPath doc r := by
  intro r hr
  obtain ⟨c1, h1⟩ := mem_forEach _ _ _ r hr
  obtain ⟨c2, h2⟩ := mem_forEach _ _ _ r h1
  obtain ⟨sec, _, h3⟩ := List.mem_flatMap.1 h2
  have fr : ∀ c c' : PyStr, Framed [(lit "div", c), (lit "div", lit "HeaderPageFooter"),
      (lit "div", c'), (lit "body", []), (lit "html", [])] := by
    intro c c' b hb hs
    exfalso
    simp only [List.mem_cons, List.not_mem_nil, or_false] at hb
    have d1 : lit "div" ≠ lit "span" := by decide
    have d2 : lit "body" ≠ lit "span" := by decide
    have d3 : lit "html" ≠ lit "span" := by decide
    rcases hb with rfl | rfl | rfl | rfl | rfl
    · exact d1 hs
    · exact d1 hs
    · exact d1 hs
    · exact d2 hs
    · exact d3 hs
  rcases List.mem_append.1 h3 with h3 | h3
  · rcases List.mem_append.1 h3 with h3 | h3
    · obtain ⟨c3, h4⟩ := mem_descend _ _ _ r h3
      obtain ⟨c4, h5⟩ := mem_forEach _ _ _ r h4
      exact walkRuns_path doc _ _ _ _ ⟨fr _ _, by simp⟩ r h5
    · exact walkRuns_path doc _ _ _ _ ⟨fr _ _, by simp⟩ r h3
  · obtain ⟨c3, h4⟩ := mem_descend _ _ _ r h3
    obtain ⟨c4, h5⟩ := mem_forEach _ _ _ r h4
    exact walkRuns_path doc _ _ _ _ ⟨fr _ _, by simp⟩ r h5

/-! ### The value of a property -/

theorem flatMap_key {α β κ : Type} [DecidableEq κ] (key : α → κ) (xs : List α) (hx : (xs.map key).Nodup) (a : α) (ha : a ∈ xs) (g : α → List β) :
    (xs.flatMap fun x => if key x = key a then g x else []) = g a := by
  induction xs with
  | nil => simp at ha
  | cons y ys ih =>
    rw [List.map_cons] at hx
    have hy := List.nodup_cons.1 hx
    rw [List.flatMap_cons]
    rcases List.mem_cons.1 ha with rfl | ha
    · rw [if_pos rfl]
      have : (ys.flatMap fun x => if key x = key a then g x else []) = [] := by
        rw [List.flatMap_eq_nil_iff]
        intro x hm
        rw [if_neg]
        intro e; exact hy.1 (e ▸ List.mem_map_of_mem hm)
      rw [this, List.append_nil]
    · rw [if_neg (fun e => hy.1 (by rw [e]; exact List.mem_map_of_mem ha)), List.nil_append]
      exact ih hy.2 ha

theorem flatMap_index {α β : Type} (g : α → List β) (xs : List α) (k : Nat) : ∀ n,
    ((xs.zipIdx n).flatMap fun e => if e.2 = n + k then g e.1 else []) = (xs[k]?).toList.flatMap g := by
  induction xs generalizing k with
  | nil => intro n; simp
  | cons y ys ih =>
    intro n
    rw [List.zipIdx_cons, List.flatMap_cons]
    cases k with
    | zero =>
      have : ((ys.zipIdx (n + 1)).flatMap fun e => if e.2 = n + 0 then g e.1 else []) = [] := by
        rw [List.flatMap_eq_nil_iff]
        intro e he
        have := List.le_snd_of_mem_zipIdx he
        rw [if_neg (by omega)]
      rw [this]
      simp
    | succ k =>
      rw [if_neg (by simp), List.nil_append, List.getElem?_cons_succ, ← ih k (n + 1)]
      refine List.flatMap_congr fun e _ => ?_
      have : (e.2 = n + (k + 1)) ↔ (e.2 = n + 1 + k) := by omega
      simp only [this]

/-- What the rules give for a run: by its style, and by its character shape. -/
theorem run_values {doc T : Forest XNode} {ids : List (PyStr × PyStr)} (h : TablesAre doc ids T) (hN : ProperNames T)
    {para as : List (PyStr × PyStr)} {s k : Nat} {l : PyStr} {st c : XElem} (hr : RunOf para as s k l)
    (hs : (entries "Style" T)[s]? = some st) (hc : (entries "CharShape" T)[k]? = some c) (F : XElem → List PyStr) :
    ((entries "Style" T).flatMap fun s =>
        if (classesOf (paragraphClass doc para)).contains (styleClass s) then
          (nthOf doc "CharShape" (xpathNumber (attrValue s.1 "charshape-id"))).flatMap F else []) ++
      ((entries "CharShape" T).zipIdx.flatMap fun e =>
        if (classesOf (textClass doc para as)).contains (shapeClass e.2) then F e.1 else []) =
    (nthOf doc "CharShape" (xpathNumber (attrValue st.1 "charshape-id"))).flatMap F ++
      if attrOf st.1 "charshape-id" = some (natStr k) then [] else F c := by
  obtain ⟨r1, ⟨j, r2⟩, r3, r4, r5⟩ := hr
  rw [decimal_nat] at r1 r2 r3
  have hm : st ∈ entries "Style" T := List.mem_of_getElem? hs
  obtain ⟨more, m1, m2⟩ := paragraph_classes h r1 hs r2 (hN.ident st hm)
  have t1 := text_classes h r1 hs r3 r4 r5
  congr 1
  · rw [← flatMap_key styleClass _ hN.distinct st hm
      (fun s => (nthOf doc "CharShape" (xpathNumber (attrValue s.1 "charshape-id"))).flatMap F)]
    refine List.flatMap_congr fun s' hs' => ?_
    have e : (classesOf (paragraphClass doc para)).contains (styleClass s') = decide (styleClass s' = styleClass st) := by
      rw [m1, List.contains_cons]
      have : more.contains (styleClass s') = false := by
        rw [← Bool.not_eq_true, List.contains_iff_mem]
        intro hw
        rcases m2 _ hw with hw | hw
        · exact (hN.shapes s' hs').1 hw
        · exact (hN.shapes s' hs').2 hw
      rw [this, Bool.or_false]
      by_cases e : styleClass s' = styleClass st <;> simp [e]
    rw [e]
    by_cases e : styleClass s' = styleClass st <;> simp [e]
  · rw [t1]
    have e : ∀ i : Nat, (langClass l :: if attrOf st.1 "charshape-id" = some (natStr k) then [] else [shapeClass k]).contains (shapeClass i) =
        if attrOf st.1 "charshape-id" = some (natStr k) then false else decide (i = 0 + k) := by
      intro i
      rw [List.contains_cons, beq_eq_false_iff_ne.2 (shapeClass_lang i l), Bool.false_or]
      split
      · rfl
      · simp only [List.contains_cons, List.contains_nil, Bool.or_false, Nat.zero_add]
        by_cases e : i = k
        · simp [e]
        · rw [beq_eq_false_iff_ne.2 (fun g => e (shapeClass_inj g))]; simp [e]
    simp only [e]
    by_cases hq : attrOf st.1 "charshape-id" = some (natStr k)
    · simp [hq]
    · simp only [hq, if_false, decide_eq_true_eq]
      rw [flatMap_index F _ k 0, hc]
      simp

theorem style_shape {doc T : Forest XNode} {ids : List (PyStr × PyStr)} (h : TablesAre doc ids T) {st : XElem} {q : Nat}
    (hq : attrOf st.1 "charshape-id" = some (natStr q)) :
    nthOf doc "CharShape" (xpathNumber (attrValue st.1 "charshape-id")) = ((entries "CharShape" T)[q]?).toList := by
  rw [attrValue_eq, hq]
  show nthOf doc "CharShape" (xpathNumber (natStr q)) = _
  rw [xpathNumber_natStr, nthOf_eq h "CharShape" (by simp)]

/-- If the character shape of a run gives a value, this is the last one given. -/
theorem run_values_last {doc T : Forest XNode} {ids : List (PyStr × PyStr)} (h : TablesAre doc ids T) {st c : XElem} {k : Nat}
    (hc : (entries "CharShape" T)[k]? = some c) (F : XElem → List PyStr) (v : PyStr) (hv : F c = [v]) :
    ((nthOf doc "CharShape" (xpathNumber (attrValue st.1 "charshape-id"))).flatMap F ++
      if attrOf st.1 "charshape-id" = some (natStr k) then [] else F c).getLast? = some v := by
  by_cases hq : attrOf st.1 "charshape-id" = some (natStr k)
  · rw [if_pos hq, style_shape h hq, hc, List.append_nil]
    simp [hv]
  · rw [if_neg hq, hv, List.getLast?_append]
    simp

theorem styled_own {doc T : Forest XNode} {ids : List (PyStr × PyStr)} (h : TablesAre doc ids T) (hN : ProperNames T) (embed : Bool)
    (r : HtmlRun) (hm : r ∈ htmlRuns doc) {s k : Nat} {l : PyStr} {st c : XElem} (hr : RunOf r.para r.attrs s k l)
    (hs : (entries "Style" T)[s]? = some st) (hc : (entries "CharShape" T)[k]? = some c) (prop : PyStr) (hp : prop ∉ langNames)
    (ht : prop ∉ paraNames) (v : PyStr) (hv : ownValues prop c = [v]) : styledValue (pageRules embed doc) prop r.path = some v := by
  obtain ⟨rest, hpath, _⟩ := htmlRuns_path doc r hm
  rw [hpath, styledValue, pageRules_eq h, declared_page _ _ _ _ (page_names ht), declared_plain doc T hN.ident prop hp ht, run_values h hN hr hs hc, winning_same,
    run_values_last h hc _ v hv]
  rfl

theorem styled_lang {doc T : Forest XNode} {ids : List (PyStr × PyStr)} (h : TablesAre doc ids T) (hN : ProperNames T) (embed : Bool)
    (r : HtmlRun) (hm : r ∈ htmlRuns doc) {s k : Nat} {l : String} (hl : l ∈ fontLangs) {st c : XElem} (hr : RunOf r.para r.attrs s k (lit l))
    (hs : (entries "Style" T)[s]? = some st) (hc : (entries "CharShape" T)[k]? = some c) {prop : PyStr} (hp : prop ∈ langNames) (hne : langValue doc prop l c ≠ []) :
    styledValue (pageRules embed doc) prop r.path = some (langValue doc prop l c) := by
  obtain ⟨rest, hpath, _⟩ := htmlRuns_path doc r hm
  have one : OneLang l (textClass doc r.para r.attrs) := by
    intro m hm
    have t1 := text_classes h (by rw [hr.style, decimal_nat]) hs (by rw [hr.shape, decimal_nat]) hr.lang hr.plain
    rw [t1, List.contains_cons]
    have e : (if attrOf st.1 "charshape-id" = some (natStr k) then [] else [shapeClass k]).contains (langClass (lit m)) = false := by
      split
      · rfl
      · rw [← Bool.not_eq_true, List.contains_iff_mem, List.mem_singleton]
        exact fun e => shapeClass_lang k _ e.symm
    rw [e, Bool.or_false]
    by_cases hml : m = l
    · simp [hml]
    · rw [beq_eq_false_iff_ne.2]
      · simp [hml]
      · exact fun e => hml (lit_injective (List.append_cancel_left e))
  rw [hpath, styledValue, pageRules_eq h, declared_page _ _ _ _ (page_names (lang_para hp)), declared_font doc T hN.ident l hl hp _ _ _ _ one,
    run_values h hN hr hs hc (langValues doc prop l), winning_same, run_values_last h hc (langValues doc prop l) _ (by unfold langValues; rw [if_neg hne])]
  rfl

theorem styled_font {doc T : Forest XNode} {ids : List (PyStr × PyStr)} (h : TablesAre doc ids T) (hN : ProperNames T) (embed : Bool)
    (r : HtmlRun) (hm : r ∈ htmlRuns doc) {s k : Nat} {l : String} (hl : l ∈ fontLangs) {st c : XElem} (hr : RunOf r.para r.attrs s k (lit l))
    (hs : (entries "Style" T)[s]? = some st) (hc : (entries "CharShape" T)[k]? = some c) (hne : familyOf doc l c ≠ []) :
    styledValue (pageRules embed doc) (lit "font-family") r.path = some (familyOf doc l c) := by
  have e : langValue doc (lit "font-family") l c = familyOf doc l c := if_neg (by decide +kernel)
  rw [styled_lang h hN embed r hm hl hr hs hc (by decide +kernel) (by rw [e]; exact hne), e]

/-! ### No value -/

theorem declared_char_none (doc : Forest XNode) (sel : PyStr) (c : XElem) (prop : PyStr) (path : List Box) (hp : prop ∉ langNames)
    (h : ownValues prop c = []) : cssDeclared (charRules doc sel c) prop path = [] := by
  rw [declared_char_plain _ _ _ _ _ hp]
  cases hs : readSelector sel with
  | none => simp [cssDeclared, hs]
  | some qs =>
    rw [declared_one hs]
    unfold ownValues at h
    rw [h]
    simp

theorem declared_unset (doc T : Forest XNode) (hN : ∀ s ∈ entries "Style" T, isIdent (styleClass s) = true) (prop : PyStr) (hp : prop ∉ langNames)
    (ht : prop ∉ paraNames) (path : List Box)
    (h1 : ∀ s ∈ entries "Style" T, (∃ b ∈ path, styleClass s ∈ classesOf b.2) →
      ∀ c ∈ nthOf doc "CharShape" (xpathNumber (attrValue s.1 "charshape-id")), ownValues prop c = [])
    (h2 : ∀ b bs, path = b :: bs → b.1 = lit "span" → ∀ e ∈ (entries "CharShape" T).zipIdx, shapeClass e.2 ∈ classesOf b.2 → ownValues prop e.1 = []) :
    cssDeclared (tableRules doc T) prop path = [] := by
  unfold tableRules
  simp only [childrenNamed_eq]
  rw [declared_append, declared_append, declared_append, declared_append]
  rw [declared_none (List.map _ (entries "BorderFill" T).zipIdx), declared_none (List.map _ (entries "Bullet" T).zipIdx),
    declared_none (List.flatMap _ (entries "ParaShape" T).zipIdx), List.append_nil, List.append_nil, List.append_nil]
  · rw [List.append_eq_nil_iff]
    constructor
    · rw [declared_flatMap, List.flatMap_eq_nil_iff]
      intro s hs
      unfold styleRules
      simp only [styleClass_eq]
      rw [declared_append, declared_none, List.nil_append, declared_flatMap, List.flatMap_eq_nil_iff]
      · intro c hc
        by_cases hb : ∃ b ∈ path, styleClass s ∈ classesOf b.2
        · exact declared_char_none _ _ _ _ _ hp (h1 s hs hb c hc)
        · rw [declared_char_plain _ _ _ _ _ hp, style_selector, declared_one (readSelector_child (writable_style (hN s hs)) writable_span)]
          rw [if_neg]
          intro hsel
          match path, hsel with
          | [_], hsel => simp [selects] at hsel
          | b1 :: b2 :: bs, hsel =>
            simp only [selects, meets, List.all_cons, List.all_nil, Bool.and_true, Bool.and_eq_true, List.contains_iff_mem] at hsel
            exact hb ⟨b2, by simp, hsel.2.2⟩
      · intro x hx d hd
        split at hx
        · simp only [List.mem_cons, List.not_mem_nil, or_false] at hx
          rcases hx with rfl | rfl
          · obtain ⟨e, _, hd⟩ := List.mem_flatMap.1 hd
            exact fun e => ht (e ▸ paraDecls_names _ d hd)
          · obtain ⟨e, _, hd⟩ := List.mem_flatMap.1 hd
            exact fun e => ht (e ▸ spanDecls_names _ d hd ▸ line_height_name)
        · simp at hx
    · rw [declared_flatMap, List.flatMap_eq_nil_iff]
      intro e he
      rw [declared_char_plain _ _ _ _ _ hp]
      by_cases hv : ownValues prop e.1 = []
      · rw [← declared_char_plain doc _ _ _ _ hp]
        exact declared_char_none _ _ _ _ _ hp hv
      · rw [shape_selector, declared_one (readSelector_one (writable_shape e.2)), if_neg]
        intro hsel
        match path, hsel, h2 with
        | b :: bs, hsel, h2 =>
          simp only [selects, meets, List.all_cons, List.all_nil, Bool.and_true, Bool.and_eq_true, Bool.or_eq_true, decide_eq_true_eq,
            List.contains_iff_mem] at hsel
          refine hv (h2 b bs rfl ?_ e he hsel.2)
          rcases hsel.1 with h | h
          · exact absurd h (by decide)
          · exact h.symm
  · intro x hx d hd
    obtain ⟨e, _, he⟩ := List.mem_flatMap.1 hx
    simp only [paraRules, List.mem_cons, List.not_mem_nil, or_false] at he
    rcases he with rfl | rfl
    · exact fun e => ht (e ▸ paraDecls_names _ d hd)
    · exact fun e => ht (e ▸ spanDecls_names _ d hd ▸ line_height_name)
  · intro x hx d hd
    obtain ⟨e, _, rfl⟩ := List.mem_map.1 hx
    obtain rfl := List.mem_singleton.1 hd
    have m : lit "text-align" ∈ paraNames := by decide +kernel
    exact fun e => ht (e ▸ m)
  · intro x hx d hd
    obtain ⟨e, _, rfl⟩ := List.mem_map.1 hx
    simp at hd

theorem styled_unset {doc T : Forest XNode} {ids : List (PyStr × PyStr)} (h : TablesAre doc ids T) (hN : ProperNames T) (embed : Bool)
    (r : HtmlRun) (hm : r ∈ htmlRuns doc) {s k : Nat} {l : PyStr} {st c : XElem} (hr : RunOf r.para r.attrs s k l)
    (hs : (entries "Style" T)[s]? = some st) (hc : (entries "CharShape" T)[k]? = some c) (prop : PyStr) (hp : prop ∉ langNames)
    (ht : prop ∉ paraNames) (hv : ownValues prop c = [])
    (hst : ∀ s ∈ entries "Style" T, (∃ b ∈ r.path, styleClass s ∈ classesOf b.2) →
      ∀ c ∈ nthOf doc "CharShape" (xpathNumber (attrValue s.1 "charshape-id")), ownValues prop c = []) :
    styledValue (pageRules embed doc) prop r.path = none := by
  obtain ⟨rest, hpath, hf⟩ := htmlRuns_path doc r hm
  have step : ∀ p : List Box, (∀ b ∈ p, b ∈ r.path) → (∀ b bs, p = b :: bs → b.1 = lit "span" → ∀ e ∈ (entries "CharShape" T).zipIdx,
      shapeClass e.2 ∈ classesOf b.2 → ownValues prop e.1 = []) → cssDeclared (pageRules embed doc) prop p = [] := by
    intro p hp1 hp2
    rw [pageRules_eq h, declared_page _ _ _ _ (page_names ht)]
    exact declared_unset doc T hN.ident prop hp ht p (fun s hs ⟨b, hb, hb'⟩ => hst s hs ⟨b, hp1 b hb, hb'⟩) hp2
  have below : ∀ p : List Box, (∀ b ∈ p, b ∈ r.path) → Framed p → styledValue (pageRules embed doc) prop p = none := by
    intro p
    induction p with
    | nil => intro _ _; rfl
    | cons b bs ih =>
      intro hp1 hp2
      rw [styledValue, step (b :: bs) hp1]
      · exact ih (fun x hx => hp1 x (by simp [hx])) (fun x hx => hp2 x (by simp [hx]))
      · intro b' bs' e hb' x hx hcl
        have := (List.cons.inj e).1
        subst this
        exact absurd hcl (hp2 b (by simp) hb' x.2)
  rw [hpath, styledValue, ← hpath, step r.path (fun b hb => hb)]
  · show styledValue (pageRules embed doc) prop ((lit "p", paragraphClass doc r.para) :: rest) = none
    refine below _ (fun b hb => by rw [hpath]; exact List.mem_cons_of_mem _ hb) ?_
    intro b hb
    rcases List.mem_cons.1 hb with rfl | hb
    · intro hs'
      exact absurd hs' (show lit "p" ≠ lit "span" by decide)
    · exact hf b hb
  · intro b bs e hb x hx hcl
    rw [hpath] at e
    have := (List.cons.inj e).1
    subst this
    have t1 := text_classes h (by rw [hr.style, decimal_nat]) hs (by rw [hr.shape, decimal_nat]) hr.lang hr.plain
    rw [t1] at hcl
    rcases List.mem_cons.1 hcl with e | hcl
    · exact absurd e (shapeClass_lang _ _)
    · have hx2 : x.2 = k := by
        split at hcl
        · simp at hcl
        · exact shapeClass_inj (by simpa using hcl)
      have hx1 := List.mem_zipIdx_iff_getElem?.1 hx
      rw [hx2, hc] at hx1
      rw [← Option.some.inj hx1]
      exact hv

/-! ### Shapes -/

theorem own_color (c : XElem) (h : attrValue c.1 "text-color" ≠ []) : ownValues (lit "color") c = [attrValue c.1 "text-color"] := by
  unfold ownValues charDecls
  rw [List.filter_append, line_filter _ (by decide +kernel), List.append_nil]
  rw [List.filter_cons_of_pos (by simpa using h)]
  have e : ((if isOne c.1 "italic" then [(lit "font-style", lit "italic")] else []) ++
      (if isOne c.1 "bold" then [(lit "font-weight", lit "bold")] else [])).filter (fun d => decide (d.1 = lit "color" ∧ d.2 ≠ [])) = [] := by
    cases isOne c.1 "italic" <;> cases isOne c.1 "bold" <;> decide +kernel
  rw [e]
  rfl

theorem color_other (p : String) (v : PyStr) (h : "color" ≠ p) : ¬ decide ((lit "color", v).1 = lit p ∧ (lit "color", v).2 ≠ []) = true := by
  simp only [decide_eq_true_eq, not_and]
  intro e
  exact absurd (lit_injective e) h

theorem own_bold (c : XElem) : ownValues (lit "font-weight") c = if isOne c.1 "bold" then [lit "bold"] else [] := by
  unfold ownValues charDecls
  rw [List.filter_append, line_filter _ (by decide +kernel), List.append_nil]
  rw [List.filter_cons_of_neg (by exact color_other _ _ (by decide))]
  cases isOne c.1 "italic" <;> cases isOne c.1 "bold" <;> decide +kernel

theorem own_italic (c : XElem) : ownValues (lit "font-style") c = if isOne c.1 "italic" then [lit "italic"] else [] := by
  unfold ownValues charDecls
  rw [List.filter_append, line_filter _ (by decide +kernel), List.append_nil]
  rw [List.filter_cons_of_neg (by exact color_other _ _ (by decide))]
  cases isOne c.1 "italic" <;> cases isOne c.1 "bold" <;> decide +kernel

theorem isOne_on {c : XElem} {name : String} (h : FlagOn c name) : isOne c.1 name = true := by
  unfold isOne
  rw [attrNode_eq, h, show Spec.decimal 1 = natStr 1 from decimal_nat 1]
  show (xpathNumber (natStr 1) == some 1) = true
  rw [xpathNumber_natStr]; rfl

theorem isOne_off {c : XElem} {name : String} (h : FlagOff c name) : isOne c.1 name = false := by
  obtain ⟨n, hn, h⟩ := h
  unfold isOne
  rw [attrNode_eq, h, decimal_nat]
  show (xpathNumber (natStr n) == some 1) = false
  rw [xpathNumber_natStr]
  simpa using hn

/-! ### Faces -/

theorem facesOf_get (count : String → Nat) (l : String) (face : XElem) (i : Nat) : ∀ (ls : List String) (faces : List XElem),
    (facesOf count l ls faces)[i]? = some face → faces[((ls.takeWhile (· ≠ l)).map count).sum + i]? = some face := by
  intro ls
  induction ls with
  | nil => intro faces h; simp [facesOf] at h
  | cons m ls ih =>
    intro faces h
    unfold facesOf at h
    by_cases e : m = l
    · rw [if_pos e, List.getElem?_take] at h
      split at h
      · simpa [e] using h
      · simp at h
    · rw [if_neg e] at h
      have i1 := ih _ h
      rw [List.getElem?_drop] at i1
      rw [List.takeWhile_cons_of_pos (by simpa using e), List.map_cons, List.sum_cons, Nat.add_assoc]
      exact i1

theorem fontBase_eq {doc T : Forest XNode} {ids : List (PyStr × PyStr)} (h : TablesAre doc ids T) (count : String → Nat)
    (hc : ∀ l ∈ languages, attrOf ids (l ++ "-fonts") = some (Spec.decimal (count l))) (l : String) :
    fontBase doc l = some ((fontLangs.takeWhile (· ≠ l)).map count).sum := by
  have g : ∀ (ls : List String) (n : Nat), (∀ l ∈ ls, l ∈ languages) → ls.foldl
      (fun n l => addNumbers n (xpathNumber (firstAttr (allOf doc "IdMappings") (l ++ "-fonts")))) (some n) = some (n + (ls.map count).sum) := by
    intro ls
    induction ls with
    | nil => intro n _; rfl
    | cons m ls ih =>
      intro n hls
      rw [List.foldl_cons, allOf_ids h]
      have e : firstAttr [(ids, T)] (m ++ "-fonts") = natStr (count m) := by
        unfold firstAttr
        rw [attrNodes_one, hc m (hls m (by simp)), decimal_nat]
        rfl
      rw [e, xpathNumber_natStr, ← allOf_ids h]
      show List.foldl _ (some (n + count m)) ls = _
      rw [ih _ (fun l hl => hls l (by simp [hl])), List.map_cons, List.sum_cons, Nat.add_assoc]
  unfold fontBase
  have sub : ∀ m ∈ fontLangs.takeWhile (· ≠ l), m ∈ languages := fun m hm => show m ∈ fontLangs from (List.takeWhile_sublist _).subset hm
  rw [g _ 0 sub, Nat.zero_add]

/-- Nothing, or families after a comma. -/
def MoreFamilies (g : PyStr) : Prop := g = [] ∨ lit ", " <+: g

theorem panose_more (as : List (PyStr × PyStr)) : MoreFamilies (panoseFamily as) := by
  unfold panoseFamily
  split; · exact .inr (by decide)
  split; · exact .inr (by decide)
  split; · exact .inr (by decide)
  split; · exact .inr (by decide)
  split; · exact .inr (by decide)
  exact .inl rfl

theorem generic_more (f : XElem) : MoreFamilies (genericFamily f) := by
  unfold genericFamily
  simp only
  split; · exact .inr (by decide)
  split; · exact .inr (by decide)
  split; · exact .inr (by decide)
  split; · exact .inr (by decide)
  generalize childrenNamed (lit "Panose1") f.2 = ps
  induction ps with
  | nil => exact .inl rfl
  | cons p ps ih =>
    rw [List.flatMap_cons]
    rcases panose_more p.1 with e | ⟨t, e⟩
    · rw [e, List.nil_append]; exact ih
    · exact .inr ⟨t ++ ps.flatMap fun p => panoseFamily p.1, by rw [← e, List.append_assoc]⟩

theorem familyOf_eq {doc T : Forest XNode} {ids : List (PyStr × PyStr)} (h : TablesAre doc ids T) (count : String → Nat)
    (hc : ∀ l ∈ languages, attrOf ids (l ++ "-fonts") = some (Spec.decimal (count l))) (l : String) (c face : XElem) (i : Nat)
    {fs : List (PyStr × PyStr)} {fk : Forest XNode} (hf : entries "FontFace" c.2 = [(fs, fk)]) (hi : attrOf fs l = some (Spec.decimal i))
    (hface : (facesOf count l languages (entries "FaceName" T))[i]? = some face) :
    ∃ g, MoreFamilies g ∧ familyOf doc l c = lit "\"" ++ (attrOf face.1 "name").getD [] ++ lit "\"" ++ g := by
  unfold familyOf
  rw [fontBase_eq h count hc, childrenNamed_eq, hf]
  have e : firstAttr [(fs, fk)] l = natStr i := by
    unfold firstAttr
    rw [attrNodes_one, hi, decimal_nat]
    rfl
  rw [e, xpathNumber_natStr]
  show ∃ g, _ ∧ fontFamily doc (some (_ + i)) = _
  unfold fontFamily
  rw [nthOf_eq h "FaceName" (by simp)]
  have hg := facesOf_get count l face i languages _ hface
  rw [show languages = fontLangs from rfl] at hg
  rw [hg]
  refine ⟨genericFamily face, generic_more face, ?_⟩
  simp [attrValue_eq]

end Hwp
