import Verif.Proofs.PipelineD
namespace Hwp
open Spec
set_option linter.unusedSimpArgs false

/-! ### The text of every paragraph -/

/-- Paragraphs and section definitions. -/
def isFrame (a : Item) : Bool := a.isParagraph || a.isSectionDef

/-- What a paragraph or section definition with this text contributes. -/
def frame (a : Item) (t : PyStr) : List (Option Nat × PyStr) :=
  match a with
  | .paragraph _ n => [(some n, t)]
  | .sectionDef _ _ => [(none, t)]
  | _ => []

/-- Text outside paragraphs and section definitions. -/
def own : Forest Item → PyStr
  | .nil => []
  | .node a cs sibs => textItem a ++ (if isFrame a then [] else own cs) ++ own sibs

/-- The own texts of all paragraphs and section definitions. -/
def pts : Forest Item → List (Option Nat × PyStr)
  | .nil => []
  | .node a cs sibs => pts cs ++ frame a (own cs) ++ pts sibs

theorem frame_plain {a : Item} (h : isFrame a = false) (t : PyStr) : frame a t = [] := by
  cases a <;> simp_all [isFrame, frame, Item.isParagraph, Item.isSectionDef]

theorem own_plain {a : Item} (h : isFrame a = false) (cs sibs : Forest Item) :
    own (.node a cs sibs) = textItem a ++ own cs ++ own sibs := by simp [own, h]

theorem pts_plain {a : Item} (h : isFrame a = false) (cs sibs : Forest Item) :
    pts (.node a cs sibs) = pts cs ++ pts sibs := by simp [pts, frame_plain h]

theorem own_frame {a : Item} (h : isFrame a) (cs sibs : Forest Item) : own (.node a cs sibs) = own sibs := by
  have : textItem a = [] := by cases a <;> simp_all [isFrame, textItem, Item.isParagraph, Item.isSectionDef]
  simp [own, h, this]

theorem own_append (f g : Forest Item) : own (f.append g) = own f ++ own g := by
  induction f with
  | nil => rfl
  | node a cs sibs _ ih => simp [Forest.append, own, ih]

theorem pts_append (f g : Forest Item) : pts (f.append g) = pts f ++ pts g := by
  induction f with
  | nil => rfl
  | node a cs sibs _ ih => simp [Forest.append, pts, ih]

theorem own_cons (a : Item) (cs sibs : Forest Item) :
    own (.node a cs sibs) = own (.node a cs .nil) ++ own sibs := by simp [own]

theorem pts_cons (a : Item) (cs sibs : Forest Item) :
    pts (.node a cs sibs) = pts (.node a cs .nil) ++ pts sibs := by simp [pts]

/-! ### Field matching -/

def addTop (x : PyStr) : List PyStr → List PyStr
  | [] => []
  | t :: st => (t ++ x) :: st

theorem addTop_nil (st : List PyStr) : addTop [] st = st := by cases st <;> simp [addTop]

/-- The own texts read off a stream of events. -/
def ptsGo : List PyStr → List IEv → List (Option Nat × PyStr)
  | _, [] => []
  | st, .start a :: es => if isFrame a then ptsGo ([] :: st) es else ptsGo (addTop (textItem a) st) es
  | st, .stop a :: es =>
    if isFrame a then
      match st with
      | t :: st => frame a t ++ ptsGo st es
      | [] => ptsGo [] es
    else ptsGo st es

theorem ptsGo_forest (f : Forest Item) : ∀ t st rest,
    ptsGo (t :: st) (eventsOf f ++ rest) = pts f ++ ptsGo ((t ++ own f) :: st) rest := by
  induction f with
  | nil => intro t st rest; simp [eventsOf, pts, own]
  | node a cs sibs ih1 ih2 =>
    intro t st rest
    simp only [eventsOf, List.cons_append, List.append_assoc, List.nil_append, ptsGo]
    by_cases h : isFrame a
    · rw [if_pos h, ih1]
      simp only [ptsGo, h, if_true]
      rw [ih2, own_frame h]
      simp [pts]
    · simp only [Bool.not_eq_true] at h
      rw [if_neg (by simp [h])]
      simp only [addTop]
      rw [ih1]
      simp only [ptsGo, h, Bool.false_eq_true, if_false]
      rw [ih2, own_plain h, pts_plain h]
      simp

theorem ptsGo_filter (es : List IEv) : ∀ st, ptsGo st (es.filter notField) = ptsGo st es := by
  induction es with
  | nil => intro st; rfl
  | cons e es ih =>
    intro st
    by_cases hn : notField e
    · rw [List.filter_cons_of_pos hn]
      cases e with
      | start a => simp only [ptsGo, ih]
      | stop a =>
        simp only [ptsGo]
        split
        · cases st <;> simp [ih]
        · exact ih _
    · rw [List.filter_cons_of_neg hn, ih]
      have : isFrame e.item = false ∧ textItem e.item = [] := by
        simp only [notField] at hn
        generalize e.item = a at hn ⊢
        cases a <;> simp_all [Item.isField, Item.isFieldEnd, isFrame, textItem, Item.isParagraph, Item.isSectionDef]
      cases e with
      | start a =>
        simp only [Ev.item] at this
        simp [ptsGo, this.1, this.2, addTop_nil]
      | stop a =>
        simp only [Ev.item] at this
        simp [ptsGo, this.1]

theorem pts_eq_ptsGo (f : Forest Item) : ptsGo [[]] (eventsOf f) = pts f := by
  have := ptsGo_forest f [] [] []
  simpa [ptsGo] using this

theorem fielded_pts (f : Forest Item) (h : FieldsPaired f) : pts (fielded f) = pts f := by
  rw [← pts_eq_ptsGo, ← pts_eq_ptsGo, ← ptsGo_filter, fielded_filter f h, ptsGo_filter]

/-! ### The other passes -/

theorem adopt_own (isP isC : Item → Bool) (hp : ∀ a, isP a → isFrame a = false) (n : Nat) :
    ∀ f : Forest Item, f.size ≤ n → own (adopt isP isC f) = own f ∧ pts (adopt isP isC f) = pts f := by
  induction n with
  | zero =>
    intro f hf
    cases f with
    | nil => rw [adopt_nil]; exact ⟨rfl, rfl⟩
    | node a cs sibs => simp [Forest.size] at hf
  | succ n ih =>
    intro f hf
    cases f with
    | nil => rw [adopt_nil]; exact ⟨rfl, rfl⟩
    | node a cs sibs =>
      simp only [Forest.size] at hf
      obtain ⟨c1, c2⟩ := ih cs (by omega)
      by_cases h : isP a
      · rw [adopt_node_parent h]
        have h2 := ih (sibs.takeWhile isC) (by have := sibs.size_takeWhile isC; omega)
        have h3 := ih (sibs.dropWhile isC) (by have := sibs.size_dropWhile isC; omega)
        have hs := Forest.takeWhile_append_dropWhile isC sibs
        have ho : own sibs = own (sibs.takeWhile isC) ++ own (sibs.dropWhile isC) := by rw [← own_append, hs]
        have hpt : pts sibs = pts (sibs.takeWhile isC) ++ pts (sibs.dropWhile isC) := by rw [← pts_append, hs]
        rw [own_plain (hp a h), own_plain (hp a h), pts_plain (hp a h), pts_plain (hp a h)]
        simp [own_append, pts_append, c1, c2, h2, h3, ho, hpt]
      · rw [adopt_node_other (by simpa using h)]
        have h2 := ih sibs (by omega)
        simp [own, pts, c1, c2, h2]

theorem groupRows_own (ws : List Nat) : ∀ f : Forest Item, f.roots.length = ws.sum →
    own (groupRows ws f) = own f ∧ pts (groupRows ws f) = pts f := by
  induction ws with
  | nil =>
    intro f h
    cases f with
    | nil => exact ⟨rfl, rfl⟩
    | node a cs sibs => simp [Forest.roots] at h
  | cons w ws ih =>
    intro f h
    simp only [List.sum_cons] at h
    have := ih (f.drop w) (by simp [Forest.roots_drop]; omega)
    simp only [groupRows]
    rw [own_plain rfl, pts_plain rfl, this.1, this.2, ← pts_append]
    simp only [textItem, List.nil_append]
    rw [← own_append, Forest.take_append_drop]
    exact ⟨rfl, rfl⟩

theorem rowed_own (f : Forest Item) : ∀ b g, rowed b f = some g → own g = own f ∧ pts g = pts f := by
  induction f with
  | nil =>
    intro b g h
    cases b <;> (simp [rowed] at h; subst h; exact ⟨rfl, rfl⟩)
  | node a cs sibs ih1 ih2 =>
    intro b g h
    obtain ⟨cs', sibs', h2, ⟨ws, t, rfl, h1, h3, rfl⟩ | ⟨-, h1, rfl⟩⟩ := rowed_cases h
    · have := groupRows_own ws cs' (by rw [rowed_roots cs cs' h1, h3])
      have i1 := ih1 _ _ h1
      have i2 := ih2 _ _ h2
      rw [own_plain rfl, own_plain rfl, pts_plain rfl, pts_plain rfl]
      simp [this, i1, i2, textItem]
    · have i1 := ih1 _ _ h1
      have i2 := ih2 _ _ h2
      simp [own, pts, i1, i2]

theorem tokens_own (sh : Nat) (ts : List (Lang × PyStr)) (g : Forest Item) :
    own (ts.foldr (fun t f => .node (.text t.2 sh (some t.1)) .nil f) g) = (ts.map (·.2)).flatten ++ own g ∧
    pts (ts.foldr (fun t f => .node (.text t.2 sh (some t.1)) .nil f) g) = pts g := by
  induction ts with
  | nil => exact ⟨rfl, rfl⟩
  | cons t ts ih =>
    simp only [List.foldr_cons]
    rw [own_plain rfl, pts_plain rfl, ih.1, ih.2]
    simp [own, pts, textItem]

theorem tokenized_own (f : Forest Item) (h : TextLeaves f) :
    own (tokenized f) = own f ∧ pts (tokenized f) = pts f := by
  induction f with
  | nil => exact ⟨rfl, rfl⟩
  | node a cs sibs ih1 ih2 =>
    obtain ⟨h1, h2, h3⟩ := h
    by_cases ht : a.isText
    · rw [h1 ht]
      cases a <;> simp [Item.isText] at ht
      case text s sh l =>
      simp only [tokenized]
      obtain ⟨t1, t2⟩ := tokens_own sh (tokenizeByLang s) (tokenized sibs)
      rw [t1, t2, own_plain rfl, pts_plain rfl, (Props.C19_tokenize s).1]
      simp [ih2 h3, own, pts, textItem]
    · rw [tokenized_other _ _ _ (by simpa using ht)]
      simp [own, pts, ih1 h2, ih2 h3]

theorem columned_own (n : Nat) : ∀ f : Forest Item, f.size ≤ n →
    own (columned f) = own f ∧ pts (columned f) = pts f := by
  induction n with
  | zero =>
    intro f hf
    cases f with
    | nil => rw [columned_nil]; exact ⟨rfl, rfl⟩
    | node a cs sibs => simp [Forest.size] at hf
  | succ n ih =>
    intro f hf
    cases f with
    | nil => rw [columned_nil]; exact ⟨rfl, rfl⟩
    | node a cs sibs =>
      simp only [Forest.size] at hf
      have h1 := ih cs (by omega)
      by_cases hs : startsColumns a
      · rw [columned_start hs]
        have h2 := ih (sibs.takeWhile (!startsColumns ·)) (by have := sibs.size_takeWhile (!startsColumns ·); omega)
        have h3 := ih (sibs.dropWhile (!startsColumns ·)) (by have := sibs.size_dropWhile (!startsColumns ·); omega)
        have hs := Forest.takeWhile_append_dropWhile (!startsColumns ·) sibs
        have ho : own sibs = own (sibs.takeWhile (!startsColumns ·)) ++ own (sibs.dropWhile (!startsColumns ·)) := by
          rw [← own_append, hs]
        have hpt : pts sibs = pts (sibs.takeWhile (!startsColumns ·)) ++ pts (sibs.dropWhile (!startsColumns ·)) := by
          rw [← pts_append, hs]
        rw [own_plain rfl, pts_plain rfl]
        simp [own, pts, h1, h2, h3, ho, hpt, textItem]
      · rw [columned_other (by simpa using hs)]
        have h2 := ih sibs (by omega)
        simp [own, pts, h1, h2]

theorem extract_own (f : Forest Item) : ∀ a cs f', extractSection f = some ((a, cs), f') →
    own f' = own f ∧ (pts f).Perm (pts cs ++ frame a (own cs) ++ pts f') := by
  induction f with
  | nil => intro a cs f' h; cases h
  | node a cs sibs ih1 ih2 =>
    intro b ks f' h
    simp only [extractSection] at h
    split at h
    · rename_i hs
      simp only [Option.some.injEq, Prod.mk.injEq] at h
      obtain ⟨⟨rfl, rfl⟩, rfl⟩ := h
      exact ⟨(own_frame (by simp [isFrame, hs]) _ _).symm, .refl _⟩
    · split at h
      · rename_i sd cs' heq
        simp only [Option.some.injEq, Prod.mk.injEq] at h
        obtain ⟨rfl, rfl⟩ := h
        obtain ⟨i1, i2⟩ := ih1 _ _ _ heq
        refine ⟨by simp [own, i1], ?_⟩
        simp only [pts, i1]
        rw [List.append_assoc]
        refine (i2.append_right _).trans ?_
        simp
      · split at h
        · rename_i sd sibs' heq
          simp only [Option.some.injEq, Prod.mk.injEq] at h
          obtain ⟨rfl, rfl⟩ := h
          obtain ⟨i1, i2⟩ := ih2 _ _ _ heq
          refine ⟨by simp [own, i1], ?_⟩
          simp only [pts]
          refine (i2.append_left _).trans ?_
          rw [← List.append_assoc, ← List.append_assoc (pts ks ++ frame b (own ks))]
          exact List.perm_append_comm.append_right _
        · cases h

/-! ### Inlining -/

/-- The contents of controls have no text outside paragraphs. -/
def OwnOk : Forest Item → Prop
  | .nil => True
  | .node a cs sibs => (a.isControl → own cs = []) ∧ OwnOk cs ∧ OwnOk sibs

/-- A control without text outside paragraphs. -/
def QuietQ (t : Item × Forest Item) : Prop := t.1.isControl ∧ own t.2 = []

theorem QuietQ.own {t : Item × Forest Item} (h : QuietQ t) (sibs : Forest Item) :
    own (.node t.1 t.2 sibs) = own sibs := by
  obtain ⟨c, k⟩ := t
  obtain ⟨h1, h2⟩ := h
  have : textItem c = [] := by
    dsimp only at h1
    cases c <;> simp_all [Item.isControl, textItem]
  dsimp only at h2
  simp [Hwp.own, this, h2]

def ptsQ (q : List (Item × Forest Item)) : List (Option Nat × PyStr) := q.flatMap fun t => pts (.node t.1 t.2 .nil)

theorem anchor_empty {a : Item} (h : isAnchor a) (sibs : Forest Item) :
    own (.node a .nil sibs) = own sibs ∧ pts (.node a .nil sibs) = pts sibs := by
  cases a <;> simp [isAnchor] at h
  rw [own_plain rfl, pts_plain rfl]
  exact ⟨rfl, rfl⟩

theorem placeIn_own (f : Forest Item) : ∀ q, PlainLine f → (∀ t ∈ q, QuietQ t) →
    own (placeIn q f).1 = own f ∧ (pts (placeIn q f).1 ++ ptsQ (placeIn q f).2).Perm (pts f ++ ptsQ q) ∧
    ∀ t ∈ (placeIn q f).2, QuietQ t := by
  induction f with
  | nil => intro q _ hq; exact ⟨rfl, .refl _, hq⟩
  | node a cs sibs _ ih =>
    rintro q ⟨hk, rfl, hp⟩ hq
    have keep : ∀ q, (∀ t ∈ q, QuietQ t) → own (.node a .nil (placeIn q sibs).1) = own (.node a .nil sibs) ∧
        (pts (.node a .nil (placeIn q sibs).1) ++ ptsQ (placeIn q sibs).2).Perm (pts (.node a .nil sibs) ++ ptsQ q) ∧
        ∀ t ∈ (placeIn q sibs).2, QuietQ t := by
      intro q hq
      obtain ⟨i1, i2, i3⟩ := ih q hp hq
      refine ⟨by simp [own, i1], ?_, i3⟩
      rw [pts_cons, pts_cons a .nil sibs, List.append_assoc, List.append_assoc]
      exact i2.append_left _
    by_cases ha : isAnchor a
    · cases q with
      | nil => simpa [placeIn, ha] using keep [] hq
      | cons t q =>
        obtain ⟨i1, i2, i3⟩ := ih q hp (fun t ht => hq t (by simp [ht]))
        have ht := hq t (by simp)
        have hw := ht.own (placeIn q sibs).1
        obtain ⟨c, k⟩ := t
        rw [placeIn_anchor _ _ _ _ _ _ ha]
        obtain ⟨e1, e2⟩ := anchor_empty ha sibs
        refine ⟨by rw [e1, ← i1]; exact hw, ?_, i3⟩
        rw [e2, pts_cons]
        simp only [ptsQ, List.flatMap_cons, List.append_assoc] at i2 ⊢
        refine (i2.append_left _).trans ?_
        rw [← List.append_assoc, ← List.append_assoc]
        exact List.perm_append_comm.append_right _
    · rw [placeIn_other _ _ _ _ (by simpa using ha)]
      exact keep q hq

theorem placeLines_own (f : Forest Item) : ∀ q, LinesForm f → (∀ t ∈ q, QuietQ t) →
    own (placeLines q f).1 = own f ∧ (pts (placeLines q f).1 ++ ptsQ (placeLines q f).2).Perm (pts f ++ ptsQ q) := by
  induction f with
  | nil => intro q _ hq; exact ⟨rfl, .refl _⟩
  | node a cs sibs _ ih =>
    rintro q ⟨hl, hf⟩ hq
    simp only [placeLines]
    split at hl
    · rename_i hls
      have hfr : isFrame a = false := by cases a <;> simp_all [Item.isLineSeg, isFrame, Item.isParagraph, Item.isSectionDef]
      simp only [hls, if_true]
      obtain ⟨p1, p2, p3⟩ := placeIn_own cs q hl hq
      obtain ⟨i1, i2⟩ := ih _ hf p3
      rw [own_plain hfr, own_plain hfr, pts_plain hfr, pts_plain hfr]
      refine ⟨by rw [p1, i1], ?_⟩
      rw [List.append_assoc]
      refine (i2.append_left _).trans ?_
      rw [← List.append_assoc]
      refine (List.perm_append_comm.append_right _).trans ?_
      rw [List.append_assoc]
      refine (p2.append_left _).trans ?_
      rw [← List.append_assoc]
      exact List.perm_append_comm.append_right _
    · rename_i hls
      simp only [hls, if_false, Bool.false_eq_true]
      obtain ⟨i1, i2⟩ := ih q hf hq
      refine ⟨by simp [own, i1], ?_⟩
      rw [pts_cons, pts_cons a cs sibs, List.append_assoc, List.append_assoc]
      exact i2.append_left _

theorem withoutControls_own (f : Forest Item) (hq : ∀ t ∈ topControls f, QuietQ t) :
    own (withoutControls f) = own f ∧ (pts (withoutControls f) ++ ptsQ (topControls f)).Perm (pts f) := by
  induction f with
  | nil => exact ⟨rfl, .refl _⟩
  | node a cs sibs _ ih =>
    simp only [withoutControls, topControls] at hq ⊢
    split at hq
    · rename_i hc
      simp only [hc, if_true]
      obtain ⟨i1, i2⟩ := ih (fun t ht => hq t (by simp [ht]))
      have := (hq (a, cs) (by simp)).own sibs
      refine ⟨by rw [i1]; exact this.symm, ?_⟩
      rw [pts_cons a cs sibs]
      simp only [ptsQ, List.flatMap_cons] at i2 ⊢
      rw [← List.append_assoc]
      refine (List.perm_append_comm.append_right _).trans ?_
      rw [List.append_assoc]
      exact i2.append_left _
    · rename_i hc
      simp only [hc, if_false, Bool.false_eq_true]
      obtain ⟨i1, i2⟩ := ih hq
      refine ⟨by simp [own, i1], ?_⟩
      rw [pts_cons, pts_cons a cs sibs, List.append_assoc]
      exact i2.append_left _

theorem inlined_own (f : Forest Item) : ∀ b, InlineOk b f → OwnOk f →
    own (inlined f) = own f ∧ (pts (inlined f)).Perm (pts f) ∧ ∀ t ∈ topControls (inlined f), QuietQ t := by
  induction f with
  | nil => intro b _ _; exact ⟨rfl, .refl _, by simp [inlined, topControls]⟩
  | node a cs sibs ih1 ih2 =>
    intro b h ho
    obtain ⟨o1, o2, o3⟩ := ho
    have keep : ∀ g : Forest Item, own g = own cs → (pts g).Perm (pts cs) →
        (own (inlined sibs) = own sibs ∧ (pts (inlined sibs)).Perm (pts sibs) ∧ ∀ t ∈ topControls (inlined sibs), QuietQ t) →
        own (.node a g (inlined sibs)) = own (.node a cs sibs) ∧
        (pts (.node a g (inlined sibs))).Perm (pts (.node a cs sibs)) ∧
        ∀ t ∈ topControls (.node a g (inlined sibs)), QuietQ t := by
      intro g g1 g2 ⟨s1, s2, s3⟩
      refine ⟨by simp [own, g1, s1], ?_, ?_⟩
      · simp only [pts, g1]
        exact (g2.append_right _).append s2
      · simp only [topControls]
        split
        · rename_i hc
          intro t ht
          rcases List.mem_cons.1 ht with rfl | ht
          · exact ⟨hc, by rw [g1]; exact o1 hc⟩
          · exact s3 t ht
        · exact s3
    simp only [InlineOk] at h
    split at h
    · rename_i hp
      obtain ⟨h1, h2, h3⟩ := h
      obtain ⟨c1, c2, c3⟩ := ih1 true h1 o2
      simp only [inlined, hp, if_true]
      obtain ⟨-, lf⟩ := (inlined_perm cs).2 h1
      have hlen : anchorCount (withoutControls (inlined cs)) = (topControls (inlined cs)).length := by
        rw [anchorCount_withoutControls, anchorCount_inlined cs h1, h2, topControls_inlined]
        simp [inl]
      obtain ⟨w1, w2⟩ := withoutControls_own _ c3
      obtain ⟨-, q2⟩ := placeLines_perm (withoutControls (inlined cs)) (topControls (inlined cs))
        (linesForm_withoutControls _ lf) (by omega)
      obtain ⟨p1, p2⟩ := placeLines_own _ _ (linesForm_withoutControls _ lf) c3
      rw [q2, hlen, List.drop_length] at p2
      simp only [ptsQ, List.flatMap_nil, List.append_nil] at p2
      exact keep _ (by rw [p1, w1, c1]) (p2.trans (w2.trans c2)) (ih2 b h3 o3)
    · rename_i hp
      simp only [inlined, hp, if_false, Bool.false_eq_true]
      split at h
      · obtain ⟨c1, c2, -⟩ := ih1 false h.2.1 o2
        exact keep _ c1 c2 (ih2 b h.2.2 o3)
      · split at h
        · rw [plainLine_inlined cs h.2.1]
          exact keep _ rfl (.refl _) (ih2 b h.2.2.2 o3)
        · obtain ⟨c1, c2, -⟩ := ih1 false h.2.1 o2
          exact keep _ c1 c2 (ih2 b h.2.2 o3)

/-! ### Making the texts -/

/-- The texts the records describe, in the order of `pts`. -/
def recPts : Forest Item → List (Option Nat × PyStr)
  | .nil => []
  | .node a cs sibs =>
    recPts cs ++ frame a (if a.isParagraph then textOf (paraRanges cs.roots) else []) ++ recPts sibs

theorem own_leaves (l : List Item) (h : ∀ a ∈ l, IsPiece a) :
    own (leaves l) = Props.itemText l ∧ pts (leaves l) = [] ∧ OwnOk (leaves l) := by
  induction l with
  | nil => exact ⟨rfl, rfl, trivial⟩
  | cons a l ih =>
    obtain ⟨i1, i2, i3⟩ := ih (fun b hb => h b (by simp [hb]))
    rcases h a (by simp) with ⟨s, sh, rfl⟩ | ⟨c, k, sh, -, rfl⟩
    · simp only [leaves]
      rw [own_plain rfl, pts_plain rfl, i1, i2]
      exact ⟨by simp [own, textItem, Props.itemText], rfl, by simp [Item.isControl], trivial, i3⟩
    · simp only [leaves]
      rw [own_plain rfl, pts_plain rfl, i1, i2]
      exact ⟨by simp [own, textItem, Props.itemText], rfl, by simp [Item.isControl], trivial, i3⟩

theorem own_lineForest (items : List (LineId × List Item)) (h : ∀ l ∈ items, ∀ a ∈ l.2, IsPiece a) :
    own (lineForest items) = Props.itemText (items.flatMap (·.2)) ∧ pts (lineForest items) = [] ∧
    OwnOk (lineForest items) := by
  induction items with
  | nil => exact ⟨rfl, rfl, trivial⟩
  | cons l ls ih =>
    obtain ⟨i1, i2, i3⟩ := ih (fun l hl => h l (by simp [hl]))
    obtain ⟨j1, j2, j3⟩ := own_leaves l.2 (h l (by simp))
    simp only [lineForest]
    rw [own_plain rfl, pts_plain rfl, i1, i2, j1, j2]
    exact ⟨by simp [textItem, Props.itemText], rfl, by simp [Item.isControl], j3, i3⟩

theorem ownOk_append (f g : Forest Item) (h1 : OwnOk f) (h2 : OwnOk g) : OwnOk (f.append g) := by
  induction f with
  | nil => exact h2
  | node a cs sibs _ ih => exact ⟨h1.1, h1.2.1, ih h1.2.2⟩

theorem texted_own {f f' : Forest Item} (h : Texted f f') : Everywhere NodeOk f →
    own f' = [] ∧ pts f' = recPts f ∧ OwnOk f' := by
  induction h with
  | nil => intro _; exact ⟨rfl, rfl, trivial⟩
  | @record a sibs sibs' ha _ ih =>
    intro hf
    obtain ⟨i1, i2, i3⟩ := ih hf.2.2
    refine ⟨i1, ?_, i3⟩
    rw [i2]
    cases a <;> simp_all [isTextRecord, recPts, frame]
  | @paragraph a cs cs' L sibs sibs' hp ht hL hs ih1 ih2 =>
    intro hf
    obtain ⟨items, rfl, hi, htx, -⟩ := linesOf_items _ _ hL
    obtain ⟨i1, i2, i3⟩ := ih1 hf.2.1
    obtain ⟨j1, j2, j3⟩ := ih2 hf.2.2
    obtain ⟨k1, k2, k3⟩ := own_lineForest items hi
    have hfr : isFrame a := by simp [isFrame, hp]
    refine ⟨by rw [own_frame hfr, j1], ?_, ?_, ownOk_append _ _ i3 k3, j3⟩
    · simp [pts, recPts, own_append, pts_append, i1, i2, j2, k1, k2, htx, hp]
    · cases a <;> simp_all [Item.isParagraph, Item.isControl]
  | @other a cs cs' sibs sibs' ht hp hc hs ih1 ih2 =>
    intro hf
    obtain ⟨i1, i2, i3⟩ := ih1 hf.2.1
    obtain ⟨j1, j2, j3⟩ := ih2 hf.2.2
    have hm := hf.1.1
    have htx : textItem a = [] := by cases a <;> simp_all [madeByPasses, textItem]
    refine ⟨by simp [own, i1, j1, htx], by simp [pts, recPts, i1, i2, j2, hp], fun _ => i1, i3, j3⟩

/-! ### From own texts to paragraph texts -/

theorem own_of_quiet (f : Forest Item) (h : ∀ t, (none, t) ∈ pts f → t = []) : ownText f = own f := by
  induction f with
  | nil => rfl
  | node a cs sibs ih1 ih2 =>
    simp only [pts, List.mem_append] at h
    have i1 := ih1 (fun t ht => h t (.inl (.inl ht)))
    have i2 := ih2 (fun t ht => h t (.inr ht))
    simp only [ownText, own, i1, i2]
    by_cases hs : a.isSectionDef
    · have : own cs = [] := by
        apply h
        left; right
        cases a <;> simp_all [Item.isSectionDef, frame]
      simp [this]
    · simp only [Bool.not_eq_true] at hs
      simp [isFrame, hs]

theorem pts_paragraphTexts (f : Forest Item) (h : ∀ t, (none, t) ∈ pts f → t = []) :
    (paragraphTexts f).Perm ((pts f).filterMap fun p => p.1.map (·, p.2)) := by
  induction f with
  | nil => exact .refl _
  | node a cs sibs ih1 ih2 =>
    have hx := h
    simp only [pts, List.mem_append] at h
    have i1 := ih1 (fun t ht => h t (.inl (.inl ht)))
    have i2 := ih2 (fun t ht => h t (.inr ht))
    have ho := own_of_quiet cs (fun t ht => h t (.inl (.inl ht)))
    simp only [paragraphTexts, pts, List.filterMap_append, ho]
    refine List.Perm.append ?_ i2
    refine (i1.append_left _).trans ?_
    refine List.perm_append_comm.trans ?_
    refine List.Perm.append_left _ ?_
    cases a <;> simp [frame]

theorem recordTexts_perm (f : Forest Item) : (recordTexts f).Perm ((recPts f).filterMap fun p => p.1.map (·, p.2)) := by
  induction f with
  | nil => exact .refl _
  | node a cs sibs ih1 ih2 =>
    simp only [recordTexts, recPts, List.filterMap_append]
    refine List.Perm.append ?_ ih2
    refine (ih1.append_left _).trans ?_
    refine List.perm_append_comm.trans ?_
    refine List.Perm.append_left _ ?_
    cases a <;> simp [frame, Item.isParagraph]

theorem recPts_quiet (f : Forest Item) : ∀ t, (none, t) ∈ recPts f → t = [] := by
  induction f with
  | nil => simp [recPts]
  | node a cs sibs ih1 ih2 =>
    intro t ht
    simp only [recPts, List.mem_append] at ht
    rcases ht with (ht | ht) | ht
    · exact ih1 t ht
    · cases a <;> simp_all [frame, Item.isParagraph]
    · exact ih2 t ht

/-! ### The text pass and the other elements -/

theorem items_leaves (l : List Item) : (leaves l).items = l := by
  induction l with
  | nil => rfl
  | cons a l ih => simp [leaves, Forest.items, ih]

theorem items_lineForest (ls : List (LineId × List Item)) :
    (lineForest ls).items = ls.flatMap fun l => .lineSeg l.1 :: l.2 := by
  induction ls with
  | nil => rfl
  | cons l ls ih => simp [lineForest, Forest.items, ih, items_leaves]

theorem texted_sect {f f' : Forest Item} (h : Texted f f') : f'.items.flatMap sectItem = f.items.flatMap sectItem := by
  induction h with
  | nil => rfl
  | @record a sibs sibs' ha _ ih => cases a <;> simp_all [isTextRecord, Forest.items, sectItem]
  | @paragraph a cs cs' L sibs sibs' hp ht hL hs ih1 ih2 =>
    obtain ⟨items, rfl, hi, htx, -⟩ := linesOf_items _ _ hL
    have hk : (lineForest items).items.flatMap sectItem = [] := by
      rw [items_lineForest, List.flatMap_eq_nil_iff]
      intro b hb
      simp only [List.mem_flatMap, List.mem_cons] at hb
      obtain ⟨l, hl, rfl | hb⟩ := hb
      · rfl
      · rcases hi l hl b hb with ⟨s, sh, rfl⟩ | ⟨c, k, sh, -, rfl⟩ <;> rfl
    simp [Forest.items, Forest.items_append, ih1, ih2, hk]
  | @other a cs cs' sibs sibs' ht hp hc hs ih1 ih2 => simp [Forest.items, ih1, ih2]

theorem own_paragraphs (f : Forest Item) (h : ∀ a ∈ f.roots, a.isParagraph) : own f = [] := by
  induction f with
  | nil => rfl
  | node a cs sibs _ ih =>
    rw [own_frame (by simp [isFrame, h a (by simp [Forest.roots])])]
    exact ih (fun b hb => h b (by simp [Forest.roots, hb]))

theorem texted_kept {f f' : Forest Item} (h : Texted f f') : Everywhere NodeOk f →
    f'.items.flatMap keptItem = f.items.flatMap keptItem ∧
    (f'.items.flatMap textItem).Perm (documentText f) := by
  induction h with
  | nil => intro _; exact ⟨rfl, .refl _⟩
  | @record a sibs sibs' ha _ ih =>
    intro hf
    obtain ⟨i1, i2⟩ := ih hf.2.2
    cases a <;> simp_all [isTextRecord, Forest.items, keptItem, documentText, Item.isParagraph]
  | @paragraph a cs cs' L sibs sibs' hp ht hL hs ih1 ih2 =>
    intro hf
    obtain ⟨items, rfl, hi, htx, -⟩ := linesOf_items _ _ hL
    obtain ⟨i1, i2⟩ := ih1 hf.2.1
    obtain ⟨j1, j2⟩ := ih2 hf.2.2
    have hk : (lineForest items).items.flatMap keptItem = [] := by
      rw [items_lineForest, List.flatMap_eq_nil_iff]
      intro b hb
      simp only [List.mem_flatMap, List.mem_cons] at hb
      obtain ⟨l, hl, rfl | hb⟩ := hb
      · rfl
      · rcases hi l hl b hb with ⟨s, sh, rfl⟩ | ⟨c, k, sh, -, rfl⟩ <;> rfl
    have htk : (lineForest items).items.flatMap textItem = textOf (paraRanges cs.roots) := by
      rw [← htx, items_lineForest]
      clear hL htx hi hk
      induction items with
      | nil => rfl
      | cons l ls ih =>
        simp only [List.flatMap_cons, List.flatMap_append, ih, Props.itemText, textItem, List.nil_append]
        congr 1
    refine ⟨by simp [Forest.items, Forest.items_append, i1, j1, hk], ?_⟩
    have hta : textItem a = [] := by cases a <;> simp_all [Item.isParagraph, textItem]
    simp only [Forest.items, Forest.items_append, List.flatMap_cons, List.flatMap_append, hta, List.nil_append, htk,
      documentText, hp, if_true]
    refine List.Perm.append ?_ j2
    exact List.perm_append_comm.trans (i2.append_left _)
  | @other a cs cs' sibs sibs' ht hp hc hs ih1 ih2 =>
    intro hf
    obtain ⟨i1, i2⟩ := ih1 hf.2.1
    obtain ⟨j1, j2⟩ := ih2 hf.2.2
    have hm := hf.1.1
    have htx : textItem a = [] := by cases a <;> simp_all [madeByPasses, textItem]
    refine ⟨by simp [Forest.items, i1, j1], ?_⟩
    simp only [Forest.items, List.flatMap_cons, List.flatMap_append, htx, List.nil_append, documentText, hp,
      Bool.false_eq_true, if_false]
    exact i2.append j2

end Hwp
