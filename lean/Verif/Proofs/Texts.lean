import Verif.Spec.Texts
import Verif.Props.Shapes
import Verif.Proofs.Fields
import Verif.Proofs.Events
namespace Hwp
open Spec
set_option linter.unusedSimpArgs false

theorem kindOf_eq (code : Nat) : kindOf code = ctrlKind code := by
  by_cases h : code < 32
  · have : ∀ c : Fin 32, kindOf c.val = ctrlKind c.val := by decide
    exact this ⟨code, h⟩
  · have h1 : ctrlKind code = none := by
      unfold ctrlKind
      split <;> first | rfl | omega
    rw [h1]
    unfold kindOf
    simp only [List.mem_cons, List.not_mem_nil, or_false]
    rw [if_neg (by omega), if_neg (by omega), if_neg (by omega)]

/-! ### Cuts -/

theorem cut_head_cut {α : Type} (cs qs : List (RChunk α))
    (H : ∀ ps, Cut ps qs → Cut ps cs) (ps : List (RChunk α)) :
    ∀ c, Cut ps (c :: qs) → Cut ps (c :: cs) := by
  induction ps with
  | nil => intro c h; cases h
  | cons p ps ih =>
    intro c h
    cases h with
    | keep h => exact .keep (H _ h)
    | cut h1 h2 h => exact .cut h1 h2 (ih _ h)

theorem cut_head_cut2 {α : Type} (cs qs : List (RChunk α)) (m b : Nat) (attr : α)
    (hm : m < b) (ps : List (RChunk α)) :
    ∀ (a : Nat) (s : PyStr), a < m →
      (∀ ps, Cut ps qs → Cut ps (⟨m, b, attr, .text (s.drop (m - a))⟩ :: cs)) →
      Cut ps (⟨a, m, attr, .text (s.take (m - a))⟩ :: qs) → Cut ps (⟨a, b, attr, .text s⟩ :: cs) := by
  induction ps with
  | nil => intro a s _ _ h; cases h
  | cons p ps ih =>
    intro a s ha H h
    generalize hx : (⟨a, m, attr, .text (s.take (m - a))⟩ : RChunk α) = x at h
    cases h with
    | keep h => subst hx; exact .cut ha hm (H _ h)
    | @cut a' b' m' attr' s' _ _ h1 h2 h =>
      injection hx with e1 e2 e3 e4
      injection e4 with e4
      subst e1; subst e2; subst e3; subst e4
      have ht : (s.take (m - a)).take (m' - a) = s.take (m' - a) := by
        rw [List.take_take]; congr 1; omega
      rw [ht]
      refine .cut h1 (by omega) ?_
      refine ih m' (s.drop (m' - a)) h2 ?_ ?_
      · intro ps' hp
        rw [List.drop_drop]
        have : m' - a + (m - m') = m - a := by omega
        rw [this]
        exact H _ hp
      · have hd : (s.take (m - a)).drop (m' - a) = (s.drop (m' - a)).take (m - m') := by
          rw [List.drop_take]; congr 1; omega
        rw [← hd]; exact h

theorem Spec.Cut.trans {α : Type} {ps qs cs : List (RChunk α)} (h1 : Cut ps qs) (h2 : Cut qs cs) : Cut ps cs := by
  induction h2 generalizing ps with
  | nil => exact h1
  | keep _ ih => exact cut_head_cut _ _ (fun _ h => ih h) _ _ h1
  | cut ha hb _ ih => exact cut_head_cut2 _ _ _ _ _ hb _ _ _ ha (fun _ h => ih h) h1

theorem Spec.Cut.map {α β : Type} (g : α → β) {ps cs : List (RChunk α)} (h : Cut ps cs) :
    Cut (ps.map fun c => (⟨c.start, c.stop, g c.attr, c.val⟩ : RChunk β))
      (cs.map fun c => (⟨c.start, c.stop, g c.attr, c.val⟩ : RChunk β)) := by
  induction h with
  | nil => exact .nil
  | keep _ ih => exact .keep ih
  | cut h1 h2 _ ih => exact .cut h1 h2 ih

theorem Spec.Cut.mem {α : Type} {ps cs : List (RChunk α)} (h : Cut ps cs) :
    ∀ p ∈ ps, ∃ c ∈ cs, p.attr = c.attr ∧ c.start ≤ p.start ∧ p.stop ≤ c.stop ∧
      (p.start = c.start ∨ p.start < c.stop) ∧ ((∃ d, p.val = .ctrl d) → p = c) := by
  induction h with
  | nil => simp
  | @keep c ps cs _ ih =>
    intro p hp
    rcases List.mem_cons.1 hp with rfl | hp
    · exact ⟨p, by simp, rfl, Nat.le_refl _, Nat.le_refl _, .inl rfl, fun _ => rfl⟩
    · obtain ⟨c', h1, h2⟩ := ih p hp
      exact ⟨c', by simp [h1], h2⟩
  | @cut a b m attr s ps cs h1 h2 h ih =>
    intro p hp
    rcases List.mem_cons.1 hp with rfl | hp
    · refine ⟨_, List.mem_cons_self, rfl, Nat.le_refl _, ?_, .inl rfl, ?_⟩
      · dsimp only; omega
      · rintro ⟨d, hd⟩; cases hd
    · obtain ⟨c', h3, e1, e2, e3, e4, e5⟩ := ih p hp
      rcases List.mem_cons.1 h3 with rfl | h3
      · refine ⟨_, List.mem_cons_self, e1, ?_, e3, ?_, ?_⟩
        · dsimp only at e2 ⊢; omega
        · dsimp only at e2 e4 ⊢; omega
        · rintro ⟨d, hd⟩
          have := e5 ⟨d, hd⟩
          subst this; cases hd
      · exact ⟨c', by simp [h3], e1, e2, e3, e4, e5⟩

/-! ### One paragraph -/

/-- The parts of a paragraph behind the given children. -/
def partsAfter : ParaParts → List Item → ParaParts
  | p, [] => p
  | p, .paraText cs _ :: r => partsAfter { p with text := some cs } r
  | p, .paraCharShape cs _ :: r => partsAfter { p with charshapes := some cs } r
  | p, .paraLineSeg ls t :: r => partsAfter { p with linesegs := some (ls, t) } r
  | p, _ :: r => partsAfter p r

theorem partsAfter_spec (rs : List Item) : ∀ p,
    (partsAfter p rs).text = ((rs.filterMap fun a => match a with | .paraText cs _ => some cs | _ => none).getLast?).or p.text ∧
    (partsAfter p rs).charshapes = ((rs.filterMap fun a => match a with | .paraCharShape cs _ => some cs | _ => none).getLast?).or p.charshapes ∧
    (partsAfter p rs).linesegs = ((rs.filterMap fun a => match a with | .paraLineSeg ls t => some (ls, t) | _ => none).getLast?).or p.linesegs := by
  induction rs with
  | nil => intro p; simp [partsAfter]
  | cons a rs ih =>
    intro p
    cases a
    case paraText cs t =>
      simp only [partsAfter, List.filterMap_cons]
      obtain ⟨h1, h2, h3⟩ := ih { p with text := some cs }
      refine ⟨?_, h2, h3⟩
      rw [h1, List.getLast?_cons]
      cases (List.filterMap _ rs).getLast? <;> simp
    case paraCharShape cs t =>
      simp only [partsAfter, List.filterMap_cons]
      obtain ⟨h1, h2, h3⟩ := ih { p with charshapes := some cs }
      refine ⟨h1, ?_, h3⟩
      rw [h2, List.getLast?_cons]
      cases (List.filterMap _ rs).getLast? <;> simp
    case paraLineSeg cs t =>
      simp only [partsAfter, List.filterMap_cons]
      obtain ⟨h1, h2, h3⟩ := ih { p with linesegs := some (cs, t) }
      refine ⟨h1, h2, ?_⟩
      rw [h3, List.getLast?_cons]
      cases (List.filterMap _ rs).getLast? <;> simp
    all_goals
      simp only [partsAfter, List.filterMap_cons]
      exact ih p

theorem partsAfter_plain (rs : List Item) (h : ∀ b ∈ rs, isTextRecord b = false) (p : ParaParts) :
    partsAfter p rs = p := by
  induction rs with
  | nil => rfl
  | cons a rs ih =>
    have h1 := h a (by simp)
    have ih := ih (fun b hb => h b (by simp [hb]))
    cases a <;> simp_all [partsAfter, isTextRecord]

theorem Gen.chain_ofList {α} (gs : List (List α)) :
    Gen.chain (gs.map Gen.ofList) = .ofList gs.flatten := by
  induction gs with
  | nil => rfl
  | cons g gs ih => simp [Gen.chain, ih, Gen.ofList, Gen.prepend]

theorem eventsOf_leaves (as : List Item) : eventsOf (leaves as) = as.flatMap fun a => [.start a, .stop a] := by
  induction as with
  | nil => rfl
  | cons a as ih => simp [leaves, eventsOf, ih]

theorem eventsOf_lineForest (ls : List (LineId × List Item)) : eventsOf (lineForest ls) =
    ls.flatMap fun l => .start (.lineSeg l.1) :: (eventsOf (leaves l.2) ++ [.stop (.lineSeg l.1)]) := by
  induction ls with
  | nil => rfl
  | cons l ls ih => simp [lineForest, eventsOf, ih]

/-- The element of a piece. -/
def pieceOf (c : RChunk (Nat × Unit)) : Item :=
  match c.val with
  | .text s => .text s c.attr.1 none
  | .ctrl d => .controlChar d.code ((ctrlKind d.code).getD .char) c.attr.1

theorem textChunkEvents_ok (c : RChunk (Nat × Unit)) (h : ∀ d, c.val = .ctrl d → kindOf d.code ≠ none) :
    textChunkEvents c = .ofList [.start (pieceOf c), .stop (pieceOf c)] ∧
      pieceItem c.attr.1 c.val = some (pieceOf c) := by
  unfold textChunkEvents pieceOf pieceItem
  cases hv : c.val with
  | text s => simp
  | ctrl d =>
    have := h d hv
    rw [kindOf_eq] at this
    dsimp only
    rw [kindOf_eq]
    cases hk : ctrlKind d.code with
    | none => exact absurd hk this
    | some k => simp

theorem adjacent_differing {α : Type} (lines : List (LineId × List (RChunk α))) (h : Props.AdjacentDiffer lines) :
    Differing (lines.map (·.1)) := by
  induction lines with
  | nil => trivial
  | cons a t ih =>
    cases t with
    | nil => trivial
    | cons b t => exact ⟨h.1, ih h.2⟩

theorem RTiles.bounds {α : Type} (cs : List (RChunk α)) : ∀ lo hi, RTiles lo hi cs →
    lo ≤ hi ∧ ∀ c ∈ cs, lo ≤ c.start ∧ c.start ≤ hi ∧ c.stop ≤ hi := by
  induction cs with
  | nil => intro lo hi h; exact ⟨Nat.le_of_eq h, by simp⟩
  | cons c cs ih =>
    intro lo hi h
    obtain ⟨h1, h2, h3⟩ := h
    obtain ⟨h4, h5⟩ := ih _ _ h3
    refine ⟨by omega, ?_⟩
    intro c' hc'
    rcases List.mem_cons.1 hc' with rfl | hc'
    · omega
    · have := h5 c' hc'; omega

theorem mergeParagraph_ok (kids : List Item) (h : ParaOk kids) :
    ∃ L, mergeParagraph (partsAfter {} kids) = .ofList (eventsOf L) ∧ LinesOf kids L := by
  obtain ⟨shapes', h1, hs0, h2, h3, h4, h5, h6, h7, h8, h9'⟩ := h
  obtain ⟨s0, shapes, rfl⟩ : ∃ s0 t, shapes' = (0, s0) :: t := by
    cases shapes' with
    | nil => simp at hs0
    | cons a t =>
      obtain ⟨x, y⟩ := a
      simp at hs0; subst hs0; exact ⟨y, t, rfl⟩
  have h1 : paraShapes kids = some ((0, s0) :: shapes) := h1
  have h9 : ∀ c ∈ paraChunks kids, ∀ d, c.val = .ctrl d → kindOf d.code ≠ none := by
    intro c hc d hd
    refine h9' d ?_
    unfold ctrlsOf paraRanges
    refine List.mem_flatten.2 ⟨[d], ?_, by simp⟩
    refine List.mem_map.2 ⟨⟨c.start, c.stop, (), c.val⟩, List.mem_map.2 ⟨c, hc, rfl⟩, ?_⟩
    rw [hd]
  generalize rangesEnd (paraRanges kids) = hi at h3 h4
  obtain ⟨p1, p2, p3⟩ := partsAfter_spec kids {}
  have hb := (RTiles.bounds _ _ _ h3).2
  obtain ⟨out, e1, e2, e3, -, e5, e6⟩ := Props.C16_split (paraRanges kids) (0, s0) shapes 0 hi h3 h2
    (Nat.zero_le _) (by omega) (fun c hc => by have := hb c hc; omega) h7
  have hb2 := (RTiles.bounds _ _ _ e2).2
  obtain ⟨l0, lt, hl⟩ : ∃ l0 lt, paraLines kids = l0 :: lt := by
    cases hp : paraLines kids with
    | nil => simp [hp] at h5
    | cons a t => exact ⟨a, t, rfl⟩
  have hl0 : l0.1 = 0 := by simpa [hl] using h5
  have hctl : ∀ c ∈ out, (∃ d, c.val = .ctrl d) → unlabel c ∈ paraRanges kids := by
    intro c hc hd
    obtain ⟨c', m1, -, -, -, -, m2⟩ := e3.mem (unlabel c) (List.mem_map.2 ⟨c, hc, rfl⟩)
    rw [m2 hd]; exact m1
  have hu : CtrlsUncut (l0 :: lt) out := by
    intro c hc hd p hp
    rw [← hl] at hp
    have := h8 _ (hctl c hc hd) hd p hp
    exact this
  obtain ⟨lines, f1, f2, f3, f4, f5⟩ := Props.C18_line_segmented out l0 lt 0 hi e2 (hl ▸ h6)
    (by rw [hl0]; exact Nat.zero_le _) (by omega) (fun c hc => by have := hb2 c hc; omega) hu
  have hk : ∀ l ∈ lines, ∀ c ∈ l.2, ∀ d, c.val = .ctrl d → kindOf d.code ≠ none := by
    intro l hl' c hc d hd
    have hmem : c ∈ (lines.map (·.2)).flatten := List.mem_flatten.2 ⟨_, List.mem_map.2 ⟨l, hl', rfl⟩, hc⟩
    obtain ⟨c', m1, -, -, -, -, m2⟩ := f2.mem c hmem
    have := m2 ⟨d, hd⟩
    subst this
    have := hctl c m1 ⟨d, hd⟩
    obtain ⟨x, hx, hxe⟩ := List.mem_map.1 this
    refine h9 x hx d ?_
    have := congrArg RChunk.val hxe
    dsimp only [unlabel] at this
    rw [this, hd]
  refine ⟨lineForest (lines.map fun l => (l.1, l.2.map pieceOf)), ?_, ?_⟩
  · unfold mergeParagraph
    have q1 : (partsAfter {} kids).charshapes = some ((0, s0) :: shapes) := by
      rw [p2]; simp only [Option.or_none]; exact h1
    have q2 : ((partsAfter {} kids).text.getD [⟨0, 0, .text []⟩]).map (fun c => (⟨c.start, c.stop, (), c.val⟩ : RChunk Unit)) = paraRanges kids := by
      rw [p1]; simp only [Option.or_none]; rfl
    have q3 : paraLineSegs (partsAfter {} kids).linesegs = l0 :: lt := by
      rw [p3, ← hl]; simp only [Option.or_none]; unfold paraLines
      cases (List.filterMap _ kids).getLast? <;> rfl
    simp only [q1, q2, q3]
    rw [e1]
    have : (⟨out, none⟩ : Gen _) = .ofList out := rfl
    rw [this, f1]
    simp only
    have q4 : ∀ l ∈ lines, wrapModelevents (Item.lineSeg l.1) (Gen.chain (l.2.map textChunkEvents)) =
        .ofList (.start (.lineSeg l.1) :: (eventsOf (leaves (l.2.map pieceOf)) ++ [.stop (.lineSeg l.1)])) := by
      intro l hl'
      have : l.2.map textChunkEvents = (l.2.map fun c => [Ev.start (pieceOf c), Ev.stop (pieceOf c)]).map Gen.ofList := by
        rw [List.map_map]
        apply List.map_congr_left
        intro c hc
        exact (textChunkEvents_ok c (hk l hl' c hc)).1
      rw [this, Gen.chain_ofList, eventsOf_leaves]
      simp [wrapModelevents, Gen.ofList, Gen.cons, Gen.andThen, Gen.prepend, List.flatMap]
      rfl
    rw [List.map_congr_left q4]
    have q5 : lines.map (fun l => Gen.ofList (.start (.lineSeg l.1) :: (eventsOf (leaves (l.2.map pieceOf)) ++ [Ev.stop (Item.lineSeg l.1)]))) =
        (lines.map fun l => (.start (.lineSeg l.1) :: (eventsOf (leaves (l.2.map pieceOf)) ++ [Ev.stop (Item.lineSeg l.1)]))).map Gen.ofList := by
      rw [List.map_map]; rfl
    rw [q5, Gen.chain_ofList, eventsOf_lineForest, List.flatMap_map]
    simp [Gen.ofList, Gen.andThen, Gen.prepend, List.flatMap]
  · refine ⟨(0, s0) :: shapes, lines.map fun l => (l.1, l.2.map fun c => ⟨c.start, c.stop, c.attr.1, c.val⟩), _, h1, ?_, ?_, ?_, ?_, ?_, rfl⟩
    · have t1 := (f2.map (fun a : Nat × Unit => a.2)).trans e3
      have : ((lines.map fun l => (l.1, l.2.map fun c => (⟨c.start, c.stop, c.attr.1, c.val⟩ : RChunk Nat))).flatMap (·.2)).map
          (fun c => (⟨c.start, c.stop, (), c.val⟩ : RChunk Unit)) =
          ((lines.map (·.2)).flatten).map (fun c => (⟨c.start, c.stop, c.attr.2, c.val⟩ : RChunk Unit)) := by
        simp [List.flatMap, List.map_flatten, Function.comp_def]
      rw [this]; exact t1
    · intro l hl'
      obtain ⟨l', hl2, rfl⟩ := List.mem_map.1 hl'
      refine ⟨by simpa using f3 l' hl2, ?_⟩
      intro c hc
      obtain ⟨c', hc', rfl⟩ := List.mem_map.1 hc
      rw [hl]
      refine ⟨f5 l' hl2 c' hc', ?_⟩
      have hmem : c' ∈ (lines.map (·.2)).flatten := List.mem_flatten.2 ⟨_, List.mem_map.2 ⟨l', hl2, rfl⟩, hc'⟩
      obtain ⟨x, m1, m2, m3, -, m5, -⟩ := f2.mem c' hmem
      have := e6 x m1 c'.start (by omega)
      rw [this, m2]
    · rw [List.map_map]; exact adjacent_differing lines f4
    · rw [List.map_map, List.map_map]; rfl
    · rw [List.map_map, List.map_map]
      apply List.map_congr_left
      intro l hl'
      simp only [Function.comp_apply, List.map_map]
      apply List.map_congr_left
      intro c hc
      exact (textChunkEvents_ok c (hk l hl' c hc)).2.symm

/-! ### The pass -/

theorem Gen.ofList_andThen {α} (a : List α) (g : Gen α) : (Gen.ofList a).andThen g = .prepend a g := rfl

theorem makeTextsGo_other_start (err : Option PyErr) (stack : List ParaParts) (a : Item) (es : List IEv)
    (h1 : isTextRecord a = false) (h2 : a.isParagraph = false) :
    makeTextsGo err stack (.start a :: es) = .cons (.start a) (makeTextsGo err stack es) := by
  cases a <;> first | rfl | (simp [isTextRecord] at h1; done) | (simp [Item.isParagraph] at h2; done)

theorem makeTextsGo_other_stop (err : Option PyErr) (stack : List ParaParts) (a : Item) (es : List IEv)
    (h1 : isTextRecord a = false) (h2 : a.isParagraph = false) :
    makeTextsGo err stack (.stop a :: es) = .cons (.stop a) (makeTextsGo err stack es) := by
  cases a <;> first | rfl | (simp [isTextRecord] at h1; done) | (simp [Item.isParagraph] at h2; done)

/-- The stack behind the given children of the innermost paragraph. -/
def stackAfter : List ParaParts → List Item → List ParaParts
  | [], _ => []
  | p :: st, rs => partsAfter p rs :: st

theorem stackAfter_plain (rs : List Item) (h : ∀ b ∈ rs, isTextRecord b = false) (st : List ParaParts) :
    stackAfter st rs = st := by
  cases st with
  | nil => rfl
  | cons p st => simp [stackAfter, partsAfter_plain rs h]

theorem makeTexts_forest (err : Option PyErr) (f : Forest Item) : Everywhere TextNodeOk f →
    ∃ f', Texted f f' ∧ ∀ (stack : List ParaParts) (rest : List IEv),
      (stack ≠ [] ∨ ∀ b ∈ f.roots, isTextRecord b = false) →
      makeTextsGo err stack (eventsOf f ++ rest) =
        .prepend (eventsOf f') (makeTextsGo err (stackAfter stack f.roots) rest) := by
  induction f with
  | nil =>
    intro _
    refine ⟨.nil, .nil, ?_⟩
    intro stack rest _
    cases stack <;> simp [eventsOf, Forest.roots, stackAfter, partsAfter, Gen.prepend_nil]
  | node a cs sibs ih1 ih2 =>
    intro h
    obtain ⟨h1, h2, h3⟩ := h
    obtain ⟨cs', c1, c2⟩ := ih1 h2
    obtain ⟨sibs', s1, s2⟩ := ih2 h3
    unfold TextNodeOk at h1
    by_cases hp : a.isParagraph
    · rw [if_pos hp] at h1
      obtain ⟨L, hL, hL'⟩ := mergeParagraph_ok cs.roots h1
      refine ⟨.node a (cs'.append L) sibs', .paragraph hp c1 hL' s1, ?_⟩
      intro stack rest hs
      have hs' : stack ≠ [] ∨ ∀ b ∈ sibs.roots, isTextRecord b = false := by
        rcases hs with hs | hs
        · exact .inl hs
        · exact .inr fun b hb => hs b (by simp [Forest.roots, hb])
      cases a <;> simp [Item.isParagraph] at hp
      case paragraph n t =>
      simp only [eventsOf, List.cons_append, List.append_assoc, makeTextsGo]
      rw [c2 _ _ (.inl (by simp))]
      have hst : stackAfter ({} :: stack) cs.roots = partsAfter {} cs.roots :: stack := rfl
      rw [hst]
      simp only [makeTextsGo]
      rw [hL, Gen.ofList_andThen, s2 _ _ hs']
      have : stackAfter stack ((Item.paragraph n t) :: sibs.roots) = stackAfter stack sibs.roots := by
        cases stack <;> rfl
      simp only [Forest.roots, this, Gen.cons_eq_prepend, Gen.prepend_prepend, eventsOf_append]
      simp
    · rw [if_neg hp] at h1
      have hp' : a.isParagraph = false := by simpa using hp
      by_cases ht : isTextRecord a
      · have hcs : cs = .nil := by
          have := h1.1 ht
          cases cs with
          | nil => rfl
          | node _ _ _ => simp [Forest.roots] at this
        subst hcs
        refine ⟨sibs', .record ht s1, ?_⟩
        intro stack rest hs
        have hst : stack ≠ [] := by
          rcases hs with hs | hs
          · exact hs
          · have := hs a (by simp [Forest.roots]); simp [ht] at this
        obtain ⟨p, st, rfl⟩ : ∃ p st, stack = p :: st := by
          cases stack with
          | nil => exact absurd rfl hst
          | cons p st => exact ⟨p, st, rfl⟩
        cases a <;> simp [isTextRecord] at ht
        all_goals
          simp only [eventsOf, List.nil_append, List.cons_append, makeTextsGo]
          rw [s2 _ _ (.inl (by simp))]
          rfl
      · have ht' : isTextRecord a = false := by simpa using ht
        refine ⟨.node a cs' sibs', .other ht' hp' c1 s1, ?_⟩
        intro stack rest hs
        have hs' : stack ≠ [] ∨ ∀ b ∈ sibs.roots, isTextRecord b = false := by
          rcases hs with hs | hs
          · exact .inl hs
          · exact .inr fun b hb => hs b (by simp [Forest.roots, hb])
        simp only [eventsOf, List.cons_append, List.append_assoc]
        rw [makeTextsGo_other_start _ _ _ _ ht' hp', c2 _ _ (.inr h1.2), stackAfter_plain _ h1.2,
          makeTextsGo_other_stop _ _ _ _ ht' hp', s2 _ _ hs']
        have : stackAfter stack (a :: sibs.roots) = stackAfter stack sibs.roots := by
          cases stack with
          | nil => rfl
          | cons p st => cases a <;> first | rfl | (simp [isTextRecord] at ht'; done)
        simp only [Forest.roots, this, Gen.cons_eq_prepend, Gen.prepend_prepend]
        simp

end Hwp
