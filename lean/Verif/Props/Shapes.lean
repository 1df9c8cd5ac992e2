/-
Properties C16–C18: shaping and line segmentation of paragraph text.
-/
import Verif.Proofs.Shapes
import Verif.Props.ParaText
namespace Hwp.Props
open Hwp Hwp.Spec

variable {α σ : Type}

/-! ### C16 -/

/-- C16: the pieces tile the input ranges, arise from the chunks by cutting text
only (so text and controls are preserved in order), and every position of a piece
lies in the range of the shape it is labelled with.  Controls must not contain a
shape boundary, positions are below the end mark `0x7fffffff` of the code. -/
theorem C16_split (chunks : List (RChunk α)) (first : Nat × σ) (shapes : List (Nat × σ))
    (lo hi : Nat) (htile : RTiles lo hi chunks) (hasc : Ascending (first :: shapes))
    (hfirst : first.1 ≤ lo) (hlim : hi ≤ 0x7fffffff) (hlim' : ∀ c ∈ chunks, c.start < 0x7fffffff)
    (hctrl : CtrlsUncut (first :: shapes) chunks) :
    ∃ out, splitAndShape (.ofList chunks) (makeRangedShapes (first :: shapes)) = ⟨out, none⟩ ∧
      RTiles lo hi out ∧ Cut (out.map unlabel) chunks ∧
      textOf out = textOf chunks ∧ ctrlsOf out = ctrlsOf chunks ∧
      ∀ p ∈ out, ∀ x, (x = p.start ∨ (p.start ≤ x ∧ x < p.stop)) →
        shapeAt (first :: shapes) x = some p.attr.1 := by
  have conv : ∀ out : List (RChunk (σ × α)), ∀ lo hi, RTiles lo hi (out.map unlabel) → RTiles lo hi out := by
    intro out
    induction out with
    | nil => intro lo hi h; exact h
    | cons p out ih => intro lo hi h; exact ⟨h.1, h.2.1, ih _ _ h.2.2⟩
  have convt : ∀ out : List (RChunk (σ × α)), textOf (out.map unlabel) = textOf out := by
    intro out; simp [textOf, unlabel, Function.comp_def]
  have convc : ∀ out : List (RChunk (σ × α)), ctrlsOf (out.map unlabel) = ctrlsOf out := by
    intro out; simp [ctrlsOf, unlabel, Function.comp_def]
  cases chunks with
  | nil =>
    refine ⟨[], rfl, htile, Cut.nil, rfl, rfl, by simp⟩
  | cons c rest =>
    have hc : c.start = lo := htile.1
    subst hc
    obtain ⟨out, e1, e2, e3⟩ := shapesLoop_spec 0x7fffffff rfl hi hlim shapes [] first c rest hasc hfirst
      htile hlim' hctrl
    refine ⟨out, e1, conv _ _ _ (e2.tiles _ _ htile), e2, ?_, ?_, e3⟩
    · rw [← convt, e2.text.1]
    · rw [← convc, e2.text.2]

/-- A text run and a control under three shapes: the text is cut twice. -/
example : let chunks : List (RChunk Unit) := [⟨0, 5, (), .text [1, 2, 3, 4, 5]⟩, ⟨5, 13, (), .ctrl (.other 11 [] [])⟩]
    RTiles 0 13 chunks ∧ Ascending [(0, 'a'), (2, 'b'), (4, 'c')] ∧
    splitAndShape (.ofList chunks) (makeRangedShapes [(0, 'a'), (2, 'b'), (4, 'c')]) =
      ⟨[⟨0, 2, ('a', ()), .text [1, 2]⟩, ⟨2, 4, ('b', ()), .text [3, 4]⟩, ⟨4, 5, ('c', ()), .text [5]⟩,
        ⟨5, 13, ('c', ()), .ctrl (.other 11 [] [])⟩], none⟩ := by
  decide +kernel

/-- Outside these hypotheses: a first shape that begins behind the first chunk
fails an assertion before anything is yielded. -/
theorem C16_late_first_shape (c : RChunk α) (rest : List (RChunk α)) (first : Nat × σ)
    (shapes : List (Nat × σ)) (h : c.start < first.1) :
    splitAndShape (.ofList (c :: rest)) (makeRangedShapes (first :: shapes)) =
      ⟨[], some .assertionError⟩ := by
  have h1 : ∀ se : Nat, shapeLoop first.1 se first.2 none c rest = ([], .raised .assertionError) := by
    intro se; rw [shapeLoop]; simp [h]
  cases shapes with
  | nil => simp [splitAndShape, Gen.ofList, makeRangedShapes, makeRangedShapesGo, shapesLoop, h1]
  | cons s t => simp [splitAndShape, Gen.ofList, makeRangedShapes, makeRangedShapesGo, shapesLoop, h1]

example : splitAndShape (.ofList [(⟨0, 1, (), .text [65]⟩ : RChunk Unit)]) (makeRangedShapes [(1, 'a')]) =
    ⟨[], some .assertionError⟩ := C16_late_first_shape _ _ _ _ (by decide)

/-- Without shapes any text raises `UnboundLocalError`. -/
theorem C16_no_shapes (c : RChunk α) (rest : List (RChunk α)) :
    splitAndShape (.ofList (c :: rest)) (makeRangedShapes ([] : List (Nat × σ))) =
      ⟨[], some .unboundLocalError⟩ := rfl

example : (splitAndShape (.ofList [(⟨0, 1, (), .text [65]⟩ : RChunk Unit)])
    (makeRangedShapes ([] : List (Nat × Char)))).err ≠ none := by decide

/-- A shape boundary strictly inside a control raises `TypeError`. -/
theorem C16_boundary_inside_control (c : RChunk α) (d : CtrlChar) (hd : c.val = .ctrl d)
    (rest : List (RChunk α)) (s1 s2 : Nat × σ) (shapes : List (Nat × σ))
    (h1 : s1.1 ≤ c.start) (h2 : c.start < s2.1) (h3 : s2.1 < c.stop) :
    splitAndShape (.ofList (c :: rest)) (makeRangedShapes (s1 :: s2 :: shapes)) =
      ⟨[], some .typeError⟩ := by
  have : shapeLoop s1.1 s2.1 s1.2 none c rest = ([], .raised .typeError) := by
    rw [shapeLoop]
    simp [Nat.not_lt.2 h1, Nat.not_le.2 h2, h3, hd, ChunkVal.cut]
  simp [splitAndShape, Gen.ofList, makeRangedShapes, makeRangedShapesGo, shapesLoop, this]

example : splitAndShape (.ofList [(⟨0, 8, (), .ctrl (.other 11 [] [])⟩ : RChunk Unit)])
    (makeRangedShapes [(0, 'a'), (4, 'b')]) = ⟨[], some .typeError⟩ :=
  C16_boundary_inside_control _ _ rfl _ _ _ _ (by decide) (by decide) (by decide)

/-! ### C17 -/

/-- Text chunks as the paragraph text splitter makes them: the range has one
position per UTF-16 code unit. -/
def UnitWidths (chunks : List (RChunk α)) : Prop :=
  ∀ c ∈ chunks, ∀ s, c.val = .text s → c.stop - c.start = (strUnits s).length

/-- The full statement of C17 for one paragraph: the characters come out in
order, each with the shape in force at its position. -/
def ShapedRight [DecidableEq σ] (chunks : List (RChunk α)) (shapes : List (Nat × σ)) : Prop :=
  ∃ out, splitAndShape (.ofList chunks) (makeRangedShapes shapes) = ⟨out, none⟩ ∧
    (shapedChars out).map (fun p => (p.1, some p.2)) =
      (positionedChars chunks).map fun p => (p.2, shapeAt shapes p.1)

/-- C17 fails in the code: positions count UTF-16 code units, but the text is cut
by characters.  In `'😀A'` with a second shape from position 2 on, the `A`
(position 2) gets the first shape. -/
theorem C17_fails_outside_bmp :
    ¬ ∀ (chunks : List (RChunk Unit)) (shapes : List (Nat × Char)), UnitWidths chunks →
      RTiles 0 3 chunks → Ascending shapes → ShapedRight chunks shapes := by
  intro h
  obtain ⟨out, e1, e2⟩ := h [⟨0, 3, (), .text [0x1F600, 0x41]⟩] [(0, 'a'), (2, 'b')]
    (by intro c hc s hs; simp at hc; subst hc; injection hs with hs; subst hs; decide)
    (by decide) (by decide)
  have e : splitAndShape (.ofList [(⟨0, 3, (), .text [0x1F600, 0x41]⟩ : RChunk Unit)])
      (makeRangedShapes [(0, 'a'), (2, 'b')]) =
      ⟨[⟨0, 2, ('a', ()), .text [0x1F600, 0x41]⟩, ⟨2, 3, ('b', ()), .text []⟩], none⟩ := by
    decide +kernel
  rw [e] at e1
  injection e1 with e1 _
  subst e1
  revert e2
  decide +kernel

/-- C17 for paragraphs without characters outside the BMP.  Missing from the full
statement: text with such characters. -/
theorem C17_shaped_partial [DecidableEq σ] (chunks : List (RChunk α)) (first : Nat × σ)
    (shapes : List (Nat × σ)) (lo hi : Nat) (htile : RTiles lo hi chunks)
    (hasc : Ascending (first :: shapes)) (hfirst : first.1 ≤ lo) (hlim : hi ≤ 0x7fffffff)
    (hlim' : ∀ c ∈ chunks, c.start < 0x7fffffff) (hctrl : CtrlsUncut (first :: shapes) chunks)
    (hw : UnitWidths chunks) (hbmp : ∀ c ∈ chunks, ∀ s, c.val = .text s → ∀ x ∈ s, x < 0x10000) :
    ShapedRight chunks (first :: shapes) := by
  obtain ⟨out, e1, -, e3, -, -, e6⟩ := C16_split chunks first shapes lo hi htile hasc hfirst hlim hlim' hctrl
  refine ⟨out, e1, ?_⟩
  have hb : ∀ c ∈ chunks, ∀ s, c.val = .text s → (∀ x ∈ s, x < 0x10000) ∧ s.length = c.stop - c.start := by
    intro c hc s hs
    refine ⟨hbmp c hc s hs, ?_⟩
    rw [hw c hc s hs, strUnits_bmp _ (hbmp c hc s hs)]
  rw [← e3.positions hb]
  have hlen := e3.widths (fun c hc s hs => (hb c hc s hs).2)
  have hbm : ∀ c ∈ out, ∀ s, c.val = .text s → ∀ x ∈ s, x < 0x10000 := by
    have : ∀ ps cs : List (RChunk α), Cut ps cs →
        (∀ c ∈ cs, ∀ s, c.val = .text s → ∀ x ∈ s, x < 0x10000) →
        ∀ c ∈ ps, ∀ s, c.val = .text s → ∀ x ∈ s, x < 0x10000 := by
      intro ps cs hcut
      induction hcut with
      | nil => intro h; exact h
      | keep _ ih =>
        intro h c hc
        rcases List.mem_cons.1 hc with rfl | hc
        · exact h _ (by simp)
        · exact ih (fun c hc => h c (by simp [hc])) c hc
      | @cut a b m attr s ps cs h1 h2 _ ih =>
        intro h c hc
        have hs := h ⟨a, b, attr, .text s⟩ (by simp) s rfl
        rcases List.mem_cons.1 hc with rfl | hc
        · intro s' hs'; injection hs' with hs'; subst hs'
          intro x hx; exact hs x (List.mem_of_mem_take hx)
        · refine ih ?_ c hc
          intro c hc
          rcases List.mem_cons.1 hc with rfl | hc
          · intro s' hs'; injection hs' with hs'; subst hs'
            intro x hx; exact hs x (List.mem_of_mem_drop hx)
          · exact h c (by simp [hc])
    intro c hc s hs
    exact this _ _ e3 hbmp (unlabel c) (List.mem_map_of_mem hc) s hs
  clear e1 e3
  induction out with
  | nil => rfl
  | cons p out ih =>
    have ih := ih (fun q hq => e6 q (by simp [hq]))
      (fun c hc => hlen c (by simp at hc ⊢; exact .inr hc)) (fun c hc => hbm c (by simp [hc]))
    simp only [shapedChars, positionedChars, List.map_cons, List.flatten_cons, List.map_append] at ih ⊢
    rw [ih]
    congr 1
    have hp := e6 p (by simp)
    cases hv : p.val with
    | ctrl d => simp [unlabel, hv]
    | text s =>
      have hl : s.length = p.stop - p.start := hlen (unlabel p) (by simp) s hv
      simp only [unlabel, hv]
      rw [charPositions_bmp s (hbm p (by simp) s hv)]
      simp only [List.map_map]
      apply List.ext_getElem
      · simp
      · intro i h1 h2
        simp only [List.getElem_map, List.getElem_mapIdx, Function.comp]
        simp only [List.length_map] at h1
        rw [hp (p.start + i) (.inr ⟨by omega, by omega⟩)]

example : let chunks : List (RChunk Unit) := [⟨0, 2, (), .text [65, 66]⟩, ⟨2, 3, (), .ctrl (.plain 13)⟩]
    RTiles 0 3 chunks ∧ ∃ out, splitAndShape (.ofList chunks) (makeRangedShapes [(0, 'a'), (1, 'b')]) = ⟨out, none⟩ ∧
      shapedChars out = [(65, 'a'), (66, 'b')] :=
  ⟨by decide, [⟨0, 1, ('a', ()), .text [65]⟩, ⟨1, 2, ('b', ()), .text [66]⟩, ⟨2, 3, ('b', ()), .ctrl (.plain 13)⟩],
    by decide +kernel, by decide⟩

/-- The chunk list `merge_paragraph_text_charshape_lineseg` passes on
(xmlmodel.py:204-205). -/
def toRChunks (cs : List Chunk) : List (RChunk Unit) := cs.map fun c => ⟨c.start, c.stop, (), c.val⟩

/-- C17 from the payload on: if a paragraph's text payload splits into complete
chunks of BMP text and controls, every character gets the shape in force at its
position.  Missing from the full statement: text outside the BMP. -/
theorem C17_payload_partial [DecidableEq σ] (data : Bytes) (heven : data.length % 2 = 0)
    (hsize : data.length < 2 * 0x7fffffff)
    (cs : List Chunk) (h : parseChunks data = ⟨cs, none⟩)
    (hcomplete : ∀ c ∈ cs, 2 * c.stop ≤ data.length)
    (hbmp : ∀ c ∈ cs, ∀ s, c.val = .text s → ∀ x ∈ s, x < 0x10000)
    (sh0 : σ) (shapes : List (Nat × σ)) (hasc : Ascending ((0, sh0) :: shapes))
    (hctrl : CtrlsUncut ((0, sh0) :: shapes) (toRChunks cs)) :
    ShapedRight (toRChunks cs) ((0, sh0) :: shapes) := by
  have htile := C12_tiling_partial data heven cs h hcomplete
  have hmem : ∀ c ∈ toRChunks cs, ∃ c' ∈ cs, c = ⟨c'.start, c'.stop, (), c'.val⟩ := by
    intro c hc
    obtain ⟨c', h1, rfl⟩ := List.mem_map.1 hc
    exact ⟨c', h1, rfl⟩
  have conv : ∀ (cs : List Chunk) lo hi, Tiles lo hi cs → RTiles lo hi (toRChunks cs) ∧
      ∀ c ∈ cs, c.start < c.stop := by
    intro cs
    induction cs with
    | nil => intro lo hi h; exact ⟨h, by simp⟩
    | cons c cs ih =>
      intro lo hi h
      obtain ⟨h1, h2, h3⟩ := h
      obtain ⟨i1, i2⟩ := ih _ _ h3
      refine ⟨⟨h1, Nat.le_of_lt h2, i1⟩, ?_⟩
      intro c' hc'
      rcases List.mem_cons.1 hc' with rfl | hc'
      · omega
      · exact i2 c' hc'
  obtain ⟨t1, t2⟩ := conv cs _ _ htile
  refine C17_shaped_partial (toRChunks cs) (0, sh0) shapes 0 (data.length / 2) t1 hasc (Nat.zero_le _)
    (by omega) ?_ hctrl ?_ ?_
  · intro c hc
    obtain ⟨c', h1, rfl⟩ := hmem c hc
    have := hcomplete c' h1
    have := t2 c' h1
    dsimp only; omega
  · intro c hc s hs
    obtain ⟨c', h1, rfl⟩ := hmem c hc
    have := C12_chunk_contents data heven cs h c' h1
    dsimp only at hs
    rw [hs] at this
    have hl := congrArg List.length this.1
    rw [encodeUtf16le_length] at hl
    have hcm := hcomplete c' h1
    simp only [slice, List.length_take, List.length_drop] at hl
    dsimp only; omega
  · intro c hc s hs
    obtain ⟨c', h1, rfl⟩ := hmem c hc
    exact hbmp c' h1 s hs

example : ∃ cs, parseChunks [65, 0, 66, 0, 13, 0] = ⟨cs, none⟩ ∧
    ShapedRight (toRChunks cs) [(0, 'a'), (1, 'b')] := by
  have h : parseChunks [65, 0, 66, 0, 13, 0] = ⟨[⟨0, 2, .text [65, 66]⟩, ⟨2, 3, .ctrl (.plain 13)⟩], none⟩ := by
    decide +kernel
  refine ⟨_, h, C17_payload_partial _ (by decide) (by decide) _ h (by decide) ?_ _ _ (by decide) ?_⟩
  · intro c hc s hs
    simp at hc
    rcases hc with rfl | rfl
    · injection hs with hs; subst hs; decide
    · cases hs
  · intro c hc hd p hp
    simp [toRChunks] at hc hp
    rcases hc with rfl | rfl
    · obtain ⟨d, hd⟩ := hd; cases hd
    · rcases hp with rfl | rfl <;> decide

/-! ### C18 -/

/-- Adjacent groups have different line segments. -/
def AdjacentDiffer : List (σ × List (RChunk α)) → Prop
  | a :: b :: t => a.1 ≠ b.1 ∧ AdjacentDiffer (b :: t)
  | _ => True

/-- The shaped chunks a list of lines stands for. -/
def unline (lines : List (σ × List (RChunk α))) : List (RChunk (σ × α)) :=
  (lines.map fun l => l.2.map fun c => (⟨c.start, c.stop, (l.1, c.attr), c.val⟩ : RChunk (σ × α))).flatten

theorem groupLines_go [DecidableEq σ] (rest : List (RChunk (σ × α))) : ∀ (prev : σ) (line : List (RChunk α)),
    line ≠ [] →
    ∃ lines, lineSegmentedGo none prev line rest = ⟨lines, none⟩ ∧
      unline lines = unline [(prev, line)] ++ rest ∧ (∀ l ∈ lines, l.2 ≠ []) ∧ AdjacentDiffer lines ∧
      ∃ l0 t, lines = (prev, l0) :: t := by
  induction rest with
  | nil =>
    intro prev line hl
    exact ⟨[(prev, line)], rfl, by simp, by simpa using hl, trivial, _, _, rfl⟩
  | cons c rest ih =>
    intro prev line hl
    rw [lineSegmentedGo]
    by_cases hc : c.attr.1 ≠ prev
    · simp only [hc, if_true, not_false_eq_true, ne_eq]
      obtain ⟨lines, e1, e2, e3, e4, l0, t, e5⟩ := ih c.attr.1 [⟨c.start, c.stop, c.attr.2, c.val⟩] (by simp)
      rw [e1]
      refine ⟨(prev, line) :: lines, rfl, ?_, ?_, ?_, _, _, rfl⟩
      · simp only [unline, List.map_cons, List.flatten_cons, List.map_nil, List.flatten_nil] at e2 ⊢
        rw [e2]; simp
      · intro l hl'
        rcases List.mem_cons.1 hl' with rfl | hl'
        · exact hl
        · exact e3 l hl'
      · subst e5; exact ⟨fun h => hc h.symm, e4⟩
    · have hc' : c.attr.1 = prev := by simpa using hc
      simp only [hc', ne_eq, not_true_eq_false, if_false]
      obtain ⟨lines, e1, e2, e3, e4, e5⟩ := ih prev (line ++ [⟨c.start, c.stop, c.attr.2, c.val⟩]) (by simp)
      refine ⟨lines, e1, ?_, e3, e4, e5⟩
      rw [e2]
      obtain ⟨a, b, ⟨l, x⟩, v⟩ := c
      simp only at hc'
      subst hc'
      simp [unline]

/-- C18: the lines are nonempty, adjacent lines belong to different line
segments, and written out again they are exactly the shaped chunks: nothing is
lost, duplicated or reordered, and every chunk is in the line of its segment. -/
theorem C18_lines [DecidableEq σ] (shaped : List (RChunk (σ × α))) :
    ∃ lines, groupLines (.ofList shaped) = ⟨lines, none⟩ ∧ unline lines = shaped ∧
      (∀ l ∈ lines, l.2 ≠ []) ∧ AdjacentDiffer lines := by
  cases shaped with
  | nil => exact ⟨[], rfl, rfl, by simp, trivial⟩
  | cons c rest =>
    obtain ⟨lines, e1, e2, e3, e4, _⟩ := groupLines_go rest c.attr.1 [⟨c.start, c.stop, c.attr.2, c.val⟩] (by simp)
    exact ⟨lines, e1, by rw [e2]; simp [unline], e3, e4⟩

example : let c : Nat → Nat → Char → RChunk (Char × Unit) := fun a b l => ⟨a, b, (l, ()), .text (List.replicate (b - a) 65)⟩
    (groupLines (.ofList [c 0 2 'x', c 2 3 'x', c 3 4 'y'])).out.map (fun l => (l.1, l.2.length)) =
      [('x', 2), ('y', 1)] := by decide +kernel

/-- C18 for the whole step: cutting at line borders and grouping.  All text and
controls survive and every chunk is in the line its position belongs to. -/
theorem C18_line_segmented [DecidableEq σ] (chunks : List (RChunk α)) (first : Nat × σ)
    (segs : List (Nat × σ)) (lo hi : Nat) (htile : RTiles lo hi chunks)
    (hasc : Ascending (first :: segs)) (hfirst : first.1 ≤ lo) (hlim : hi ≤ 0x7fffffff)
    (hlim' : ∀ c ∈ chunks, c.start < 0x7fffffff) (hctrl : CtrlsUncut (first :: segs) chunks) :
    ∃ lines, lineSegmented (.ofList chunks) (makeRangedShapes (first :: segs)) = ⟨lines, none⟩ ∧
      Cut (lines.map (·.2)).flatten chunks ∧ (∀ l ∈ lines, l.2 ≠ []) ∧ AdjacentDiffer lines ∧
      ∀ l ∈ lines, ∀ c ∈ l.2, shapeAt (first :: segs) c.start = some l.1 := by
  obtain ⟨out, e1, -, e3, -, -, e6⟩ := C16_split chunks first segs lo hi htile hasc hfirst hlim hlim' hctrl
  obtain ⟨lines, f1, f2, f3, f4⟩ := C18_lines out
  refine ⟨lines, ?_, ?_, f3, f4, ?_⟩
  · unfold lineSegmented; rw [e1]; exact f1
  · rw [← f2] at e3
    have : (unline lines).map unlabel = (lines.map (·.2)).flatten := by
      unfold unline
      rw [List.map_flatten, List.map_map]
      congr 1
      apply List.map_congr_left
      intro l _
      simp [unlabel, Function.comp_def]
    rwa [this] at e3
  · intro l hl c hc
    have : (⟨c.start, c.stop, (l.1, c.attr), c.val⟩ : RChunk (σ × α)) ∈ out := by
      rw [← f2]
      refine List.mem_flatten.2 ⟨_, List.mem_map.2 ⟨l, hl, rfl⟩, ?_⟩
      exact List.mem_map.2 ⟨c, hc, rfl⟩
    exact e6 _ this c.start (.inl rfl)

example : let chunks : List (RChunk Unit) := [⟨0, 4, (), .text [1, 2, 3, 4]⟩, ⟨4, 5, (), .ctrl (.plain 13)⟩]
    RTiles 0 5 chunks ∧ (lineSegmented (.ofList chunks) (makeRangedShapes [(0, 'x'), (3, 'y')])) =
      ⟨[('x', [⟨0, 3, (), .text [1, 2, 3]⟩]), ('y', [⟨3, 4, (), .text [4]⟩, ⟨4, 5, (), .ctrl (.plain 13)⟩])], none⟩ := by
  decide +kernel

end Hwp.Props
