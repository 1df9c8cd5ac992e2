/-
Properties C12–C15: splitting paragraph text into text and controls.
-/
import Verif.Proofs.ParaTextRoundTrip
namespace Hwp.Props
open Hwp Hwp.Spec

/-! ### C12 -/

/-- The full statement of C12 for one payload. -/
def TilesPayload (data : Bytes) : Prop :=
  ∀ cs, parseChunks data = ⟨cs, none⟩ → Tiles 0 (data.length / 2) cs

/-- C12 fails in the code: an eight-unit control of which only six bytes are
left is accepted, and the range of its chunk ends behind the payload. -/
theorem C12_tiling_fails_on_truncated_control :
    ¬ ∀ data : Bytes, data.length % 2 = 0 → TilesPayload data := by
  intro h
  have := h [0x0b, 0, 1, 2, 3, 4] (by decide)
    [⟨0, 8, .ctrl (.other 0x0b [4, 3, 2, 1] [])⟩] (by decide +kernel)
  revert this
  decide

/-- C12, for payloads whose last control is complete.  Missing from the full
statement: payloads that end inside a control. -/
theorem C12_tiling_partial (data : Bytes) (heven : data.length % 2 = 0) (cs : List Chunk)
    (h : parseChunks data = ⟨cs, none⟩) (hc : ∀ c ∈ cs, 2 * c.stop ≤ data.length) :
    Tiles 0 (data.length / 2) cs := by
  obtain ⟨hi, h1, _, _, _, _, h6, _⟩ :=
    parseChunksFrom_sound (data.length / 2) (by omega) 0 (cs := cs) h
  have := h6 (Nat.zero_le _) (fun c hc' => by have := hc c hc'; omega)
  rw [← this]; exact h1

example : ∃ cs, parseChunks ([0x41, 0] ++ [0x0b, 0] ++ List.replicate 14 1 ++ [0x0d, 0]) = ⟨cs, none⟩ ∧
    cs.length = 3 ∧ ∀ c ∈ cs, 2 * c.stop ≤ 20 :=
  ⟨[⟨0, 1, .text [0x41]⟩, ⟨1, 9, .ctrl (.other 0x0b [1, 1, 1, 1] (List.replicate 8 1))⟩,
    ⟨9, 10, .ctrl (.plain 0x0d)⟩], by decide +kernel, by decide, by decide⟩

/-- What holds of every payload of complete code units: the ranges are
consecutive from 0 on, they cover the payload, and only the last chunk may reach
behind its end. -/
theorem C12_tiling_outcome (data : Bytes) (heven : data.length % 2 = 0) (cs : List Chunk)
    (h : parseChunks data = ⟨cs, none⟩) :
    ∃ hi, Tiles 0 hi cs ∧ data.length / 2 ≤ hi ∧
      ∀ c ∈ cs, data.length < 2 * c.stop → cs.getLast? = some c ∧ Chunk.isCtrl c = true := by
  obtain ⟨hi, h1, _, h3, h4, h5, _, _⟩ :=
    parseChunksFrom_sound (data.length / 2) (by omega) 0 (cs := cs) h
  refine ⟨hi, h1, h3 (Nat.zero_le _), fun c hc hlt => ⟨h5 c hc (by omega), ?_⟩⟩
  have := h4 c hc
  unfold ChunkSound at this
  unfold Chunk.isCtrl
  split
  · rfl
  · rename_i s hs
    rw [hs] at this
    simp only at this
    omega

example : ∃ cs, parseChunks [0x0b, 0, 1, 2, 3, 4] = ⟨cs, none⟩ ∧ ∃ c ∈ cs, 6 < 2 * c.stop :=
  ⟨[⟨0, 8, .ctrl (.other 0x0b [4, 3, 2, 1] [])⟩], by decide +kernel, by decide⟩

/-- The chunks show the payload: the text of a text chunk is the decoding of the
bytes of its range, a control chunk carries the code and the parameter bytes that
are at its position. -/
theorem C12_chunk_contents (data : Bytes) (heven : data.length % 2 = 0) (cs : List Chunk)
    (h : parseChunks data = ⟨cs, none⟩) (c : Chunk) (hc : c ∈ cs) :
    match c.val with
    | .text s => slice data (2 * c.start) (2 * c.stop) = encodeUtf16le s ∧ ∀ x ∈ s, Scalar x
    | .ctrl d => unitAt data c.start = some d.code ∧
        ctrlBytes d = slice data (2 * c.start)
          (2 * c.start + if ctrlWidth d.code = 8 then 14 else 2) := by
  obtain ⟨hi, _, _, _, h4, _, _, _⟩ :=
    parseChunksFrom_sound (data.length / 2) (by omega) 0 (cs := cs) h
  have := h4 c hc
  unfold ChunkSound at this
  split
  · rename_i s hs; rw [hs] at this; exact ⟨this.2.1, this.2.2.1⟩
  · rename_i d hd; rw [hd] at this; exact ⟨this.1, this.2.2.2⟩

example : ∃ cs, parseChunks [0x41, 0, 0x0d, 0] = ⟨cs, none⟩ ∧
    (⟨0, 1, .text [0x41]⟩ : Chunk) ∈ cs ∧ (⟨1, 2, .ctrl (.plain 0x0d)⟩ : Chunk) ∈ cs :=
  ⟨[⟨0, 1, .text [0x41]⟩, ⟨1, 2, .ctrl (.plain 0x0d)⟩], by decide +kernel, by decide, by decide⟩

/-! ### C13 -/

/-- C13: text chunks are nonempty and contain no code unit below 0x20; control
chunks start with a control code and have the width the file format defines; text
is maximal (no two text chunks are adjacent). -/
theorem C13_chunk_kinds (data : Bytes) (heven : data.length % 2 = 0) (cs : List Chunk)
    (h : parseChunks data = ⟨cs, none⟩) :
    NoAdjacentText cs ∧
    ∀ c ∈ cs, match c.val with
      | .text s => s ≠ [] ∧ (∀ x ∈ s, 0x20 ≤ x) ∧
          ∀ i, c.start ≤ i → i < c.stop → ∃ u, unitAt data i = some u ∧ 0x20 ≤ u
      | .ctrl d => unitAt data c.start = some d.code ∧ d.code < 0x20 ∧
          c.stop - c.start = ctrlWidth d.code := by
  obtain ⟨hi, h1, _, _, h4, _, _, h7⟩ :=
    parseChunksFrom_sound (data.length / 2) (by omega) 0 (cs := cs) h
  refine ⟨h7, fun c hc => ?_⟩
  have hs := h4 c hc
  have hlt : c.start < c.stop := by
    have : ∀ (cs : List Chunk) (lo hi : Nat), Tiles lo hi cs → c ∈ cs → c.start < c.stop := by
      intro cs
      induction cs with
      | nil => intro lo hi _ h; cases h
      | cons a t ih =>
        intro lo hi ht hm
        rcases List.mem_cons.1 hm with rfl | hm
        · rw [ht.1]; exact ht.2.1
        · exact ih _ _ ht.2.2 hm
    exact this cs 0 hi h1 hc
  unfold ChunkSound at hs
  split
  · rename_i s he
    rw [he] at hs
    simp only at hs
    obtain ⟨a1, a2, a3, a4⟩ := hs
    have hlen : (slice data (2 * c.start) (2 * c.stop)).length = 2 * (c.stop - c.start) := by
      simp [slice]; omega
    refine ⟨?_, ?_, a4⟩
    · rintro rfl
      rw [a2] at hlen
      simp [encodeUtf16le, strUnits] at hlen
      omega
    · intro x hx
      rcases Nat.lt_or_ge x 0x20 with hlo | hge
      · exfalso
        -- the code unit of `x` occurs in the range
        have hmem : x ∈ strUnits s := by
          unfold strUnits
          refine List.mem_flatten.2 ⟨units x, List.mem_map.2 ⟨x, hx, rfl⟩, ?_⟩
          unfold units
          rw [if_pos (by omega)]; simp
        obtain ⟨i, hi, hix⟩ := List.getElem_of_mem hmem
        have hu := unitAt_flatten (strUnits s) (strUnits_lt a3) i
        rw [List.getElem?_eq_getElem hi, hix] at hu
        have e : ((strUnits s).map unitBytes).flatten = slice data (2 * c.start) (2 * c.stop) := a2.symm
        have hlen2 : (strUnits s).length = c.stop - c.start := by
          have := encodeUtf16le_length s
          rw [← a2, hlen] at this; omega
        rw [e, unitAt_slice (by omega)] at hu
        obtain ⟨u, h1, h2⟩ := a4 (c.start + i) (by omega) (by omega)
        rw [h1] at hu
        injection hu with hu
        omega
      · exact hge
  · rename_i d he
    rw [he] at hs
    simp only at hs
    exact ⟨hs.1, hs.2.1, by omega⟩

/-- Bytes that look like a control code across a code unit border are text. -/
example : parseChunks [0x41, 0x0d, 0x00, 0x42, 0x0d, 0x00] =
    ⟨[⟨0, 2, .text [0x0d41, 0x4200]⟩, ⟨2, 3, .ctrl (.plain 0x0d)⟩], none⟩ := by decide +kernel

/-! ### C14 -/

/-- The full statement of C14 for one sequence of pieces. -/
def Splits (ps : List Piece) : Prop := (parseChunks (payload ps)).err = none

/-- C14 fails in the code: the codes 0x19–0x1d are in no table, and a payload
that contains one of them raises `KeyError`, whatever comes before (complete
pieces with known codes) and after it. -/
theorem C14_missing_codes (ps : List Piece) (hwf : ∀ p ∈ ps, PieceWf p)
    (hkn : ∀ c tr, Piece.ctrl c tr ∈ ps → c.code ∉ missingCodes)
    (code : Nat) (hcode : code ∈ missingCodes) (post : Bytes) :
    (parseChunks (payload ps ++ (unitBytes code ++ post))).err = some .keyError := by
  have hone : code ∈ oneUnitCodes := by
    have : ∀ c ∈ missingCodes, c ∈ oneUnitCodes := by decide
    exact this code hcode
  have hcw : CtrlWf (.plain code) [] := ⟨hone, rfl⟩
  rw [← mergeTexts_payload]
  have hwf' := mergeTexts_wf ps hwf
  have hkn' : ∀ c tr, Piece.ctrl c tr ∈ mergeTexts ps → Known c :=
    fun c tr h => hkn c tr ((mergeTexts_ctrl ps c tr).1 h)
  have halt := mergeTexts_alternating ps
  generalize mergeTexts ps = qs at *
  have main : ∀ (qs : List Piece), (∀ p ∈ qs, PieceWf p) →
      (∀ c tr, Piece.ctrl c tr ∈ qs → Known c) → Alternating qs →
      ∀ (pre : Bytes) (k : Nat), pre.length = 2 * k →
      (parseChunksFrom (pre ++ (payload qs ++ (unitBytes code ++ post))) (2 * k)).err =
        some .keyError := by
    intro qs
    induction qs with
    | nil =>
      intro _ _ _ pre k hk
      have h1 := ctrlFind_at_ctrl pre k hk hcw post
      rw [show (CtrlChar.plain code).code = code from rfl, ctrlKind_missing hcode] at h1
      simp only [ctrlBytes, List.append_nil] at h1
      simp only [payload, List.map_nil, List.flatten_nil, List.nil_append]
      rw [parseChunksFrom_eq, if_pos (by simp [unitBytes]; omega), h1]
      rfl
    | cons p qs ih =>
      intro hwf hkn halt pre k hk
      have hp := hwf p (by simp)
      have halt' : Alternating qs := by
        cases p with
        | text s => cases qs with
          | nil => trivial
          | cons q qs => cases q with
            | text t => exact halt.elim
            | ctrl c tr => exact halt
        | ctrl c tr => exact halt
      have ih' := ih (fun p hp => hwf p (by simp [hp])) (fun c tr h => hkn c tr (by simp [h])) halt'
        (pre ++ p.bytes) (k + p.width) (by rw [List.length_append, piece_length hp]; omega)
      rw [List.append_assoc] at ih'
      rw [payload_cons, List.append_assoc]
      cases p with
      | ctrl c tr =>
        have := parse_ctrl pre k hk hp (hkn c tr (by simp)) (payload qs ++ (unitBytes code ++ post))
        simp only [Piece.bytes, Piece.width] at *
        rw [this]
        exact ih'
      | text s =>
        have hlen : (pre ++ encodeUtf16le s).length = 2 * (k + (strUnits s).length) := by
          rw [List.length_append, encodeUtf16le_length, hk]; omega
        simp only [Piece.bytes, Piece.width] at *
        cases qs with
        | nil =>
          -- the search behind the text run fails already
          have h1 := ctrlFind_at_ctrl (pre ++ encodeUtf16le s) _ hlen hcw post
          rw [show (CtrlChar.plain code).code = code from rfl, ctrlKind_missing hcode] at h1
          simp only [ctrlBytes, List.append_nil, List.append_assoc] at h1
          have h2 := ctrlFind_skips (data := pre ++ (encodeUtf16le s ++ (unitBytes code ++ post)))
            (strUnits s).length k
            (fun i h1 h2 => text_units pre k hk hp.2 (unitBytes code ++ post) i h1 h2)
          have hl : 2 * k < (pre ++ (encodeUtf16le s ++ (unitBytes code ++ post))).length := by
            simp [unitBytes]; omega
          simp only [payload, List.map_nil, List.flatten_nil, List.nil_append]
          rw [parseChunksFrom_eq, if_pos hl, h2, h1]
          rfl
        | cons q qs =>
          cases q with
          | text t => exact halt.elim
          | ctrl c tr =>
            have hc := hwf (.ctrl c tr) (by simp)
            obtain ⟨kd, hkd⟩ := ctrlKind_of_known (ctrlWf_code hc) (hkn c tr (by simp))
            have hq := ctrlFind_at_ctrl (pre ++ encodeUtf16le s) _ hlen hc
              (payload qs ++ (unitBytes code ++ post))
            rw [hkd, List.append_assoc] at hq
            have e : payload (.ctrl c tr :: qs) ++ (unitBytes code ++ post) =
                ctrlBytes c ++ tr ++ (payload qs ++ (unitBytes code ++ post)) := by
              rw [payload_cons, List.append_assoc]; rfl
            rw [e] at ih' ⊢
            have := parse_text pre k hk hp.1 hp.2 _ hq
            rw [this]
            exact ih'
  have := main qs hwf' hkn' halt [] 0 rfl
  simpa [parseChunks] using this

example : (parseChunks (payload [.text [0x41]] ++ (unitBytes 0x1b ++ [1, 2]))).err = some .keyError :=
  C14_missing_codes _ (by decide) (by simp) 0x1b (by decide) _

theorem C14_fails_on_missing_codes :
    ¬ ∀ ps : List Piece, (∀ p ∈ ps, PieceWf p) → Splits ps := by
  intro h
  have h1 := h [.ctrl (.plain 0x19) []] (by decide)
  have h2 := C14_missing_codes [] (by simp) (by simp) 0x19 (by decide) []
  rw [Splits, show payload [.ctrl (.plain 0x19) []] = payload [] ++ (unitBytes 0x19 ++ []) by decide] at h1
  rw [h1] at h2
  cases h2

/-- C14 for all sequences of text runs and complete controls without the codes
0x19–0x1d.  Missing from the full statement: those five codes. -/
theorem C14_splits_partial (ps : List Piece) (hwf : ∀ p ∈ ps, PieceWf p)
    (hkn : ∀ c tr, Piece.ctrl c tr ∈ ps → c.code ∉ missingCodes) : Splits ps := by
  have := parse_pieces (mergeTexts ps) (mergeTexts_wf ps hwf)
    (fun c tr h => hkn c tr ((mergeTexts_ctrl ps c tr).1 h)) (mergeTexts_alternating ps) [] 0 rfl
  rw [mergeTexts_payload] at this
  unfold Splits parseChunks
  simp only [List.nil_append, Nat.mul_zero] at this
  rw [this]

example : Splits [.text [0x41, 0x1F600], .ctrl (.other 0x0b [116, 98, 108, 32] (List.replicate 8 9)) [0x0b, 0],
    .ctrl (.plain 0x0d) []] :=
  C14_splits_partial _ (by decide) (by
    intro c tr h
    simp only [List.mem_cons, List.not_mem_nil, or_false, Piece.ctrl.injEq, reduceCtorEq, false_or] at h
    rcases h with ⟨rfl, _⟩ | ⟨rfl, _⟩ <;> decide)

/-! ### C15 -/

/-- C15: splitting the payload of any sequence of text runs and complete known
controls gives back exactly these pieces at their positions, adjacent text
merged.  Neither the contents of parameters nor the two closing bytes of a
control matter. -/
theorem C15_roundtrip (ps : List Piece) (hwf : ∀ p ∈ ps, PieceWf p)
    (hkn : ∀ c tr, Piece.ctrl c tr ∈ ps → c.code ∉ missingCodes) :
    parseChunks (payload ps) = ⟨chunksAt 0 (mergeTexts ps), none⟩ := by
  have := parse_pieces (mergeTexts ps) (mergeTexts_wf ps hwf)
    (fun c tr h => hkn c tr ((mergeTexts_ctrl ps c tr).1 h)) (mergeTexts_alternating ps) [] 0 rfl
  rw [mergeTexts_payload] at this
  simpa [parseChunks] using this

/-- Two adjacent text runs (one with a character outside the BMP), a control
whose parameter is full of control codes, a tab, a line break. -/
example : let ps : List Piece := [.text [0x41], .text [0x1F600],
      .ctrl (.other 0x0b [13, 0, 13, 0] [13, 0, 10, 0, 3, 0, 11, 0]) [0x0b, 0],
      .ctrl (.tab 9 4000 1 2 [0, 0, 0, 0, 0, 0]) [9, 0], .ctrl (.plain 10) []]
    (∀ p ∈ ps, PieceWf p) ∧
    chunksAt 0 (mergeTexts ps) = [⟨0, 3, .text [0x41, 0x1F600]⟩,
      ⟨3, 11, .ctrl (.other 0x0b [13, 0, 13, 0] [13, 0, 10, 0, 3, 0, 11, 0])⟩,
      ⟨11, 19, .ctrl (.tab 9 4000 1 2 [0, 0, 0, 0, 0, 0])⟩, ⟨19, 20, .ctrl (.plain 10)⟩] := by
  decide +kernel

end Hwp.Props
