/- Helper lemmas: splitting a serialised sequence of pieces (C14, C15). -/
import Verif.Proofs.ParaText
set_option linter.unusedSimpArgs false
namespace Hwp
open Spec

/-- Codes the table of the code knows. -/
def Known (c : CtrlChar) : Prop := c.code ∉ missingCodes

theorem ctrlKind_of_known {c : Nat} (h : c < 0x20) (hm : c ∉ missingCodes) :
    ∃ kd, ctrlKind c = some kd := by
  have : ∀ c : Fin 32, c.val ∉ missingCodes → (ctrlKind c.val).isSome = true := by decide +kernel
  exact Option.isSome_iff_exists.1 (this ⟨c, h⟩ hm)

theorem ctrlKind_missing {c : Nat} (h : c ∈ missingCodes) : ctrlKind c = none := by
  have : ∀ c ∈ missingCodes, ctrlKind c = none := by decide
  exact this c h

theorem ctrlWf_code {c : CtrlChar} {tr : Bytes} (h : CtrlWf c tr) : c.code < 0x20 := by
  cases c with
  | plain c =>
    have : ∀ c ∈ oneUnitCodes, c < 0x20 := by decide
    exact this c h.1
  | tab c w u0 u1 u2 => simp only [CtrlChar.code, h.1]; decide
  | other c chid param => exact h.1

theorem ctrlWf_bytes {c : CtrlChar} {tr : Bytes} (h : CtrlWf c tr) :
    (ctrlBytes c ++ tr).length = 2 * ctrlWidth c.code ∧
      ∃ t, ctrlBytes c ++ tr = UInt8.ofNat (c.code % 256) :: UInt8.ofNat (c.code / 256) :: t := by
  cases c with
  | plain c =>
    obtain ⟨h1, h2⟩ := h
    subst h2
    simp [ctrlBytes, unitBytes, CtrlChar.code, ctrlWidth, h1]
  | tab c w u0 u1 u2 =>
    obtain ⟨rfl, _, _, _, h5, h6⟩ := h
    refine ⟨?_, ?_⟩
    · simp only [ctrlBytes, List.length_append, leBytes_length, h5, h6, unitBytes, CtrlChar.code]
      decide
    · exact ⟨_, rfl⟩
  | other c chid param =>
    obtain ⟨h1, h2, h3, h4, h5, h6⟩ := h
    refine ⟨?_, ?_⟩
    · simp [ctrlBytes, unitBytes, CtrlChar.code, ctrlWidth, h2, h4, h5, h6]
    · exact ⟨_, rfl⟩

theorem ctrlDecode_bytes {c : CtrlChar} {tr : Bytes} (h : CtrlWf c tr) (hk : Known c) :
    ctrlDecode (ctrlBytes c ++ tr) = .ok c := by
  obtain ⟨kd, hkd⟩ := ctrlKind_of_known (ctrlWf_code h) hk
  have hw := (kind_width hkd).2
  have hlt := ctrlWf_code h
  obtain ⟨hlen, t, ht⟩ := ctrlWf_bytes h
  have hcode : unpackU 2 (slice (ctrlBytes c ++ tr) 0 2) = .ok c.code := by
    rw [ht]
    simp only [slice, List.drop_zero, Nat.sub_zero, List.take_succ_cons, List.take_zero, unpackU,
      List.length_cons, List.length_nil, if_true, leNat]
    rw [Nat.mul_zero, Nat.add_zero, unitBytes_val _ (by omega)]
  unfold ctrlDecode
  simp only [hcode, hkd, bind, Except.bind, pure, Except.pure, hw]
  cases c with
  | plain c =>
    simp only [CtrlChar.code, ctrlWidth, h.1, if_true]
    rfl
  | tab c w u0 u1 u2 =>
    obtain ⟨rfl, h2, h3, h4, h5, h6⟩ := h
    simp only [CtrlChar.code]
    simp only [show ctrlWidth 9 = 8 by decide, if_true]
    have e1 : slice (slice (ctrlBytes (.tab 9 w u0 u1 u2) ++ tr) 2 (2 + 12)) 0 4 = leBytes 4 w := by
      simp [slice, ctrlBytes, unitBytes, leBytes]
    have e2 : slice (slice (ctrlBytes (.tab 9 w u0 u1 u2) ++ tr) 2 (2 + 12)) 4 5 = leBytes 1 u0 := by
      simp [slice, ctrlBytes, unitBytes, leBytes]
    have e3 : slice (slice (ctrlBytes (.tab 9 w u0 u1 u2) ++ tr) 2 (2 + 12)) 5 6 = leBytes 1 u1 := by
      simp [slice, ctrlBytes, unitBytes, leBytes]
    have e4 : (slice (ctrlBytes (.tab 9 w u0 u1 u2) ++ tr) 2 (2 + 12)).drop 6 = u2 := by
      simp [slice, ctrlBytes, unitBytes, leBytes, h5]
    rw [e1, e2, e3, e4]
    simp [unpackU, leNat_leBytes 4 w h2, leNat_leBytes 1 u0 (by simpa using h3), leNat_leBytes 1 u1 (by simpa using h4)]
  | other c chid param =>
    obtain ⟨h1, h2, h3, h4, h5, h6⟩ := h
    simp only [CtrlChar.code]
    simp only [show ctrlWidth c = 8 by simp [ctrlWidth, h2], if_true, h3, if_false]
    have e1 : slice (slice (ctrlBytes (.other c chid param) ++ tr) 2 (2 + 12)) 0 4 = chid.reverse := by
      simp [slice, ctrlBytes, unitBytes, List.take_append, h4]
      rw [List.take_of_length_le]; simp [h4]
    have e2 : slice (slice (ctrlBytes (.other c chid param) ++ tr) 2 (2 + 12)) 4 12 = param := by
      simp [slice, ctrlBytes, unitBytes, List.take_append, List.drop_append, h4, h5]
      rw [List.take_of_length_le]; simp [h5]
    rw [e1, e2]
    match chid, h4 with
    | [x0, x1, x2, x3], _ => simp [chidDecode]

theorem payload_cons (p : Piece) (ps : List Piece) : payload (p :: ps) = p.bytes ++ payload ps := by
  simp [payload]

theorem piece_length {p : Piece} (h : PieceWf p) : p.bytes.length = 2 * p.width := by
  cases p with
  | text s => exact encodeUtf16le_length s
  | ctrl c tr => exact (ctrlWf_bytes h).1

theorem slice_mid (pre b post : Bytes) :
    slice (pre ++ (b ++ post)) pre.length (pre.length + b.length) = b := by
  simp [slice]

theorem parse_ctrl (pre : Bytes) (k : Nat) (hk : pre.length = 2 * k) {c : CtrlChar} {tr : Bytes}
    (h : CtrlWf c tr) (hkn : Known c) (post : Bytes) :
    parseChunksFrom (pre ++ ((ctrlBytes c ++ tr) ++ post)) (2 * k) =
      .cons ⟨k, k + ctrlWidth c.code, .ctrl c⟩
        (parseChunksFrom (pre ++ ((ctrlBytes c ++ tr) ++ post)) (2 * (k + ctrlWidth c.code))) := by
  obtain ⟨hlen, t, ht⟩ := ctrlWf_bytes h
  have hlt := ctrlWf_code h
  obtain ⟨kd, hkd⟩ := ctrlKind_of_known hlt hkn
  have hw := (kind_width hkd).2
  have hpos : 0 < kd.size := ctrlKind_size_pos kd
  have hu : unitAt (pre ++ ((ctrlBytes c ++ tr) ++ post)) k = some c.code := by
    have := unitAt_append_right pre ((ctrlBytes c ++ tr) ++ post) k 0 hk
    rw [Nat.add_zero] at this
    rw [this, ht]
    simp [unitAt, unitBytes_val c.code (by omega)]
    have := unitBytes_val c.code (by omega)
    simpa using this
  have hd := ctrlDecode_bytes h hkn
  have hsl := slice_mid pre (ctrlBytes c ++ tr) post
  rw [hlen, hk] at hsl
  have hl : 2 * k < (pre ++ ((ctrlBytes c ++ tr) ++ post)).length := by
    rw [List.length_append, List.length_append, hlen, hk, ← hw]; omega
  generalize pre ++ ((ctrlBytes c ++ tr) ++ post) = data at *
  rw [parseChunksFrom_eq, if_pos hl, ctrlFind_ctrl hu hlt, hkd]
  simp only [hw]
  rw [if_neg (by omega), if_pos (by omega), show 2 * k + ctrlWidth c.code * 2 = 2 * k + 2 * ctrlWidth c.code by omega,
    hsl, hd]
  simp only
  rw [show 2 * k / 2 = k by omega, show 2 * k + 2 * ctrlWidth c.code = 2 * (k + ctrlWidth c.code) by omega,
    show 2 * (k + ctrlWidth c.code) / 2 = k + ctrlWidth c.code by omega]

theorem text_units (pre : Bytes) (k : Nat) (hk : pre.length = 2 * k) {s : List Nat}
    (h : ∀ c ∈ s, Scalar c ∧ 0x20 ≤ c) (post : Bytes) (i : Nat) (h1 : k ≤ i)
    (h2 : i < k + (strUnits s).length) :
    ∃ u, unitAt (pre ++ (encodeUtf16le s ++ post)) i = some u ∧ 0x20 ≤ u := by
  obtain ⟨d, rfl⟩ : ∃ d, i = k + d := ⟨i - k, by omega⟩
  rw [unitAt_append_right _ _ _ _ hk, unitAt_append_left _ _ _ (by rw [encodeUtf16le_length]; omega)]
  unfold encodeUtf16le
  rw [unitAt_flatten _ (strUnits_lt fun c hc => (h c hc).1), List.getElem?_eq_getElem (by omega)]
  refine ⟨_, rfl, ?_⟩
  have hm := List.getElem_mem (l := strUnits s) (n := d) (by omega)
  generalize (strUnits s)[d] = u at *
  unfold strUnits at hm
  obtain ⟨l, hl, hu⟩ := List.mem_flatten.1 hm
  obtain ⟨c, hc, rfl⟩ := List.mem_map.1 hl
  exact units_ge (h c hc).2 u hu

theorem strUnits_pos {s : List Nat} (h : s ≠ []) : 0 < (strUnits s).length := by
  cases s with
  | nil => exact absurd rfl h
  | cons c s => rw [strUnits_cons]; unfold units; split <;> simp <;> omega

/-- A text run in front of a control or the end. -/
theorem parse_text (pre : Bytes) (k : Nat) (hk : pre.length = 2 * k) {s : List Nat} (hs : s ≠ [])
    (h : ∀ c ∈ s, Scalar c ∧ 0x20 ≤ c) (post : Bytes)
    {q : Nat} (hq : ctrlFind (pre ++ (encodeUtf16le s ++ post)) (2 * (k + (strUnits s).length)) =
      .ok (2 * (k + (strUnits s).length), q)) :
    parseChunksFrom (pre ++ (encodeUtf16le s ++ post)) (2 * k) =
      .cons ⟨k, k + (strUnits s).length, .text s⟩
        (parseChunksFrom (pre ++ (encodeUtf16le s ++ post)) (2 * (k + (strUnits s).length))) := by
  have hf := ctrlFind_skips (data := pre ++ (encodeUtf16le s ++ post)) (strUnits s).length k
    (fun i h1 h2 => text_units pre k hk h post i h1 h2)
  have hpos := strUnits_pos hs
  have hsl := slice_mid pre (encodeUtf16le s) post
  have hd := utf16leDecode_encode s (fun c hc => (h c hc).1)
  have hl : 2 * (k + (strUnits s).length) ≤ (pre ++ (encodeUtf16le s ++ post)).length := by
    simp [encodeUtf16le_length, hk]; omega
  rw [encodeUtf16le_length, hk] at hsl
  generalize pre ++ (encodeUtf16le s ++ post) = data at *
  rw [parseChunksFrom_eq, if_pos (by omega), hf, hq]
  simp only
  rw [if_pos (by omega), show 2 * (k + (strUnits s).length) = 2 * k + 2 * (strUnits s).length by omega, hsl, hd]
  simp only
  rw [show 2 * k / 2 = k by omega,
    show (2 * k + 2 * (strUnits s).length) / 2 = k + (strUnits s).length by omega]
  congr 1
  rw [show 2 * (k + (strUnits s).length) = 2 * k + 2 * (strUnits s).length by omega] at hq
  rcases Nat.lt_or_ge (2 * k + 2 * (strUnits s).length) data.length with hlt | hge
  · conv => rhs; rw [parseChunksFrom_eq, if_pos hlt, hq]
    simp only
    rw [if_neg (Nat.lt_irrefl _),
      show (2 * k + 2 * (strUnits s).length) / 2 = k + (strUnits s).length by omega]
  · have : q = data.length := by
      rw [ctrlFind_end hge] at hq
      injection hq with hq; injection hq with h1 h2; exact h2.symm
    rw [if_neg (by omega), this, show 2 * k + 2 * (strUnits s).length = data.length by omega]

theorem ctrlFind_at_ctrl (pre : Bytes) (k : Nat) (hk : pre.length = 2 * k) {c : CtrlChar} {tr : Bytes}
    (h : CtrlWf c tr) (post : Bytes) :
    ctrlFind (pre ++ ((ctrlBytes c ++ tr) ++ post)) (2 * k) = match ctrlKind c.code with
      | none => .error .keyError
      | some kd => .ok (2 * k, 2 * k + kd.size * 2) := by
  obtain ⟨hlen, t, ht⟩ := ctrlWf_bytes h
  have hlt := ctrlWf_code h
  have hu : unitAt (pre ++ ((ctrlBytes c ++ tr) ++ post)) k = some c.code := by
    have := unitAt_append_right pre ((ctrlBytes c ++ tr) ++ post) k 0 hk
    rw [Nat.add_zero] at this
    rw [this, ht]
    have := unitBytes_val c.code (by omega)
    simpa [unitAt] using this
  exact ctrlFind_ctrl hu hlt

/-- No two text pieces in a row. -/
def Alternating : List Piece → Prop
  | .text _ :: .text _ :: _ => False
  | _ :: ps => Alternating ps
  | [] => True

theorem parse_pieces (ps : List Piece) (hwf : ∀ p ∈ ps, PieceWf p)
    (hkn : ∀ c tr, .ctrl c tr ∈ ps → Known c) (halt : Alternating ps) :
    ∀ (pre : Bytes) (k : Nat), pre.length = 2 * k →
      parseChunksFrom (pre ++ payload ps) (2 * k) = ⟨chunksAt k ps, none⟩ := by
  induction ps with
  | nil =>
    intro pre k hk
    rw [parseChunksFrom_done (by simp [payload]; omega)]; rfl
  | cons p ps ih =>
    intro pre k hk
    have hp := hwf p (by simp)
    have halt' : Alternating ps := by
      cases p with
      | text s => cases ps with
        | nil => trivial
        | cons q qs => cases q with
          | text t => exact halt.elim
          | ctrl c tr => exact halt
      | ctrl c tr => exact halt
    have ih' := ih (fun p hp => hwf p (by simp [hp])) (fun c tr h => hkn c tr (by simp [h])) halt'
      (pre ++ p.bytes) (k + p.width) (by rw [List.length_append, piece_length hp]; omega)
    rw [List.append_assoc, ← payload_cons] at ih'
    cases p with
    | ctrl c tr =>
      have := parse_ctrl pre k hk hp (hkn c tr (by simp)) (payload ps)
      rw [payload_cons] at ih' ⊢
      simp only [Piece.bytes, Piece.width] at *
      rw [this, ih']
      rfl
    | text s =>
      have hq : ∃ q, ctrlFind (pre ++ (encodeUtf16le s ++ payload ps)) (2 * (k + (strUnits s).length)) =
          .ok (2 * (k + (strUnits s).length), q) := by
        have hlen : (pre ++ encodeUtf16le s).length = 2 * (k + (strUnits s).length) := by
          rw [List.length_append, encodeUtf16le_length, hk]; omega
        cases ps with
        | nil =>
          have e : (pre ++ (encodeUtf16le s ++ payload [])).length = 2 * (k + (strUnits s).length) := by
            simpa [payload] using hlen
          refine ⟨2 * (k + (strUnits s).length), ?_⟩
          rw [ctrlFind_end (Nat.le_of_eq e), e]
        | cons q qs =>
          cases q with
          | text t => exact halt.elim
          | ctrl c tr =>
            have hc := hwf (.ctrl c tr) (by simp)
            obtain ⟨kd, hkd⟩ := ctrlKind_of_known (ctrlWf_code hc) (hkn c tr (by simp))
            have := ctrlFind_at_ctrl (pre ++ encodeUtf16le s) _ hlen hc (payload qs)
            rw [hkd, List.append_assoc] at this
            exact ⟨_, this⟩
      obtain ⟨q, hq⟩ := hq
      have := parse_text pre k hk hp.1 hp.2 (payload ps) hq
      rw [payload_cons] at ih' ⊢
      simp only [Piece.bytes, Piece.width] at *
      rw [this, ih']
      rfl

theorem mergeTexts_payload (ps : List Piece) : payload (mergeTexts ps) = payload ps := by
  induction ps with
  | nil => rfl
  | cons p ps ih =>
    rw [payload_cons]
    cases p with
    | ctrl c tr => simp only [mergeTexts]; rw [payload_cons, ih]
    | text s =>
      simp only [mergeTexts]
      rw [← ih]
      split
      · rename_i t qs h
        rw [payload_cons, h, payload_cons]
        simp [Piece.bytes, encodeUtf16le_append]
      · rw [payload_cons]

theorem mergeTexts_wf (ps : List Piece) (h : ∀ p ∈ ps, PieceWf p) :
    ∀ p ∈ mergeTexts ps, PieceWf p := by
  induction ps with
  | nil => exact h
  | cons p ps ih =>
    have ih := ih (fun p hp => h p (by simp [hp]))
    have hp := h p (by simp)
    cases p with
    | ctrl c tr =>
      simp only [mergeTexts]
      intro q hq
      rcases List.mem_cons.1 hq with rfl | hq
      · exact hp
      · exact ih q hq
    | text s =>
      simp only [mergeTexts]
      split
      · rename_i t qs he
        rw [he] at ih
        intro q hq
        rcases List.mem_cons.1 hq with rfl | hq
        · have ht := ih (.text t) (by simp)
          refine ⟨by simp [hp.1], ?_⟩
          intro c hc
          rcases List.mem_append.1 hc with hc | hc
          · exact hp.2 c hc
          · exact ht.2 c hc
        · exact ih q (by simp [hq])
      · intro q hq
        rcases List.mem_cons.1 hq with rfl | hq
        · exact hp
        · exact ih q hq

theorem mergeTexts_ctrl (ps : List Piece) (c : CtrlChar) (tr : Bytes) :
    Piece.ctrl c tr ∈ mergeTexts ps ↔ Piece.ctrl c tr ∈ ps := by
  induction ps with
  | nil => rfl
  | cons p ps ih =>
    cases p with
    | ctrl c' tr' => simp [mergeTexts, ih]
    | text s =>
      simp only [mergeTexts]
      split
      · rename_i t qs he
        rw [he] at ih
        simp at ih ⊢; exact ih
      · simp [ih]

theorem mergeTexts_alternating (ps : List Piece) : Alternating (mergeTexts ps) := by
  induction ps with
  | nil => trivial
  | cons p ps ih =>
    cases p with
    | ctrl c tr => exact ih
    | text s =>
      simp only [mergeTexts]
      split
      · rename_i t qs he
        rw [he] at ih
        cases qs with
        | nil => trivial
        | cons q qs => cases q with
          | text _ => exact ih.elim
          | ctrl _ _ => exact ih
      · rename_i hne
        cases hm : mergeTexts ps with
        | nil => trivial
        | cons q qs => cases q with
          | text t => exact absurd hm (hne t qs)
          | ctrl _ _ => rw [hm] at ih; exact ih

end Hwp
