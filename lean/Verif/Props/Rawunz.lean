/-
C98: the commands `hwp5proc rawunz` and `hwp5proc diststream`.
-/
import Verif.Proofs.Rawunz
import Verif.Spec.Rawunz
import Verif.Props.Filestructure
import Verif.Props.Distdoc
import Verif.Proofs.DocSummary
set_option autoImplicit false
set_option linter.unusedSimpArgs false
set_option linter.unusedVariables false
namespace Hwp.Props
open Hwp Spec

/-! ### An inflate -/

theorem storedRun_mono : ∀ (m : Nat) (p c : Bytes), p.length ≤ m →
    (storedRun p).1 <+: (storedRun (p ++ c)).1 ∧
    ((storedRun p).2 = .ended → storedRun (p ++ c) = storedRun p) ∧
    ((storedRun p).2 = .bad → (storedRun (p ++ c)).2 = .bad) := by
  intro m
  induction m with
  | zero =>
    intro p c hm
    have : p = [] := List.eq_nil_of_length_eq_zero (by omega)
    subst this
    rw [storedRun]
    exact ⟨List.nil_prefix, by simp, by simp⟩
  | succ m ih =>
    intro p c hm
    cases p with
    | nil =>
      rw [storedRun]
      exact ⟨List.nil_prefix, by simp, by simp⟩
    | cons h r =>
      rw [List.cons_append, storedRun.eq_def (h :: r), storedRun.eq_def (h :: (r ++ c))]
      dsimp only
      by_cases hb : h.toNat % 8 / 2 ≠ 0
      · rw [if_pos hb, if_pos hb]
        exact ⟨List.nil_prefix, by simp, by simp⟩
      · rw [if_neg hb, if_neg hb]
        match r with
        | [] => exact ⟨List.nil_prefix, by simp, by simp⟩
        | [_] => exact ⟨List.nil_prefix, by simp, by simp⟩
        | [_, _] => exact ⟨List.nil_prefix, by simp, by simp⟩
        | [_, _, _] => exact ⟨List.nil_prefix, by simp, by simp⟩
        | a :: b :: c' :: d :: rest =>
          simp only [List.cons_append]
          by_cases hx : a.toNat + c'.toNat ≠ 255 ∨ b.toNat + d.toNat ≠ 255
          · rw [if_pos hx, if_pos hx]
            exact ⟨List.nil_prefix, by simp, by simp⟩
          · rw [if_neg hx, if_neg hx]
            by_cases hl : rest.length < a.toNat + 256 * b.toNat
            · rw [if_pos hl]
              refine ⟨?_, by simp, by simp⟩
              by_cases hl2 : (rest ++ c).length < a.toNat + 256 * b.toNat
              · rw [if_pos hl2]; exact List.prefix_append _ _
              · rw [if_neg hl2]
                have hp : rest <+: (rest ++ c).take (a.toNat + 256 * b.toNat) := by
                  rw [List.take_append, List.take_of_length_le (by omega)]
                  exact List.prefix_append _ _
                split
                · exact hp
                · exact hp.trans (List.prefix_append _ _)
            · have hl2 : ¬ (rest ++ c).length < a.toNat + 256 * b.toNat := by rw [List.length_append]; omega
              have ht : (rest ++ c).take (a.toNat + 256 * b.toNat) = rest.take (a.toNat + 256 * b.toNat) :=
                List.take_append_of_le_length (by omega)
              have hdp : (rest ++ c).drop (a.toNat + 256 * b.toNat) = rest.drop (a.toNat + 256 * b.toNat) ++ c :=
                List.drop_append_of_le_length (by omega)
              rw [if_neg hl, if_neg hl2, ht, hdp]
              by_cases hf : h.toNat % 2 = 1
              · rw [if_pos hf, if_pos hf]
                exact ⟨List.prefix_rfl, by simp, by simp⟩
              · rw [if_neg hf, if_neg hf]
                obtain ⟨i1, i2, i3⟩ := ih (rest.drop (a.toNat + 256 * b.toNat)) c (by
                  simp only [List.length_cons, List.length_drop] at hm ⊢; omega)
                refine ⟨(List.prefix_append_right_inj _).2 i1, ?_, i3⟩
                intro he
                have := i2 he
                simp only [this]

/-- Inflate for streams of stored blocks. -/
def storedInflater : ZInflater where
  out p := (storedRun p).1
  mono p c := (storedRun_mono _ p c (Nat.le_refl _)).1
  ended p := (storedRun p).2 = .ended
  bad p := (storedRun p).2 = .bad
  bad_mono p c h := by
    simp only [decide_eq_true_eq] at h ⊢
    exact (storedRun_mono _ p c (Nat.le_refl _)).2.2 h
  ended_out p c h := by
    simp only [decide_eq_true_eq] at h
    rw [(storedRun_mono _ p c (Nat.le_refl _)).2.1 h]
  ended_mono p c h := by
    simp only [decide_eq_true_eq] at h ⊢
    rw [(storedRun_mono _ p c (Nat.le_refl _)).2.1 h]; exact h
  ended_good p h := by
    simp only [decide_eq_true_eq] at h
    simp [h]
  empty := by
    have : storedRun [] = ([], .more) := by rw [storedRun]
    simp [this]

/-! ### rawunz -/

/-- C98: nothing is printed that the stream does not contain: the output is a beginning of what
inflate makes of the input, and the only exception is `zlib.error`. -/
theorem C98_only_contents (z : ZInflater) (n : Nat) (s : Bytes) :
    (rawunzMain z n s).1 <+: z.out s ∧ ∀ e, (rawunzMain z n s).2 = some e → e = .zlibError := by
  refine ⟨?_, fun e he => zCopy_error z n _ e he⟩
  have h := zCopy_prefix z n (.new s)
  have e : zRest z (.new s) = z.out s := by
    unfold zRest RawReader.new
    have := out_feed z.toInflater [] s
    rw [z.empty.1] at this
    simpa using this
  rw [e] at h
  exact h

/-- C98: the whole contents are printed, for streams that are not longer than 8196 bytes.  There
may be other bytes after the end. -/
theorem C98_short_streams (z : ZInflater) (n : Nat) (s d : Bytes) (hs : s.length ≤ 8196) (hd : z.inflate s = some d) :
    rawunzMain z n s = (d, none) := by
  unfold ZInflater.inflate at hd
  split at hd
  · rename_i he
    cases hd
    have := zCopy_complete z n s (z.ended_good s he)
      (by
        intro k hk
        have : k = 0 := by omega
        subst this
        simpa using z.empty.2.1)
      (by intro k hk; omega) (.new s) 0 ⟨by simp [RawReader.new], by simp [RawReader.new]⟩
    unfold rawunzMain
    rw [this]
    unfold zRest RawReader.new
    have := out_feed z.toInflater [] s
    rw [z.empty.1] at this
    simpa using this
  · cases hd

/-- C98: the whole contents are printed, when every piece of 8196 bytes of the stream adds to
the contents, and the end of the stream is in the last piece.

Partial: without this the output ends early (`C98_early_end`) or the command fails
(`C98_bytes_after_the_end`). -/
theorem C98_contents_partial (z : ZInflater) (n : Nat) (s d : Bytes) (hd : z.inflate s = some d)
    (hend : ∀ k, 8196 * k < s.length → z.ended (s.take (8196 * k)) = false)
    (hprod : ∀ k, 8196 * (k + 1) < s.length → z.out (s.take (8196 * (k + 1))) ≠ z.out (s.take (8196 * k))) :
    rawunzMain z n s = (d, none) := by
  unfold ZInflater.inflate at hd
  split at hd
  · rename_i he
    cases hd
    have := zCopy_complete z n s (z.ended_good s he) hend hprod (.new s) 0 ⟨by simp [RawReader.new], by simp [RawReader.new]⟩
    unfold rawunzMain
    rw [this]
    unfold zRest RawReader.new
    have := out_feed z.toInflater [] s
    rw [z.empty.1] at this
    simpa using this
  · cases hd

/-- C98: a stream that breaks off is printed as far as it goes, and the command succeeds. -/
theorem C98_truncated_silently (z : ZInflater) (n : Nat) (s : Bytes) (hs : s.length ≤ 8196) (hb : z.bad s = false)
    (he : z.ended s = false) : z.inflate s = none ∧ rawunzMain z n s = (z.out s, none) := by
  constructor
  · unfold ZInflater.inflate; rw [he]; rfl
  · have := zCopy_complete z n s hb
      (by
        intro k hk
        have : k = 0 := by omega
        subst this
        simpa using z.empty.2.1)
      (by intro k hk; omega) (.new s) 0 ⟨by simp [RawReader.new], by simp [RawReader.new]⟩
    unfold rawunzMain
    rw [this]
    unfold zRest RawReader.new
    have := out_feed z.toInflater [] s
    rw [z.empty.1] at this
    simpa using this

/-- C98 fails for streams followed by other bytes: when these are in a later piece of 8196
bytes than the end of the stream, the command ends with `zlib.error` and status 1, although
`zlib.decompress` accepts the input. -/
theorem C98_bytes_after_the_end (z : ZInflater) (n : Nat) (s : Bytes) (m : Nat) (hm : 8196 * m < s.length)
    (hend : z.ended (s.take (8196 * m)) = true)
    (hprod : ∀ k, k < m → z.out (s.take (8196 * (k + 1))) ≠ z.out (s.take (8196 * k))) :
    z.inflate s = some (z.out (s.take (8196 * m))) ∧ (rawunzMain z n s).2 = some .zlibError ∧
      procStatus (rawunzMain z n s).2 = 1 := by
  have h := zCopy_trailing z n s m hm hend hprod (.new s) 0 (by omega) ⟨by simp [RawReader.new], by simp [RawReader.new]⟩
  refine ⟨?_, h, by unfold rawunzMain; rw [h]; rfl⟩
  have h1 := z.ended_mono _ (s.drop (8196 * m)) hend
  have h2 := z.ended_out _ (s.drop (8196 * m)) hend
  rw [List.take_append_drop] at h1 h2
  unfold ZInflater.inflate
  rw [if_pos h1, h2]

/-- A stored block without contents, and a last block with contents. -/
def emptyBlock : Bytes := [0x00, 0x00, 0x00, 0xFF, 0xFF]
def lastBlock : Bytes := [0x01, 0x02, 0x00, 0xFD, 0xFF, 0x48, 0x69]

theorem storedRun_empty (k : Nat) (rest : Bytes) :
    storedRun ((List.replicate k emptyBlock).flatten ++ rest) = storedRun rest := by
  induction k with
  | zero => rfl
  | succ k ih =>
    rw [List.replicate_succ, List.flatten_cons, List.append_assoc, storedRun.eq_def]
    simp only [emptyBlock, List.cons_append, List.nil_append]
    rw [if_neg (by decide), if_neg (by decide), if_neg (by simp), if_neg (by decide)]
    have : (0 : UInt8).toNat + 256 * (0 : UInt8).toNat = 0 := by decide
    simp only [this, List.take_zero, List.drop_zero, List.nil_append]
    exact ih

theorem storedRun_last : storedRun lastBlock = ([0x48, 0x69], .ended) := by
  rw [storedRun.eq_def]; rfl

/-- C98 fails for streams with a piece of 8196 bytes that adds nothing to the contents: the
output ends there, and the command succeeds.  The witness is a stream of 1640 empty stored blocks
followed by a block with two bytes. -/
theorem C98_early_end (n : Nat) :
    ∃ s : Bytes, storedInflater.inflate s = some [0x48, 0x69] ∧ rawunzMain storedInflater n s = ([], none) := by
  have hlen : ∀ k, ((List.replicate k emptyBlock).flatten).length = 5 * k := by
    intro k
    rw [List.length_flatten, List.map_replicate, List.sum_replicate_nat]
    have : emptyBlock.length = 5 := rfl
    rw [this]; omega
  refine ⟨(List.replicate 1640 emptyBlock).flatten ++ lastBlock, ?_, ?_⟩
  · unfold ZInflater.inflate storedInflater
    simp only [storedRun_empty, storedRun_last]
    rfl
  · have htake : ((List.replicate 1640 emptyBlock).flatten ++ lastBlock).take 8196 =
        (List.replicate 1639 emptyBlock).flatten ++ [0x00] := by
      have e : (List.replicate 1640 emptyBlock).flatten = (List.replicate 1639 emptyBlock).flatten ++ emptyBlock := by
        rw [show 1640 = 1639 + 1 from rfl, List.replicate_succ', List.flatten_append, List.flatten_singleton]
      rw [e, List.append_assoc, List.take_append, hlen, List.take_of_length_le (by rw [hlen]; omega)]
      rfl
    have hout : storedInflater.out ((List.replicate 1639 emptyBlock).flatten ++ [0x00]) = [] := by
      show (storedRun _).1 = []
      rw [storedRun_empty, storedRun.eq_def]
      rfl
    have hgood : storedInflater.bad ((List.replicate 1639 emptyBlock).flatten ++ [0x00]) = false := by
      show decide ((storedRun _).2 = .bad) = false
      rw [storedRun_empty, storedRun.eq_def]
      rfl
    unfold rawunzMain
    rw [zCopy]
    have hread : ∃ r, zRead storedInflater (n + 1) (.new ((List.replicate 1640 emptyBlock).flatten ++ lastBlock)) = .ok ([], r) := by
      unfold zRead RawReader.new
      rw [if_neg (by simp)]
      simp only [htake]
      unfold decodeChunk
      rw [if_neg (fun h => List.cons_ne_nil _ _ (List.append_eq_nil_iff.1 h).2), storedInflater.empty.2.1, if_neg (by simp), List.nil_append, hgood, if_neg (by simp)]
      have hf : storedInflater.feed [] ((List.replicate 1639 emptyBlock).flatten ++ [0x00]) = [] := by
        unfold Inflater.feed
        rw [List.nil_append, hout]
        simp
      simp only [hf, bind, Except.bind, pure, Except.pure, List.append_nil, List.length_nil]
      exact ⟨_, by rw [if_neg (by omega)]⟩
    obtain ⟨r, hr⟩ := hread
    split
    · rename_i e he; rw [hr] at he; cases he
    · rename_i d r' he
      rw [hr] at he
      cases he
      rfl

/- The last block alone, cut off, and with two more bytes. -/
example (n : Nat) : rawunzMain storedInflater n lastBlock = ([0x48, 0x69], none) :=
  C98_short_streams _ _ _ _ (by decide) (by unfold ZInflater.inflate storedInflater; simp only [storedRun_last]; rfl)
example (n : Nat) : rawunzMain storedInflater n (lastBlock.take 6) = ([0x48], none) := by
  have h : storedRun (lastBlock.take 6) = ([0x48], .more) := by rw [storedRun.eq_def]; rfl
  have := (C98_truncated_silently storedInflater n (lastBlock.take 6) (by decide)
    (by show decide ((storedRun _).2 = .bad) = false; rw [h]; rfl)
    (by show decide ((storedRun _).2 = .ended) = false; rw [h]; rfl)).2
  rw [this]
  show ((storedRun _).1, _) = _
  rw [h]
/- The end in the first piece, and a byte in the second. -/
example (n : Nat) : (rawunzMain storedInflater n (lastBlock ++ List.replicate 8190 0)).2 = some .zlibError := by
  have ht : (lastBlock ++ List.replicate 8190 (0 : UInt8)).take (8196 * 1) = lastBlock ++ List.replicate 8189 0 := by
    rw [List.take_append, List.take_of_length_le (by decide), List.take_replicate]; rfl
  have he : storedRun (lastBlock ++ List.replicate 8189 (0 : UInt8)) = ([0x48, 0x69], .ended) := by
    rw [(storedRun_mono _ lastBlock _ (Nat.le_refl _)).2.1 (by rw [storedRun_last]), storedRun_last]
  refine (C98_bytes_after_the_end storedInflater n (lastBlock ++ List.replicate 8190 0) 1 ?_ ?_ ?_).2.1
  · rw [List.length_append, List.length_replicate]; decide
  · rw [ht]; show decide ((storedRun _).2 = .ended) = true; rw [he]; rfl
  · intro k hk
    have : k = 0 := by omega
    subst this
    rw [ht]
    show (storedRun _).1 ≠ (storedRun _).1
    rw [he, Nat.mul_zero, List.take_zero, storedRun]
    simp

/-! ### diststream -/

theorem b2aHex_eq (data : Bytes) : (b2aHex data).map UInt8.toNat = hexBytes data := by
  unfold b2aHex hexBytes
  induction data with
  | nil => rfl
  | cons b bs ih =>
    rw [List.flatMap_cons, List.flatMap_cons, List.map_append, ih]
    congr 1
    have key : ∀ n : Fin 256, ([(if n.val / 16 < 10 then UInt8.ofNat (0x30 + n.val / 16) else UInt8.ofNat (0x61 + (n.val / 16 - 10))),
        (if n.val % 16 < 10 then UInt8.ofNat (0x30 + n.val % 16) else UInt8.ofNat (0x61 + (n.val % 16 - 10)))] : Bytes).map UInt8.toNat =
        lowerHex 2 n.val := by
      decide +kernel
    exact key ⟨b.toNat, b.toNat_lt⟩

/-- A character in lower case. -/
def lowerCase (c : Nat) : Nat := if 0x41 ≤ c ∧ c ≤ 0x5A then c + 0x20 else c

theorem hexDigitValue_of (c d : Nat) (hd : d < 16) (h : lowerCase c = (Nat.digitChar d).toNat) : hexDigitValue c = some d := by
  have key : ∀ d : Fin 16, (Nat.digitChar d.val).toNat = if d.val < 10 then 0x30 + d.val else 0x57 + d.val := by decide
  have := key ⟨d, hd⟩
  simp only at this
  rw [this] at h
  unfold lowerCase at h
  unfold hexDigitValue
  by_cases h10 : d < 10
  · rw [if_pos h10] at h
    split at h
    · omega
    · rw [if_pos (by omega)]; congr 1; omega
  · rw [if_neg h10] at h
    split at h
    · rw [if_neg (by omega), if_pos (by omega)]; congr 1; omega
    · rw [if_neg (by omega), if_neg (by omega), if_pos (by omega)]; congr 1; omega

theorem lowerHex_two : ∀ n : Fin 256, lowerHex 2 n.val = [(Nat.digitChar (n.val / 16)).toNat, (Nat.digitChar (n.val % 16)).toNat] := by
  decide +kernel

theorem a2bHex_of (digest : Bytes) : ∀ (t : PyStr), t.map lowerCase = hexBytes digest → a2bHex t = .ok digest := by
  induction digest with
  | nil =>
    intro t ht
    have : t = [] := by simpa [hexBytes] using ht
    subst this
    rfl
  | cons b bs ih =>
    intro t ht
    have e : hexBytes (b :: bs) = lowerHex 2 b.toNat ++ hexBytes bs := rfl
    rw [e, lowerHex_two ⟨b.toNat, b.toNat_lt⟩] at ht
    match t, ht with
    | [], ht => cases ht
    | [_], ht => simp at ht
    | x :: y :: t, ht =>
      simp only [List.map_cons, List.cons_append, List.nil_append, List.cons.injEq] at ht
      obtain ⟨h1, h2, h3⟩ := ht
      have hb := b.toNat_lt
      rw [a2bHex, hexDigitValue_of x _ (by omega) h1, hexDigitValue_of y _ (by omega) h2]
      simp only [ih t h3, bind, Except.bind, pure, Except.pure]
      have : 16 * (b.toNat / 16) + b.toNat % 16 = b.toNat := by omega
      rw [this]
      simp

/-- The first record of the stream of a distribution document. -/
theorem readRecord_head (head rest : Bytes) (hl : head.length = 256) :
    readRecord (headerBytes 0x1c 0 256 ++ head ++ rest) 0 = .ok (some (⟨0x1c, 0, 256, head, 0⟩, rest)) := by
  have := readRecord_bytes ⟨0x1c, 0, head⟩ ⟨by dsimp only; omega, by dsimp only; omega, by dsimp only; omega⟩
    (by intro e; simp only at e; rw [e] at hl; simp at hl) rest 0
  simpa [Spec.Rec.bytes, Spec.Rec.toRecord, hl] using this

/-- C98: `hwp5proc diststream --sha1` prints the digest that the head of the stream contains, in
lower case, and its bytes with `--raw`; the head has it as hexadecimal text in UTF-16, in upper or lower
case.  `--key` prints the key that decrypts the stream, which is the first 16 bytes of this text. -/
theorem C98_digest_and_key (head rest digest : Bytes) (t : PyStr) (ht : t.map lowerCase = hexBytes digest)
    (hh : decodeHeadToSha1 head = .ok (encodeUtf16le t)) :
    (∃ out, diststreamSha1 false (headerBytes 0x1c 0 256 ++ head ++ rest) = .ok out ∧ out.map UInt8.toNat = hexBytes digest) ∧
    diststreamSha1 true (headerBytes 0x1c 0 256 ++ head ++ rest) = .ok digest ∧
    diststreamKey true (headerBytes 0x1c 0 256 ++ head ++ rest) = .ok ((encodeUtf16le t).take 16) ∧
    (∃ out, diststreamKey false (headerBytes 0x1c 0 256 ++ head ++ rest) = .ok out ∧
      out.map UInt8.toNat = hexBytes ((encodeUtf16le t).take 16)) ∧
    ∀ aes, diststreamMain aes (headerBytes 0x1c 0 256 ++ head ++ rest) = ecbDecrypt aes ((encodeUtf16le t).take 16) rest := by
  have hl : head.length = 256 := by
    apply Classical.byContradiction
    intro h
    unfold decodeHeadToSha1 at hh
    rw [if_pos h] at hh
    cases hh
  have hr := readRecord_head head rest hl
  have hsc : ∀ c ∈ t, Scalar c := by
    intro c hc
    have : lowerCase c ∈ hexBytes digest := by rw [← ht]; exact List.mem_map_of_mem hc
    have hlt : lowerCase c < 0x80 := by
      unfold hexBytes at this
      obtain ⟨b, _, hb⟩ := List.mem_flatMap.1 this
      have key : ∀ n : Fin 256, ∀ c ∈ lowerHex 2 n.val, c < 0x80 := by decide +kernel
      exact key ⟨b.toNat, b.toNat_lt⟩ _ hb
    unfold lowerCase at hlt
    unfold Scalar
    split at hlt <;> omega
  have hdec : utf16leDecode (encodeUtf16le t) = .ok t := utf16leDecode_encode t hsc
  have hk : decodeHeadToKey head = .ok ((encodeUtf16le t).take 16) := by
    unfold decodeHeadToKey
    simp only [hh, bind, Except.bind, pure, Except.pure]
  refine ⟨⟨b2aHex digest, ?_, b2aHex_eq _⟩, ?_, ?_, ⟨b2aHex ((encodeUtf16le t).take 16), ?_, b2aHex_eq _⟩, ?_⟩
  · unfold diststreamSha1
    simp only [hr, hh, hdec, a2bHex_of digest t ht, bind, Except.bind, pure, Except.pure, orHex]
    rfl
  · unfold diststreamSha1
    simp only [hr, hh, hdec, a2bHex_of digest t ht, bind, Except.bind, pure, Except.pure, orHex]
    rfl
  · unfold diststreamKey
    simp only [hr, hk, bind, Except.bind, pure, Except.pure, orHex]
    rfl
  · unfold diststreamKey
    simp only [hr, hk, bind, Except.bind, pure, Except.pure, orHex]
    rfl
  · intro aes
    unfold diststreamMain distDecode
    simp only [hr, hk, bind, Except.bind, tagDistributeDocData, ne_eq, not_true_eq_false, if_false, Nat.reduceAdd, decryptTail]

/-- C98: nothing is printed for an empty input (`TypeError`) or a head of another size
(`ValueError`). -/
theorem C98_no_head (raw : Bool) (aes : Bytes → Bytes → Bytes) :
    diststreamSha1 raw [] = .error .typeError ∧ diststreamKey raw [] = .error .typeError ∧ diststreamMain aes [] = .error .typeError := by
  refine ⟨?_, ?_, ?_⟩
  · unfold diststreamSha1; rfl
  · unfold diststreamKey; rfl
  · unfold diststreamMain distDecode; rfl

/-! ### Both -/

/-- C98: the pipeline in the documentation, `hwp5proc cat --ole F ViewText/Section0 | hwp5proc diststream |
hwp5proc rawunz`, gives what `hwp5proc cat F ViewText/Section0` gives: for a compressed distribution
document and a section that is decrypted and inflated without errors, and whose compressed size is not
over 8196 bytes (or as in `C98_contents_partial`). -/
theorem C98_pipeline (z : ZInflater) (n : Nat) (aes : Bytes → Bytes → Bytes) (es sub : StgEntries) (d : Bytes) (h : Header)
    (f : Obj) (name : PyStr) (stored plain contents : Bytes)
    (hd : es.lookup (ustr "FileHeader") = some (.stream d)) (hh : header d = .ok h)
    (hf : hwp5File ⟨z.inflate, aes⟩ es = .ok f)
    (ht : es.lookup (ustr "ViewText") = some (.storage sub)) (hn : sub.lookup name = some (.stream stored))
    (h1 : h.flags.testBit 1 = false) (h2 : h.flags.testBit 2 = true) (h0 : h.flags.testBit 0 = true)
    (hp : diststreamMain aes stored = .ok plain) (hc : z.inflate plain = some contents) (hl : plain.length ≤ 8196) :
    rawunzMain z n plain = (contents, none) ∧
    (do
      let a ← f.getitem (ustr "ViewText")
      let b ← a.getitem name
      b.openRead ⟨z.inflate, aes⟩) = .ok contents := by
  refine ⟨C98_short_streams z n plain contents hl hc, ?_⟩
  rw [C47_inner_streams ⟨z.inflate, aes⟩ es sub d h f (ustr "ViewText") name stored hd hh hf ht hn (by decide)]
  unfold diststreamMain at hp
  unfold innerStream
  rw [h1, h2, h0]
  have m1 : ustr "ViewText" ∈ encryptedStorages.map ustr := by decide
  have m2 : ustr "ViewText" ∈ compressedStorages.map ustr := by decide
  simp only [Bool.false_eq_true, if_false, m1, m2, and_self, if_true, hp, bind, Except.bind, pure, Except.pure, hc,
    Option.getD_some]

/- A head with a digest of 20 bytes: the seed is 1, the digest begins at byte 5. -/
def sampleDigest : Bytes := (List.range 20).map fun i => UInt8.ofNat (13 * i)
/-- The head before it is encoded, and its encoding (the same operation). -/
def digestHead : Bytes :=
  decodeHead ([1, 0, 0, 0, 0] ++ encodeUtf16le ((hexBytes sampleDigest).map fun c => if 0x61 ≤ c then c - 0x20 else c) ++
    List.replicate 171 0)
example : diststreamSha1 false (headerBytes 0x1c 0 256 ++ digestHead) =
    .ok ("000d1a2734414e5b6875828f9ca9b6c3d0ddeaf7".toList.map fun c => UInt8.ofNat c.toNat) := by decide +kernel
example : diststreamKey false (headerBytes 0x1c 0 256 ++ digestHead) =
    .ok ("30003000300044003100410032003700".toList.map fun c => UInt8.ofNat c.toNat) := by decide +kernel

end Hwp.Props
