/-
Proofs about the commands on streams.
-/
import Verif.Model.Rawunz
import Verif.Proofs.Utils
set_option linter.unusedSimpArgs false
set_option linter.unusedVariables false
namespace Hwp

/-! ### Inflate -/

theorem feed_nil (i : Inflater) (p : Bytes) : i.feed p [] = [] := by
  unfold Inflater.feed; simp

theorem out_feed (i : Inflater) (p c : Bytes) : i.out p ++ i.feed p c = i.out (p ++ c) := by
  obtain ⟨t, ht⟩ := i.mono p c
  unfold Inflater.feed
  rw [← ht]
  simp

theorem feed_append (i : Inflater) (p c d : Bytes) : i.feed p (c ++ d) = i.feed p c ++ i.feed (p ++ c) d := by
  have h1 := out_feed i p (c ++ d)
  have h2 := out_feed i p c
  have h3 := out_feed i (p ++ c) d
  rw [← h2, List.append_assoc, List.append_assoc, ← h1] at h3
  exact (List.append_cancel_left h3).symm

/-- What a reader has still to give. -/
def zRest (z : ZInflater) (r : RawReader) : Bytes := r.buffer ++ z.feed r.fed r.stream

theorem zRead_ok (z : ZInflater) (size : Nat) (r r' : RawReader) (d : Bytes) (h : zRead z size r = .ok (d, r')) :
    zRest z r = d ++ zRest z r' ∧
    ((r'.fed = r.fed ∧ r'.stream = r.stream ∧ size ≤ r.buffer.length ∧ d = r.buffer.take size) ∨
     (r'.fed = r.fed ++ r.stream.take 8196 ∧ r'.stream = r.stream.drop 8196 ∧ r.buffer.length < size ∧
      d = (r.buffer ++ z.feed r.fed (r.stream.take 8196)).take size)) := by
  unfold zRead at h
  split at h
  · rename_i hle
    cases h
    refine ⟨?_, .inl ⟨rfl, rfl, hle, rfl⟩⟩
    unfold zRest
    simp only [← List.append_assoc, List.take_append_drop]
  · rename_i hlt
    simp only [bind, Except.bind, pure, Except.pure] at h
    split at h
    · cases h
    · rename_i x hx
      have hx' : x = z.feed r.fed (r.stream.take 8196) := by
        unfold decodeChunk at hx
        split at hx
        · rename_i hn
          cases hx
          rw [hn, feed_nil]
        · split at hx
          · cases hx
          · split at hx
            · cases hx
            · cases hx; rfl
      have hf : z.feed r.fed r.stream = x ++ z.feed (r.fed ++ r.stream.take 8196) (r.stream.drop 8196) := by
        rw [hx', ← feed_append, List.take_append_drop]
      split at h
      · cases h
        refine ⟨?_, .inr ⟨rfl, rfl, by omega, by rw [← hx']⟩⟩
        unfold zRest
        simp only [← List.append_assoc, List.take_append_drop, hf]
      · rename_i hb
        cases h
        refine ⟨?_, .inr ⟨rfl, rfl, by omega, by rw [← hx', List.take_of_length_le (by omega)]⟩⟩
        unfold zRest
        simp only [← List.append_assoc, List.take_append_drop, hf, List.append_nil, List.nil_append]

/-- Only what the stream contains is written, in its order. -/
theorem zCopy_prefix (z : ZInflater) (n : Nat) (r : RawReader) : (zCopy z n r).1 <+: zRest z r := by
  fun_induction zCopy z n r with
  | case1 r e h => exact List.nil_prefix
  | case2 r r' h => exact List.nil_prefix
  | case3 r d r' h hd rest ih =>
    obtain ⟨h1, _⟩ := zRead_ok z _ r r' d h
    rw [h1]
    exact (List.prefix_append_right_inj d).2 ih

/-- The reader stands after `k` chunks of `s`. -/
def AtChunk (s : Bytes) (k : Nat) (r : RawReader) : Prop := r.fed = s.take (8196 * k) ∧ r.stream = s.drop (8196 * k)

theorem atChunk_next (s : Bytes) (k : Nat) (r : RawReader) (h : AtChunk s k r) :
    r.fed ++ r.stream.take 8196 = s.take (8196 * (k + 1)) ∧ r.stream.drop 8196 = s.drop (8196 * (k + 1)) := by
  obtain ⟨h1, h2⟩ := h
  rw [h1, h2]
  constructor
  · rw [← List.take_add]; congr 1
  · rw [List.drop_drop]; congr 1

theorem zRead_empty (z : ZInflater) (size : Nat) (hs : 0 < size) (r r' : RawReader) (h : zRead z size r = .ok ([], r')) :
    r.buffer = [] ∧ z.feed r.fed (r.stream.take 8196) = [] := by
  obtain ⟨_, h | h⟩ := zRead_ok z size r r' [] h
  · obtain ⟨_, _, h3, h4⟩ := h
    have := congrArg List.length h4
    rw [List.length_take] at this
    simp only [List.length_nil] at this
    omega
  · obtain ⟨_, _, h3, h4⟩ := h
    have := congrArg List.length h4
    rw [List.length_take] at this
    simp only [List.length_nil, List.length_append] at this
    constructor <;> (apply List.eq_nil_of_length_eq_zero; omega)

theorem zRead_error (z : ZInflater) (size : Nat) (r : RawReader) (e : PyErr) (h : zRead z size r = .error e) :
    e = .zlibError ∧ r.stream ≠ [] ∧ (z.ended r.fed = true ∨ z.bad (r.fed ++ r.stream.take 8196) = true) := by
  unfold zRead at h
  split at h
  · cases h
  · simp only [bind, Except.bind, pure, Except.pure] at h
    split at h
    · rename_i e' he
      cases h
      unfold decodeChunk at he
      split at he
      · cases he
      · rename_i hn
        have hne : r.stream ≠ [] := by
          intro h0
          rw [h0] at hn
          simp at hn
        split at he
        · rename_i hh; cases he; exact ⟨rfl, hne, .inl hh⟩
        · split at he
          · rename_i hh; cases he; exact ⟨rfl, hne, .inr hh⟩
          · cases he
    · split at h <;> cases h

theorem zRead_ended (z : ZInflater) (size : Nat) (r : RawReader) (hl : r.buffer.length < size) (hne : r.stream.take 8196 ≠ [])
    (he : z.ended r.fed = true) : zRead z size r = .error .zlibError := by
  unfold zRead
  rw [if_neg (by omega)]
  have : decodeChunk z r.fed (r.stream.take 8196) = .error .zlibError := by
    unfold decodeChunk
    rw [if_neg hne, if_pos he]
  simp only [this, bind, Except.bind]

theorem bad_take (z : ZInflater) (s : Bytes) (m : Nat) (h : z.bad (s.take m) = true) : z.bad s = true := by
  have := z.bad_mono (s.take m) (s.drop m) h
  rwa [List.take_append_drop] at this

theorem zCopy_complete (z : ZInflater) (n : Nat) (s : Bytes) (hbad : z.bad s = false)
    (hend : ∀ k, 8196 * k < s.length → z.ended (s.take (8196 * k)) = false)
    (hprod : ∀ k, 8196 * (k + 1) < s.length → z.out (s.take (8196 * (k + 1))) ≠ z.out (s.take (8196 * k)))
    (r : RawReader) : ∀ k, AtChunk s k r → zCopy z n r = (zRest z r, none) := by
  fun_induction zCopy z n r with
  | case1 r e h =>
    intro k hk
    exfalso
    obtain ⟨_, hne, h1 | h1⟩ := zRead_error z _ r e h
    · rw [hk.1, hend k] at h1
      · cases h1
      · rw [hk.2] at hne
        have := List.length_pos_iff.2 hne
        rw [List.length_drop] at this
        omega
    · rw [(atChunk_next s k r hk).1] at h1
      rw [bad_take z s _ h1] at hbad
      cases hbad
  | case2 r r' h =>
    intro k hk
    obtain ⟨h1, h2⟩ := zRead_empty z _ (by omega) r r' h
    have : zRest z r = [] := by
      unfold zRest
      rw [h1, List.nil_append]
      by_cases hl : 8196 * (k + 1) < s.length
      · exfalso
        apply hprod k hl
        have := out_feed z.toInflater r.fed (r.stream.take 8196)
        rw [h2, List.append_nil, (atChunk_next s k r hk).1, hk.1] at this
        exact this.symm
      · have : r.stream.take 8196 = r.stream := by
          apply List.take_of_length_le
          rw [hk.2, List.length_drop]
          omega
        rwa [this] at h2
    rw [this]
  | case3 r d r' h hd rest ih =>
    intro k hk
    obtain ⟨h1, h2⟩ := zRead_ok z _ r r' d h
    have hr : zCopy z n r' = (zRest z r', none) := by
      rcases h2 with ⟨a, b, _⟩ | ⟨a, b, _⟩
      · exact ih k ⟨a.trans hk.1, b.trans hk.2⟩
      · exact ih (k + 1) ⟨a.trans (atChunk_next s k r hk).1, b.trans (atChunk_next s k r hk).2⟩
    rw [h1]
    show (d ++ (zCopy z n r').1, (zCopy z n r').2) = _
    rw [hr]

theorem zCopy_error (z : ZInflater) (n : Nat) (r : RawReader) (e : PyErr) (he : (zCopy z n r).2 = some e) : e = .zlibError := by
  fun_induction zCopy z n r with
  | case1 r e' h => cases he; exact (zRead_error z _ r _ h).1
  | case2 r r' h => cases he
  | case3 r d r' h hd rest ih => exact ih he

theorem zCopy_trailing (z : ZInflater) (n : Nat) (s : Bytes) (m : Nat) (hm : 8196 * m < s.length)
    (hend : z.ended (s.take (8196 * m)) = true)
    (hprod : ∀ k, k < m → z.out (s.take (8196 * (k + 1))) ≠ z.out (s.take (8196 * k)))
    (r : RawReader) : ∀ k, k ≤ m → AtChunk s k r → (zCopy z n r).2 = some .zlibError := by
  fun_induction zCopy z n r with
  | case1 r e h =>
    intro k _ hk
    obtain ⟨rfl, _⟩ := zRead_error z _ r e h
    rfl
  | case2 r r' h =>
    intro k hle hk
    exfalso
    obtain ⟨h1, h2⟩ := zRead_empty z _ (by omega) r r' h
    by_cases he : k = m
    · subst he
      have hne : r.stream.take 8196 ≠ [] := by
        intro h0
        have := congrArg List.length h0
        rw [hk.2, List.length_take, List.length_drop, List.length_nil] at this
        omega
      rw [zRead_ended z _ r (by rw [h1]; simp) hne (by rw [hk.1]; exact hend)] at h
      cases h
    · apply hprod k (by omega)
      have := out_feed z.toInflater r.fed (r.stream.take 8196)
      rw [h2, List.append_nil, (atChunk_next s k r hk).1, hk.1] at this
      exact this.symm
  | case3 r d r' h hd rest ih =>
    intro k hle hk
    obtain ⟨h1, h2⟩ := zRead_ok z _ r r' d h
    have hr : (zCopy z n r').2 = some .zlibError := by
      rcases h2 with ⟨a, b, _⟩ | ⟨a, b, hlt, _⟩
      · exact ih k hle ⟨a.trans hk.1, b.trans hk.2⟩
      · refine ih (k + 1) ?_ ⟨a.trans (atChunk_next s k r hk).1, b.trans (atChunk_next s k r hk).2⟩
        by_cases he : k = m
        · subst he
          exfalso
          have hne : r.stream.take 8196 ≠ [] := by
            intro h0
            have := congrArg List.length h0
            rw [hk.2, List.length_take, List.length_drop, List.length_nil] at this
            omega
          rw [zRead_ended z _ r hlt hne (by rw [hk.1]; exact hend)] at h
          cases h
        · omega
    exact hr

end Hwp
