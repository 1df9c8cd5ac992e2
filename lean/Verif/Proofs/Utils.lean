/- Lemmas about readers, cached properties and JSON arrays. -/
import Verif.Spec.Utils
set_option linter.unusedSimpArgs false
namespace Hwp
open Spec

namespace GenReader
variable {α : Type}

/-- What a reader still has to deliver. -/
def pending (r : GenReader α) : List α := r.buffer ++ r.gen.flatten

theorem readLoop_pending (size : Nat) (gen : List (List α)) : ∀ buffer,
    (readLoop size gen buffer).1 ++ (readLoop size gen buffer).2.pending = buffer ++ gen.flatten := by
  induction gen with
  | nil => intro b; simp [readLoop, pending]
  | cons d gen ih =>
    intro b
    rw [readLoop]
    split
    · dsimp only [pending]
      rw [← List.append_assoc, List.take_append_drop]
      simp
    · rw [ih]; simp

theorem readLoop_size (size : Nat) (gen : List (List α)) : ∀ buffer,
    (readLoop size gen buffer).1.length = size ∨ (readLoop size gen buffer).2 = ⟨[], []⟩ := by
  induction gen with
  | nil => intro b; exact .inr rfl
  | cons d gen ih =>
    intro b
    rw [readLoop]
    split
    · rename_i h
      left
      dsimp only
      rw [List.length_take]; omega
    · exact ih _

/-- Enough left and not everything generated: exactly the requested number. -/
theorem readLoop_enough (size : Nat) (gen : List (List α)) : ∀ buffer, gen ≠ [] →
    size ≤ (buffer ++ gen.flatten).length → (readLoop size gen buffer).1.length = size := by
  induction gen with
  | nil => intro b h; exact absurd rfl h
  | cons d gen ih =>
    intro b _ hs
    rw [readLoop]
    split
    · dsimp only
      rw [List.length_take]; omega
    · rename_i hlt
      simp only [List.flatten_cons, List.length_append] at hs hlt
      apply ih
      · rintro rfl
        simp at hs
        omega
      · simp only [List.length_append]; omega

theorem reads_pending (ns : List Nat) : ∀ r : GenReader α,
    (r.reads ns).1.flatten ++ (r.reads ns).2.pending = r.pending := by
  induction ns with
  | nil => intro r; simp [reads]
  | cons n ns ih =>
    intro r
    rw [reads]
    dsimp only
    rw [List.flatten_cons, List.append_assoc, ih]
    exact readLoop_pending n r.gen r.buffer
end GenReader

/-! ### Cached properties -/

theorem history_cached {V : Type} (func : Nat → Except PyErr V) (v : V) (n k : Nat) :
    propHistory func ⟨some v, k⟩ (List.replicate n .get) = (List.replicate n (.ok v), ⟨some v, k⟩) := by
  induction n with
  | zero => rfl
  | succ n ih =>
    simp only [List.replicate_succ, propHistory, cachedGet]
    rw [ih]

theorem history_error {V : Type} (func : Nat → Except PyErr V) (m : Nat) : ∀ (k : Nat),
    (∀ j, j < m → ∃ e, func (k + j) = .error e) →
    propHistory func ⟨none, k⟩ (List.replicate m .get) = ((List.range m).map (fun j => func (k + j)), ⟨none, k + m⟩) := by
  induction m with
  | zero => intro k _; rfl
  | succ m ih =>
    intro k h
    obtain ⟨e, he⟩ := h 0 (by omega)
    rw [Nat.add_zero] at he
    simp only [List.replicate_succ, propHistory, cachedGet]
    rw [he]
    dsimp only
    rw [ih (k + 1) (fun j hj => by
      obtain ⟨e, he⟩ := h (j + 1) (by omega)
      exact ⟨e, by rw [← he]; congr 1; omega⟩)]
    rw [List.range_succ_eq_map]
    simp only [List.map_cons, List.map_map, Nat.add_zero, he]
    congr 1
    · congr 1
      apply List.map_congr_left
      intro j _
      dsimp only [Function.comp]
      congr 1; omega
    · congr 1; omega

theorem history_append {V : Type} (func : Nat → Except PyErr V) (a b : List (PropOp V)) : ∀ st : PropSt V,
    propHistory func st (a ++ b) =
      ((propHistory func st a).1 ++ (propHistory func (propHistory func st a).2 b).1,
       (propHistory func (propHistory func st a).2 b).2) := by
  induction a with
  | nil => intro st; simp [propHistory]
  | cons op a ih =>
    intro st
    cases op with
    | get => simp [propHistory, ih]
    | set v => simp [propHistory, ih]

/-! ### Inflating readers -/

theorem Inflater.out_feed (i : Inflater) (fed c : Bytes) : i.out fed ++ i.feed fed c = i.out (fed ++ c) := by
  obtain ⟨t, ht⟩ := i.mono fed c
  unfold Inflater.feed
  rw [← ht]
  simp

namespace RawReader

/-- What the reader delivers when everything is read. -/
def pending (i : Inflater) (r : RawReader) : Bytes := r.buffer ++ i.feed r.fed r.stream

theorem feed_split (i : Inflater) (fed a b : Bytes) :
    i.feed fed (a ++ b) = i.feed fed a ++ i.feed (fed ++ a) b := by
  have h1 := i.out_feed fed (a ++ b)
  have h2 := i.out_feed fed a
  have h3 := i.out_feed (fed ++ a) b
  rw [List.append_assoc] at h3
  rw [← h3, ← h2, List.append_assoc] at h1
  exact List.append_cancel_left h1

theorem readLoop_pending (i : Inflater) (size : Nat) (final : Bool) (r : RawReader) :
    (readLoop i size final r).1 ++ (readLoop i size final r).2.pending i = r.pending i := by
  fun_induction readLoop i size final r with
  | case1 final r h =>
    simp only [pending]
    rw [← List.append_assoc, List.take_append_drop]
  | case2 r h => simp [pending]
  | case3 final r h hf c ih =>
    rw [ih]
    simp only [pending]
    have e : r.stream = c ++ r.stream.drop 8196 := (List.take_append_drop 8196 r.stream).symm
    have e2 : i.feed r.fed r.stream = i.feed r.fed c ++ i.feed (r.fed ++ c) (r.stream.drop 8196) := by
      rw [← feed_split, ← e]
    rw [e2, List.append_assoc]

theorem readLoop_size (i : Inflater) (size : Nat) (final : Bool) (r : RawReader) :
    (readLoop i size final r).1.length ≤ size := by
  fun_induction readLoop i size final r with
  | case1 final r h => simp; omega
  | case2 r h => dsimp only; omega
  | case3 final r h hf c ih => exact ih

theorem readLoop_offset (i : Inflater) (size : Nat) (final : Bool) (r : RawReader) :
    (readLoop i size final r).2.offset = r.offset + (readLoop i size final r).1.length := by
  fun_induction readLoop i size final r with
  | case1 final r h => simp; omega
  | case2 r h => rfl
  | case3 final r h hf c ih => exact ih

theorem reads_pending (i : Inflater) (ns : List Nat) : ∀ r : RawReader,
    (r.reads i ns).1.flatten ++ (r.reads i ns).2.pending i = r.pending i := by
  induction ns with
  | nil => intro r; simp [reads]
  | cons n ns ih =>
    intro r
    rw [reads]
    dsimp only
    rw [List.flatten_cons, List.append_assoc, ih]
    exact readLoop_pending i n false r

theorem isFinal_true (c : Bytes) : isFinal c = true := by
  unfold isFinal
  cases h : c.length with
  | zero => rfl
  | succ n => simp

end RawReader

theorem decompressGen_flatten (i : Inflater) (n : Nat) (fed source : Bytes) :
    (decompressGen i n fed source).flatten = i.feed fed source := by
  fun_induction decompressGen i n fed source with
  | case1 fed source h =>
    rw [List.length_take] at h
    rw [List.take_of_length_le (by omega)]
    simp
  | case2 fed source h ih =>
    rw [List.flatten_cons, ih, ← RawReader.feed_split, List.take_append_drop]

end Hwp
