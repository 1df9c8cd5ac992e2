/-
C51-C54: readers over generators, JSON arrays, cached properties, the raw deflate reader.
-/
import Verif.Proofs.Utils
set_option linter.unusedSimpArgs false
namespace Hwp.Props
open Hwp Spec

/-! ### C51 -/

/-- Nothing is lost, added or reordered: any sized reads followed by `read()` deliver the
generated bytes. -/
theorem C51_reads_deliver_everything {α : Type} (chunks : List (List α)) (ns : List Nat) :
    ((GenReader.new chunks).reads ns).1.flatten ++ ((GenReader.new chunks).reads ns).2.readAll.1 =
      chunks.flatten := by
  have := GenReader.reads_pending ns (GenReader.new chunks)
  simpa [GenReader.pending, GenReader.readAll, GenReader.new] using this

/-- **Violated**: when the generator is exhausted, a sized read returns everything that is
left, which can be more than was asked for. -/
theorem C51_oversized :
    ((GenReader.new [[1, 2, 3, 4, 5, 6]]).reads [2, 2]).1 = [[1, 2], [3, 4, 5, 6]] := by decide

/-- A sized read returns exactly the requested number of bytes, or everything that is left
(and then the reader is empty). Missing from the claim: in the second case it may be more
than requested, see the counterexample. -/
theorem C51_sized_read_partial {α : Type} (r : GenReader α) (n : Nat) :
    (r.readN n).1.length = n ∨ ((r.readN n).1 = r.buffer ++ r.gen.flatten ∧ (r.readN n).2 = ⟨[], []⟩) := by
  rcases GenReader.readLoop_size n r.gen r.buffer with h | h
  · exact .inl h
  · right
    have := GenReader.readLoop_pending n r.gen r.buffer
    rw [h] at this
    exact ⟨by simpa [GenReader.pending, GenReader.readN] using this, h⟩

/-- While the generator has chunks left and there are enough bytes, a sized read returns
exactly the requested number. -/
theorem C51_exact_while_generating {α : Type} (r : GenReader α) (n : Nat) (hg : r.gen ≠ [])
    (hn : n ≤ (r.buffer ++ r.gen.flatten).length) : (r.readN n).1.length = n :=
  GenReader.readLoop_enough n r.gen r.buffer hg hn

example : ((GenReader.new [[1, 2, 3], [4], [], [5, 6]]).reads [2, 2, 1]).1 = [[1, 2], [3, 4], [5]] := by decide
example : ((GenReader.new [[1, 2, 3], [4], [], [5, 6]]).reads [2, 2, 1]).2.readAll.1 = [6] := by decide

/-! ### C52 -/

/-- For at least one value the output is a JSON array of the values. Missing from the
claim: the empty list. -/
theorem C52_json_array_partial {J : Type} (val : PyStr → J → Prop) (items : List (PyStr × J))
    (hv : ∀ p ∈ items, val p.1 p.2) (hne : items ≠ []) :
    JsonArray val (generateJsonArray (items.map Prod.fst)).flatten (items.map Prod.snd) := by
  have hnl : JsonSpace [0x0a] := by intro c hc; simp at hc; simp [hc]
  have key : ∀ (items : List (PyStr × J)) (p : PyStr × J), val p.1 p.2 → (∀ q ∈ items, val q.1 q.2) →
      ∃ t, JsonElements val t (p.2 :: items.map Prod.snd) ∧
        [0x0a] ++ p.1 ++ (jsonArrayLoop false (items.map Prod.fst)).flatten = t ++ [0x5d] := by
    intro items
    induction items with
    | nil =>
      intro p hp _
      refine ⟨[0x0a] ++ p.1 ++ [0x0a], .one _ _ _ _ hnl hp hnl, ?_⟩
      simp [jsonArrayLoop]
    | cons q items ih =>
      intro p hp hq
      obtain ⟨t, h1, h2⟩ := ih q (hq q (by simp)) (fun x hx => hq x (by simp [hx]))
      refine ⟨[0x0a] ++ p.1 ++ [] ++ 0x2c :: t, .more _ _ _ _ _ _ hnl hp (by intro c hc; simp at hc) h1, ?_⟩
      have : ([0x0a] ++ p.1 ++ [] ++ 0x2c :: t) ++ [0x5d] = [0x0a] ++ p.1 ++ 0x2c :: (t ++ [0x5d]) := by simp
      rw [this, ← h2]
      simp [jsonArrayLoop]
  cases items with
  | nil => exact absurd rfl hne
  | cons p items =>
    obtain ⟨t, h1, h2⟩ := key items p (hv p (by simp)) (fun x hx => hv x (by simp [hx]))
    have e : (generateJsonArray ((p :: items).map Prod.fst)).flatten = 0x5b :: t ++ [0x5d] := by
      have : (0x5b :: t ++ [0x5d] : PyStr) = 0x5b :: (t ++ [0x5d]) := rfl
      rw [this, ← h2]
      simp [generateJsonArray, jsonArrayLoop]
    rw [e]
    exact .elements _ _ h1

/-- **Violated**: for the empty list the output is `\n]`, which is no JSON array whatever
the values are. -/
theorem C52_empty_not_json {J : Type} (val : PyStr → J → Prop) (vs : List J) :
    ¬ JsonArray val (generateJsonArray []).flatten vs := by
  intro h
  have e : (generateJsonArray []).flatten = [0x0a, 0x5d] := rfl
  rw [e] at h
  generalize hs : ([0x0a, 0x5d] : PyStr) = s at h
  cases h with
  | empty ws _ => simp at hs
  | elements t vs _ => simp at hs

/-- `["1", "2"]`. -/
example : (generateJsonArray [[0x31], [0x32]]).flatten =
    [0x5b, 0x0a, 0x31, 0x2c, 0x0a, 0x32, 0x0a, 0x5d] := by decide

/-! ### C53 -/

/-- If the function's call number `m` is the first that returns, `m` accesses raise what
the calls raise, and every later access returns the value of call `m`; the function is
never called again. -/
theorem C53_first_value_stays {V : Type} (func : Nat → Except PyErr V) (m n : Nat) (v : V)
    (herr : ∀ j, j < m → ∃ e, func j = .error e) (hv : func m = .ok v) :
    propHistory func ⟨none, 0⟩ (List.replicate (m + (n + 1)) .get) =
      ((List.range m).map func ++ List.replicate (n + 1) (.ok v), ⟨some v, m + 1⟩) := by
  rw [← List.replicate_append_replicate, history_append]
  rw [history_error func m 0 (fun j hj => by simpa using herr j hj)]
  simp only [Nat.zero_add]
  rw [List.replicate_succ, propHistory, cachedGet]
  dsimp only
  rw [hv]
  dsimp only
  rw [history_cached]
  simp [List.replicate_succ]

/-- For a function that returns at once: one call, and all accesses give that value. -/
theorem C53_called_once {V : Type} (func : Nat → Except PyErr V) (n : Nat) (v : V) (hv : func 0 = .ok v) :
    propHistory func ⟨none, 0⟩ (List.replicate (n + 1) .get) = (List.replicate (n + 1) (.ok v), ⟨some v, 1⟩) := by
  have := C53_first_value_stays func 0 n v (by intro j hj; omega) hv
  simpa using this

/-- After an assignment the accesses return the assigned value and the function is not
called. -/
theorem C53_assignment {V : Type} (func : Nat → Except PyErr V) (n : Nat) (st : PropSt V) (v : V) :
    propHistory func st (.set v :: List.replicate n .get) = (List.replicate n (.ok v), ⟨some v, st.calls⟩) := by
  rw [propHistory, cachedSet]
  exact history_cached func v n st.calls

/-- In any history of accesses and assignments the function is not called once a value is
known. -/
theorem C53_no_call_when_known {V : Type} (func : Nat → Except PyErr V) (ops : List (PropOp V)) :
    ∀ st : PropSt V, st.cached.isSome → (propHistory func st ops).2.calls = st.calls := by
  induction ops with
  | nil => intro st _; rfl
  | cons op ops ih =>
    intro st h
    obtain ⟨c, k⟩ := st
    cases c with
    | none => simp at h
    | some w =>
      cases op with
      | get => exact ih ⟨some w, k⟩ rfl
      | set v => exact ih ⟨some v, k⟩ rfl

example : propHistory (fun k => if k = 0 then .error .ioError else .ok (10 + k)) ⟨none, 0⟩ [.get, .get, .get, .set 7, .get] =
    ([.error .ioError, .ok 11, .ok 11, .ok 7], ⟨some 7, 2⟩) := by decide

/-! ### C54 -/

/-- Sized reads followed by `read()` deliver the inflated stream. -/
theorem C54_reads_then_all (i : Inflater) (stream : Bytes) (ns : List Nat) :
    i.out [] ++ (((RawReader.new stream).reads i ns).1.flatten ++
      (((RawReader.new stream).reads i ns).2.readAll i).1) = i.out stream := by
  have h := RawReader.reads_pending i ns (RawReader.new stream)
  unfold RawReader.readAll
  unfold RawReader.pending at h
  dsimp only
  rw [h]
  exact i.out_feed [] stream

/-- No sized read returns more than requested, and `tell()` counts what was delivered. -/
theorem C54_size_and_offset (i : Inflater) (r : RawReader) (n : Nat) :
    (r.readN i n).1.length ≤ n ∧ (r.readN i n).2.offset = r.offset + (r.readN i n).1.length :=
  ⟨RawReader.readLoop_size i n false r, RawReader.readLoop_offset i n false r⟩

/-- An inflater whose first 8196 input bytes produce nothing (as a long row of empty
deflate blocks does) and that produces one byte for each further input byte. -/
def lateInflater : Inflater where
  out := fun p => p.drop 8196
  mono := by
    intro p c
    rw [List.drop_append]
    exact List.prefix_append _ _

/-- **Violated**: a sized read returns nothing although there is more: the loop ends after
one chunk, because `len(c) < 8196 or len(c)` is always true. -/
theorem C54_early_end (s : Bytes) (hs : 8196 < s.length) (n : Nat) (hn : 0 < n) :
    ((RawReader.new s).readN lateInflater n).1 = [] ∧ lateInflater.out s ≠ [] := by
  constructor
  · unfold RawReader.readN
    rw [RawReader.readLoop]
    have e2 : (RawReader.new s).buffer = [] := rfl
    rw [if_neg (by rw [e2]; simp; omega), if_neg (by simp)]
    dsimp only
    rw [RawReader.isFinal_true, RawReader.readLoop]
    have e : lateInflater.feed (RawReader.new s).fed (List.take 8196 (RawReader.new s).stream) = [] := by
      unfold Inflater.feed RawReader.new lateInflater
      dsimp only
      rw [List.nil_append, List.drop_of_length_le (l := s.take 8196) (by rw [List.length_take]; omega)]
      rfl
    rw [e, e2]
    rw [if_neg (by simp; omega), if_pos rfl]
    rfl
  · unfold lateInflater
    dsimp only
    intro h
    have := congrArg List.length h
    rw [List.length_drop] at this
    simp at this
    omega

/-- If the whole stream fits into one chunk, reading until nothing is returned delivers
everything: a sized read returns nothing only when nothing is left. Missing from the claim:
longer streams, see the counterexample. -/
theorem C54_end_partial (i : Inflater) (r : RawReader) (n : Nat) (hn : 0 < n)
    (hs : r.stream.length ≤ 8196) (he : (r.readN i n).1 = []) :
    r.buffer ++ i.feed r.fed r.stream = [] := by
  unfold RawReader.readN at he
  rw [RawReader.readLoop] at he
  split at he
  · rename_i h
    dsimp only at he
    have : (r.buffer.take n).length = n := by rw [List.length_take]; omega
    rw [he] at this
    simp at this
    omega
  · rw [if_neg (by simp)] at he
    dsimp only at he
    rw [RawReader.isFinal_true, RawReader.readLoop] at he
    rw [List.take_of_length_le hs] at he
    split at he
    · rename_i h
      dsimp only at he h
      have : ((r.buffer ++ i.feed r.fed r.stream).take n).length = n := by rw [List.length_take]; omega
      rw [he] at this
      simp at this
      omega
    · rw [if_pos rfl] at he
      exact he

/-- The chunks of `decompress_gen` make up the inflated stream, whatever the buffer
size. -/
theorem C54_decompress_gen (i : Inflater) (n : Nat) (source : Bytes) :
    i.out [] ++ (decompressGen i n [] source).flatten = i.out source := by
  rw [decompressGen_flatten]
  exact i.out_feed [] source

/-- An inflater for examples: every byte is produced twice. -/
def twice : Inflater where
  out := fun p => p.flatMap fun b => [b, b]
  mono := by intro p c; rw [List.flatMap_append]; exact List.prefix_append _ _
example : ((RawReader.new [1, 2, 3]).reads twice [1, 4, 2]).1 = [[1], [1, 2, 2, 3], [3]] := by decide +kernel
example : decompressGen twice 1 [] [1, 2, 3] = [[1, 1, 2, 2], [3, 3]] := by decide +kernel

end Hwp.Props
