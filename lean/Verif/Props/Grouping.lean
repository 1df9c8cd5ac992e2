/-
Properties C05–C07 and C58: grouping, selection and linking of records.
-/
import Verif.Proofs.Grouping
set_option linter.unusedSimpArgs false
namespace Hwp.Props
open Hwp Hwp.Spec

/-! ### C05 -/

/-- C05: the groups of any record sequence are nonempty, concatenate to the
sequence, each but the first starts with a level-0 record, and no other record
of a group has level 0. -/
theorem C05_groups_partition (records : List Record) :
    ∃ gs, groupByTop (.ofList records) = ⟨gs, none⟩ ∧
      gs.flatten = records ∧
      (∀ g ∈ gs, g ≠ []) ∧
      (∀ g ∈ gs.tail, ∃ r t, g = r :: t ∧ r.level = 0) ∧
      (∀ g ∈ gs, ∀ r ∈ g.tail, r.level ≠ 0) := by
  cases records with
  | nil => exact ⟨[], rfl, by simp⟩
  | cons r rs =>
    obtain ⟨h1, h2, -⟩ := groupLoop_ok r rs
    refine ⟨(groupLoop r rs none).out, ?_, h2.flat, h2.nonempty, h2.heads, h2.inner⟩
    show groupLoop r rs none = _
    exact Gen.ext rfl h1

example : (groupByTop (.ofList
    [⟨1, 2, 0, [], 0⟩, ⟨2, 1, 0, [], 1⟩, ⟨3, 0, 0, [], 2⟩, ⟨4, 1, 0, [], 3⟩, ⟨5, 0, 0, [], 4⟩])).out.map
      (·.map (·.seqno)) = [[0, 1], [2, 3], [4]] := by decide +kernel

/-- C05 when reading fails: the exception is passed on and the groups delivered
before are those of the successful prefix, without the unfinished last one. -/
theorem C05_groups_failing_source (records : List Record) (e : PyErr) :
    groupByTop ⟨records, some e⟩ =
      ⟨(groupByTop (.ofList records)).out.dropLast, some e⟩ := by
  cases records with
  | nil => rfl
  | cons r rs =>
    obtain ⟨h1, h2⟩ := groupLoop_err r rs e
    show groupLoop r rs (some e) = ⟨(groupLoop r rs none).out.dropLast, some e⟩
    exact Gen.ext h2 h1

/-! ### C06 -/

/-- C06: selecting a range returns exactly the records numbered `a .. b-1`
(as far as they exist), element by element. -/
theorem C06_range (s : Bytes) (a b i : Nat) :
    (recordsRange s a b).out[i]? =
      (if a + i < b then (readRecords s).out[a + i]? else none) ∧
    (∀ r, (recordsRange s a b).out[i]? = some r → r.seqno = a + i) := by
  have h1 : (recordsRange s a b).out[i]? =
      (if a + i < b then (readRecords s).out[a + i]? else none) := by
    simp only [recordsRange, islice, List.getElem?_drop, List.getElem?_take]
  refine ⟨h1, ?_⟩
  intro r hr
  rw [h1] at hr
  split at hr
  · exact readRecords_seqno_at hr
  · cases hr

/-- C06: a range inside the readable part is delivered without error even if
reading would fail later; a range reaching beyond it reports the failure. -/
theorem C06_range_err (s : Bytes) (a b : Nat) :
    (max a b ≤ (readRecords s).out.length → (recordsRange s a b).err = none) ∧
    ((readRecords s).out.length < max a b → (recordsRange s a b).err = (readRecords s).err) := by
  simp only [recordsRange, islice]
  constructor
  · intro h; rw [if_pos h]
  · intro h; rw [if_neg (by omega)]

/-- C06: `record(i)` is the record with sequence number `i`, `None` when the
stream has fewer records. -/
theorem C06_record (s : Bytes) (n : Nat) (h : (readRecords s).err = none) :
    (∀ r, recordAt s n = .ok (some r) ↔ r ∈ (readRecords s).out ∧ r.seqno = n) ∧
    (recordAt s n = .ok none ↔ (readRecords s).out.length ≤ n) := by
  simp only [recordAt, nth]
  constructor
  · intro r
    constructor
    · intro hr
      cases h1 : (readRecords s).out[n]? with
      | none => simp [h1, h] at hr
      | some r' =>
        simp [h1] at hr; subst hr
        exact ⟨List.mem_of_getElem? h1, readRecords_seqno_at h1⟩
    · rintro ⟨hm, hn⟩
      obtain ⟨i, hi, he⟩ := List.getElem_of_mem hm
      have h2 : (readRecords s).out[i]? = some r := by
        rw [List.getElem?_eq_some_iff]; exact ⟨hi, he⟩
      have hin : i = n := by rw [← readRecords_seqno_at h2]; exact hn
      subst hin
      simp [h2]
  · cases h1 : (readRecords s).out[n]? with
    | none => simp [h]; exact List.getElem?_eq_none_iff.1 h1
    | some r => simp; exact (List.getElem?_eq_some_iff.1 h1).1

/-- C06: in a stream that becomes unreadable, the records before that place are found;
asking for a record behind it raises the exception instead of giving `None`. -/
theorem C06_record_unreadable (s : Bytes) (e : PyErr) (h : (readRecords s).err = some e) (n : Nat) :
    (∀ r ∈ (readRecords s).out, r.seqno = n → recordAt s n = .ok (some r)) ∧
    ((readRecords s).out.length ≤ n → recordAt s n = .error e) := by
  refine ⟨?_, ?_⟩
  · intro r hm hn
    obtain ⟨i, hi, he⟩ := List.getElem_of_mem hm
    have h2 : (readRecords s).out[i]? = some r := by
      rw [List.getElem?_eq_some_iff]; exact ⟨hi, he⟩
    have hin : i = n := by rw [← readRecords_seqno_at h2]; exact hn
    subst hin
    simp [recordAt, nth, h2]
  · intro hl
    simp [recordAt, nth, List.getElem?_eq_none_iff.2 hl, h]

/-- C06: `records(treegroup=n)` is the n-th of the groups, `None` behind the last;
together the tree groups are all records. -/
theorem C06_treegroup (s : Bytes) (h : (readRecords s).err = none) :
    ∃ gs : List (List Record), gs.flatten = (readRecords s).out ∧
      (∀ n, recordsTreegroup s n = .ok gs[n]?) ∧
      (∀ n g, 0 < n → recordsTreegroup s n = .ok (some g) →
        ∃ r t, g = r :: t ∧ r.level = 0 ∧ ∀ x ∈ t, x.level ≠ 0) := by
  obtain ⟨gs, h1, h2, -, h4, h5⟩ := C05_groups_partition (readRecords s).out
  have e : readRecords s = .ofList (readRecords s).out := by
    rw [Gen.ofList, ← h]
  have hn : ∀ n, recordsTreegroup s n = .ok gs[n]? := by
    intro n
    unfold recordsTreegroup nth
    rw [e, h1]
    simp only
    cases gs[n]? <;> rfl
  refine ⟨gs, h2, hn, ?_⟩
  intro n g hpos hg
  rw [hn] at hg
  injection hg with hg
  have hmem : g ∈ gs.tail := by
    cases n with
    | zero => omega
    | succ n =>
      cases gs with
      | nil => simp at hg
      | cons a gs => exact List.mem_of_getElem? (by simpa using hg)
  obtain ⟨r, t, rfl, hr⟩ := h4 g hmem
  exact ⟨r, t, rfl, hr, by simpa using h5 _ (List.mem_of_mem_tail hmem)⟩

example : (readRecords [0x10,0,0x10,0,0xaa, 0x11,4,0x10,0,0xbb, 0x12,0,0x10,0,0xcc]).err = none ∧
    recordsTreegroup [0x10,0,0x10,0,0xaa, 0x11,4,0x10,0,0xbb, 0x12,0,0x10,0,0xcc] 1 =
      .ok (some [⟨0x12, 0, 1, [0xcc], 2⟩]) := by decide +kernel

/-- C06: in a stream that becomes unreadable, the tree groups that are known to be complete
are found; all others raise the exception. -/
theorem C06_treegroup_unreadable (s : Bytes) (e : PyErr) (h : (readRecords s).err = some e) :
    ∃ gs : List (List Record), gs.flatten = (readRecords s).out ∧
      (∀ g ∈ gs.tail, ∃ r t, g = r :: t ∧ r.level = 0) ∧
      ∀ n, recordsTreegroup s n = if n + 1 < gs.length then .ok gs[n]? else .error e := by
  obtain ⟨gs, h1, h2, -, h4, -⟩ := C05_groups_partition (readRecords s).out
  refine ⟨gs, h2, h4, ?_⟩
  intro n
  have key : (groupByTop (readRecords s)).err = some e ∧ (groupByTop (readRecords s)).out = gs.dropLast := by
    unfold groupByTop at h1 ⊢
    simp only [Gen.ofList] at h1
    rw [h]
    cases ho : (readRecords s).out with
    | nil =>
      rw [ho] at h1
      simp only [Gen.mk.injEq] at h1
      simp [← h1.1]
    | cons r rs =>
      rw [ho] at h1
      simp only at h1 ⊢
      obtain ⟨h5, h6⟩ := groupLoop_err r rs e
      exact ⟨h5, by rw [h6, h1]⟩
  unfold recordsTreegroup nth
  rw [key.1, key.2]
  by_cases hn : n + 1 < gs.length
  · rw [if_pos hn, List.getElem?_dropLast, if_pos (by omega)]
    have : n < gs.length := by omega
    simp [List.getElem?_eq_getElem this]
  · rw [if_neg hn, List.getElem?_dropLast, if_neg (by omega)]

example : recordsTreegroup [0x10,0,0x10,0,0xaa, 0x11,4,0x10,0,0xbb, 0x12,0,0x10,0,0xcc, 0x13,0] 0 =
      .ok (some [⟨0x10, 0, 1, [0xaa], 0⟩, ⟨0x11, 1, 1, [0xbb], 1⟩]) ∧
    recordsTreegroup [0x10,0,0x10,0,0xaa, 0x11,4,0x10,0,0xbb, 0x12,0,0x10,0,0xcc, 0x13,0] 1 =
      .error .structError ∧
    recordAt [0x10,0,0x10,0,0xaa, 0x13,0] 0 = .ok (some ⟨0x10, 0, 1, [0xaa], 0⟩) ∧
    recordAt [0x10,0,0x10,0,0xaa, 0x13,0] 1 = .error .structError := by decide +kernel

/-! ### C07 -/

/-- C07: what any consumption schedule sees in lazy mode, in terms of the eager
groups: exhausted groups are followed by the next group, an untouched group is
offered again, a half-read group ends the iteration. -/
theorem C07_lazy_consumer (records : List Record) (ks : List Nat) :
    LazySt.consume (.init records) ks =
      .ok (lazyConsumer (groupByTop (.ofList records)).out ks) := by
  cases records with
  | nil =>
    cases ks <;> simp [LazySt.consume, LazySt.init, LazySt.nextGroup, groupByTop, Gen.ofList, lazyConsumer]
  | cons r rs =>
    cases ks with
    | nil =>
      obtain ⟨_, _, t', gs', e3⟩ := groupLoop_ok r rs
      simp [LazySt.consume, groupByTop, Gen.ofList, e3, lazyConsumer]
    | cons k ks =>
      have := consume_spec_aux (k :: ks) r rs
      simp only [groupByTop, Gen.ofList]
      rw [← this]
      simp [LazySt.consume, LazySt.init, LazySt.nextGroup]

/-- C07: a consumer that drains every group (at least one `next` call more than
the group has records) and asks often enough sees exactly the eager groups. -/
theorem C07_draining_consumer (records : List Record) (ks : List Nat)
    (hlen : (groupByTop (.ofList records)).out.length ≤ ks.length)
    (hk : ∀ (i : Nat) (g : List Record) (k : Nat), (groupByTop (.ofList records)).out[i]? = some g → ks[i]? = some k → g.length < k) :
    LazySt.consume (.init records) ks = .ok (groupByTop (.ofList records)).out := by
  rw [C07_lazy_consumer]
  congr 1
  generalize (groupByTop (.ofList records)).out = gs at *
  induction gs generalizing ks with
  | nil => cases ks <;> rfl
  | cons g gs ih =>
    cases ks with
    | nil => simp at hlen
    | cons k ks =>
      have h0 := hk 0 g k rfl rfl
      simp only [lazyConsumer, h0, if_true, List.cons.injEq, true_and]
      exact ih ks (by simpa using hlen) (fun i g' k' h1 h2 => hk (i+1) g' k' (by simpa using h1) (by simpa using h2))

example : LazySt.consume (.init [⟨1, 0, 0, [], 0⟩, ⟨2, 1, 0, [], 1⟩, ⟨3, 0, 0, [], 2⟩]) [3, 2] =
    .ok [[⟨1, 0, 0, [], 0⟩, ⟨2, 1, 0, [], 1⟩], [⟨3, 0, 0, [], 2⟩]] := by decide +kernel

/-- C07: a consumer that reads every record of the first group but does not
exhaust the group generator never gets the second group. -/
theorem C07_undrained_group_ends_iteration (records : List Record) (g : List Record)
    (gs : List (List Record)) (ks : List Nat)
    (h : (groupByTop (.ofList records)).out = g :: gs) :
    LazySt.consume (.init records) (g.length :: ks) = .ok [g] := by
  rw [C07_lazy_consumer, h]
  obtain ⟨gs', h1, -, h2, -⟩ := C05_groups_partition records
  rw [h1] at h
  simp only at h
  have : g ≠ [] := h2 g (by rw [h]; simp)
  have : g.length ≠ 0 := by simpa using this
  simp only [lazyConsumer, Nat.lt_irrefl, if_false, this, List.take_length]

example : (groupByTop (.ofList [⟨1, 0, 0, [], 0⟩, ⟨2, 0, 0, [], 1⟩])).out =
    [⟨1, 0, 0, [], 0⟩] :: [[⟨2, 0, 0, [], 1⟩]] := by decide +kernel

/-! ### C58 -/

/-- C58 fails in the code: after a level decrease the record gets no parent,
although levels 0,1,2,1 form a proper tree. -/
theorem C58_parent_link_missing :
    ¬ ∀ (levels : List Nat) (i : Nat),
      (linkRecords levels)[i]?.bind (·.1) = enclosing levels i := by
  intro h
  have := h [0, 1, 2, 1] 3
  revert this
  decide +kernel

/-- C58 up to the first level decrease: a record is linked to its enclosing
record as long as no level before it was left (each level equals its
predecessor's or is one deeper).  Missing from the full statement: records
behind a level decrease (excluded by the counterexample above). -/
theorem C58_parent_link_partial (levels : List Nat) (i : Nat)
    (h : ∀ j a b, j < i → levels[j]? = some a → levels[j + 1]? = some b → b = a ∨ b = a + 1) :
    (linkRecords levels)[i]?.bind (·.1) = enclosing levels i := by
  unfold linkRecords
  have := linkRecords_go levels [] levels none rfl (by simp) i (by simpa using h)
  simpa using this

example : linkRecords [0, 1, 1, 2, 2] =
    [(none, none), (some 0, none), (some 0, some 1), (some 2, none), (some 2, some 3)] := by
  decide +kernel
example : ∀ j a b, j < 4 → [0, 1, 1, 2, 2][j]? = some a → [0, 1, 1, 2, 2][j + 1]? = some b →
    b = a ∨ b = a + 1 := by
  intro j a b hj
  rcases j with _ | _ | _ | _ | j <;> simp <;> omega

end Hwp.Props
