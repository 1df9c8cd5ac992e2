/-
Model of the grouping/selection part of /repo/src/hwp5/recordstream.py.
-/
import Verif.Model.Records
namespace Hwp

/-- The items at the head of an iterator that `records_in_a_tree` yields after
the popped top record, recordstream.py:141-145: records are consumed until one
with level 0 is met (which becomes the new top). Result: (yielded, new top and
remaining records). -/
def takeTree : List Record → List Record × Option (Record × List Record)
  | [] => ([], none)
  | r :: rs =>
    if r.level = 0 then ([], some (r, rs))
    else
      let (g, rest) := takeTree rs
      (r :: g, rest)

theorem takeTree_lt {l g : List Record} {t : Record} {rest : List Record}
    (h : takeTree l = (g, some (t, rest))) : rest.length < l.length := by
  induction l generalizing g with
  | nil => simp [takeTree] at h
  | cons r rs ih =>
    unfold takeTree at h
    split at h
    · simp at h; obtain ⟨-, -, rfl⟩ := h; simp
    · simp only [Prod.mk.injEq] at h
      have := ih (g := (takeTree rs).1) (by rw [← h.2])
      simp; omega

/-- recordstream.py:147-151 with `group_as_list=True`: the loop `while 'top' in
context`, entered with `context['top'] = top`, remaining records `rs` and
pending exception `err` of the underlying iterator (raised when the iterator is
advanced past its last record, i.e. inside `list(group)`). -/
def groupLoop (top : Record) (rs : List Record) (err : Option PyErr) : Gen (List Record) :=
  match h : takeTree rs with
  | (g, some (top', rest)) =>
    have := takeTree_lt h
    .cons (top :: g) (groupLoop top' rest err)
  | (g, none) =>
    match err with
    | none => .cons (top :: g) .done
    | some e => .raise e
termination_by rs.length

/-- recordstream.py:128-151 `group_records_by_toplevel(records)` (list mode). -/
def groupByTop (records : Gen Record) : Gen (List Record) :=
  match records.out with
  | [] => ⟨[], records.err⟩            -- lines 133-136
  | r :: rs => groupLoop r rs records.err

/-- `itertools.islice(g, a, b)` run to its end.  It advances the source until
`max(a, b)` items are consumed, so an exception behind them is not reached. -/
def islice {α} (g : Gen α) (a b : Nat) : Gen α :=
  ⟨(g.out.take b).drop a, if max a b ≤ g.out.length then none else g.err⟩

/-- recordstream.py:121-125 `nth(iterable, n)`: `next(islice(iterable, n, None))`. -/
def nth {α} (g : Gen α) (n : Nat) : Except PyErr (Option α) :=
  match g.out[n]? with
  | some a => .ok (some a)
  | none =>
    match g.err with
    | none => .ok none
    | some e => .error e

/-- recordstream.py:156-164 `RecordStream.records(range=(a, b))`. -/
def recordsRange (s : Bytes) (a b : Nat) : Gen Record := islice (readRecords s) a b

/-- recordstream.py:161-163 `RecordStream.records(treegroup=n)` and 180-183
`records_treegroup(n)`. -/
def recordsTreegroup (s : Bytes) (n : Nat) : Except PyErr (Option (List Record)) :=
  nth (groupByTop (readRecords s)) n

/-- recordstream.py:166-168 `RecordStream.record(idx)`. -/
def recordAt (s : Bytes) (n : Nat) : Except PyErr (Option Record) := nth (readRecords s) n

/-! ### Lazy mode: `group_as_list=False` -/

/-- State of one `records_in_a_tree()` generator object. -/
inductive InnerSt where
  | fresh | running | finished
  deriving DecidableEq, Repr

/-- Shared state of the two kinds of generators, recordstream.py:131-151:
the source iterator, `context.get('top')`, and whether the outer generator has
executed its first statement / has returned. -/
structure LazySt where
  source : List Record
  top : Option Record
  started : Bool
  outerDone : Bool
  deriving DecidableEq, Repr

/-- Initial state before the first `next(groups)`. -/
def LazySt.init (records : List Record) : LazySt := ⟨records, none, false, false⟩

/-- `next(groups)`: `true` when a new (fresh) group generator is returned,
`false` for `StopIteration`. (lines 133-136 on the first call, 147-151.) -/
def LazySt.nextGroup (st : LazySt) : Bool × LazySt :=
  if st.outerDone then (false, st)
  else if st.started then
    match st.top with
    | some _ => (true, st)
    | none => (false, { st with outerDone := true })
  else
    match st.source with
    | [] => (false, { st with started := true, outerDone := true })
    | r :: rs => (true, { st with source := rs, top := some r, started := true })

/-- `next(group)` on a group generator in state `i` (lines 138-145).
`.ok (some r)` yields, `.ok none` is `StopIteration`, `KeyError` comes from
`context.pop('top')` when another group generator has popped it. -/
def LazySt.nextRec (st : LazySt) (i : InnerSt) : Except PyErr (Option Record) × InnerSt × LazySt :=
  match i with
  | .finished => (.ok none, .finished, st)
  | .fresh =>
    match st.top with
    | none => (.error .keyError, .finished, st)
    | some r => (.ok (some r), .running, { st with top := none })
  | .running =>
    match st.source with
    | [] => (.ok none, .finished, st)
    | r :: rs =>
      if r.level = 0 then (.ok none, .finished, { st with source := rs, top := some r })
      else (.ok (some r), .running, { st with source := rs })

/-- Take up to `k` records from a group generator; returns the records taken. -/
def LazySt.takeRecs (st : LazySt) (i : InnerSt) : Nat → Except PyErr (List Record × InnerSt × LazySt)
  | 0 => .ok ([], i, st)
  | k + 1 =>
    match st.nextRec i with
    | (.error e, _, _) => .error e
    | (.ok none, i', st') => .ok ([], i', st')
    | (.ok (some r), i', st') =>
      match LazySt.takeRecs st' i' k with
      | .error e => .error e
      | .ok (rs, i'', st'') => .ok (r :: rs, i'', st'')

/-- A consumer that asks for at most `ks.length` groups and calls `next` on the
i-th group up to `ks[i]` times before asking for the next group. -/
def LazySt.consume (st : LazySt) : List Nat → Except PyErr (List (List Record))
  | [] => .ok []
  | k :: ks =>
    match st.nextGroup with
    | (false, _) => .ok []
    | (true, st') =>
      match st'.takeRecs .fresh k with
      | .error e => .error e
      | .ok (g, _, st'') =>
        match LazySt.consume st'' ks with
        | .error e => .error e
        | .ok gs => .ok (g :: gs)

/-- recordstream.py:102-112 `link_records`: for each record the index of its
`parent` and `sister` record if the key is set (`parent = None` and an absent
key are not distinguished: line 108 stores `prev.get('parent')`). -/
def linkRecords (levels : List Nat) : List (Option Nat × Option Nat) :=
  go 0 none levels
where
  /-- `prev` is (index, level, parent link) of the previous record. -/
  go (i : Nat) (prev : Option (Nat × Nat × Option Nat)) : List Nat → List (Option Nat × Option Nat)
    | [] => []
    | l :: ls =>
      let (parent, sister) : Option Nat × Option Nat :=
        match prev with
        | none => (none, none)
        | some (pi, pl, pp) =>
          if l = pl then (pp, some pi)
          else if l = pl + 1 then (some pi, none)
          else (none, none)
      (parent, sister) :: go (i + 1) (some (i, l, parent)) ls

end Hwp
