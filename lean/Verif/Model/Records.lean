/-
Model of /repo/src/hwp5/recordstream.py.
-/
import Verif.Model.Py
namespace Hwp

/-- A record dict, recordstream.py:40-47.  `tagname` is a function of `tagid`
and is omitted; `seqno` is always present on records that were read. -/
structure Record where
  tagid : Nat
  level : Nat
  size : Nat
  payload : Bytes
  seqno : Nat
  deriving DecidableEq, Repr

/-- recordstream.py:50-61 `decode_record_header`.  `none` is Python's `None`
(returned when `Eof` is caught); other exceptions escape. The result carries the
unread rest of the stream. -/
def decodeRecordHeader (s : Bytes) : Except PyErr (Option ((Nat × Nat × Nat) × Bytes)) :=
  let body : Except PyErr ((Nat × Nat × Nat) × Bytes) := do
    let (rechdr, s) ← readU 4 s
    let tagid := rechdr &&& 0x3ff
    let level := (rechdr >>> 10) &&& 0x3ff
    let size := (rechdr >>> 20) &&& 0xfff
    if size = 0xfff then
      let (size, s) ← readU 4 s
      return ((tagid, level, size), s)
    else
      return ((tagid, level, size), s)
  match body with
  | .ok r => .ok (some r)
  | .error .eof => .ok none
  | .error e => .error e

/-- recordstream.py:64-73 `encode_record_header`: the size is `len(payload)`. -/
def encodeRecordHeader (tagid level size : Nat) : Except PyErr Bytes :=
  if size < 0xfff then
    packU 4 ((size <<< 20) ||| (level <<< 10) ||| tagid)
  else do
    let a ← packU 4 ((0xfff <<< 20) ||| (level <<< 10) ||| tagid)
    let b ← packU 4 size
    return a ++ b

/-- recordstream.py:76-82 `read_record`. -/
def readRecord (s : Bytes) (seqno : Nat) : Except PyErr (Option (Record × Bytes)) := do
  match ← decodeRecordHeader s with
  | none => return none
  | some ((tagid, level, size), s) =>
    let (payload, s) ← readn size s
    return some (⟨tagid, level, size, payload, seqno⟩, s)

/-- recordstream.py:85-88 `dump_record`: the bytes appended to the file.
The size written is the payload length, not `record['size']`. -/
def dumpRecord (r : Record) : Except PyErr Bytes := do
  let hdr ← encodeRecordHeader r.tagid r.level r.payload.length
  return hdr ++ r.payload

/-- A loop of `dump_record` over a list of records (proc/records.py:110-112). -/
def dumpRecords : List Record → Except PyErr Bytes
  | [] => .ok []
  | r :: rs => do
    let a ← dumpRecord r
    let b ← dumpRecords rs
    return a ++ b

theorem readn_lt {n : Nat} {s d r : Bytes} (h : readn n s = .ok (d, r)) :
    r.length < s.length := by
  unfold readn bioRead at h
  simp only at h
  split at h
  · cases h
  · injection h with h; injection h with h1 h2
    subst h1 h2
    rw [List.length_take] at *
    rw [List.length_drop]
    omega

theorem readU_lt {w v : Nat} {s r : Bytes} (h : readU w s = .ok (v, r)) :
    r.length < s.length := by
  unfold readU at h
  simp only [bind, Except.bind, pure, Except.pure] at h
  split at h
  · cases h
  · rename_i v' heq
    obtain ⟨d, r'⟩ := v'
    simp only at h
    split at h
    · cases h
    · injection h with h; injection h with h1 h2
      subst h2
      exact readn_lt heq

theorem decodeRecordHeader_lt {s r : Bytes} {h : Nat × Nat × Nat}
    (hd : decodeRecordHeader s = .ok (some (h, r))) : r.length < s.length := by
  unfold decodeRecordHeader at hd
  simp only [bind, Except.bind, pure, Except.pure] at hd
  split at hd
  · rename_i r' heq
    injection hd with hd; injection hd with hd
    subst hd
    split at heq
    · cases heq
    · rename_i v hv
      obtain ⟨v, s'⟩ := v
      have h1 := readU_lt hv
      simp only at heq
      split at heq
      · split at heq
        · cases heq
        · rename_i w hw
          obtain ⟨w, s''⟩ := w
          have h2 := readU_lt hw
          injection heq with heq; injection heq with _ h3
          subst h3; simp only; omega
      · injection heq with heq; injection heq with _ h3
        subst h3; omega
  · cases hd
  · cases hd

theorem readRecord_lt {s r : Bytes} {n : Nat} {rec : Record}
    (h : readRecord s n = .ok (some (rec, r))) : r.length < s.length := by
  unfold readRecord at h
  simp only [bind, Except.bind, pure, Except.pure] at h
  split at h
  · cases h
  · rename_i v hv
    split at h
    · cases h
    · rename_i t l z s'
      split at h
      · cases h
      · rename_i d hd
        obtain ⟨d, s''⟩ := d
        have h1 := readn_lt hd
        have h2 := decodeRecordHeader_lt hv
        injection h with h; injection h with h; injection h with _ h3
        subst h3; simp only; omega

/-- recordstream.py:91-99 `read_records`, from sequence number `seqno` on.
(`if record:` — a record dict is never empty, so it is true iff not `None`.) -/
def readRecordsFrom (s : Bytes) (seqno : Nat) : Gen Record :=
  match h : readRecord s seqno with
  | .error e => .raise e
  | .ok none => .done
  | .ok (some (r, rest)) =>
    have := readRecord_lt h
    .cons r (readRecordsFrom rest (seqno + 1))
termination_by s.length

/-- recordstream.py:91-99 `read_records`. -/
def readRecords (s : Bytes) : Gen Record := readRecordsFrom s 0

example : (readRecords [0x10,0x04,0x10,0x00,0xaa]) = ⟨[⟨0x10, 1, 1, [0xaa], 0⟩], none⟩ := by
  decide +kernel
example : (readRecords [0x10,0x04,0x00,0x00,0xaa]).err = some .eof := by
  decide +kernel
end Hwp
