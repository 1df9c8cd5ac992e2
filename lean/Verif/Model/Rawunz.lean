/-
Model of the commands on streams: /repo/src/hwp5/proc/rawunz.py and proc/diststream.py with
zlib_raw_codec.py:76-131 and `shutil.copyfileobj`.

Simplifications: inflate is a parameter, described by what it has produced, whether it has found
the end of the stream, and whether it has found an error, when it was fed a number of bytes; the
standard input is a sequence of bytes, from which every read gets as much as it asks for.
-/
import Verif.Model.Utils
import Verif.Model.Distdoc
import Verif.Model.Info
set_option linter.unusedVariables false
namespace Hwp

/-- A raw inflate: what it has produced (`out`), has it come to the end (`ended`), has it
come to an error (`bad`).  What follows the end is not looked at. -/
structure ZInflater extends Inflater where
  ended : Bytes → Bool
  bad : Bytes → Bool
  bad_mono : ∀ p c, bad p = true → bad (p ++ c) = true
  ended_out : ∀ p c, ended p = true → out (p ++ c) = out p
  ended_mono : ∀ p c, ended p = true → ended (p ++ c) = true
  ended_good : ∀ p, ended p = true → bad p = false
  empty : out [] = [] ∧ ended [] = false ∧ bad [] = false

/-- `zlib.decompress(data, -15)`: the stream must come to its end; what follows is ignored. -/
def ZInflater.inflate (z : ZInflater) (data : Bytes) : Option Bytes := if z.ended data then some (z.out data) else none

/-- zlib_raw_codec.py:76-85 `IncrementalDecoder.decode(c, final)` with `final` true, for a
`decompressobj` that was fed `fed`.  It is flushed after every call: when the stream has come to its
end, more input is an error then.  What was produced by a call that fails is lost. -/
def decodeChunk (z : ZInflater) (fed c : Bytes) : Except PyErr Bytes :=
  if c = [] then .ok []
  else if z.ended fed then .error .zlibError
  else if z.bad (fed ++ c) then .error .zlibError
  else .ok (z.feed fed c)

/-- zlib_raw_codec.py:115-131: `StreamReader.read(size)`: a chunk is read if the buffer is too short;
`final` is true after any chunk. -/
def zRead (z : ZInflater) (size : Nat) (r : RawReader) : Except PyErr (Bytes × RawReader) :=
  if size ≤ r.buffer.length then
    .ok (r.buffer.take size, { r with buffer := r.buffer.drop size, offset := r.offset + size })
  else do
    let c := r.stream.take 8196
    let d ← decodeChunk z r.fed c
    let b := r.buffer ++ d
    let r : RawReader := { r with fed := r.fed ++ c, stream := r.stream.drop 8196 }
    if size ≤ b.length then return (b.take size, { r with buffer := b.drop size, offset := r.offset + size })
    else return (b, { r with buffer := [], offset := r.offset + b.length })

/-- A read that gives something brings the reader on. -/
theorem zRead_progress (z : ZInflater) (size : Nat) (hs : 0 < size) (r r' : RawReader) (d : Bytes) (h : zRead z size r = .ok (d, r'))
    (hd : d ≠ []) : r'.stream.length < r.stream.length ∨ r'.stream.length = r.stream.length ∧ r'.buffer.length < r.buffer.length := by
  unfold zRead at h
  split at h
  · rename_i hle
    cases h
    refine .inr ⟨rfl, ?_⟩
    simp only [List.length_drop]
    omega
  · rename_i hlt
    simp only [bind, Except.bind, pure, Except.pure] at h
    split at h
    · cases h
    · rename_i x hx
      by_cases hn : r.stream = []
      · unfold decodeChunk at hx
        rw [hn] at hx h
        simp only [List.take_nil, if_true, Except.ok.injEq] at hx
        subst hx
        rw [List.append_nil, if_neg hlt] at h
        cases h
        right
        simp only [List.drop_nil, hn, List.length_nil]
        cases hb : r.buffer with
        | nil => exact absurd hb hd
        | cons a as => simp
      · left
        have : 0 < r.stream.length := List.length_pos_iff.2 hn
        split at h <;> (cases h; simp only [List.length_drop]; omega)

/-- `shutil.copyfileobj(stream, output_fp)` with a buffer of `n + 1` bytes (65536; 16384 before
Python 3.8): up to the first read that gives nothing. -/
def zCopy (z : ZInflater) (n : Nat) (r : RawReader) : Printed :=
  match h : zRead z (n + 1) r with
  | .error e => ([], some e)
  | .ok (d, r') =>
    if hd : d = [] then ([], none)
    else
      let rest := zCopy z n r'
      (d ++ rest.1, rest.2)
termination_by (r.stream.length, r.buffer.length)
decreasing_by
  rcases zRead_progress z (n + 1) (by omega) r r' d h hd with h1 | ⟨h1, h2⟩
  · exact Prod.Lex.left _ _ h1
  · rw [← h1]; exact Prod.Lex.right _ h2

/-- proc/rawunz.py:31-40. -/
def rawunzMain (z : ZInflater) (n : Nat) (input : Bytes) : Printed := zCopy z n (.new input)

/-! ### Distribution streams -/

/-- A digit of `binascii.a2b_hex`. -/
def hexDigitValue (c : Nat) : Option Nat :=
  if 0x30 ≤ c ∧ c ≤ 0x39 then some (c - 0x30)
  else if 0x41 ≤ c ∧ c ≤ 0x46 then some (c - 0x41 + 10)
  else if 0x61 ≤ c ∧ c ≤ 0x66 then some (c - 0x61 + 10)
  else none

/-- `binascii.a2b_hex(text)`; `binascii.Error` is a `ValueError`. -/
def a2bHex : PyStr → Except PyErr Bytes
  | [] => .ok []
  | [_] => .error .valueError
  | a :: b :: rest =>
    match hexDigitValue a, hexDigitValue b with
    | some h, some l => do
      let bs ← a2bHex rest
      return UInt8.ofNat (16 * h + l) :: bs
    | _, _ => .error .valueError

/-- `binascii.b2a_hex(data)`. -/
def b2aHex (data : Bytes) : Bytes :=
  data.flatMap fun b =>
    let digit (n : Nat) : UInt8 := if n < 10 then UInt8.ofNat (0x30 + n) else UInt8.ofNat (0x61 + (n - 10))
    [digit (b.toNat / 16), digit (b.toNat % 16)]

/-- `--raw` or not. -/
def orHex (raw : Bool) (data : Bytes) : Bytes := if raw then data else b2aHex data

/-- proc/diststream.py:72-78: `--sha1`. -/
def diststreamSha1 (raw : Bool) (input : Bytes) : Except PyErr Bytes := do
  match ← readRecord input 0 with
  | none => .error .typeError
  | some (head, _) =>
    let ucs ← decodeHeadToSha1 head.payload
    let text ← utf16leDecode ucs
    let sha1 ← a2bHex text
    return orHex raw sha1

/-- proc/diststream.py:79-84: `--key`. -/
def diststreamKey (raw : Bool) (input : Bytes) : Except PyErr Bytes := do
  match ← readRecord input 0 with
  | none => .error .typeError
  | some (head, _) =>
    let key ← decodeHeadToKey head.payload
    return orHex raw key

/-- proc/diststream.py:85-87: without these options. -/
def diststreamMain (aes : Bytes → Bytes → Bytes) (input : Bytes) : Except PyErr Bytes := distDecode aes input

end Hwp
