/-
Model of /repo/src/hwp5/utils.py (cached properties, JSON arrays, readers over
generators) and of the stream readers of /repo/src/hwp5/zlib_raw_codec.py and
/repo/src/hwp5/compressed.py.
-/
import Verif.Model.Utf16
namespace Hwp

/-! ### GeneratorReader -/

/-- utils.py:149-163: the chunks still to be generated and the buffer. -/
structure GenReader (α : Type) where
  gen : List (List α)
  buffer : List α
  deriving DecidableEq, Repr

namespace GenReader
/-- utils.py:161-163. -/
def new {α} (chunks : List (List α)) : GenReader α := ⟨chunks, []⟩

/-- utils.py:166-168: `read()`. -/
def readAll {α} (r : GenReader α) : List α × GenReader α := (r.buffer ++ r.gen.flatten, ⟨[], []⟩)

/-- utils.py:170-179: the loop of `read(size)`.  A chunk is requested before the buffer
is looked at; when there is none the whole buffer is returned. -/
def readLoop {α} (size : Nat) : List (List α) → List α → List α × GenReader α
  | [], buffer => (buffer, ⟨[], []⟩)
  | data :: gen, buffer =>
    let buffer := buffer ++ data
    if size ≤ buffer.length then (buffer.take size, ⟨gen, buffer.drop size⟩)
    else readLoop size gen buffer

/-- `read(size)` with a size that is not negative. -/
def readN {α} (r : GenReader α) (size : Nat) : List α × GenReader α := readLoop size r.gen r.buffer

/-- A sequence of sized reads: the results and the reader afterwards. -/
def reads {α} (r : GenReader α) : List Nat → List (List α) × GenReader α
  | [] => ([], r)
  | n :: ns =>
    let (d, r) := r.readN n
    let (ds, r) := reads r ns
    (d :: ds, r)
end GenReader

/-! ### JSON arrays -/

/-- utils.py:64-74 `generate_json_array(tokens)`: the loop, with `first`. -/
def jsonArrayLoop (first : Bool) : List PyStr → List PyStr
  | [] => [[0x0a, 0x5d]]                                   -- '\n]'
  | token :: tokens =>
    (if first then [0x5b, 0x0a] else [0x2c, 0x0a]) ::      -- '[\n' or ',\n'
      token :: jsonArrayLoop false tokens

/-- utils.py:64-74: the yielded texts. -/
def generateJsonArray (tokens : List PyStr) : List PyStr := jsonArrayLoop true tokens

/-! ### Cached properties -/

/-- The entry of the property in `obj.__dict__`, and the number of calls of the
function so far. -/
structure PropSt (V : Type) where
  cached : Option V
  calls : Nat
  deriving DecidableEq, Repr

/-- utils.py:51-58 `cached_property.__get__(obj)`; `func k` is the result of the
`k`-th call.  (A cached value `NIL` would not count as cached; the functions do not
return it.) -/
def cachedGet {V} (func : Nat → Except PyErr V) (st : PropSt V) : Except PyErr V × PropSt V :=
  match st.cached with
  | some v => (.ok v, st)
  | none =>
    match func st.calls with
    | .ok v => (.ok v, ⟨some v, st.calls + 1⟩)
    | .error e => (.error e, ⟨none, st.calls + 1⟩)

/-- utils.py:60-61 `cached_property.__set__`. -/
def cachedSet {V} (st : PropSt V) (v : V) : PropSt V := { st with cached := some v }

/-- An access to a property. -/
inductive PropOp (V : Type) where
  | get
  | set (v : V)

/-- The results of the reading accesses of a history, and the final state. -/
def propHistory {V} (func : Nat → Except PyErr V) (st : PropSt V) :
    List (PropOp V) → List (Except PyErr V) × PropSt V
  | [] => ([], st)
  | .get :: ops =>
    let (r, st) := cachedGet func st
    let (rs, st) := propHistory func st ops
    (r :: rs, st)
  | .set v :: ops => propHistory func (cachedSet st v) ops

/-! ### Incremental inflating -/

/-- An incremental decoder: `out p` is everything it has produced when it was fed `p`
in total; feeding more only adds output.  `decompressobj().decompress(c)` returns what is
new, `flush()` nothing more. -/
structure Inflater where
  out : Bytes → Bytes
  mono : ∀ p c, out p <+: out (p ++ c)

namespace Inflater
/-- `decompressobj.decompress(c)` after `fed`. -/
def feed (i : Inflater) (fed c : Bytes) : Bytes := (i.out (fed ++ c)).drop (i.out fed).length
end Inflater

/-- zlib_raw_codec.py:99-105: the state of a `StreamReader`: what the decoder was fed,
the unread rest of the underlying stream, the buffer and the offset. -/
structure RawReader where
  fed : Bytes
  stream : Bytes
  buffer : Bytes
  offset : Nat
  deriving DecidableEq, Repr

namespace RawReader
/-- zlib_raw_codec.py:100-105. -/
def new (stream : Bytes) : RawReader := ⟨[], stream, [], 0⟩

/-- zlib_raw_codec.py:130: `final = len(c) < 8196 or len(c)`, as a truth value. -/
def isFinal (c : Bytes) : Bool := c.length < 8196 || c.length ≠ 0

theorem isFinal_nil : isFinal [] = true := rfl

/-- zlib_raw_codec.py:108-113: `read()`. -/
def readAll (i : Inflater) (r : RawReader) : Bytes × RawReader :=
  let d := r.buffer ++ i.feed r.fed r.stream
  (d, ⟨r.fed ++ r.stream, [], [], r.offset + d.length⟩)

/-- zlib_raw_codec.py:115-131: the loop of `read(size)`. -/
def readLoop (i : Inflater) (size : Nat) (final : Bool) (r : RawReader) : Bytes × RawReader :=
  if size ≤ r.buffer.length then
    (r.buffer.take size, { r with buffer := r.buffer.drop size, offset := r.offset + size })
  else if final then
    (r.buffer, { r with buffer := [], offset := r.offset + r.buffer.length })
  else
    let c := r.stream.take 8196
    readLoop i size (isFinal c)
      { r with fed := r.fed ++ c, stream := r.stream.drop 8196, buffer := r.buffer ++ i.feed r.fed c }
termination_by 2 * r.stream.length + (if final then 0 else 1)
decreasing_by
  rename_i h1 h2
  simp only [h2, Bool.false_eq_true, if_false, List.length_drop]
  have key : ∀ s : Bytes, 2 * (s.length - 8196) + (if isFinal (s.take 8196) = true then 0 else 1) <
      2 * s.length + 1 := by
    intro s
    cases s with
    | nil => simp [isFinal_nil]
    | cons a as =>
      simp only [List.length_cons]
      split <;> omega
  exact key r.stream

/-- `read(size)` with a size that is not negative. -/
def readN (i : Inflater) (r : RawReader) (size : Nat) : Bytes × RawReader := readLoop i size false r

/-- A sequence of sized reads. -/
def reads (i : Inflater) (r : RawReader) : List Nat → List Bytes × RawReader
  | [] => ([], r)
  | n :: ns =>
    let (d, r) := r.readN i n
    let (ds, r) := reads i r ns
    (d :: ds, r)
end RawReader

/-- compressed.py:46-53 `decompress_gen(source, bufsize)`: the yielded chunks, for what
the decoder was fed and the unread source; `bufsize` is `n + 1` (it is 4096 everywhere; a
`bufsize` of 0 would not end).  A read is repeated until it is short. -/
def decompressGen (i : Inflater) (n : Nat) (fed source : Bytes) : List Bytes :=
  if (source.take (n + 1)).length < n + 1 then [i.feed fed (source.take (n + 1))]
  else
    i.feed fed (source.take (n + 1)) ::
      decompressGen i n (fed ++ source.take (n + 1)) (source.drop (n + 1))
termination_by source.length
decreasing_by
  rename_i h
  rw [List.length_take] at h
  rw [List.length_drop]
  omega

end Hwp
