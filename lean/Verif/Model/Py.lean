/-
Common vocabulary of the model: bytes, Python exceptions as values, generators,
and the `struct`/`BytesIO` primitives used by /repo/src/hwp5/dataio.py.
-/
namespace Hwp

/-- Python `bytes`. -/
abbrev Bytes := List UInt8

/-- Exception classes that the modelled code raises or lets escape.
One constructor per Python class (`exception` stands for a bare
`Exception(...)`, e.g. treeop.py:41,110,144). -/
inductive PyErr where
  | eof               -- dataio.Eof, dataio.py:42-48
  | structError       -- struct.error
  | keyError
  | indexError
  | typeError
  | valueError
  | assertionError
  | attributeError
  | unboundLocalError
  | unicodeDecodeError
  | unicodeEncodeError
  | parseError        -- dataio.ParseError
  | stopIteration
  | ioError
  | exception
  | invalidHwp5File   -- errors.InvalidHwp5FileError
  | overflowError     -- of datetime, msoleprops.py:96-101
  | zlibError         -- zlib.error
  deriving DecidableEq, Repr

deriving instance DecidableEq for Except

/-- The observable behaviour of running a Python generator to its end: the
values yielded, then either normal termination (`err = none`) or an exception. -/
@[ext] structure Gen (α : Type) where
  out : List α
  err : Option PyErr
  deriving DecidableEq, Repr

namespace Gen
/-- Normal termination without output. -/
def done {α} : Gen α := ⟨[], none⟩
/-- Raise without output. -/
def raise {α} (e : PyErr) : Gen α := ⟨[], some e⟩
/-- `yield a` and continue with `g`. -/
def cons {α} (a : α) (g : Gen α) : Gen α := ⟨a :: g.out, g.err⟩
/-- Yield all of `as` and continue with `g`. -/
def prepend {α} (as : List α) (g : Gen α) : Gen α := ⟨as ++ g.out, g.err⟩
/-- A list consumed as an iterator. -/
def ofList {α} (as : List α) : Gen α := ⟨as, none⟩
/-- `list(g)`: all values, or the exception. -/
def toList {α} (g : Gen α) : Except PyErr (List α) :=
  match g.err with
  | none => .ok g.out
  | some e => .error e
end Gen

/-- Statements that change a state and may raise: the next one runs unless an exception was raised. -/
def andThen {σ : Type} (r : σ × Option PyErr) (k : σ → σ × Option PyErr) : σ × Option PyErr :=
  match r with
  | (s, none) => k s
  | (s, some e) => (s, some e)

/-- `f.read(n)` on a `BytesIO` whose unread bytes are `s`: (result, unread rest).
(CPython `BytesIO.read`; short result only at the end of the data.) -/
def bioRead (n : Nat) (s : Bytes) : Bytes × Bytes := (s.take n, s.drop n)

/-- `dataio.readn`, /repo/src/hwp5/dataio.py:54-63.  An empty result raises
`Eof`; a short nonempty result is returned as is. -/
def readn (n : Nat) (s : Bytes) : Except PyErr (Bytes × Bytes) :=
  let (data, rest) := bioRead n s
  if data.length = 0 then .error .eof else .ok (data, rest)

/-- Little-endian value of a byte string (`struct` formats `<B`, `<H`, `<I`). -/
def leNat : Bytes → Nat
  | [] => 0
  | b :: bs => b.toNat + 256 * leNat bs

/-- The `n` low-order bytes of `v`, least significant first. -/
def leBytes : Nat → Nat → Bytes
  | 0, _ => []
  | n + 1, v => UInt8.ofNat (v % 256) :: leBytes n (v / 256)

/-- `struct.unpack('<' + X, data)` for an unsigned format of `w` bytes: the
length must match exactly, otherwise `struct.error`. -/
def unpackU (w : Nat) (data : Bytes) : Except PyErr Nat :=
  if data.length = w then .ok (leNat data) else .error .structError

/-- `struct.pack('<' + X, v)` for an unsigned format of `w` bytes:
`struct.error` when out of range. -/
def packU (w : Nat) (v : Nat) : Except PyErr Bytes :=
  if v < 256 ^ w then .ok (leBytes w v) else .error .structError

/-- `PrimitiveType.read` for an unsigned `w`-byte primitive
(/repo/src/hwp5/dataio.py:96-103: `s = readn(f, cls.fixed_size); return cls.decode(s)`). -/
def readU (w : Nat) (s : Bytes) : Except PyErr (Nat × Bytes) := do
  let (data, rest) ← readn w s
  let v ← unpackU w data
  return (v, rest)

end Hwp
