/-
Model of the primitive and derived types of /repo/src/hwp5/dataio.py and of
COLORREF in /repo/src/hwp5/binmodel/_shared.py.
-/
import Verif.Model.Utf16
namespace Hwp

/-! ### Primitive integers -/

/-- The integer primitives, dataio.py:111-123 (`DOUBLE` is not modelled). -/
inductive Prim where
  | UINT32 | INT32 | UINT16 | INT16 | UINT8 | INT8 | WORD | BYTE | WCHAR
  | HWPUNIT | SHWPUNIT | HWPUNIT16
  deriving DecidableEq, Repr

/-- The `binfmt` letter, dataio.py:111-123. -/
def Prim.binfmt : Prim → Char
  | .UINT32 => 'I'
  | .INT32 => 'i'
  | .UINT16 => 'H'
  | .INT16 => 'h'
  | .UINT8 => 'B'
  | .INT8 => 'b'
  | .WORD => 'H'
  | .BYTE => 'B'
  | .WCHAR => 'H'
  | .HWPUNIT => 'I'
  | .SHWPUNIT => 'i'
  | .HWPUNIT16 => 'h'

/-- `struct.calcsize('<' + c)` and whether the format is signed. -/
def fmtInfo (c : Char) : Nat × Bool :=
  if c = 'I' then (4, false)
  else if c = 'i' then (4, true)
  else if c = 'H' then (2, false)
  else if c = 'h' then (2, true)
  else if c = 'B' then (1, false)
  else (1, true)

/-- `struct.unpack('<' + c, data)[0]`: little endian, two's complement. -/
def structUnpack (c : Char) (data : Bytes) : Except PyErr Int :=
  let (w, signed) := fmtInfo c
  if data.length ≠ w then .error .structError
  else
    let n := leNat data
    if signed ∧ 2 ^ (8 * w - 1) ≤ n then .ok ((n : Int) - 2 ^ (8 * w)) else .ok n

/-- `cls.read(f)` of a primitive, dataio.py:95-101. -/
def Prim.read (t : Prim) (s : Bytes) : Except PyErr (Int × Bytes) := do
  let (data, rest) ← readn (fmtInfo t.binfmt).1 s
  let v ← structUnpack t.binfmt data
  return (v, rest)

/-! ### BSTR -/

/-- dataio.py:162-170 `BSTR.read`. -/
def bstrRead (s : Bytes) : Except PyErr (PyStr × Bytes) := do
  let (size, rest) ← readU 2 s
  if size = 0 then return ([], rest)
  else
    let (data, rest) ← readn (2 * size) rest
    let str ← utf16leDecode data
    return (str, rest)

/-! ### Bit groups -/

/-- dataio.py:201-204 `BitGroupDescriptor.get_int_value`.  The base types of all
flags are unsigned, so the instance is a natural number; `msb + 1 ≥ lsb`. -/
def bitGroup (lsb msb : Nat) (instance_ : Nat) : Nat :=
  (instance_ >>> lsb) &&& (2 ^ (msb + 1 - lsb) - 1)

/-! ### Flags declarations -/

/-- An argument of `Flags(basetype, *args)`: an `int`, a type, a string, or
something else. -/
inductive FlagArg where
  | int (n : Nat)
  | type (t : Nat)
  | name (s : String)
  | other
  deriving DecidableEq, Repr

/-- The value type of a bit group: the default `int` or an explicit type. -/
abbrev FlagType := Option Nat

/-- One parsed bit group `name, (lsb, msb, t)`. -/
structure FlagGroup where
  name : String
  lsb : Nat
  msb : Nat
  type : FlagType
  deriving DecidableEq, Repr

/-- dataio.py:263-281 of `_parse_flags_args`: type and name.  A pushed-back
argument (lines 258, 270) is simply not consumed. Running out of arguments is the
`assert False` at 284. -/
def parseFlagTail (lsb msb : Nat) : List FlagArg → Except PyErr (FlagGroup × List FlagArg)
  | [] => .error .assertionError
  | .int _ :: _ => .error .assertionError
  | .other :: _ => .error .assertionError
  | .name s :: args => .ok (⟨s, lsb, msb, none⟩, args)
  | .type t :: args =>
    match args with
    | .name s :: args => .ok (⟨s, lsb, msb, some t⟩, args)
    | _ => .error .assertionError

/-- dataio.py:245-281, one round of the loop. -/
def parseFlagGroup : List FlagArg → Except PyErr (FlagGroup × List FlagArg)
  | .int lsb :: args =>
    match args with
    | [] => .error .assertionError
    | .int msb :: args => parseFlagTail lsb msb args
    | .other :: _ => .error .assertionError
    | args => parseFlagTail lsb lsb args
  | _ => .error .assertionError

theorem parseFlagTail_length {lsb msb args g rest} (h : parseFlagTail lsb msb args = .ok (g, rest)) :
    rest.length < args.length := by
  unfold parseFlagTail at h
  split at h <;> try (simp at h; done)
  · simp at h; simp [h.2]
  · split at h
    · simp at h; simp [h.2]; omega
    · simp at h

theorem parseFlagGroup_length {args g rest} (h : parseFlagGroup args = .ok (g, rest)) :
    rest.length < args.length := by
  unfold parseFlagGroup at h
  split at h
  · split at h
    · simp at h
    · have := parseFlagTail_length h; simp; omega
    · simp at h
    · have := parseFlagTail_length h; simp at this ⊢; omega
  · simp at h

/-- dataio.py:240-284 `_parse_flags_args`. -/
def parseFlagsArgs (args : List FlagArg) : Except PyErr (List FlagGroup) :=
  match args with
  | [] => .ok []
  | a :: as =>
    match h : parseFlagGroup (a :: as) with
    | .error e => .error e
    | .ok (g, rest) => do
      let gs ← parseFlagsArgs rest
      return g :: gs
termination_by args.length
decreasing_by exact parseFlagGroup_length h

/-! ### Enums -/

/-- An instance of an enum class: its identity (a number given at creation) and
its integer value. -/
structure EnumInst where
  ident : Nat
  value : Int
  deriving DecidableEq, Repr

/-- The dictionaries of an enum class, dataio.py:303-305, as association lists
with the latest entry first. `fresh` is the next identity. -/
structure EnumDef where
  namesByInstance : List (Int × String) := []
  instancesByName : List (String × EnumInst) := []
  instancesByValue : List (Int × EnumInst) := []
  fresh : Nat := 0
  deriving Repr

/-- dataio.py:321-335: `cls(value, name)` while populating. -/
def EnumDef.define (d : EnumDef) (value : Int) (name : String) : Except PyErr EnumDef :=
  if (d.instancesByName.lookup name).isSome then .error .assertionError
  else
    match d.instancesByValue.lookup value with
    | some self => .ok { d with instancesByName := (name, self) :: d.instancesByName }
    | none =>
      let self : EnumInst := ⟨d.fresh, value⟩
      .ok {
        instancesByValue := (value, self) :: d.instancesByValue
        -- keyed by the instance, which hashes and compares like its value
        namesByInstance := (value, name) :: d.namesByInstance
        instancesByName := (name, self) :: d.instancesByName
        fresh := d.fresh + 1 }

/-- dataio.py:359-362: population by `items` and `moreitems`, as one list of
(name, value). -/
def EnumDef.populate (d : EnumDef) : List (String × Int) → Except PyErr EnumDef
  | [] => .ok d
  | (k, v) :: rest => do
    let d ← d.define v k
    d.populate rest

/-- dataio.py:377-379 `Enum(*items, **moreitems)`. -/
def enumType (items : List String) (moreitems : List (String × Int)) : Except PyErr EnumDef :=
  EnumDef.populate {} (items.mapIdx (fun i k => (k, (i : Int))) ++ moreitems)

/-- dataio.py:311-319: `cls(value)`; an undefined value gives a new instance. -/
def EnumDef.call (d : EnumDef) (value : Int) : EnumInst :=
  match d.instancesByValue.lookup value with
  | some i => i
  | none => ⟨d.fresh, value⟩

/-- dataio.py:340-344: `instance.name`. -/
def EnumDef.nameOf (d : EnumDef) (i : EnumInst) : Option String := d.namesByInstance.lookup i.value

/-- `getattr(cls, name)`, set at dataio.py:360, 362. -/
def EnumDef.attr (d : EnumDef) (name : String) : Option EnumInst := d.instancesByName.lookup name

/-! ### Array types -/

/-- `mcs.classes`, dataio.py:394 and 415: parameters to created classes; a class
is identified by its creation number. -/
structure ClassTable (κ : Type) where
  classes : List (κ × Nat) := []
  fresh : Nat := 0

/-- dataio.py:396-407 and 417-428: `ARRAY(itemtype, size)`, `N_ARRAY(counttype,
itemtype)`; the key is the pair of parameters. -/
def ClassTable.request {κ} [BEq κ] (t : ClassTable κ) (key : κ) : Nat × ClassTable κ :=
  match t.classes.lookup key with
  | some cls => (cls, t)
  | none => (t.fresh, ⟨(key, t.fresh) :: t.classes, t.fresh + 1⟩)

/-- A sequence of requests. -/
def ClassTable.requests {κ} [BEq κ] (t : ClassTable κ) : List κ → List Nat
  | [] => []
  | k :: ks => let (c, t') := t.request k; c :: t'.requests ks

/-! ### Hex dump -/

/-- A lower case hexadecimal digit. -/
def hexDigit (n : Nat) : Char := if n < 10 then Char.ofNat (48 + n) else Char.ofNat (87 + n)

/-- `'%02x' % b` for a byte. -/
def hex02 (b : UInt8) : List Char := [hexDigit (b.toNat / 16), hexDigit (b.toNat % 16)]

/-- Hexadecimal digits of a number without leading zeros (`'%x'`). -/
def hexNat (n : Nat) : List Char :=
  if n < 16 then [hexDigit n] else hexNat (n / 16) ++ [hexDigit (n % 16)]
termination_by n

/-- `'%05x' % n`. -/
def hex05 (n : Nat) : List Char :=
  let d := hexNat n
  List.replicate (5 - d.length) '0' ++ d

/-- `sep.join(parts)`. -/
def joinWith (sep : List Char) : List (List Char) → List Char
  | [] => []
  | [x] => x
  | x :: xs => x ++ sep ++ joinWith sep xs

/-- dataio.py:606-609: one line. -/
def dumpLine (crust : Bool) (offsbase : Nat) (data : Bytes) : List Char :=
  (if crust then hex05 offsbase ++ ['0', ':', ' '] else []) ++ joinWith [' '] (data.map hex02)

/-- dataio.py:604-619: the loop of `dumpbytes`. -/
def dumpLoop (crust : Bool) (offsbase : Nat) (data : Bytes) : List (List Char) :=
  if 16 < data.length then
    dumpLine crust offsbase (data.take 16) :: dumpLoop crust (offsbase + 1) (data.drop 16)
  else [dumpLine crust offsbase data]
termination_by data.length
decreasing_by simp; omega

/-- dataio.py:603. -/
def dumpHeader : List Char := "\t 0  1  2  3  4  5  6  7  8  9  A  B  C  D  E  F".toList

/-- dataio.py:595-619 `dumpbytes(data, crust)`. -/
def dumpbytes (crust : Bool) (data : Bytes) : List (List Char) :=
  (if crust then [dumpHeader] else []) ++ dumpLoop crust 0 data

/-- dataio.py:622-623 `hexdump(data, crust)`. -/
def hexdump (crust : Bool) (data : Bytes) : List Char := joinWith ['\n'] (dumpbytes crust data)

/-! ### COLORREF -/

/-- Python's `v & mask` for an `int` and a mask below 2^32: two's complement
bits. -/
def pyAnd32 (v : Int) (mask : Nat) : Nat := (v % 2 ^ 32).toNat &&& mask

namespace Colorref
/-- _shared.py:73-74 -/
def r (self : Int) : Nat := pyAnd32 self 0xff
/-- _shared.py:75-76 -/
def g (self : Int) : Nat := pyAnd32 self 0xff00 >>> 8
/-- _shared.py:77-78 -/
def b (self : Int) : Nat := pyAnd32 self 0xff0000 >>> 16
/-- _shared.py:79-80 -/
def a (self : Int) : Nat := pyAnd32 self 0xff000000 >>> 24

/-- `'%02x' % n`: at least two digits. -/
def hex2 (n : Nat) : List Char := let d := hexNat n; List.replicate (2 - d.length) '0' ++ d

/-- _shared.py:84-85 `__str__`. -/
def str (self : Int) : List Char := '#' :: (hex2 (r self) ++ hex2 (g self) ++ hex2 (b self))
end Colorref

end Hwp
