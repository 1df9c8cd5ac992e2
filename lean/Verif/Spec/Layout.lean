/-
Specification of the layout of records: where the fields are in the payload.
-/
import Verif.Spec.DeclReader
namespace Hwp.Spec

/-- How the bytes of a field are understood: a number, a signed number, some bits of a number
(and the names of their values), the bytes of a control id, plain bytes. -/
inductive Kind where
  | unsigned
  | signed
  | bits (lsb msb : Nat) (names : List (String × Nat))
  | chid
  | raw
  deriving DecidableEq, Repr

/-- A field: its name (and the names of the struct or the flags around it, from the outside),
the number of bytes before it, its size in bytes, and how they are understood. -/
structure Slot where
  path : List String
  off : Nat
  size : Nat
  kind : Kind
  deriving DecidableEq, Repr

/-- What a field is observed to be: a number, the name of an enumerated value, or bytes. -/
inductive Datum where
  | num (n : Int)
  | name (s : String)
  | bytes (b : Bytes)
  deriving DecidableEq, Repr

/-- The number written in bytes, least significant first. -/
def number : Bytes → Nat
  | [] => 0
  | b :: bs => b.toNat + 256 * number bs

/-- The name of a number. -/
def named (names : List (String × Nat)) (n : Nat) : Datum :=
  match names.find? (fun x => x.2 = n) with
  | some x => .name x.1
  | none => .num n

/-- The datum a payload has in a slot. -/
def datumAt (payload : Bytes) (s : Slot) : Datum :=
  let b := (payload.drop s.off).take s.size
  match s.kind with
  | .unsigned => .num (number b)
  | .signed => .num (if number b < 2 ^ (8 * s.size - 1) then (number b : Int) else (number b : Int) - 2 ^ (8 * s.size))
  | .bits lsb msb names => named names (number b / 2 ^ lsb % 2 ^ (msb + 1 - lsb))
  | .chid => .bytes b.reverse
  | .raw => .bytes b

/-- The datum of a value itself. -/
def leafDatum : Value PVal → Option Datum
  | .leaf (.int n) => some (.num n)
  | .leaf (.flags _ n) => some (.num n)
  | .leaf (.chid b) => some (.bytes b)
  | .leaf (.double b) => some (.bytes b)
  | _ => none

/-- `getattr(flags, name)`. -/
def flagDatum (f : FlagsDecl) (n : Nat) (name : String) : Option Datum :=
  match f.bits.find? (fun b => b.name = name) with
  | none => none
  | some b => some (named (b.enum.getD []) (bitGroup b.lsb b.msb n))

/-- `value[a][b]…`, and `value[a].b` of flags. -/
def valueAt : Value PVal → List String → Option Datum
  | v, [] => leafDatum v
  | .struct fs, k :: p =>
    match fs.lookup k with
    | none => none
    | some v => valueAt v p
  | .leaf (.flags f n), [k] => flagDatum f n k
  | _, _ => none

end Hwp.Spec
