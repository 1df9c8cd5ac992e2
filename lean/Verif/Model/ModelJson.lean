/-
Model of the outputs of `hwp5proc models`: the JSON form of models
(/repo/src/hwp5/binmodel/__init__.py:406-425), selection and listing
(/repo/src/hwp5/proc/models.py).

Simplifications: `--events` is not modelled; `--format` is in Model/Format.  The text of a finite floating
point number (`float.__repr__`) is a parameter.
-/
import Verif.Model.Json
import Verif.Model.DeclReader
namespace Hwp

/-- What the encoder needs to know: `float.__repr__` of the finite number with these eight
bytes (little endian IEEE 754). -/
structure JsonEnv where
  floatRepr : Bytes → PyStr

/-- Is the number with these eight bytes finite?  The exponent is in the bits 52 to 62. -/
def finiteDouble (b : Bytes) : Bool :=
  !((b.getD 7 0).toNat % 128 == 127 && (b.getD 6 0).toNat / 16 == 15)

/-- Are the bits 0 to 51 zero? -/
def zeroMantissa (b : Bytes) : Bool := (b.take 6).all (· == 0) && (b.getD 6 0).toNat % 16 == 0

/-- json/encoder.py:224-248 `floatstr`, with `allow_nan`. -/
def jsonFloat (env : JsonEnv) (b : Bytes) : PyStr :=
  if finiteDouble b then env.floatRepr b
  else if !zeroMantissa b then lit "NaN"
  else if (b.getD 7 0).toNat < 128 then lit "Infinity"
  else lit "-Infinity"

/-- binmodel/__init__.py:408-410: `bytes.decode('latin1')`. -/
def latin1 (b : Bytes) : PyStr := b.map UInt8.toNat

/-- controlchar.py:184-203: the dicts of control characters. -/
def jsonCtrl : CtrlChar → Json
  | .plain code => .obj [(lit "code", .int code)]
  | .tab code width u0 u1 u2 =>
    .obj (sortKeys [(lit "code", .int code),
      (lit "param", .obj (sortKeys [(lit "width", .int width), (lit "unknown0", .int u0), (lit "unknown1", .int u1),
        (lit "unknown2", .str (latin1 u2))]))])
  | .other code chid param =>
    .obj (sortKeys [(lit "code", .int code), (lit "chid", .str (latin1 chid)), (lit "param", .str (latin1 param))])

/-- tagid51_para_text.py:48-54: `((start, end), text or control)`; tuples become lists. -/
def jsonChunk (c : Chunk) : Json :=
  .arr [.arr [.int c.start, .int c.stop],
    match c.val with
    | .text s => .str s
    | .ctrl c => jsonCtrl c]

/-- A leaf.  Flags are `int`s; `b2a_hex` gives bytes (dataio.py:133); classes and other
objects are a `TypeError` (binmodel/__init__.py:411). -/
def jsonLeaf (env : JsonEnv) : PVal → Except PyErr Json
  | .int n => .ok (.int n)
  | .flags _ n => .ok (.int n)
  | .str s => .ok (.str s)
  | .double b => .ok (.float (jsonFloat env b))
  | .hex b => .ok (.str (b.flatMap fun x => (hex02 x).map Char.toNat))
  | .chid b => .ok (.str (latin1 b))
  | .chunks cs => .ok (.arr (cs.map jsonChunk))
  | .version ns => .ok (.arr (ns.map fun (n : Nat) => .int n))
  | .cls _ => .error .typeError
  | .inst _ => .error .typeError

mutual
/-- A value of a content. -/
def jsonValue (env : JsonEnv) : Value PVal → Except PyErr Json
  | .leaf p => jsonLeaf env p
  | .list xs => do return .arr (← jsonValues env xs)
  | .tuple xs => do return .arr (← jsonValues env xs)
  | .struct fs => do return .obj (sortKeys (← jsonFieldsOf env fs))
/-- Items. -/
def jsonValues (env : JsonEnv) : List (Value PVal) → Except PyErr (List Json)
  | [] => .ok []
  | x :: xs => do
    let j ← jsonValue env x
    let js ← jsonValues env xs
    return j :: js
/-- Items of a dict. -/
def jsonFieldsOf (env : JsonEnv) : List (String × Value PVal) → Except PyErr (List (PyStr × Json))
  | [] => .ok []
  | (k, v) :: fs => do
    let j ← jsonValue env v
    let js ← jsonFieldsOf env fs
    return (lit k, j) :: js
end

/-- The lines of a dump, as a list of strings. -/
def jsonDump (b : Bytes) : Json := .arr ((dumpbytes false b).map fun l => .str (l.map Char.toNat))

/-- binmodel/__init__.py:414-425 `model_to_json(model, sort_keys=True, indent=2)`. -/
def modelToJson (env : JsonEnv) (m : PModel Fields) : Except PyErr PyStr := do
  let content ← jsonValue env (.struct m.content)
  return jsonDumps 0 (.obj (sortKeys (
    [(lit "tagid", .int m.record.tagid), (lit "tagname", .str (tagname m.record.tagid)),
     (lit "level", .int m.record.level), (lit "size", .int m.record.size), (lit "payload", jsonDump m.record.payload),
     (lit "seqno", .int m.record.seqno), (lit "type", .str (lit m.type)), (lit "content", content)] ++
    match m.unparsed with
    | none => []
    | some u => [(lit "unparsed", jsonDump u)])))

/-- proc/models.py:205-209 `print_models_json`, and binmodel/__init__.py:466-468 `models_json`:
the texts written. -/
def modelsJson (env : JsonEnv) (g : Gen (PModel Fields)) : Gen PyStr :=
  jsonObjects id (writeEach (fun m => do return [← modelToJson env m]) g.err g.out)

/-- proc/models.py:219-222 `print_model_simple`. -/
def modelLine (m : PModel Fields) : PyStr :=
  pad4 m.record.seqno ++ [0x20] ++ List.replicate m.record.level 0x20 ++ lit m.type ++ [0x0a]

/-- proc/models.py:212-216, 219-222: what `--simple` writes. -/
def modelsSimple (g : Gen (PModel Fields)) : Gen Nat :=
  writeEach (fun m => .ok (modelLine m)) g.err g.out

/-- proc/models.py:176-188 `models_from_args`: the models the command iterates over.  (Empty
texts count as not given.) -/
def selectModels (rd : ModelReader Fields) (treegroup seqno : Option PyStr) (s : Bytes) : Gen (PModel Fields) :=
  let sel : Except PyErr (Gen (PModel Fields)) :=
    match treegroup, seqno with
    | some (c :: t), _ => do
      let n ← isliceArg (← intArg (c :: t))
      return treegroupModels rd s n
    | _, some (c :: t) => do
      let n ← intArg (c :: t)
      let a ← isliceArg n
      let b ← isliceArg (n + 1)
      return islice (streamModels rd s) a b
    | _, _ => return streamModels rd s
  match sel with
  | .error e => .raise e
  | .ok g => g

end Hwp
