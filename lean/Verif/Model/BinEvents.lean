/-
The events of reading a record, `model['binevents']`: what `hwp5proc find --dump` prints below
a model (/repo/src/hwp5/proc/find.py:231-235, bintype.py:326-353 `log_events`) and what a
`ParseError` carries (bintype.py:426-450, binmodel/__init__.py:303-331).

The events are those that come out of the pipeline of `Model/Bintype.lean`: each round of
`pstep` yields at most one.

Simplifications: `item['type']` is what the pipeline looks at in it (`TKind`); the text printed
for an event is not modelled, only the event.
-/
import Verif.Model.DeclReader
namespace Hwp

/-- `item['value']` of an item: a value, or the number of items of a counted array, whose
item is not collected (bintype.py:256, `dontcollect`). -/
inductive ItemVal (V : Type) where
  | val (v : V)
  | count (n : Nat)

/-- Events that come out of the pipeline: `STARTEVENT` and `ENDEVENT` of structs and arrays,
`None` for an item with its `bin_offset` and `value`, `ERROREVENT` for an item that could not
be read, with its `bin_offset`.  `name` is `item['name']`, if set. -/
inductive BinEv (V C : Type) where
  | start (name : Option String) (type : TKind V C)
  | stop (name : Option String) (type : TKind V C)
  | item (name : Option String) (type : TKind V C) (offset : Nat) (value : ItemVal V)
  | error (name : Option String) (type : TKind V C) (offset : Nat)

/-- bintype.py:366-377 and 286-291 for a leaf: the item with `stream.tell()` as its offset
(`total` is the length of the whole stream); for flags that cannot be read,
`evaluate_bin_values` raises before anything is yielded. -/
def leafEvents {V C} (total : Nat) (name : Option String) (k : TKind V C) (s : Bytes) :
    List (BinEv V C) :=
  match k with
  | .leaf r =>
    match r s with
    | .ok (v, _) => [.item name k (total - s.length) (.val v)]
    | .error _ => [.error name k (total - s.length)]
  | .flags r conv =>
    match r s with
    | .ok (v, _) => [.item name k (total - s.length) (.val (conv v))]
    | .error _ => []
  | _ => []

/-- bintype.py:255-258: the count of a counted array is an item without name. -/
def countEvents {V C} (total : Nat) (k : TKind V C) (s : Bytes) : List (BinEv V C) :=
  match k with
  | .var r =>
    match r s with
    | .ok (n, _) => [.item none k (total - s.length) (.count n)]
    | .error _ => [.error none k (total - s.length)]
  | _ => []

/-- What one round of the loop (`pstep`) yields.  A round that raises while it puts a finished
value into the enclosing one (bintype.py:315-324) yields nothing. -/
def pyield {V C} (total : Nat) (e : TEv V C) (st : PSt V C) : List (BinEv V C) :=
  match e with
  | .stop i =>
    match i.kind with
    | .sel _ => []
    | k =>
      match st.stack with
      | [] => []
      | f :: fs =>
        match collect f.item.attrs.name (finishValue k f.value) fs with
        | .error _ => []
        | .ok _ => [.stop f.item.attrs.name f.item.kind]
  | e =>
    match e.item.kind with
    | .sel _ => []
    | k =>
      match e.item.attrs.selectWhen with
      | some _ => []
      | none =>
        match e.item.attrs.condition with
        | some _ => []
        | none =>
          if k.isArray ∧ e.item.attrs.count = none then countEvents total k st.stream
          else
            match e with
            | .start i =>
              match initValue k with
              | .error _ => []
              | .ok _ => [.start i.attrs.name i.kind]
            | _ =>
              match readLeaf k st.stream with
              | .error _ => leafEvents total e.item.attrs.name k st.stream
              | .ok (v, _) =>
                match collect e.item.attrs.name (.leaf v) st.stack with
                | .error _ => []
                | .ok _ => leafEvents total e.item.attrs.name k st.stream

/-- The whole loop with the events it yields, with a bound on the number of rounds; the
result is that of `prun`. -/
def ptrace {V C} (ctx : C) (total : Nat) :
    Nat → PSt V C → Option (List (BinEv V C) × Except PyErr (Value V × Bytes))
  | fuel, st =>
    match st.deque with
    | [] =>
      match st.last with
      | none => some ([], .error .indexError)
      | some v => some ([], .ok (v, st.stream))
    | e :: deque =>
      match fuel with
      | 0 => none
      | fuel + 1 =>
        match pstep ctx e { st with deque := deque } with
        | .error err => some (pyield total e { st with deque := deque }, .error err)
        | .ok st' =>
          (ptrace ctx total fuel st').map fun r =>
            (pyield total e { st with deque := deque } ++ r.1, r.2)

/-- bintype.py:412-439 `read_type_events` (and `raise_on_errorevent`,
binmodel/__init__.py:314-331): the events up to the first `ERROREVENT`, and the outcome.
`s` is what is left of a stream of `total` bytes. -/
def readTypeEvents {V C} (fuel total : Nat) (version : Option Version) (ctx : C) (t : Ty V C)
    (s : Bytes) : Option (List (BinEv V C) × Except PyErr (Value V × Bytes)) :=
  ptrace ctx total fuel ⟨typeEvents version t, [], [], s, none⟩

/-- The events of reading a class: a struct, whose value is a dict. -/
def classEvents (fuel total : Nat) (ver : Version) (parent : Option (String × Fields)) (c : String)
    (s : Bytes) : Option (List (BinEv PVal DCtx) × Except PyErr (Fields × Bytes)) :=
  (readTypeEvents fuel total (some ver) (⟨some ver, some parent⟩ : DCtx) (classTy c) s).map fun r =>
    (r.1, match r.2 with
      | .ok (.struct fs, rest) => .ok (fs, rest)
      | .ok _ => .error .assertionError
      | .error e => .error e)

/-- binmodel/__init__.py:378-386: the events of the further classes. -/
def extensionEvents (fuel total : Nat) (ver : Version) (parent : Option (String × Fields)) :
    Fields → Bytes → List String →
      Option (List (BinEv PVal DCtx) × Except PyErr (Fields × Bytes))
  | content, s, [] => some ([], .ok (content, s))
  | content, s, c :: cs =>
    match classEvents fuel total ver parent c s with
    | none => none
    | some (evs, .error e) => some (evs, .error e)
    | some (evs, .ok (more, s)) =>
      (extensionEvents fuel total ver parent (contentUpdate content more) s cs).map fun r =>
        (evs ++ r.1, r.2)

/-- binmodel/__init__.py:303-331 `parse_model` with `resolve_model_events` (357-387): the
events of a record (`model['binevents']`, `ParseError.binevents`) and the outcome: type,
content and the unread rest, or the exception. -/
def modelBinEvents (fuel : Nat) (ver : Version) (rd : ModelReader Fields) (parent : PFrame Fields)
    (r : Record) : Option (List (BinEv PVal DCtx) × Except PyErr (String × Fields × Bytes)) :=
  match classEvents fuel r.payload.length ver parent.model (baseType r.tagid) r.payload with
  | none => none
  | some (evs, .error e) => some (evs, .error e)
  | some (evs, .ok (content, s)) =>
    match extensionOf rd (baseType r.tagid) parent content with
    | .error e => some (evs, .error e)
    | .ok none => some (evs, .ok (baseType r.tagid, content, s))
    | .ok (some ext) =>
      (extensionEvents fuel r.payload.length ver parent.model content s
        (extensionMro ext (baseType r.tagid))).map fun q =>
          (evs ++ q.1, q.2.map fun p => (ext, p.1, p.2))

end Hwp
