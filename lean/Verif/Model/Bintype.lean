/-
Model of typed reading, /repo/src/hwp5/bintype.py, of struct declarations
(/repo/src/hwp5/dataio.py:386-592) and of record models
(/repo/src/hwp5/binmodel/__init__.py:275-340).

`V` is the type of primitive values, `C` the parsing context.  Types are given by
their declaration; the references and conditions are arbitrary functions that may
raise.  `dict` items are records; START and END events share one dict in the code,
which is modelled by END events not being examined again (their `select_when` and
`condition` keys were removed and their `count` was set when the START event was
handled).
-/
import Verif.Model.Dataio
namespace Hwp

/-- Values built by reading. -/
inductive Value (V : Type) where
  | leaf (v : V)
  | list (xs : List (Value V))
  | tuple (xs : List (Value V))
  | struct (fs : List (String × Value V))

/-- Version tuples. -/
abbrev Version := List Nat

/-- `a < b` for tuples of integers. -/
def Version.lt : Version → Version → Bool
  | _, [] => false
  | [], _ :: _ => true
  | a :: as, b :: bs => if a < b then true else if b < a then false else Version.lt as bs

mutual
/-- Type declarations: primitive types (anything with a reader, bintype.py:380-409),
`Flags` (dataio.py:287), `Struct` (dataio.py:541), `ARRAY` (391), `N_ARRAY` (413),
`X_ARRAY` (448) and `SelectiveType` (462). -/
inductive Ty (V C : Type) where
  | prim (read : Bytes → Except PyErr (V × Bytes))
  | flags (read : Bytes → Except PyErr (V × Bytes)) (convert : V → V)
  | struct (members : Members V C)
  | fixedArray (item : Ty V C) (size : Nat)
  | varArray (count : Bytes → Except PyErr (Nat × Bytes)) (item : Ty V C)
  | xArray (item : Ty V C) (count : C → Value V → Except PyErr Nat)
  | selective (selector : C → Value V → Except PyErr Int) (selections : Selections V C)
/-- `members` of a struct: name, minimum version, condition, type. -/
inductive Members (V C : Type) where
  | nil
  | cons (name : String) (version : Option Version)
      (condition : Option (C → Value V → Except PyErr Bool)) (type : Ty V C) (rest : Members V C)
/-- `selections` of a selective type. -/
inductive Selections (V C : Type) where
  | nil
  | cons (key : Int) (type : Ty V C) (rest : Selections V C)
end

/-- What the pipeline looks at in `item['type']`. -/
inductive TKind (V C : Type) where
  | leaf (read : Bytes → Except PyErr (V × Bytes))
  | flags (read : Bytes → Except PyErr (V × Bytes)) (convert : V → V)
  | struct
  | fixed (size : Nat)
  | var (count : Bytes → Except PyErr (Nat × Bytes))
  | xarr (count : C → Value V → Except PyErr Nat)
  | sel (selector : C → Value V → Except PyErr Int)

/-- The other keys of an item; an absent key is `none`. -/
structure TAttrs (V C : Type) where
  name : Option String := none
  version : Option Version := none
  condition : Option (C → Value V → Except PyErr Bool) := none
  selectWhen : Option Int := none
  count : Option Nat := none

/-- An item of a type definition event. -/
structure TItem (V C : Type) where
  attrs : TAttrs V C
  kind : TKind V C

/-- Events `(None, item)`, `(STARTEVENT, item)`, `(ENDEVENT, item)`. -/
inductive TEv (V C : Type) where
  | leaf (item : TItem V C)
  | start (item : TItem V C)
  | stop (item : TItem V C)

namespace TEv
/-- The item of an event. -/
def item {V C} : TEv V C → TItem V C
  | leaf i => i
  | start i => i
  | stop i => i
end TEv

mutual
/-- bintype.py:44-86 `bintype_map_events`. -/
def mapTy {V C} (b : TAttrs V C) : Ty V C → List (TEv V C)
  | .prim r => [.leaf ⟨b, .leaf r⟩]
  | .flags r conv => [.leaf ⟨b, .flags r conv⟩]
  | .struct ms => .start ⟨b, .struct⟩ :: (mapMembers ms ++ [.stop ⟨b, .struct⟩])
  | .fixedArray t n => .start ⟨b, .fixed n⟩ :: (mapTy {} t ++ [.stop ⟨b, .fixed n⟩])
  | .varArray r t => .start ⟨b, .var r⟩ :: (mapTy {} t ++ [.stop ⟨b, .var r⟩])
  | .xArray t ref => .start ⟨b, .xarr ref⟩ :: (mapTy {} t ++ [.stop ⟨b, .xarr ref⟩])
  | .selective ref sels => .start ⟨b, .sel ref⟩ :: (mapSels b sels ++ [.stop ⟨b, .sel ref⟩])
/-- bintype.py:48-51: the members of a struct. -/
def mapMembers {V C} : Members V C → List (TEv V C)
  | .nil => []
  | .cons name version condition t rest =>
    mapTy { name := some name, version := version, condition := condition } t ++ mapMembers rest
/-- bintype.py:72-75: `dict(bin_item, select_when=k, type=v)` for each selection. -/
def mapSels {V C} (b : TAttrs V C) : Selections V C → List (TEv V C)
  | .nil => []
  | .cons k t rest => mapTy { b with selectWhen := some k } t ++ mapSels b rest
end

/-- bintype.py:117-120 `compile_type_definition(dict(type=type))`. -/
def compileType {V C} (t : Ty V C) : List (TEv V C) := mapTy {} t

/-- bintype.py:172-183 `pop_subevents` and treeop.py:127-137 `iter_subevents`: the
events up to and including the end of the current tree, and the rest. -/
def popSub {V C} (level : Nat) : List (TEv V C) → List (TEv V C) × List (TEv V C)
  | [] => ([], [])
  | .leaf i :: es => let (a, r) := popSub level es; (.leaf i :: a, r)
  | .start i :: es => let (a, r) := popSub (level + 1) es; (.start i :: a, r)
  | .stop i :: es =>
    match level with
    | 0 => ([.stop i], es)
    | l + 1 => let (a, r) := popSub l es; (.stop i :: a, r)

theorem popSub_length {V C} (es : List (TEv V C)) : ∀ l, (popSub l es).2.length ≤ es.length := by
  induction es with
  | nil => intro l; simp [popSub]
  | cons e es ih =>
    intro l
    cases e with
    | leaf i => have := ih l; simp [popSub]; omega
    | start i => have := ih (l + 1); simp [popSub]; omega
    | stop i =>
      cases l with
      | zero => simp [popSub]
      | succ l => have := ih l; simp [popSub]; omega

/-- bintype.py:91-92: is the item too new for the document version? -/
def tooNew {V C} (version : Version) (i : TItem V C) : Bool :=
  match i.attrs.version with
  | none => false
  | some required => Version.lt version required

/-- bintype.py:89-101 `filter_with_version`. -/
def filterVersion {V C} (version : Version) : List (TEv V C) → List (TEv V C)
  | [] => []
  | e :: es =>
    if tooNew version e.item then
      match e with
      | .start _ => filterVersion version (popSub 0 es).2
      | _ => filterVersion version es
    else e :: filterVersion version es
termination_by es => es.length
decreasing_by
  · have := popSub_length es 0; simp; omega
  · simp
  · simp

/-! ### Evaluation -/

/-- An item on the stacks of `resolve_typedefs` (bintype.py:190) and
`construct_composite_values` (297) with its value so far; the two stacks always hold
the same items when `resolve_typedefs` looks at them. -/
structure Frame (V C : Type) where
  item : TItem V C
  value : Value V

/-- State of the pipeline between two events taken from the deque: the deque and
`selective_stack` of `resolve_typedefs`, the stack, the stream, and the value of the
last event's item. -/
structure PSt (V C : Type) where
  deque : List (TEv V C)
  stack : List (Frame V C)
  selStack : List Int
  stream : Bytes
  last : Option (Value V)

/-- `d[name] = v`. -/
def setField {V} (name : String) (v : Value V) :
    List (String × Value V) → List (String × Value V)
  | [] => [(name, v)]
  | (n, w) :: fs => if n = name then (n, v) :: fs else (n, w) :: setField name v fs

/-- bintype.py:315-324: put a finished value into the enclosing value. -/
def collect {V C} (name : Option String) (v : Value V) :
    List (Frame V C) → Except PyErr (List (Frame V C))
  | [] => .ok []
  | f :: fs =>
    match f.value with
    | .struct fields =>
      match name with
      | none => .error .keyError
      | some n => .ok ({ f with value := .struct (setField n v fields) } :: fs)
    | .list xs => .ok ({ f with value := .list (xs ++ [v]) } :: fs)
    | _ => .ok (f :: fs)

/-- bintype.py:300-307: initial value of a composite item. -/
def initValue {V C} : TKind V C → Except PyErr (Value V)
  | .struct => .ok (.struct [])
  | .fixed _ | .var _ | .xarr _ => .ok (.list [])
  | _ => .error .assertionError

/-- bintype.py:311-313: a fixed array becomes a tuple at its end. -/
def finishValue {V C} : TKind V C → Value V → Value V
  | .fixed _, .list xs => .tuple xs
  | _, v => v

/-- Reading a leaf: bintype.py:366-377 turns any exception into an ERROREVENT, which
`read_type_events` (429-439) turns into a `ParseError`; but for a flags item
`evaluate_bin_values` (286-291) looks up `item['value']` first, which is a
`KeyError`. -/
def readLeaf {V C} : TKind V C → Bytes → Except PyErr (V × Bytes)
  | .leaf r, s => match r s with
    | .ok p => .ok p
    | .error _ => .error .parseError
  | .flags r conv, s => match r s with
    | .ok (v, s') => .ok (conv v, s')
    | .error _ => .error .keyError
  | _, _ => .error .assertionError

/-- bintype.py:226-227, 255-266: number of items of an array; the count of a counted
array is read from the stream. -/
def resolveCount {V C} (ctx : C) (k : TKind V C) (stack : List (Frame V C)) (s : Bytes) :
    Except PyErr (Nat × Bytes) :=
  match k with
  | .xarr ref =>
    match stack with
    | [] => .error .indexError
    | f :: _ => do
      let n ← ref ctx f.value
      return (n, s)
  | .var r =>
    match r s with
    | .ok p => .ok p
    | .error _ => .error .parseError
  | .fixed n => .ok (n, s)
  | _ => .error .assertionError

/-- Is this an array type? -/
def TKind.isArray {V C} : TKind V C → Bool
  | .fixed _ | .var _ | .xarr _ => true
  | _ => false

/-- The event with other attributes. -/
def TEv.withAttrs {V C} (f : TAttrs V C → TAttrs V C) : TEv V C → TEv V C
  | .leaf i => .leaf { i with attrs := f i.attrs }
  | .start i => .start { i with attrs := f i.attrs }
  | .stop i => .stop { i with attrs := f i.attrs }

/-- bintype.py:220-224, 237-241: skip the tree of an event just taken. -/
def skipTree {V C} (e : TEv V C) (deque : List (TEv V C)) : List (TEv V C) :=
  match e with
  | .start _ => (popSub 0 deque).2
  | _ => deque

/-- One round of the loop bintype.py:195-283 of `resolve_typedefs`, together with
what the stages after it do with the event it yields
(`resolve_values_from_stream`, `evaluate_bin_values`,
`construct_composite_values`).  The deque is `e :: deque`. -/
def pstep {V C} (ctx : C) (e : TEv V C) (st : PSt V C) : Except PyErr (PSt V C) :=
  match e with
  | .stop i =>
    match i.kind with
    | .sel _ => .ok { st with selStack := st.selStack.tail }       -- 208-209
    | k =>
      match st.stack with
      | [] => .error .indexError
      | f :: fs =>
        let v := finishValue k f.value
        match collect f.item.attrs.name v fs with
        | .error err => .error err
        | .ok stack => .ok { st with stack := stack, last := some v }
  | e =>
    let i := e.item
    match i.kind with
    | .sel ref =>                                                   -- 197-211
      match e with
      | .start _ =>
        match st.stack with
        | [] => .error .indexError
        | f :: _ =>
          match ref ctx f.value with
          | .error err => .error err
          | .ok key => .ok { st with selStack := key :: st.selStack }
      | _ => .error .assertionError
    | k =>
      match i.attrs.selectWhen with
      | some w =>                                                   -- 212-228
        match st.selStack with
        | [] => .error .indexError
        | key :: _ =>
          if w ≠ key then .ok { st with deque := skipTree e st.deque }
          else .ok { st with deque := e.withAttrs (fun a => { a with selectWhen := none }) :: st.deque }
      | none =>
        match i.attrs.condition with
        | some c =>                                                 -- 229-245
          match st.stack with
          | [] => .error .indexError
          | f :: _ =>
            match c ctx f.value with
            | .error err => .error err
            | .ok false => .ok { st with deque := skipTree e st.deque }
            | .ok true =>
              .ok { st with deque := e.withAttrs (fun a => { a with condition := none }) :: st.deque }
        | none =>
          if k.isArray ∧ i.attrs.count = none then                  -- 246-277
            match resolveCount ctx k st.stack st.stream with
            | .error err => .error err
            | .ok (n, stream) =>
              let sub := popSub 0 st.deque
              .ok { st with
                stream := stream
                deque := .start { i with attrs := { i.attrs with count := some n } } ::
                  ((List.replicate n sub.1.dropLast).flatten ++ (sub.1.getLast?.toList ++ sub.2)) }
          else
            match e with
            | .start _ =>                                           -- 279-280, 300-308
              match initValue k with
              | .error err => .error err
              | .ok v => .ok { st with stack := ⟨i, v⟩ :: st.stack, last := some v }
            | _ =>                                                  -- leaf: 283, 366-377, 286-291, 315-324
              match readLeaf k st.stream with
              | .error err => .error err
              | .ok (v, stream) =>
                match collect i.attrs.name (.leaf v) st.stack with
                | .error err => .error err
                | .ok stack => .ok { st with stack := stack, stream := stream, last := some (.leaf v) }

/-- The whole loop with a bound on the number of rounds (`none`: bound reached).
At the end the value of the last event's item is the result (bintype.py:442-455);
the unread rest of the stream is returned with it. -/
def prun {V C} (ctx : C) : Nat → PSt V C → Option (Except PyErr (Value V × Bytes))
  | fuel, st =>
    match st.deque with
    | [] =>
      match st.last with
      | none => some (.error .indexError)
      | some v => some (.ok (v, st.stream))
    | e :: deque =>
      match fuel with
      | 0 => none
      | fuel + 1 =>
        match pstep ctx e { st with deque := deque } with
        | .error err => some (.error err)
        | .ok st => prun ctx fuel st

/-- bintype.py:412-422 `resolve_type_events`: the events to evaluate, filtered if the
context has a version. -/
def typeEvents {V C} (version : Option Version) (t : Ty V C) : List (TEv V C) :=
  match version with
  | none => compileType t
  | some v => filterVersion v (compileType t)

/-- bintype.py:453-455 `read_type(type, context, stream)`, with a bound on the number
of rounds. -/
def readType {V C} (fuel : Nat) (version : Option Version) (ctx : C) (t : Ty V C) (s : Bytes) :
    Option (Except PyErr (Value V × Bytes)) :=
  prun ctx fuel ⟨typeEvents version t, [], [], s, none⟩

/-! ### Records -/

/-- binmodel/__init__.py:280-289 with `parse_model` (303-314) for a model type
without extension: the parsed content, and `model['unparsed']` if something is
left. -/
def parseRecord {V C} (fuel : Nat) (version : Option Version) (ctx : C) (t : Ty V C)
    (payload : Bytes) : Option (Except PyErr (Value V × Option Bytes)) :=
  (readType fuel version ctx t payload).map fun r =>
    match r with
    | .error e => .error e
    | .ok (v, rest) => .ok (v, if rest = [] then none else some rest)

/-! ### Caches -/

/-- bintype.py:123 `master_typedefs` and 134 `versioned_typedefs`. -/
structure TypedefCache (κ V C : Type) where
  master : List (κ × List (TEv V C)) := []
  versioned : List (Version × List (κ × List (TEv V C))) := []

/-- bintype.py:126-131 `get_compiled_typedef`. -/
def getCompiled {κ V C} [BEq κ] (decl : κ → Ty V C) (c : TypedefCache κ V C) (t : κ) :
    List (TEv V C) × TypedefCache κ V C :=
  match c.master.lookup t with
  | some evs => (evs, c)
  | none =>
    let evs := compileType (decl t)
    (evs, { c with master := (t, evs) :: c.master })

/-- bintype.py:137-152 `get_compiled_typedef_with_version`; a version's dictionary is
replaced by the extended one. -/
def getCompiledVersion {κ V C} [BEq κ] (decl : κ → Ty V C) (c : TypedefCache κ V C) (t : κ)
    (v : Version) : List (TEv V C) × TypedefCache κ V C :=
  let typedefs := (c.versioned.lookup v).getD []
  match typedefs.lookup t with
  | some evs => (evs, c)
  | none =>
    let (master, c) := getCompiled decl c t
    let evs := filterVersion v master
    (evs, { c with versioned := (v, (t, evs) :: typedefs) :: c.versioned })

/-- A history of requests (bintype.py:415-419), with or without version. -/
def cacheHistory {κ V C} [BEq κ] (decl : κ → Ty V C) (c : TypedefCache κ V C) :
    List (κ × Option Version) → List (List (TEv V C))
  | [] => []
  | (t, none) :: rest => let (evs, c) := getCompiled decl c t; evs :: cacheHistory decl c rest
  | (t, some v) :: rest =>
    let (evs, c) := getCompiledVersion decl c t v; evs :: cacheHistory decl c rest

end Hwp
