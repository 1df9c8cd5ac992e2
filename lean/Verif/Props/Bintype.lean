/- Properties C36-C39 and C60: typed reading. -/
import Verif.Proofs.Bintype
import Verif.Props.Dataio
set_option linter.unusedSimpArgs false
set_option linter.unusedVariables false
namespace Hwp.Props
open Hwp Hwp.Spec

variable {V C : Type}

/-! Declarations used in the examples: a 16 bit count, that many bytes, a member for
newer documents, a conditional member and a selective one. -/

/-- A primitive integer as a type. -/
def primTy (p : Prim) : Ty Int C := .prim p.read

/-- A field of the struct read so far. -/
def fieldInt (name : String) : Value Int → Except PyErr Int
  | .struct fs => match fs.lookup name with
    | some (.leaf v) => .ok v
    | _ => .error .keyError
  | _ => .error .typeError

/-- The example declaration. -/
def sampleTy : Ty Int Unit := .struct
  (.cons "kind" none none (primTy .UINT8)
  (.cons "n" none none (primTy .UINT8)
  (.cons "items" none none (.xArray (primTy .UINT16) (fun _ v => (fieldInt "n" v).map Int.toNat))
  (.cons "extra" (some [5, 0, 3]) none (primTy .UINT16)
  (.cons "opt" none (some (fun _ v => (fieldInt "kind" v).map (· == 1))) (primTy .UINT8)
  (.cons "body" none none (.selective (fun _ v => fieldInt "kind" v)
    (.cons 1 (.struct (.cons "a" none none (primTy .UINT8) .nil))
    (.cons 2 (.fixedArray (primTy .UINT8) 2) .nil)))
  .nil))))))

theorem sampleTy_wf : WfTy sampleTy := by
  simp [sampleTy, WfTy, WfMembers, WfSels, primTy, IsSel, selKeys]

/-! ### C37 the pipeline computes the declared structure -/

/-- C37: for every declaration, version, context and payload, the pipeline of
generators terminates with what reading member after member gives: the same value
and the same rest, or the same exception (unreadable flags: `KeyError`). -/
theorem C37_pipeline_reads_declaration (ver : Option Version) (ctx : C) (t : Ty V C) (hw : WfTy t)
    (s : Bytes) : ∃ fuel, ∀ more, readType (fuel + more) ver ctx t s =
      some (readWhole .keyError ver ctx t s) := by
  obtain ⟨f, hf⟩ := readType_eq ver ctx t hw s
  exact ⟨f, fun more => prun_mono f hf more⟩

/-- C37: whenever the pipeline gives a result, it is that one. -/
theorem C37_pipeline_result_unique (ver : Option Version) (ctx : C) (t : Ty V C) (hw : WfTy t)
    (s : Bytes) (fuel : Nat) (r : Except PyErr (Value V × Bytes))
    (h : readType fuel ver ctx t s = some r) : r = readWhole .keyError ver ctx t s := by
  obtain ⟨f, hf⟩ := readType_eq ver ctx t hw s
  exact prun_unique h hf

/- A document of version 5.0.2.4: no "extra", condition and selection by kind. -/
example : ∃ fuel, readType fuel (some [5, 0, 2, 4]) () sampleTy [1, 2, 10, 0, 11, 0, 7, 9, 0xff] =
    some (.ok (.struct [("kind", .leaf 1), ("n", .leaf 2), ("items", .list [.leaf 10, .leaf 11]),
      ("opt", .leaf 7), ("body", .struct [("a", .leaf 9)])], [0xff])) := by
  refine ⟨30, ?_⟩
  unfold readType
  rw [typeEvents_eq]
  rfl
example : readWhole .keyError (some [5, 0, 3, 0]) () sampleTy [2, 1, 10, 0, 6, 0, 8, 9, 0xff] =
    .ok (.struct [("kind", .leaf 2), ("n", .leaf 1), ("items", .list [.leaf 10]), ("extra", .leaf 6),
      ("body", .tuple [.leaf 8, .leaf 9])], [0xff]) := by rfl

/-- A successful read has a member iff it was read: in particular the value of a
struct is made of the members in declaration order. Here: reading a struct is
reading its first member and then the others. -/
theorem C37_struct_first_member (fe : PyErr) (ver : Option Version) (ctx : C) (name : String)
    (required : Option Version) (t : Ty V C) (rest : Members V C) (fs : List (String × Value V))
    (s s' : Bytes) (v : Value V) (hv : versionOk ver required = true)
    (h : readTy fe ver ctx (some (.struct fs)) t s = .ok (some v, s')) :
    readMembers fe ver ctx (.cons name required none t rest) fs s =
      readMembers fe ver ctx rest (setField name v fs) s' := by
  rw [readMembers.eq_def]
  simp only [hv, if_true, h]

/-! ### C36 consumption -/

/-- The primitive readers consume a prefix. -/
theorem C36_prim_consumes (p : Prim) : Consumes p.read := by
  intro s v s' h
  exact ⟨_, (C33_encode_read p _ _ _ h).2⟩

/-- C36: for every declaration over readers that consume a prefix, the parsed bytes
followed by the unparsed ones are the payload. -/
theorem C36_payload_is_parsed_and_unparsed (fuel : Nat) (ver : Option Version) (ctx : C)
    (t : Ty V C) (hw : WfTy t) (hr : ReadersTy Consumes t) (payload : Bytes) (v : Value V)
    (un : Option Bytes) (h : parseRecord fuel ver ctx t payload = some (.ok (v, un))) :
    ∃ parsed, payload = parsed ++ un.getD [] ∧ un ≠ some [] ∧
      readWhole .keyError ver ctx t payload = .ok (v, un.getD []) := by
  unfold parseRecord at h
  cases hq : readType fuel ver ctx t payload with
  | none => simp [hq] at h
  | some r =>
    have hr' := C37_pipeline_result_unique ver ctx t hw payload fuel r hq
    rw [hq] at h
    cases r with
    | error e => simp at h
    | ok p =>
      obtain ⟨w, rest⟩ := p
      simp only [Option.map_some, Option.some.injEq, Except.ok.injEq, Prod.mk.injEq] at h
      obtain ⟨h1, h2⟩ := h
      obtain ⟨u, hu⟩ := readWhole_consumes .keyError ver ctx t hr payload w rest hr'.symm
      have e : un.getD [] = rest := by
        rw [← h2]; split
        · rename_i h; simp [h]
        · rfl
      refine ⟨u, by rw [e]; exact hu, ?_, by rw [← hr', e, h1]⟩
      rw [← h2]; split
      · simp
      · simpa using ‹¬ rest = []›

example : (parseRecord 30 none () (.struct (.cons "a" none none (primTy .UINT16) .nil)) [1, 2, 3] :
    Option (Except PyErr (Value Int × Option Bytes))) =
    some (.ok (.struct [("a", .leaf 513)], some [3])) := by rfl
example : (parseRecord 30 none () (.struct (.cons "a" none none (primTy .UINT16) .nil)) [1, 2] :
    Option (Except PyErr (Value Int × Option Bytes))) =
    some (.ok (.struct [("a", .leaf 513)], none)) := by rfl

/-! ### C38 versions -/

/-- C38: evaluating the events filtered for a document version is evaluating the
declaration without the members that are too new, their subtrees included. -/
theorem C38_filter_exact (ver : Version) (t : Ty V C) :
    filterVersion ver (compileType t) = compileType (filterTy ver t) :=
  typeEvents_eq ver t

/-- C38: a member is present iff the document version is at least the required one. -/
theorem C38_member_present_iff (ver : Version) (name : String) (required : Option Version)
    (cond : Option (C → Value V → Except PyErr Bool)) (t : Ty V C) (rest : Members V C) :
    presentNames ver (.cons name required cond t rest) =
      (match required with
        | none => [name]
        | some r => if r ≤ ver then [name] else []) ++ presentNames ver rest := by
  have key : ∀ a b : Version, Version.lt a b = decide (a < b) := by
    intro a b
    induction a generalizing b with
    | nil => cases b <;> simp [Version.lt]
    | cons x xs ih =>
      cases b with
      | nil => simp [Version.lt]
      | cons y ys =>
        simp only [Version.lt, ih, List.cons_lt_cons_iff]
        by_cases h1 : x < y
        · simp [h1]
        · by_cases h2 : y < x
          · have : x ≠ y := by omega
            simp [h1, h2, this]
          · have : x = y := by omega
            simp [this]
  cases required with
  | none => rfl
  | some r =>
    simp only [presentNames, versionOk, key, Bool.not_eq_true', decide_eq_false_iff_not, List.not_lt]
    split <;> rfl

/-- C38: members are never dropped by a newer version. -/
theorem C38_monotonic (ver ver' : Version) (h : ver ≤ ver') : ∀ (ms : Members V C),
    (presentNames ver ms).Sublist (presentNames ver' ms)
  | .nil => .slnil
  | .cons name required cond t rest => by
    rw [C38_member_present_iff, C38_member_present_iff]
    refine List.Sublist.append ?_ (C38_monotonic ver ver' h rest)
    cases required with
    | none => exact List.Sublist.refl _
    | some r =>
      dsimp only
      split
      · rename_i h1
        rw [if_pos (List.le_trans h1 h)]
        exact List.Sublist.refl _
      · exact List.nil_sublist _

/-- All member names of a struct. -/
def memberNames : Members V C → List String
  | .nil => []
  | .cons name _ _ _ rest => name :: memberNames rest

/-- C38: the filtered declaration has exactly the present members. -/
theorem C38_filtered_names (ver : Version) : ∀ (ms : Members V C),
    memberNames (filterMembers ver ms) = presentNames ver ms
  | .nil => rfl
  | .cons name required cond t rest => by
    have ih := C38_filtered_names ver rest
    simp only [filterMembers, presentNames]
    split
    · simp [memberNames, ih]
    · exact ih

theorem versionOk_mono {ver ver' : Version} (h : ver ≤ ver') (r : Option Version)
    (hv : versionOk (some ver) r = true) : versionOk (some ver') r = true := by
  have e := fun v => C38_member_present_iff (V := Unit) (C := Unit) v "" r none (.struct .nil) .nil
  have h1 := e ver
  have h2 := e ver'
  simp only [presentNames, hv, if_true, List.append_nil] at h1
  cases r with
  | none => rfl
  | some r =>
    dsimp only at h1 h2
    split at h1
    · rename_i hr
      rw [if_pos (List.le_trans hr h)] at h2
      apply Classical.byContradiction
      intro hn
      simp [presentNames, hn] at h2
    · simp at h1

mutual
/-- C38: at every depth, what an older document has, a newer one has too: filtering
for the newer version first changes nothing. -/
theorem C38_monotonic_deep (ver ver' : Version) (h : ver ≤ ver') : ∀ (t : Ty V C),
    filterTy ver (filterTy ver' t) = filterTy ver t
  | .prim _ => rfl
  | .flags _ _ => rfl
  | .struct ms => by simp only [filterTy, filterMembers_mono ver ver' h ms]
  | .fixedArray t _ => by simp only [filterTy, C38_monotonic_deep ver ver' h t]
  | .varArray _ t => by simp only [filterTy, C38_monotonic_deep ver ver' h t]
  | .xArray t _ => by simp only [filterTy, C38_monotonic_deep ver ver' h t]
  | .selective _ ss => by simp only [filterTy, filterSels_mono ver ver' h ss]
theorem filterMembers_mono (ver ver' : Version) (h : ver ≤ ver') : ∀ (ms : Members V C),
    filterMembers ver (filterMembers ver' ms) = filterMembers ver ms
  | .nil => rfl
  | .cons name r c t rest => by
    have ih := filterMembers_mono ver ver' h rest
    have it := C38_monotonic_deep ver ver' h t
    by_cases h1 : versionOk (some ver) r = true
    · have h2 := versionOk_mono h r h1
      simp only [filterMembers, h2, if_true, h1, ih, it]
    · by_cases h2 : versionOk (some ver') r = true
      · simp only [filterMembers, h2, if_true, h1]
        simpa using ih
      · simp only [filterMembers, h2, h1]
        simpa using ih
theorem filterSels_mono (ver ver' : Version) (h : ver ≤ ver') : ∀ (ss : Selections V C),
    filterSels ver (filterSels ver' ss) = filterSels ver ss
  | .nil => rfl
  | .cons k t rest => by
    simp only [filterSels, C38_monotonic_deep ver ver' h t, filterSels_mono ver ver' h rest]
end

example : presentNames [5, 0, 2, 4]
    (.cons "a" none none (primTy .UINT8) (.cons "b" (some [5, 0, 3]) none (primTy .UINT8) .nil) :
      Members Int Unit) = ["a"] := by decide
example : presentNames [5, 0, 3, 0]
    (.cons "a" none none (primTy .UINT8) (.cons "b" (some [5, 0, 3]) none (primTy .UINT8) .nil) :
      Members Int Unit) = ["a", "b"] := by decide

/-! ### C39 caches -/

/-- The caches hold compiled definitions. -/
def CacheOk {κ : Type} [BEq κ] (decl : κ → Ty V C) (c : TypedefCache κ V C) : Prop :=
  (∀ t evs, c.master.lookup t = some evs → evs = compileType (decl t)) ∧
  (∀ v d t evs, c.versioned.lookup v = some d → d.lookup t = some evs →
    evs = typeEvents (some v) (decl t))

theorem CacheOk.compiled {κ : Type} [BEq κ] [LawfulBEq κ] {decl : κ → Ty V C} {c : TypedefCache κ V C}
    (h : CacheOk decl c) (t : κ) :
    (getCompiled decl c t).1 = compileType (decl t) ∧ CacheOk decl (getCompiled decl c t).2 := by
  unfold getCompiled
  cases hl : c.master.lookup t with
  | some evs => exact ⟨h.1 t evs hl, h⟩
  | none =>
    refine ⟨rfl, ?_, h.2⟩
    intro t' evs h'
    simp only [List.lookup_cons] at h'
    split at h'
    · rename_i e
      rw [eq_of_beq e]
      simpa using h'.symm
    · exact h.1 t' evs h'

theorem CacheOk.version {κ : Type} [BEq κ] [LawfulBEq κ] {decl : κ → Ty V C} {c : TypedefCache κ V C}
    (h : CacheOk decl c) (t : κ) (v : Version) :
    (getCompiledVersion decl c t v).1 = typeEvents (some v) (decl t) ∧
      CacheOk decl (getCompiledVersion decl c t v).2 := by
  have hg : ∀ t' evs, ((c.versioned.lookup v).getD []).lookup t' = some evs →
      evs = typeEvents (some v) (decl t') := by
    intro t' evs hl
    cases hv : c.versioned.lookup v with
    | none => simp [hv] at hl
    | some d => rw [hv] at hl; exact h.2 v d t' evs hv hl
  unfold getCompiledVersion
  dsimp only
  cases hl : ((c.versioned.lookup v).getD []).lookup t with
  | some evs => exact ⟨hg t evs hl, h⟩
  | none =>
    have hc := h.compiled t
    refine ⟨by simp only [hc.1]; rfl, hc.2.1, ?_⟩
    intro v' d t' evs h1 h2
    simp only [List.lookup_cons] at h1
    split at h1
    · rename_i e
      have e := eq_of_beq e
      subst e
      injection h1 with h1
      subst h1
      simp only [List.lookup_cons] at h2
      split at h2
      · rename_i e
        have e := eq_of_beq e
        subst e
        injection h2 with h2
        rw [← h2, hc.1]
        rfl
      · exact hg t' evs h2
    · exact hc.2.2 v' d t' evs h1 h2

/-- C39: for every history of lookups, each answer is the freshly compiled
definition for the requested type and version. -/
theorem C39_cache_transparent {κ : Type} [BEq κ] [LawfulBEq κ] (decl : κ → Ty V C)
    (history : List (κ × Option Version)) :
    cacheHistory decl {} history = history.map fun q => typeEvents q.2 (decl q.1) := by
  have h0 : CacheOk decl ({} : TypedefCache κ V C) := by
    constructor
    · intro t evs h; simp at h
    · intro v d t evs h; simp at h
  suffices ∀ c, CacheOk decl c → cacheHistory decl c history =
      history.map fun q => typeEvents q.2 (decl q.1) from this _ h0
  induction history with
  | nil => intro c _; rfl
  | cons q rest ih =>
    intro c hc
    obtain ⟨t, v⟩ := q
    cases v with
    | none =>
      have := hc.compiled t
      simp only [cacheHistory, List.map_cons, ih _ this.2, this.1]
      rfl
    | some v =>
      have := hc.version t v
      simp only [cacheHistory, List.map_cons, ih _ this.2, this.1]

/- Mixed history: the same type for two versions and without version. -/
example : (cacheHistory (fun _ : Nat => (.struct (.cons "a" (some [5]) none (primTy .UINT8) .nil) : Ty Int Unit)) {}
    [(0, some [5]), (0, some [4]), (0, none), (0, some [4])]).map List.length = [3, 2, 3, 2] := by
  rw [C39_cache_transparent]
  decide +kernel

/-! ### C60 malformed payloads -/

mutual
/-- No flags members, and references and conditions that do not fail. -/
def PlainTy : Ty V C → Prop
  | .prim _ => True
  | .flags _ _ => False
  | .struct ms => PlainMembers ms
  | .fixedArray t _ => PlainTy t
  | .varArray _ t => PlainTy t
  | .xArray t ref => PlainTy t ∧ ∀ ctx v, ∃ n, ref ctx v = .ok n
  | .selective ref ss => PlainSels ss ∧ ∀ ctx v, ∃ n, ref ctx v = .ok n
/-- Members. -/
def PlainMembers : Members V C → Prop
  | .nil => True
  | .cons _ _ c t rest => PlainTy t ∧ (∀ f, c = some f → ∀ ctx v, ∃ b, f ctx v = .ok b) ∧ PlainMembers rest
/-- Selections. -/
def PlainSels : Selections V C → Prop
  | .nil => True
  | .cons _ t rest => PlainTy t ∧ PlainSels rest
end

theorem readMany_error {f : List (Value V) → Bytes → Except PyErr (Option (Value V) × Bytes)} {e₀ : PyErr}
    (hf : ∀ acc s e, f acc s = .error e → e = e₀) : ∀ n acc s e, readMany f n acc s = .error e → e = e₀ := by
  intro n
  induction n with
  | zero => intro acc s e h; simp [readMany] at h
  | succ n ih =>
    intro acc s e h
    rw [readMany] at h
    split at h
    · rename_i hr; injection h with h; subst h; exact hf _ _ _ hr
    · exact ih _ _ _ h
    · exact ih _ _ _ h

theorem arrayResult_error {mk : List (Value V) → Value V} {r : Except PyErr (List (Value V) × Bytes)} {e : PyErr}
    (h : arrayResult mk r = .error e) : r = .error e := by
  cases r with
  | error _ => simpa [arrayResult] using h
  | ok p => simp [arrayResult] at h

mutual
theorem plain_error (fe : PyErr) (ver : Option Version) (ctx : C) : ∀ (t : Ty V C), PlainTy t → ∀ (p : Value V) (s : Bytes) (e : PyErr),
    readTy fe ver ctx (some p) t s = .error e → e = .parseError
  | .prim r, _, p, s, e, h => by
    simp only [readTy, leafResult] at h
    split at h <;> simp at h
    exact h.symm
  | .flags _ _, hp, _, _, _, _ => by simp [PlainTy] at hp
  | .struct ms, hp, p, s, e, h => by
    simp only [PlainTy] at hp
    simp only [readTy] at h
    split at h
    · simp at h
    · rename_i hr; injection h with h; subst h
      exact plain_error_members fe ver ctx ms hp _ _ _ hr
  | .fixedArray t n, hp, p, s, e, h => by
    simp only [PlainTy] at hp
    simp only [readTy] at h
    exact readMany_error (fun acc s e h => plain_error fe ver ctx t hp _ s e h) _ _ _ _ (arrayResult_error h)
  | .varArray r t, hp, p, s, e, h => by
    simp only [PlainTy] at hp
    simp only [readTy] at h
    split at h
    · injection h with h; exact h.symm
    · exact readMany_error (fun acc s e h => plain_error fe ver ctx t hp _ s e h) _ _ _ _ (arrayResult_error h)
  | .xArray t ref, hp, p, s, e, h => by
    simp only [PlainTy] at hp
    simp only [readTy, withParent] at h
    obtain ⟨n, hn⟩ := hp.2 ctx p
    simp only [hn] at h
    exact readMany_error (fun acc s e h => plain_error fe ver ctx t hp.1 _ s e h) _ _ _ _ (arrayResult_error h)
  | .selective ref ss, hp, p, s, e, h => by
    simp only [PlainTy] at hp
    simp only [readTy, withParent] at h
    obtain ⟨n, hn⟩ := hp.2 ctx p
    simp only [hn] at h
    exact plain_error_sels fe ver ctx ss hp.1 p n s e h
theorem plain_error_members (fe : PyErr) (ver : Option Version) (ctx : C) : ∀ (ms : Members V C), PlainMembers ms →
    ∀ fs (s : Bytes) (e : PyErr), readMembers fe ver ctx ms fs s = .error e → e = .parseError
  | .nil, _, fs, s, e, h => by simp [readMembers] at h
  | .cons n v c t rest, hp, fs, s, e, h => by
    simp only [PlainMembers] at hp
    have ih := plain_error_members fe ver ctx rest hp.2.2
    simp only [readMembers] at h
    split at h
    · split at h
      · rename_i hc
        cases c with
        | none => simp at hc
        | some f => obtain ⟨b, hb⟩ := hp.2.1 f rfl ctx (.struct fs); simp [hb] at hc
      · exact ih _ _ _ h
      · split at h
        · rename_i hr; injection h with h; subst h; exact plain_error fe ver ctx t hp.1 _ _ _ hr
        · exact ih _ _ _ h
        · exact ih _ _ _ h
    · exact ih _ _ _ h
theorem plain_error_sels (fe : PyErr) (ver : Option Version) (ctx : C) : ∀ (ss : Selections V C), PlainSels ss →
    ∀ (p : Value V) (k : Int) (s : Bytes) (e : PyErr), readSelected fe ver ctx (some p) k ss s = .error e → e = .parseError
  | .nil, _, p, k, s, e, h => by simp [readSelected] at h
  | .cons k' t rest, hp, p, k, s, e, h => by
    simp only [PlainSels] at hp
    simp only [readSelected] at h
    split at h
    · exact plain_error fe ver ctx t hp.1 p s e h
    · exact plain_error_sels fe ver ctx rest hp.2 p k s e h
end

/-- C60, restricted: for struct declarations without flags whose references and
conditions do not fail, the only exception is `ParseError`.  Missing: declarations
with flags, see `C60_flags_raise_KeyError`. -/
theorem C60_only_ParseError_partial (fuel : Nat) (ver : Option Version) (ctx : C)
    (ms : Members V C) (hw : WfMembers ms) (hp : PlainMembers ms) (s : Bytes) (e : PyErr)
    (h : readType fuel ver ctx (.struct ms) s = some (.error e)) : e = .parseError := by
  have h1 := C37_pipeline_result_unique ver ctx (.struct ms) (by simpa [WfTy] using hw) s fuel _ h
  unfold readWhole at h1
  simp only [readTy] at h1
  cases hr : readMembers .keyError ver ctx ms [] s with
  | error e' =>
    simp only [hr, Except.error.injEq] at h1
    subst h1
    exact plain_error_members .keyError ver ctx ms hp _ _ _ hr
  | ok p => simp [hr] at h1

/-- C60 fails for flags: a payload too short for a flags member raises `KeyError`
(`evaluate_bin_values` looks up `item['value']` of the error event). -/
theorem C60_flags_raise_KeyError :
    readType 30 none () (.struct (.cons "a" none none (.flags Prim.UINT32.read id) .nil) : Ty Int Unit) [1, 2] =
      some (.error .keyError) ∧
    readWhole .parseError none () (.struct (.cons "a" none none (.flags Prim.UINT32.read id) .nil) : Ty Int Unit) [1, 2] =
      .error .parseError := by
  constructor <;> rfl

/- Too short for an integer member: `ParseError`. -/
example : readType 30 none () (.struct (.cons "a" none none (primTy .UINT32) .nil) : Ty Int Unit) [1, 2] =
      some (.error .parseError) := by rfl

/-! ### Members of a struct value -/

/-- C37: storing a member makes it the value found under its name and leaves what is
found under other names. -/
theorem C37_member_stored (name : String) (v : Value V) (fs : List (String × Value V)) :
    (setField name v fs).lookup name = some v ∧
    ∀ other, other ≠ name → (setField name v fs).lookup other = fs.lookup other := by
  induction fs with
  | nil =>
    refine ⟨by simp [setField, List.lookup], fun o ho => ?_⟩
    simp [setField, List.lookup, beq_eq_false_iff_ne.2 ho]
  | cons f fs ih =>
    obtain ⟨n, w⟩ := f
    unfold setField
    by_cases hn : n = name
    · subst hn
      refine ⟨by simp, fun o ho => ?_⟩
      simp [List.lookup, beq_eq_false_iff_ne.2 ho]
    · rw [if_neg hn]
      refine ⟨?_, fun o ho => ?_⟩
      · rw [List.lookup_cons, beq_eq_false_iff_ne.2 (fun e => hn e.symm)]
        exact ih.1
      · rw [List.lookup_cons, List.lookup_cons]
        split
        · rfl
        · exact ih.2 o ho

/- A member declared twice, as in version dependent layouts: the later value counts. -/
example : (setField "a" (.leaf 2) [("a", .leaf 1), ("b", .leaf 5)] : List (String × Value Nat)).lookup "a" =
    some (.leaf 2) := by rfl

end Hwp.Props
