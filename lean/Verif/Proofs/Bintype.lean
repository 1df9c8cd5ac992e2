/- The typed reading pipeline refines sequential reading. -/
import Verif.Spec.Bintype
set_option linter.unusedSimpArgs false
set_option linter.unusedVariables false
namespace Hwp
open Spec

variable {V C : Type}

/-! ### Runs -/

/-- One successful round. -/
def Step (ctx : C) (st st' : PSt V C) : Prop :=
  ∃ e d, st.deque = e :: d ∧ pstep ctx e { st with deque := d } = .ok st'

/-- Several rounds. -/
inductive Reaches (ctx : C) : PSt V C → PSt V C → Prop
  | refl (st) : Reaches ctx st st
  | step {a b c} : Step ctx a b → Reaches ctx b c → Reaches ctx a c

theorem Reaches.trans {ctx : C} {a b c : PSt V C} (h1 : Reaches ctx a b) (h2 : Reaches ctx b c) :
    Reaches ctx a c := by
  induction h1 with
  | refl => exact h2
  | step s _ ih => exact .step s (ih h2)

theorem Reaches.one {ctx : C} {a b : PSt V C} (h : Step ctx a b) : Reaches ctx a b :=
  .step h (.refl b)

/-- The run ends with an exception. -/
def Fails (ctx : C) (st : PSt V C) (err : PyErr) : Prop :=
  ∃ st' e d, Reaches ctx st st' ∧ st'.deque = e :: d ∧ pstep ctx e { st' with deque := d } = .error err

theorem Fails.after {ctx : C} {a b : PSt V C} {err : PyErr} (h : Reaches ctx a b)
    (hf : Fails ctx b err) : Fails ctx a err := by
  obtain ⟨st', e, d, h1, h2, h3⟩ := hf
  exact ⟨st', e, d, h.trans h1, h2, h3⟩

theorem Fails.now {ctx : C} {st : PSt V C} {e d err} (h : st.deque = e :: d)
    (h2 : pstep ctx e { st with deque := d } = .error err) : Fails ctx st err :=
  ⟨st, e, d, .refl st, h, h2⟩

theorem prun_of_reaches {ctx : C} {a b : PSt V C} (h : Reaches ctx a b) :
    ∀ {fuel r}, prun ctx fuel b = some r → ∃ fuel', prun ctx fuel' a = some r := by
  induction h with
  | refl => intro fuel r h; exact ⟨fuel, h⟩
  | step s _ ih =>
    intro fuel r hb
    obtain ⟨f, hf⟩ := ih hb
    obtain ⟨e, d, h1, h2⟩ := s
    refine ⟨f + 1, ?_⟩
    rw [prun]
    simp only [h1, h2, hf]

theorem prun_of_fails {ctx : C} {a : PSt V C} {err : PyErr} (h : Fails ctx a err) :
    ∃ fuel, prun ctx fuel a = some (.error err) := by
  obtain ⟨st', e, d, h1, h2, h3⟩ := h
  refine prun_of_reaches h1 (fuel := 1) ?_
  rw [prun]
  simp only [h2, h3]

theorem prun_mono {ctx : C} (fuel : Nat) : ∀ {st : PSt V C} {r}, prun ctx fuel st = some r →
    ∀ k, prun ctx (fuel + k) st = some r := by
  induction fuel with
  | zero =>
    intro st r h k
    rw [prun] at h ⊢
    split at h
    · exact h
    · simp at h
  | succ n ih =>
    intro st r h k
    rw [prun.eq_def] at h ⊢
    have e : n + 1 + k = (n + k) + 1 := by omega
    rw [e]
    dsimp only at h ⊢
    split at h
    · exact h
    · split at h
      · exact h
      · exact ih h k

/-- The result does not depend on the bound. -/
theorem prun_unique {ctx : C} {f g : Nat} {st : PSt V C} {r r'} (h : prun ctx f st = some r)
    (h' : prun ctx g st = some r') : r = r' := by
  have h1 := prun_mono f h g
  have h2 := prun_mono g h' f
  rw [Nat.add_comm] at h2
  rw [h1] at h2
  simpa using h2

/-! ### Shape of compiled declarations -/

/-- First event. -/
def headTy (b : TAttrs V C) : Ty V C → TEv V C
  | .prim r => .leaf ⟨b, .leaf r⟩
  | .flags r conv => .leaf ⟨b, .flags r conv⟩
  | .struct _ => .start ⟨b, .struct⟩
  | .fixedArray _ n => .start ⟨b, .fixed n⟩
  | .varArray r _ => .start ⟨b, .var r⟩
  | .xArray _ ref => .start ⟨b, .xarr ref⟩
  | .selective ref _ => .start ⟨b, .sel ref⟩

/-- The other events. -/
def tailTy (b : TAttrs V C) : Ty V C → List (TEv V C)
  | .prim _ => []
  | .flags _ _ => []
  | .struct ms => mapMembers ms ++ [.stop ⟨b, .struct⟩]
  | .fixedArray t n => mapTy {} t ++ [.stop ⟨b, .fixed n⟩]
  | .varArray r t => mapTy {} t ++ [.stop ⟨b, .var r⟩]
  | .xArray t ref => mapTy {} t ++ [.stop ⟨b, .xarr ref⟩]
  | .selective ref sels => mapSels b sels ++ [.stop ⟨b, .sel ref⟩]

theorem mapTy_eq (b : TAttrs V C) (t : Ty V C) : mapTy b t = headTy b t :: tailTy b t := by
  cases t <;> rfl

mutual
/-- Compiled declarations are balanced. -/
theorem popSub_mapTy (b : TAttrs V C) : ∀ (t : Ty V C) (l : Nat) (es : List (TEv V C)),
    popSub l (mapTy b t ++ es) = (mapTy b t ++ (popSub l es).1, (popSub l es).2)
  | .prim r, l, es => by simp [mapTy, popSub]
  | .flags r c, l, es => by simp [mapTy, popSub]
  | .struct ms, l, es => by
    simp only [mapTy, List.cons_append, List.append_assoc, popSub, popSub_mapMembers ms, List.nil_append]
  | .fixedArray t n, l, es => by
    simp only [mapTy, List.cons_append, List.append_assoc, popSub, popSub_mapTy _ t, List.nil_append]
  | .varArray r t, l, es => by
    simp only [mapTy, List.cons_append, List.append_assoc, popSub, popSub_mapTy _ t, List.nil_append]
  | .xArray t r, l, es => by
    simp only [mapTy, List.cons_append, List.append_assoc, popSub, popSub_mapTy _ t, List.nil_append]
  | .selective r ss, l, es => by
    simp only [mapTy, List.cons_append, List.append_assoc, popSub, popSub_mapSels b ss, List.nil_append]
theorem popSub_mapMembers : ∀ (ms : Members V C) (l : Nat) (es : List (TEv V C)),
    popSub l (mapMembers ms ++ es) = (mapMembers ms ++ (popSub l es).1, (popSub l es).2)
  | .nil, l, es => by simp [mapMembers]
  | .cons n v c t rest, l, es => by
    simp only [mapMembers, List.append_assoc, popSub_mapTy _ t, popSub_mapMembers rest]
theorem popSub_mapSels (b : TAttrs V C) : ∀ (ss : Selections V C) (l : Nat) (es : List (TEv V C)),
    popSub l (mapSels b ss ++ es) = (mapSels b ss ++ (popSub l es).1, (popSub l es).2)
  | .nil, l, es => by simp [mapSels]
  | .cons k t rest, l, es => by
    simp only [mapSels, List.append_assoc, popSub_mapTy _ t, popSub_mapSels b rest]
end

/-- Skipping the tree of the first event leaves what follows the declaration. -/
theorem skipTree_tail (b b0 : TAttrs V C) (t : Ty V C) (rest : List (TEv V C)) :
    skipTree (headTy b t) (tailTy b0 t ++ rest) = rest := by
  cases t <;>
    simp [headTy, tailTy, skipTree, popSub_mapTy, popSub_mapMembers, popSub_mapSels, popSub,
      List.append_assoc]

theorem headTy_withAttrs (f : TAttrs V C → TAttrs V C) (b : TAttrs V C) (t : Ty V C) :
    (headTy b t).withAttrs f = headTy (f b) t := by cases t <;> rfl

theorem headTy_item_attrs (b : TAttrs V C) (t : Ty V C) : (headTy b t).item.attrs = b := by
  cases t <;> rfl

/-! ### The refinement -/

/-- What processing one declaration does. -/
def Outcome (ctx : C) (st : PSt V C) (rest : List (TEv V C)) (name : Option String)
    (res : Except PyErr (Option (Value V) × Bytes)) : Prop :=
  match res with
  | .error e => Fails ctx st e
  | .ok (none, s) => ∃ last, Reaches ctx st ⟨rest, st.stack, st.selStack, s, last⟩
  | .ok (some v, s) => ∃ stack, collect name v st.stack = .ok stack ∧
      Reaches ctx st ⟨rest, stack, st.selStack, s, some v⟩

/-- What processing members does. -/
def MOutcome (ctx : C) (st : PSt V C) (it : TItem V C) (stk : List (Frame V C))
    (rest : List (TEv V C)) (res : Except PyErr (List (String × Value V) × Bytes)) : Prop :=
  match res with
  | .error e => Fails ctx st e
  | .ok (fs, s) => ∃ last, Reaches ctx st ⟨rest, ⟨it, .struct fs⟩ :: stk, st.selStack, s, last⟩

/-- What processing the items of an array does. -/
def AOutcome (ctx : C) (st : PSt V C) (it : TItem V C) (stk : List (Frame V C))
    (rest : List (TEv V C)) (res : Except PyErr (List (Value V) × Bytes)) : Prop :=
  match res with
  | .error e => Fails ctx st e
  | .ok (xs, s) => ∃ last, Reaches ctx st ⟨rest, ⟨it, .list xs⟩ :: stk, st.selStack, s, last⟩

theorem Outcome.after {ctx : C} {a b : PSt V C} {rest name res} (h : Reaches ctx a b)
    (hs : a.stack = b.stack) (hk : a.selStack = b.selStack) (ho : Outcome ctx b rest name res) :
    Outcome ctx a rest name res := by
  unfold Outcome at ho ⊢
  split
  · exact ho.after h
  · obtain ⟨last, h'⟩ := ho; exact ⟨last, by rw [hs, hk]; exact h.trans h'⟩
  · obtain ⟨stack, h1, h2⟩ := ho; exact ⟨stack, by rw [hs]; exact h1, by rw [hk]; exact h.trans h2⟩

theorem MOutcome.after {ctx : C} {a b : PSt V C} {it stk rest res} (h : Reaches ctx a b)
    (hk : a.selStack = b.selStack) (ho : MOutcome ctx b it stk rest res) :
    MOutcome ctx a it stk rest res := by
  unfold MOutcome at ho ⊢
  split
  · exact ho.after h
  · obtain ⟨last, h'⟩ := ho; exact ⟨last, by rw [hk]; exact h.trans h'⟩

theorem AOutcome.after {ctx : C} {a b : PSt V C} {it stk rest res} (h : Reaches ctx a b)
    (hk : a.selStack = b.selStack) (ho : AOutcome ctx b it stk rest res) :
    AOutcome ctx a it stk rest res := by
  unfold AOutcome at ho ⊢
  split
  · exact ho.after h
  · obtain ⟨last, h'⟩ := ho; exact ⟨last, by rw [hk]; exact h.trans h'⟩

/-- Claim for one declaration. -/
def TClaim (ctx : C) (t : Ty V C) : Prop :=
  ∀ (b b0 : TAttrs V C) rest stack sels s last,
    b.selectWhen = none → b.condition = none → b.count = none → (IsSel t → b0 = b) →
    (∀ v, ∃ stk, collect b.name v stack = .ok stk) →
    Outcome ctx ⟨headTy b t :: (tailTy b0 t ++ rest), stack, sels, s, last⟩ rest b.name
      (readTy .keyError none ctx (stack.head?.map (·.value)) t s)

theorem collect_list (name : Option String) (v : Value V) (it : TItem V C) (xs : List (Value V))
    (stk : List (Frame V C)) :
    collect name v (⟨it, .list xs⟩ :: stk) = .ok (⟨it, .list (xs ++ [v])⟩ :: stk) := rfl

theorem collect_struct (n : String) (v : Value V) (it : TItem V C) (fs : List (String × Value V))
    (stk : List (Frame V C)) :
    collect (some n) v (⟨it, .struct fs⟩ :: stk) = .ok (⟨it, .struct (setField n v fs)⟩ :: stk) := rfl

/-- Items of an array. -/
theorem items_claim (ctx : C) (t : Ty V C) (ht : TClaim ctx t) :
    ∀ (n : Nat) (it : TItem V C) (acc : List (Value V)) stk rest sels s last,
    AOutcome ctx ⟨(List.replicate n (mapTy {} t)).flatten ++ rest, ⟨it, .list acc⟩ :: stk, sels, s, last⟩
      it stk rest
      (readMany (fun acc s => readTy .keyError none ctx (some (.list acc)) t s) n acc s) := by
  intro n
  induction n with
  | zero => intro it acc stk rest sels s last; exact ⟨last, .refl _⟩
  | succ n ih =>
    intro it acc stk rest sels s last
    have h := ht {} {} ((List.replicate n (mapTy {} t)).flatten ++ rest) (⟨it, .list acc⟩ :: stk) sels s last
      rfl rfl rfl (fun _ => rfl) (fun v => ⟨_, collect_list _ _ _ _ _⟩)
    rw [List.replicate_succ, List.flatten_cons, mapTy_eq {} t]
    simp only [List.cons_append, List.append_assoc]
    simp only [List.head?_cons, Option.map_some] at h
    rw [readMany]
    cases hr : readTy .keyError none ctx (some (Value.list acc)) t s with
    | error e => rw [hr] at h; rw [mapTy_eq {} t] at h; exact h
    | ok p =>
      obtain ⟨v?, s'⟩ := p
      rw [hr] at h
      cases v? with
      | none =>
        obtain ⟨last', h'⟩ := h
        rw [mapTy_eq {} t] at h'
        have := ih it acc stk rest sels s' last'
        rw [mapTy_eq {} t] at this
        exact this.after h' rfl
      | some v =>
        obtain ⟨stack', hc, h'⟩ := h
        rw [collect_list] at hc
        injection hc with hc
        subst hc
        rw [mapTy_eq {} t] at h'
        have := ih it (acc ++ [v]) stk rest sels s' (some v)
        rw [mapTy_eq {} t] at this
        exact this.after h' rfl

/-- Arrays, once the number of items is known. -/
theorem array_claim (ctx : C) (t : Ty V C) (ht : TClaim ctx t) (k : TKind V C)
    (hk : k.isArray = true) (hi : initValue k = .ok (.list []))
    (b b0 : TAttrs V C) (n : Nat) rest sels s last
    (stack : List (Frame V C)) (hcol : ∀ v, ∃ stk, collect b.name v stack = .ok stk)
    (hsel : b.selectWhen = none) (hcond : b.condition = none) :
    Outcome ctx ⟨.start ⟨{ b with count := some n }, k⟩ ::
        ((List.replicate n (mapTy {} t)).flatten ++ (.stop ⟨b0, k⟩ :: rest)), stack, sels, s, last⟩
      rest b.name
      (arrayResult (fun xs => finishValue k (.list xs))
        (readMany (fun acc s => readTy .keyError none ctx (some (.list acc)) t s) n [] s)) := by
  have hnk : ∀ r, k ≠ .sel r := by intro r e; subst e; simp [TKind.isArray] at hk
  have step1 : Step ctx
      ⟨.start ⟨{ b with count := some n }, k⟩ ::
        ((List.replicate n (mapTy {} t)).flatten ++ (.stop ⟨b0, k⟩ :: rest)), stack, sels, s, last⟩
      ⟨(List.replicate n (mapTy {} t)).flatten ++ (.stop ⟨b0, k⟩ :: rest),
        ⟨⟨{ b with count := some n }, k⟩, .list []⟩ :: stack, sels, s, some (.list [])⟩ := by
    refine ⟨_, _, rfl, ?_⟩
    cases k <;> simp [TKind.isArray] at hk <;>
      simp [pstep, TEv.item, hsel, hcond, initValue, TKind.isArray]
  have h := items_claim ctx t ht n ⟨{ b with count := some n }, k⟩ [] stack (.stop ⟨b0, k⟩ :: rest) sels s
    (some (.list []))
  cases hr : readMany (fun acc s => readTy .keyError none ctx (some (Value.list acc)) t s) n [] s with
  | error e =>
    rw [hr] at h
    exact Fails.after (.one step1) h
  | ok p =>
    obtain ⟨xs, s'⟩ := p
    rw [hr] at h
    obtain ⟨last', h'⟩ := h
    obtain ⟨stack', hst⟩ := hcol (finishValue k (.list xs))
    refine ⟨stack', hst, (Reaches.one step1).trans (h'.trans (.one ?_))⟩
    refine ⟨_, _, rfl, ?_⟩
    cases k <;> simp [TKind.isArray] at hk <;> simp [pstep, hst]


/-- Step 1 of an array: its number of items. -/
theorem array_step (ctx : C) (t : Ty V C) (k : TKind V C) (hk : k.isArray = true)
    (b b0 : TAttrs V C) (hsel : b.selectWhen = none) (hcond : b.condition = none)
    (hcount : b.count = none) (rest : List (TEv V C)) (stack : List (Frame V C)) (sels : List Int)
    (s : Bytes) (last : Option (Value V)) :
    pstep ctx (.start ⟨b, k⟩) ⟨mapTy {} t ++ (.stop ⟨b0, k⟩ :: rest), stack, sels, s, last⟩ =
      match resolveCount ctx k stack s with
      | .error err => .error err
      | .ok (n, s') => .ok ⟨.start ⟨{ b with count := some n }, k⟩ ::
        ((List.replicate n (mapTy {} t)).flatten ++ (.stop ⟨b0, k⟩ :: rest)), stack, sels, s', last⟩ := by
  have e : popSub 0 (mapTy {} t ++ (.stop ⟨b0, k⟩ :: rest)) = (mapTy {} t ++ [.stop ⟨b0, k⟩], rest) := by
    rw [popSub_mapTy]; rfl
  cases k <;> simp [TKind.isArray] at hk <;>
    · simp only [pstep, TEv.item, hsel, hcond, hcount, TKind.isArray, e]
      cases resolveCount ctx _ stack s <;> simp

theorem array_whole (ctx : C) (t : Ty V C) (ht : TClaim ctx t) (k : TKind V C)
    (hk : k.isArray = true) (hi : initValue k = .ok (.list []))
    (b b0 : TAttrs V C) (rest : List (TEv V C)) (sels : List Int) (s : Bytes) (last : Option (Value V))
    (stack : List (Frame V C)) (hcol : ∀ v, ∃ stk, collect b.name v stack = .ok stk)
    (hsel : b.selectWhen = none) (hcond : b.condition = none) (hcount : b.count = none) :
    Outcome ctx ⟨.start ⟨b, k⟩ :: (mapTy {} t ++ (.stop ⟨b0, k⟩ :: rest)), stack, sels, s, last⟩
      rest b.name
      (match resolveCount ctx k stack s with
      | .error e => .error e
      | .ok (n, s) => arrayResult (fun xs => finishValue k (.list xs))
        (readMany (fun acc s => readTy .keyError none ctx (some (.list acc)) t s) n [] s)) := by
  have h1 := array_step ctx t k hk b b0 hsel hcond hcount rest stack sels s last
  cases hr : resolveCount ctx k stack s with
  | error e => rw [hr] at h1; exact Fails.now rfl h1
  | ok p =>
    obtain ⟨n, s'⟩ := p
    rw [hr] at h1
    refine Outcome.after (.one ⟨_, _, rfl, h1⟩) rfl rfl ?_
    exact array_claim ctx t ht k hk hi b b0 n rest sels s' last stack hcol hsel hcond

theorem pstep_struct_start (ctx : C) (b : TAttrs V C) (hsel : b.selectWhen = none)
    (hcond : b.condition = none) (st : PSt V C) :
    pstep ctx (.start ⟨b, .struct⟩) st =
      .ok { st with stack := ⟨⟨b, .struct⟩, .struct []⟩ :: st.stack, last := some (.struct []) } := by
  simp [pstep, TEv.item, hsel, hcond, TKind.isArray, initValue]

/-- A condition: skip the declaration or go on without the condition. -/
theorem pstep_cond (ctx : C) (b : TAttrs V C) (t : Ty V C) (ht : ¬ IsSel t)
    (hsel : b.selectWhen = none) (c : C → Value V → Except PyErr Bool) (hcond : b.condition = some c)
    (f : Frame V C) (stk : List (Frame V C)) (d : List (TEv V C)) (sels : List Int) (s : Bytes)
    (last : Option (Value V)) :
    pstep ctx (headTy b t) ⟨d, f :: stk, sels, s, last⟩ =
      match c ctx f.value with
      | .error err => .error err
      | .ok false => .ok ⟨skipTree (headTy b t) d, f :: stk, sels, s, last⟩
      | .ok true => .ok ⟨headTy { b with condition := none } t :: d, f :: stk, sels, s, last⟩ := by
  obtain ⟨n, v, cd, sw, ct⟩ := b
  dsimp only at hsel hcond
  subst hsel hcond
  cases t with
  | selective r ss => exact absurd trivial ht
  | _ =>
    simp only [headTy, pstep, TEv.item]
    cases hc : c ctx f.value with
    | error e => rfl
    | ok x => cases x <;> rfl

/-- A selection: skip or go on without `select_when`. -/
theorem pstep_sel (ctx : C) (b : TAttrs V C) (t : Ty V C) (ht : ¬ IsSel t)
    (w key : Int) (hsel : b.selectWhen = some w) (stk : List (Frame V C)) (d : List (TEv V C))
    (sels : List Int) (s : Bytes) (last : Option (Value V)) :
    pstep ctx (headTy b t) ⟨d, stk, key :: sels, s, last⟩ =
      if w ≠ key then .ok ⟨skipTree (headTy b t) d, stk, key :: sels, s, last⟩
      else .ok ⟨headTy { b with selectWhen := none } t :: d, stk, key :: sels, s, last⟩ := by
  obtain ⟨n, v, cd, sw, ct⟩ := b
  dsimp only at hsel
  subst hsel
  cases t with
  | selective r ss => exact absurd trivial ht
  | _ =>
    simp only [headTy, pstep, TEv.item]
    rfl

/-- Selections with other keys are skipped. -/
theorem sels_skip (ctx : C) (b : TAttrs V C) (key : Int) : ∀ (ss : Selections V C), WfSels ss →
    key ∉ selKeys ss → ∀ rest stack sels s last,
    Reaches ctx ⟨mapSels b ss ++ rest, stack, key :: sels, s, last⟩
      ⟨rest, stack, key :: sels, s, last⟩
  | .nil, _, _, rest, stack, sels, s, last => .refl _
  | .cons k t r, hw, hk, rest, stack, sels, s, last => by
    simp only [selKeys, List.mem_cons, not_or] at hk
    have ih := sels_skip ctx b key r hw.2.2 hk.2 rest stack sels s last
    simp only [mapSels, List.append_assoc, mapTy_eq, List.cons_append]
    refine .step ⟨_, _, rfl, ?_⟩ ih
    dsimp only
    rw [pstep_sel ctx _ t hw.2.1 k key rfl, skipTree_tail]
    simp [Ne.symm hk.1]

mutual
theorem ty_claim (ctx : C) : ∀ (t : Ty V C), WfTy t → TClaim ctx t
  | .prim r, _ => by
    intro b b0 rest stack sels s last hsel hcond hcount _ hcol
    simp only [headTy, tailTy, List.nil_append, readTy, leafResult]
    cases hr : r s with
    | error e =>
      refine Fails.now rfl ?_
      simp [pstep, TEv.item, hsel, hcond, TKind.isArray, readLeaf, hr]
    | ok p =>
      obtain ⟨v, s'⟩ := p
      obtain ⟨stk, hst⟩ := hcol (.leaf v)
      refine ⟨stk, hst, .one ⟨_, _, rfl, ?_⟩⟩
      simp [pstep, TEv.item, hsel, hcond, TKind.isArray, readLeaf, hr, hst]
  | .flags r conv, _ => by
    intro b b0 rest stack sels s last hsel hcond hcount _ hcol
    simp only [headTy, tailTy, List.nil_append, readTy, leafResult]
    cases hr : r s with
    | error e =>
      refine Fails.now rfl ?_
      simp [pstep, TEv.item, hsel, hcond, TKind.isArray, readLeaf, hr]
    | ok p =>
      obtain ⟨v, s'⟩ := p
      obtain ⟨stk, hst⟩ := hcol (.leaf (conv v))
      refine ⟨stk, hst, .one ⟨_, _, rfl, ?_⟩⟩
      simp [pstep, TEv.item, hsel, hcond, TKind.isArray, readLeaf, hr, hst]
  | .struct ms, hw => by
    intro b b0 rest stack sels s last hsel hcond hcount _ hcol
    simp only [headTy, tailTy, List.append_assoc, List.singleton_append, readTy]
    have h1 : Step ctx ⟨.start ⟨b, .struct⟩ :: (mapMembers ms ++ (.stop ⟨b0, .struct⟩ :: rest)), stack, sels, s, last⟩
        ⟨mapMembers ms ++ (.stop ⟨b0, .struct⟩ :: rest), ⟨⟨b, .struct⟩, .struct []⟩ :: stack, sels, s,
          some (.struct [])⟩ := ⟨_, _, rfl, pstep_struct_start ctx b hsel hcond _⟩
    have h := members_claim ctx ms (by simpa [WfTy] using hw) ⟨b, .struct⟩ [] stack (.stop ⟨b0, .struct⟩ :: rest) sels s
      (some (.struct []))
    cases hr : readMembers .keyError none ctx ms [] s with
    | error e => rw [hr] at h; exact Fails.after (.one h1) h
    | ok p =>
      obtain ⟨fs, s'⟩ := p
      rw [hr] at h
      obtain ⟨last', h'⟩ := h
      obtain ⟨stk, hst⟩ := hcol (.struct fs)
      refine ⟨stk, hst, (Reaches.one h1).trans (h'.trans (.one ⟨_, _, rfl, ?_⟩))⟩
      simp [pstep, finishValue, hst]
  | .fixedArray t n, hw => by
    intro b b0 rest stack sels s last hsel hcond hcount _ hcol
    simp only [headTy, tailTy, List.append_assoc, List.singleton_append, readTy]
    exact array_whole ctx t (ty_claim ctx t (by simpa [WfTy] using hw)) (.fixed n) rfl rfl b b0 rest sels s last stack hcol
      hsel hcond hcount
  | .varArray r t, hw => by
    intro b b0 rest stack sels s last hsel hcond hcount _ hcol
    simp only [headTy, tailTy, List.append_assoc, List.singleton_append, readTy]
    have h := array_whole ctx t (ty_claim ctx t (by simpa [WfTy] using hw)) (.var r) rfl rfl b b0 rest sels s last stack
      hcol hsel hcond hcount
    simp only [resolveCount] at h
    cases hr : r s with
    | error e => simp only [hr] at h ⊢; exact h
    | ok p => simp only [hr] at h ⊢; exact h
  | .xArray t ref, hw => by
    intro b b0 rest stack sels s last hsel hcond hcount _ hcol
    simp only [headTy, tailTy, List.append_assoc, List.singleton_append, readTy]
    have h := array_whole ctx t (ty_claim ctx t (by simpa [WfTy] using hw)) (.xarr ref) rfl rfl b b0 rest sels s last stack
      hcol hsel hcond hcount
    cases stack with
    | nil => exact h
    | cons f fs =>
      simp only [resolveCount, List.head?_cons, Option.map_some, withParent] at h ⊢
      cases hr : ref ctx f.value with
      | error e => rw [hr] at h; exact h
      | ok n => rw [hr] at h; exact h
  | .selective ref ss, hw => by
    intro b b0 rest stack sels s last hsel hcond hcount hb hcol
    have hw' : (selKeys ss).Nodup ∧ WfSels ss := by simpa [WfTy] using hw
    have hb := hb trivial
    subst hb
    simp only [headTy, tailTy, List.append_assoc, List.singleton_append, readTy]
    cases stack with
    | nil => exact Fails.now rfl (by simp [pstep, TEv.item])
    | cons f fs =>
      simp only [List.head?_cons, Option.map_some, withParent]
      cases hr : ref ctx f.value with
      | error e => exact Fails.now rfl (by simp [pstep, TEv.item, hr])
      | ok key =>
        have h1 : Step ctx ⟨.start ⟨b0, .sel ref⟩ :: (mapSels b0 ss ++ (.stop ⟨b0, .sel ref⟩ :: rest)), f :: fs, sels, s, last⟩
          ⟨mapSels b0 ss ++ (.stop ⟨b0, .sel ref⟩ :: rest), f :: fs, key :: sels, s, last⟩ :=
          ⟨_, _, rfl, by simp [pstep, TEv.item, hr]⟩
        have h2 : ∀ stk s' last', Step ctx ⟨.stop ⟨b0, .sel ref⟩ :: rest, stk, key :: sels, s', last'⟩
          ⟨rest, stk, sels, s', last'⟩ := fun stk s' last' => ⟨_, _, rfl, by simp [pstep]⟩
        have h := sels_claim ctx ss hw'.1 hw'.2 b0 hsel hcond hcount key (.stop ⟨b0, .sel ref⟩ :: rest) (f :: fs)
          sels s last hcol
        simp only [List.head?_cons, Option.map_some] at h
        dsimp only
        cases hq : readSelected .keyError none ctx (some f.value) key ss s with
        | error e => rw [hq] at h; exact Fails.after (.one h1) h
        | ok p =>
          obtain ⟨v?, s'⟩ := p
          rw [hq] at h
          cases v? with
          | none =>
            obtain ⟨last', h'⟩ := h
            exact ⟨last', (Reaches.one h1).trans (h'.trans (.one (h2 _ _ _)))⟩
          | some v =>
            obtain ⟨stk, hst, h'⟩ := h
            exact ⟨stk, hst, (Reaches.one h1).trans (h'.trans (.one (h2 _ _ _)))⟩
theorem members_claim (ctx : C) : ∀ (ms : Members V C), WfMembers ms →
    ∀ (it : TItem V C) fs stk rest sels s last,
    MOutcome ctx ⟨mapMembers ms ++ rest, ⟨it, .struct fs⟩ :: stk, sels, s, last⟩ it stk rest
      (readMembers .keyError none ctx ms fs s)
  | .nil, _, it, fs, stk, rest, sels, s, last => ⟨last, .refl _⟩
  | .cons name ver cond t ms, hw, it, fs, stk, rest, sels, s, last => by
    have hw : WfTy t ∧ (IsSel t → cond = none) ∧ WfMembers ms := by simpa [WfMembers] using hw
    have ht := ty_claim ctx t hw.1
    have hm := fun fs s last => members_claim ctx ms hw.2.2 it fs stk rest sels s last
    simp only [mapMembers, List.append_assoc, mapTy_eq, List.cons_append, readMembers, versionOk, if_true]
    -- reading the member
    have go : ∀ b0 : TAttrs V C, (IsSel t → b0 = ⟨some name, ver, none, none, none⟩) →
        MOutcome ctx ⟨headTy ⟨some name, ver, none, none, none⟩ t :: (tailTy b0 t ++ (mapMembers ms ++ rest)),
          ⟨it, .struct fs⟩ :: stk, sels, s, last⟩ it stk rest
          (match readTy .keyError none ctx (some (.struct fs)) t s with
          | .error e => .error e
          | .ok (none, s) => readMembers .keyError none ctx ms fs s
          | .ok (some v, s) => readMembers .keyError none ctx ms (setField name v fs) s) := by
      intro b0 hb0
      have h := ht ⟨some name, ver, none, none, none⟩ b0 (mapMembers ms ++ rest) (⟨it, .struct fs⟩ :: stk) sels s last
        rfl rfl rfl hb0 (fun v => ⟨_, collect_struct _ _ _ _ _⟩)
      simp only [List.head?_cons, Option.map_some] at h
      cases hr : readTy .keyError none ctx (some (Value.struct fs)) t s with
      | error e => rw [hr] at h; exact h
      | ok p =>
        obtain ⟨v?, s'⟩ := p
        rw [hr] at h
        cases v? with
        | none =>
          obtain ⟨last', h'⟩ := h
          exact (hm fs s' last').after h' rfl
        | some v =>
          obtain ⟨stack', hc, h'⟩ := h
          rw [collect_struct] at hc
          injection hc with hc
          subst hc
          exact (hm _ s' (some v)).after h' rfl
    cases cond with
    | none => exact go _ (fun _ => rfl)
    | some c =>
      have hns : ¬ IsSel t := fun h => by simpa using hw.2.1 h
      have hp := pstep_cond ctx ⟨some name, ver, some c, none, none⟩ t hns rfl c rfl ⟨it, .struct fs⟩ stk
        (tailTy ⟨some name, ver, some c, none, none⟩ t ++ (mapMembers ms ++ rest)) sels s last
      cases hc : c ctx (.struct fs) with
      | error e =>
        simp only [hc] at hp ⊢
        exact Fails.now rfl hp
      | ok x =>
        cases x with
        | false =>
          simp only [hc, skipTree_tail] at hp ⊢
          exact (hm fs s last).after (.one ⟨_, _, rfl, hp⟩) rfl
        | true =>
          simp only [hc] at hp ⊢
          exact MOutcome.after (.one ⟨_, _, rfl, hp⟩) rfl (go _ (fun h => absurd h hns))
theorem sels_claim (ctx : C) : ∀ (ss : Selections V C), (selKeys ss).Nodup → WfSels ss →
    ∀ (b : TAttrs V C), b.selectWhen = none → b.condition = none → b.count = none →
    ∀ key rest stack sels s last, (∀ v, ∃ stk, collect b.name v stack = .ok stk) →
    Outcome ctx ⟨mapSels b ss ++ rest, stack, key :: sels, s, last⟩ rest b.name
      (readSelected .keyError none ctx (stack.head?.map (·.value)) key ss s)
  | .nil, _, _, b, hsel, hcond, hcount, key, rest, stack, sels, s, last, hcol => ⟨last, .refl _⟩
  | .cons k t r, hnd, hw, b, hsel, hcond, hcount, key, rest, stack, sels, s, last, hcol => by
    have hw : WfTy t ∧ ¬ IsSel t ∧ WfSels r := by simpa [WfSels] using hw
    simp only [selKeys, List.nodup_cons] at hnd
    simp only [mapSels, List.append_assoc, mapTy_eq, List.cons_append, readSelected]
    have hp := pstep_sel ctx { b with selectWhen := some k } t hw.2.1 k key rfl stack
        (tailTy { b with selectWhen := some k } t ++ (mapSels b r ++ rest)) sels s last
    by_cases hk : k = key
    · subst hk
      simp only [ne_eq, not_true_eq_false, if_false] at hp
      rw [if_pos rfl]
      have h := ty_claim ctx t hw.1 { b with selectWhen := none } { b with selectWhen := some k }
        (mapSels b r ++ rest) stack (k :: sels) s last rfl hcond hcount (fun h => absurd h hw.2.1) hcol
      have hs := sels_skip ctx b k r hw.2.2 hnd.1 rest
      have h1 := Reaches.one (ctx := ctx) (a := ⟨headTy { b with selectWhen := some k } t ::
        (tailTy { b with selectWhen := some k } t ++ (mapSels b r ++ rest)), stack, k :: sels, s, last⟩)
        ⟨_, _, rfl, hp⟩
      cases hr : readTy .keyError none ctx (stack.head?.map (·.value)) t s with
      | error e => rw [hr] at h; exact Fails.after h1 h
      | ok p =>
        obtain ⟨v?, s'⟩ := p
        rw [hr] at h
        cases v? with
        | none =>
          obtain ⟨last', h'⟩ := h
          exact ⟨last', h1.trans (h'.trans (hs _ _ _ _))⟩
        | some v =>
          obtain ⟨stk, hst, h'⟩ := h
          exact ⟨stk, hst, h1.trans (h'.trans (hs _ _ _ _))⟩
    · simp only [ne_eq, hk, not_false_eq_true, if_true, skipTree_tail] at hp
      rw [if_neg hk]
      exact Outcome.after (.one ⟨_, _, rfl, hp⟩) rfl rfl
        (sels_claim ctx r hnd.2 hw.2.2 b hsel hcond hcount key rest stack sels s last hcol)
end

/-- Evaluating the compiled declaration. -/
theorem prun_compile (ctx : C) (t : Ty V C) (hw : WfTy t) (s : Bytes) :
    ∃ fuel, prun ctx fuel ⟨compileType t, [], [], s, none⟩ = some (readWhole .keyError none ctx t s) := by
  have h := ty_claim ctx t hw {} {} [] [] [] s none rfl rfl rfl (fun _ => rfl) (fun v => ⟨[], rfl⟩)
  simp only [List.append_nil, ← mapTy_eq] at h
  simp only [List.head?_nil, Option.map_none] at h
  unfold compileType readWhole
  cases hr : readTy .keyError none ctx none t s with
  | error e => rw [hr] at h; exact prun_of_fails h
  | ok p =>
    obtain ⟨v?, s'⟩ := p
    rw [hr] at h
    cases v? with
    | none =>
      exfalso
      cases t <;> simp only [readTy, leafResult, arrayResult, withParent] at hr <;> (repeat' split at hr) <;> simp at hr
    | some v =>
      obtain ⟨stk, hst, h'⟩ := h
      exact prun_of_reaches h' (fuel := 0) (by simp [prun])

/-! ### Version filter -/

theorem filter_keep {ver : Version} {b : TAttrs V C} (hb : versionOk (some ver) b.version = true)
    {e : TEv V C} (he : e.item.attrs = b) (es : List (TEv V C)) :
    filterVersion ver (e :: es) = e :: filterVersion ver es := by
  have : ¬ tooNew ver e.item = true := by
    unfold versionOk at hb
    unfold tooNew
    subst he
    cases h : e.item.attrs.version with
    | none => simp
    | some r => rw [h] at hb; simpa using hb
  rw [filterVersion.eq_def]
  simp only [this]
  rfl

theorem is_tooNew {ver : Version} {b : TAttrs V C} (hb : ¬ versionOk (some ver) b.version = true)
    {i : TItem V C} (hi : i.attrs = b) : tooNew ver i = true := by
  unfold versionOk at hb
  unfold tooNew
  subst hi
  cases h : i.attrs.version with
  | none => rw [h] at hb; simp at hb
  | some r => rw [h] at hb; simpa using hb

/-- A declaration that is too new disappears whole. -/
theorem filter_drop (ver : Version) (b : TAttrs V C) (t : Ty V C) (es : List (TEv V C))
    (hb : ¬ versionOk (some ver) b.version = true) :
    filterVersion ver (mapTy b t ++ es) = filterVersion ver es := by
  have hs := skipTree_tail b b t es
  have hn := is_tooNew hb (headTy_item_attrs b t)
  rw [mapTy_eq, List.cons_append, filterVersion.eq_def]
  simp only [hn, if_true]
  cases t <;> simp only [headTy, skipTree] at hs ⊢ <;> rw [hs]

mutual
theorem filter_mapTy (ver : Version) (b : TAttrs V C) (hb : versionOk (some ver) b.version = true) :
    ∀ (t : Ty V C) (es : List (TEv V C)),
    filterVersion ver (mapTy b t ++ es) = mapTy b (filterTy ver t) ++ filterVersion ver es
  | .prim r, es => by
    simp only [mapTy, filterTy, List.cons_append, List.nil_append]
    rw [filter_keep hb (by rfl)]
  | .flags r c, es => by
    simp only [mapTy, filterTy, List.cons_append, List.nil_append]
    rw [filter_keep hb (by rfl)]
  | .struct ms, es => by
    simp only [mapTy, filterTy, List.cons_append, List.nil_append, List.append_assoc]
    rw [filter_keep hb (by rfl), filter_mapMembers ver ms, filter_keep hb (by rfl)]
  | .fixedArray t n, es => by
    simp only [mapTy, filterTy, List.cons_append, List.nil_append, List.append_assoc]
    rw [filter_keep hb (by rfl), filter_mapTy ver {} rfl t, filter_keep hb (by rfl)]
  | .varArray r t, es => by
    simp only [mapTy, filterTy, List.cons_append, List.nil_append, List.append_assoc]
    rw [filter_keep hb (by rfl), filter_mapTy ver {} rfl t, filter_keep hb (by rfl)]
  | .xArray t r, es => by
    simp only [mapTy, filterTy, List.cons_append, List.nil_append, List.append_assoc]
    rw [filter_keep hb (by rfl), filter_mapTy ver {} rfl t, filter_keep hb (by rfl)]
  | .selective r ss, es => by
    simp only [mapTy, filterTy, List.cons_append, List.nil_append, List.append_assoc]
    rw [filter_keep hb (by rfl), filter_mapSels ver b hb ss, filter_keep hb (by rfl)]
theorem filter_mapMembers (ver : Version) : ∀ (ms : Members V C) (es : List (TEv V C)),
    filterVersion ver (mapMembers ms ++ es) = mapMembers (filterMembers ver ms) ++ filterVersion ver es
  | .nil, es => by simp [mapMembers, filterMembers]
  | .cons n v c t rest, es => by
    simp only [mapMembers, filterMembers, List.append_assoc]
    by_cases hv : versionOk (some ver) v = true
    · rw [filter_mapTy ver _ hv t, filter_mapMembers ver rest, if_pos hv]
      simp [mapMembers]
    · rw [filter_drop ver _ t _ hv, filter_mapMembers ver rest, if_neg hv]
theorem filter_mapSels (ver : Version) (b : TAttrs V C) (hb : versionOk (some ver) b.version = true) :
    ∀ (ss : Selections V C) (es : List (TEv V C)),
    filterVersion ver (mapSels b ss ++ es) = mapSels b (filterSels ver ss) ++ filterVersion ver es
  | .nil, es => by simp [mapSels, filterSels]
  | .cons k t rest, es => by
    simp only [mapSels, filterSels, List.append_assoc]
    rw [filter_mapTy ver { b with selectWhen := some k } hb t, filter_mapSels ver b hb rest]
end


mutual
/-- Reading for a version is reading the filtered declaration. -/
theorem readTy_filter (fe : PyErr) (ver : Version) (ctx : C) : ∀ (t : Ty V C) (p : Option (Value V)) (s : Bytes),
    readTy fe none ctx p (filterTy ver t) s = readTy fe (some ver) ctx p t s
  | .prim r, p, s => by simp [filterTy, readTy]
  | .flags r c, p, s => by simp [filterTy, readTy]
  | .struct ms, p, s => by simp only [filterTy, readTy, readMembers_filter fe ver ctx ms]
  | .fixedArray t n, p, s => by simp only [filterTy, readTy, readTy_filter fe ver ctx t]
  | .varArray r t, p, s => by simp only [filterTy, readTy, readTy_filter fe ver ctx t]
  | .xArray t r, p, s => by simp only [filterTy, readTy, readTy_filter fe ver ctx t]
  | .selective r ss, p, s => by simp only [filterTy, readTy, readSelected_filter fe ver ctx ss]
theorem readMembers_filter (fe : PyErr) (ver : Version) (ctx : C) :
    ∀ (ms : Members V C) (fs : List (String × Value V)) (s : Bytes),
    readMembers fe none ctx (filterMembers ver ms) fs s = readMembers fe (some ver) ctx ms fs s
  | .nil, fs, s => by simp [filterMembers, readMembers]
  | .cons n v c t rest, fs, s => by
    by_cases hv : versionOk (some ver) v = true
    · have h0 : versionOk none v = true := rfl
      simp only [filterMembers, hv, if_true, readMembers, h0, readTy_filter fe ver ctx t,
        readMembers_filter fe ver ctx rest]
    · rw [filterMembers, if_neg hv, readMembers_filter fe ver ctx rest]
      have e : readMembers fe (some ver) ctx (.cons n v c t rest) fs s =
          readMembers fe (some ver) ctx rest fs s := by
        rw [readMembers.eq_def]; dsimp only; rw [if_neg hv]
      rw [e]
theorem readSelected_filter (fe : PyErr) (ver : Version) (ctx : C) :
    ∀ (ss : Selections V C) (p : Option (Value V)) (k : Int) (s : Bytes),
    readSelected fe none ctx p k (filterSels ver ss) s = readSelected fe (some ver) ctx p k ss s
  | .nil, p, k, s => by simp [filterSels, readSelected]
  | .cons k' t rest, p, k, s => by
    simp only [filterSels, readSelected, readTy_filter fe ver ctx t, readSelected_filter fe ver ctx rest]
end

theorem selKeys_filter (ver : Version) : ∀ (ss : Selections V C), selKeys (filterSels ver ss) = selKeys ss
  | .nil => rfl
  | .cons k t r => by simp [filterSels, selKeys, selKeys_filter ver r]

theorem isSel_filter (ver : Version) (t : Ty V C) : IsSel (filterTy ver t) ↔ IsSel t := by
  cases t <;> simp [filterTy, IsSel]

mutual
theorem wf_filterTy (ver : Version) : ∀ (t : Ty V C), WfTy t → WfTy (filterTy ver t)
  | .prim _, _ => by simp [filterTy, WfTy]
  | .flags _ _, _ => by simp [filterTy, WfTy]
  | .struct ms, h => by
    simp only [filterTy, WfTy] at h ⊢; exact wf_filterMembers ver ms h
  | .fixedArray t _, h => by simp only [filterTy, WfTy] at h ⊢; exact wf_filterTy ver t h
  | .varArray _ t, h => by simp only [filterTy, WfTy] at h ⊢; exact wf_filterTy ver t h
  | .xArray t _, h => by simp only [filterTy, WfTy] at h ⊢; exact wf_filterTy ver t h
  | .selective _ ss, h => by
    simp only [filterTy, WfTy, selKeys_filter] at h ⊢
    exact ⟨h.1, wf_filterSels ver ss h.2⟩
theorem wf_filterMembers (ver : Version) : ∀ (ms : Members V C), WfMembers ms → WfMembers (filterMembers ver ms)
  | .nil, _ => by simp [filterMembers, WfMembers]
  | .cons n v c t rest, h => by
    simp only [WfMembers] at h
    simp only [filterMembers]
    split
    · simp only [WfMembers, isSel_filter]
      exact ⟨wf_filterTy ver t h.1, h.2.1, wf_filterMembers ver rest h.2.2⟩
    · exact wf_filterMembers ver rest h.2.2
theorem wf_filterSels (ver : Version) : ∀ (ss : Selections V C), WfSels ss → WfSels (filterSels ver ss)
  | .nil, _ => by simp [filterSels, WfSels]
  | .cons k t rest, h => by
    simp only [WfSels] at h
    simp only [filterSels, WfSels, isSel_filter]
    exact ⟨wf_filterTy ver t h.1, h.2.1, wf_filterSels ver rest h.2.2⟩
end

theorem typeEvents_eq (ver : Version) (t : Ty V C) :
    typeEvents (some ver) t = compileType (filterTy ver t) := by
  unfold typeEvents compileType
  have := filter_mapTy ver (V := V) (C := C) {} rfl t []
  simpa [filterVersion] using this

theorem readWhole_filter (fe : PyErr) (ver : Version) (ctx : C) (t : Ty V C) (s : Bytes) :
    readWhole fe none ctx (filterTy ver t) s = readWhole fe (some ver) ctx t s := by
  unfold readWhole
  rw [readTy_filter]

/-- The pipeline for a document version. -/
theorem readType_eq (ver : Option Version) (ctx : C) (t : Ty V C) (hw : WfTy t) (s : Bytes) :
    ∃ fuel, readType fuel ver ctx t s = some (readWhole .keyError ver ctx t s) := by
  unfold readType
  cases ver with
  | none => exact prun_compile ctx t hw s
  | some v =>
    rw [typeEvents_eq, ← readWhole_filter]
    exact prun_compile ctx _ (wf_filterTy v t hw) s

/-! ### Consumption -/

/-- A reader consumes a prefix of the stream. -/
def Consumes {α : Type} (r : Bytes → Except PyErr (α × Bytes)) : Prop :=
  ∀ s v s', r s = .ok (v, s') → ∃ used, s = used ++ s'

mutual
/-- All primitive readers of a declaration satisfy a predicate. -/
def ReadersTy (P : ∀ {α : Type}, (Bytes → Except PyErr (α × Bytes)) → Prop) : Ty V C → Prop
  | .prim r => P r
  | .flags r _ => P r
  | .struct ms => ReadersMembers P ms
  | .fixedArray t _ => ReadersTy P t
  | .varArray r t => P r ∧ ReadersTy P t
  | .xArray t _ => ReadersTy P t
  | .selective _ ss => ReadersSels P ss
/-- Members. -/
def ReadersMembers (P : ∀ {α : Type}, (Bytes → Except PyErr (α × Bytes)) → Prop) : Members V C → Prop
  | .nil => True
  | .cons _ _ _ t rest => ReadersTy P t ∧ ReadersMembers P rest
/-- Selections. -/
def ReadersSels (P : ∀ {α : Type}, (Bytes → Except PyErr (α × Bytes)) → Prop) : Selections V C → Prop
  | .nil => True
  | .cons _ t rest => ReadersTy P t ∧ ReadersSels P rest
end

theorem readMany_consumes {f : List (Value V) → Bytes → Except PyErr (Option (Value V) × Bytes)}
    (hf : ∀ acc, Consumes (f acc)) : ∀ n acc, Consumes (readMany f n acc) := by
  intro n
  induction n with
  | zero => intro acc s v s' h; simp [readMany] at h; exact ⟨[], by simp [h.2]⟩
  | succ n ih =>
    intro acc s v s' h
    rw [readMany] at h
    cases hr : f acc s with
    | error e => rw [hr] at h; simp at h
    | ok p =>
      obtain ⟨v?, s1⟩ := p
      rw [hr] at h
      obtain ⟨u1, e1⟩ := hf acc _ _ _ hr
      cases v? with
      | none => obtain ⟨u2, e2⟩ := ih _ _ _ _ h; exact ⟨u1 ++ u2, by rw [e1, e2, List.append_assoc]⟩
      | some w => obtain ⟨u2, e2⟩ := ih _ _ _ _ h; exact ⟨u1 ++ u2, by rw [e1, e2, List.append_assoc]⟩

theorem arrayResult_consumes {mk : List (Value V) → Value V} {r : Bytes → Except PyErr (List (Value V) × Bytes)}
    (h : Consumes r) : Consumes (fun s => arrayResult mk (r s)) := by
  intro s v s' e
  dsimp only [arrayResult] at e
  cases hr : r s with
  | error _ => simp [hr] at e
  | ok p => simp [hr] at e; obtain ⟨u, hu⟩ := h s p.1 p.2 hr; exact ⟨u, by rw [hu, e.2]⟩

theorem leafResult_consumes {e : PyErr} {r : Bytes → Except PyErr (V × Bytes)}
    (h : Consumes r) : Consumes (fun s => leafResult e (r s)) := by
  intro s v s' e
  dsimp only [leafResult] at e
  cases hr : r s with
  | error _ => simp [hr] at e
  | ok p => simp [hr] at e; obtain ⟨u, hu⟩ := h s p.1 p.2 hr; exact ⟨u, by rw [hu, e.2]⟩

mutual
theorem readTy_consumes (fe : PyErr) (ver : Option Version) (ctx : C) : ∀ (t : Ty V C) (p : Option (Value V)),
    ReadersTy Consumes t → Consumes (readTy fe ver ctx p t)
  | .prim r, p, h => by
    simp only [ReadersTy] at h
    intro s v s' e; simp only [readTy] at e; exact leafResult_consumes h s v s' e
  | .flags r c, p, h => by
    simp only [ReadersTy] at h
    intro s v s' e
    simp only [readTy, leafResult] at e
    cases hr : r s with
    | error _ => simp [hr, Except.map] at e
    | ok q => simp [hr, Except.map] at e; obtain ⟨u, hu⟩ := h s q.1 q.2 hr; exact ⟨u, by rw [hu, e.2]⟩
  | .struct ms, p, h => by
    simp only [ReadersTy] at h
    intro s v s' e
    simp only [readTy] at e
    cases hr : readMembers fe ver ctx ms [] s with
    | error _ => simp [hr] at e
    | ok q =>
      simp [hr] at e
      obtain ⟨u, hu⟩ := readMembers_consumes fe ver ctx ms [] h s q.1 q.2 hr
      exact ⟨u, by rw [hu, e.2]⟩
  | .fixedArray t n, p, h => by
    simp only [ReadersTy] at h
    intro s v s' e
    simp only [readTy] at e
    exact arrayResult_consumes (readMany_consumes (fun acc => readTy_consumes fe ver ctx t _ h) n []) s v s' e
  | .varArray r t, p, h => by
    simp only [ReadersTy] at h
    intro s v s' e
    simp only [readTy] at e
    cases hr : r s with
    | error _ => simp [hr] at e
    | ok q =>
      simp only [hr] at e
      obtain ⟨u, hu⟩ := h.1 s q.1 q.2 hr
      obtain ⟨u2, hu2⟩ := arrayResult_consumes
        (readMany_consumes (fun acc => readTy_consumes fe ver ctx t _ h.2) q.1 []) q.2 v s' e
      exact ⟨u ++ u2, by rw [hu, hu2, List.append_assoc]⟩
  | .xArray t r, p, h => by
    simp only [ReadersTy] at h
    intro s v s' e
    simp only [readTy] at e
    cases hr : withParent p (r ctx) with
    | error _ => simp [hr] at e
    | ok q =>
      simp only [hr] at e
      exact arrayResult_consumes (readMany_consumes (fun acc => readTy_consumes fe ver ctx t _ h) q []) s v s' e
  | .selective r ss, p, h => by
    simp only [ReadersTy] at h
    intro s v s' e
    simp only [readTy] at e
    cases hr : withParent p (r ctx) with
    | error _ => simp [hr] at e
    | ok q =>
      simp only [hr] at e
      exact readSelected_consumes fe ver ctx ss p q h s v s' e
theorem readMembers_consumes (fe : PyErr) (ver : Option Version) (ctx : C) :
    ∀ (ms : Members V C) (fs : List (String × Value V)),
    ReadersMembers Consumes ms → Consumes (readMembers fe ver ctx ms fs)
  | .nil, fs, h => by
    intro s v s' e; simp [readMembers] at e; exact ⟨[], by simp [e.2]⟩
  | .cons n v c t rest, fs, h => by
    simp only [ReadersMembers] at h
    intro s w s' e
    have ih := fun fs => readMembers_consumes fe ver ctx rest fs h.2
    simp only [readMembers] at e
    split at e
    · split at e
      · simp at e
      · exact ih fs s w s' e
      · split at e
        · simp at e
        · rename_i s1 hr
          obtain ⟨u, hu⟩ := readTy_consumes fe ver ctx t _ h.1 s _ _ hr
          obtain ⟨u2, hu2⟩ := ih _ _ _ _ e
          exact ⟨u ++ u2, by rw [hu, hu2, List.append_assoc]⟩
        · rename_i s1 hr
          obtain ⟨u, hu⟩ := readTy_consumes fe ver ctx t _ h.1 s _ _ hr
          obtain ⟨u2, hu2⟩ := ih _ _ _ _ e
          exact ⟨u ++ u2, by rw [hu, hu2, List.append_assoc]⟩
    · exact ih fs s w s' e
theorem readSelected_consumes (fe : PyErr) (ver : Option Version) (ctx : C) :
    ∀ (ss : Selections V C) (p : Option (Value V)) (k : Int),
    ReadersSels Consumes ss → Consumes (readSelected fe ver ctx p k ss)
  | .nil, p, k, h => by
    intro s v s' e; simp [readSelected] at e; exact ⟨[], by simp [e.2]⟩
  | .cons k' t rest, p, k, h => by
    simp only [ReadersSels] at h
    intro s v s' e
    simp only [readSelected] at e
    split at e
    · exact readTy_consumes fe ver ctx t p h.1 s v s' e
    · exact readSelected_consumes fe ver ctx rest p k h.2 s v s' e
end

theorem readWhole_consumes (fe : PyErr) (ver : Option Version) (ctx : C) (t : Ty V C)
    (h : ReadersTy Consumes t) : Consumes (readWhole fe ver ctx t) := by
  intro s v s' e
  unfold readWhole at e
  cases hr : readTy fe ver ctx none t s with
  | error _ => simp [hr] at e
  | ok q =>
    obtain ⟨v?, s1⟩ := q
    cases v? with
    | none => simp [hr] at e
    | some w =>
      simp [hr] at e
      obtain ⟨u, hu⟩ := readTy_consumes fe ver ctx t none h _ _ _ hr
      exact ⟨u, by rw [hu, e.2]⟩

end Hwp
