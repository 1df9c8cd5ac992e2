/- The events of reading a record of a declared class. -/
import Verif.Proofs.BinEvents
import Verif.Proofs.DeclReader
set_option autoImplicit false
set_option linter.unusedSimpArgs false
set_option linter.unusedVariables false
namespace Hwp
open Spec

variable {V C : Type}

/-! ### The last state -/

theorem step_unique {ctx : C} {a b c : PSt V C} (h : Step ctx a b) (h' : Step ctx a c) : b = c := by
  obtain ⟨e, d, h1, h2⟩ := h
  obtain ⟨e', d', h1', h2'⟩ := h'
  rw [h1, List.cons.injEq] at h1'
  obtain ⟨rfl, rfl⟩ := h1'
  rw [h2] at h2'
  simpa using h2'

theorem reaches_linear {ctx : C} {a b c : PSt V C} (h : Reaches ctx a b) (h' : Reaches ctx a c) :
    Reaches ctx b c ∨ Reaches ctx c b := by
  induction h with
  | refl => exact Or.inl h'
  | step s r ih =>
    cases h' with
    | refl => exact Or.inr (.step s r)
    | step s' r' => rw [step_unique s' s] at r'; exact ih r'

theorem reaches_end {ctx : C} {a b : PSt V C} (h : Reaches ctx a b) (ha : a.deque = []) : b = a := by
  cases h with
  | refl => rfl
  | step s r => obtain ⟨e, d, h1, _⟩ := s; rw [ha] at h1; cases h1

/-- At the end nothing is open. -/
theorem final_stack {ctx : C} {t : Ty V C} (hw : WfTy t) {s : Bytes} {st : PSt V C}
    (h : Reaches ctx ⟨compileType t, [], [], s, none⟩ st) (hd : st.deque = []) : st.stack = [] := by
  have h0 := ty_claim ctx t hw {} {} [] [] [] s none rfl rfl rfl (fun _ => rfl) (fun v => ⟨[], rfl⟩)
  simp only [List.append_nil, ← mapTy_eq] at h0
  simp only [List.head?_nil, Option.map_none] at h0
  cases hr : readTy .keyError none ctx none t s with
  | error e =>
    rw [hr] at h0
    obtain ⟨st', e', d', h1, h2, h3⟩ := h0
    rcases reaches_linear h h1 with h4 | h4
    · rw [reaches_end h4 hd] at h2; rw [hd] at h2; cases h2
    · cases h4 with
      | refl => rw [hd] at h2; cases h2
      | step s' r' =>
        obtain ⟨e2, d2, h5, h6⟩ := s'
        rw [h2, List.cons.injEq] at h5
        obtain ⟨rfl, rfl⟩ := h5
        rw [h3] at h6; cases h6
  | ok q =>
    obtain ⟨v?, s'⟩ := q
    rw [hr] at h0
    have key : ∀ last, Reaches ctx ⟨compileType t, [], [], s, none⟩ ⟨[], [], [], s', last⟩ → st.stack = [] := by
      intro last h1
      rcases reaches_linear h h1 with h4 | h4
      · rw [← reaches_end h4 hd]
      · rw [reaches_end h4 rfl]
    cases v? with
    | none => obtain ⟨last, h1⟩ := h0; exact key last h1
    | some v =>
      obtain ⟨stk, hst, h1⟩ := h0
      simp only [collect, Except.ok.injEq] at hst
      subst hst
      exact key _ h1

/-! ### Items of declared classes -/

/-- Not a `ParseError`. -/
def NoParse {α : Type} (x : Except PyErr α) : Prop := x ≠ .error .parseError

theorem NoParse.bind {α β : Type} {x : Except PyErr α} {f : α → Except PyErr β} (h : NoParse x)
    (hf : ∀ a, NoParse (f a)) : NoParse (x >>= f) := by
  cases x with
  | error e =>
    intro h'
    simp only [Bind.bind, Except.bind, Except.error.injEq] at h'
    exact h (by rw [h'])
  | ok a => exact hf a

theorem NoParse.pure {α : Type} (a : α) : NoParse (pure a : Except PyErr α) := by
  intro h; cases h

theorem getValue_np (fs : Fields) (n : String) : NoParse (getValue fs n) := by
  unfold getValue; split <;> simp [NoParse]

theorem getBit_np (v : Value PVal) (b : String) : NoParse (getBit v b) := by
  unfold getBit
  split
  · unfold FlagsDecl.get; repeat' split
    all_goals simp [NoParse]
  · simp [NoParse]

theorem getInt_np (v : Value PVal) : NoParse (getInt v) := by
  unfold getInt; split <;> simp [NoParse]

theorem ref_np (ctx : DCtx) (fs : Fields) (r : RefDecl) : NoParse (r.eval ctx fs) := by
  cases r with
  | member n => exact (getValue_np _ _).bind fun v => getInt_np v
  | flag n b => exact (getValue_np _ _).bind fun v => (getBit_np v b).bind fun _ => .pure _
  | flagMinusOne n b => exact (getValue_np _ _).bind fun v => (getBit_np v b).bind fun _ => .pure _
  | parentMember n =>
    simp only [RefDecl.eval]
    split
    · exact (getValue_np _ _).bind fun v => getInt_np v
    · simp [NoParse]

theorem chidEq_np (fs : Fields) (c : String) : NoParse (chidEq fs c) := by
  refine (getValue_np _ _).bind fun v => ?_
  split <;> exact .pure _

theorem cond_np (ctx : DCtx) (fs : Fields) (c : CondDecl) : NoParse (c.eval ctx fs) := by
  cases c with
  | flag n b => exact (getValue_np _ _).bind fun v => (getBit_np v b).bind fun _ => .pure _
  | notFlag n b => exact (getValue_np _ _).bind fun v => (getBit_np v b).bind fun _ => .pure _
  | chidIs c => exact chidEq_np _ _
  | chidIsAndFlag c n b =>
    refine (chidEq_np _ _).bind fun t => ?_
    split
    · exact (getValue_np _ _).bind fun v => (getBit_np v b).bind fun _ => .pure _
    · exact .pure _
  | parentIsGso =>
    simp only [CondDecl.eval]
    split <;> simp [NoParse]

/-- The attributes do not raise `ParseError`. -/
def AttrsOk (b : TAttrs V C) : Prop := ∀ c, b.condition = some c → ∀ ctx v, c ctx v ≠ .error .parseError

theorem attrs_nil : AttrsOk ({} : TAttrs V C) := by intro c h; cases h

theorem count_consumes (c : Prim) : Consumes (fun s => do let (n, s) ← c.read s; return (n.toNat, s)) := by
  have := readers_toTy (.nArray c (.prim (.int c)))
  simp only [DTy.toTy, ReadersTy] at this
  exact this.1

theorem item_leaf {b : TAttrs V C} (hb : AttrsOk b) {r} (hr : Consumes r) : ItemOk (⟨b, .leaf r⟩ : TItem V C) :=
  ⟨fun _ h => by cases h; exact hr, (by intro _ _ h; cases h), (by intro _ h; cases h), (by intro _ h; cases h),
    (by intro _ h; cases h), hb⟩

theorem item_flags {b : TAttrs V C} (hb : AttrsOk b) {r conv} (hr : Consumes r) :
    ItemOk (⟨b, .flags r conv⟩ : TItem V C) :=
  ⟨(by intro _ h; cases h), fun _ _ h => by cases h; exact hr, (by intro _ h; cases h), (by intro _ h; cases h),
    (by intro _ h; cases h), hb⟩

theorem item_struct {b : TAttrs V C} (hb : AttrsOk b) : ItemOk (⟨b, .struct⟩ : TItem V C) :=
  ⟨(by intro _ h; cases h), (by intro _ _ h; cases h), (by intro _ h; cases h), (by intro _ h; cases h),
    (by intro _ h; cases h), hb⟩

theorem item_fixed {b : TAttrs V C} (hb : AttrsOk b) (n : Nat) : ItemOk (⟨b, .fixed n⟩ : TItem V C) :=
  ⟨(by intro _ h; cases h), (by intro _ _ h; cases h), (by intro _ h; cases h), (by intro _ h; cases h),
    (by intro _ h; cases h), hb⟩

theorem item_var {b : TAttrs V C} (hb : AttrsOk b) {r} (hr : Consumes r) : ItemOk (⟨b, .var r⟩ : TItem V C) :=
  ⟨(by intro _ h; cases h), (by intro _ _ h; cases h), fun _ h => by cases h; exact hr, (by intro _ h; cases h),
    (by intro _ h; cases h), hb⟩

theorem item_xarr {b : TAttrs V C} (hb : AttrsOk b) {ref} (hr : ∀ ctx v, ref ctx v ≠ .error .parseError) :
    ItemOk (⟨b, .xarr ref⟩ : TItem V C) :=
  ⟨(by intro _ h; cases h), (by intro _ _ h; cases h), (by intro _ h; cases h), fun _ h => by cases h; exact hr,
    (by intro _ h; cases h), hb⟩

theorem item_sel {b : TAttrs V C} (hb : AttrsOk b) {ref} (hr : ∀ ctx v, ref ctx v ≠ .error .parseError) :
    ItemOk (⟨b, .sel ref⟩ : TItem V C) :=
  ⟨(by intro _ h; cases h), (by intro _ _ h; cases h), (by intro _ h; cases h), (by intro _ h; cases h),
    fun _ h => by cases h; exact hr, hb⟩

/-- Events between a start and an end. -/
theorem wrapped_ok {i : TItem V C} (hi : ItemOk i) {es : List (TEv V C)} (h : ∀ e ∈ es, ItemOk e.item) :
    ∀ e ∈ (TEv.start i :: (es ++ [TEv.stop i])), ItemOk e.item := by
  intro e he
  rcases List.mem_cons.1 he with rfl | he
  · exact hi
  · rcases List.mem_append.1 he with he | he
    · exact h e he
    · rw [List.mem_singleton] at he; subst he; exact hi

mutual
theorem ty_items : ∀ (t : DTy) (b : TAttrs PVal DCtx), AttrsOk b → ∀ e ∈ mapTy b t.toTy, ItemOk e.item
  | .prim p, b, hb => by
    intro e he
    simp only [DTy.toTy, mapTy, List.mem_singleton] at he
    subst he; exact item_leaf hb (pty_consumes p)
  | .flags f, b, hb => by
    intro e he
    simp only [DTy.toTy, mapTy, List.mem_singleton] at he
    subst he; exact item_flags hb (pty_consumes _)
  | .struct _ ms, b, hb => by
    simp only [DTy.toTy, mapTy]
    exact wrapped_ok (item_struct hb) (members_items ms)
  | .array t n, b, hb => by
    simp only [DTy.toTy, mapTy]
    exact wrapped_ok (item_fixed hb n) (ty_items t {} attrs_nil)
  | .nArray c t, b, hb => by
    simp only [DTy.toTy, mapTy]
    exact wrapped_ok (item_var hb (count_consumes c)) (ty_items t {} attrs_nil)
  | .xArray t ref, b, hb => by
    simp only [DTy.toTy, mapTy]
    exact wrapped_ok (item_xarr hb (fun ctx v => (ref_np ctx _ ref).bind fun _ => .pure _)) (ty_items t {} attrs_nil)
  | .selective ref ss, b, hb => by
    simp only [DTy.toTy, mapTy]
    exact wrapped_ok (item_sel hb (fun ctx v => ref_np ctx _ ref)) (sels_items ss b hb)
theorem members_items : ∀ (ms : DMembers), ∀ e ∈ mapMembers ms.toMembers, ItemOk e.item
  | .nil => by intro e he; simp [DMembers.toMembers, mapMembers] at he
  | .cons name version condition t rest => by
    intro e he
    simp only [DMembers.toMembers, mapMembers, List.mem_append] at he
    rcases he with he | he
    · refine ty_items t _ ?_ e he
      intro c hc ctx v
      cases condition with
      | none => cases hc
      | some c' =>
        simp only [Option.map_some, Option.some.injEq] at hc
        subst hc
        exact cond_np ctx _ c'
    · exact members_items rest e he
theorem sels_items : ∀ (ss : DSels) (b : TAttrs PVal DCtx), AttrsOk b → ∀ e ∈ mapSels b ss.toSelections, ItemOk e.item
  | .nil, b, hb => by intro e he; simp [DSels.toSelections, mapSels] at he
  | .cons k t rest, b, hb => by
    intro e he
    simp only [DSels.toSelections, mapSels, List.mem_append] at he
    rcases he with he | he
    · exact ty_items t { b with selectWhen := some (k : Int) } hb e he
    · exact sels_items rest b hb e he
end

theorem filterVersion_mem (ver : Version) (es : List (TEv V C)) : ∀ e ∈ filterVersion ver es, e ∈ es := by
  fun_induction filterVersion ver es with
  | case1 => simp
  | case2 es i h ih =>
    intro x hx
    exact List.mem_cons_of_mem _ ((popSub_mem _ 0 x).2 (ih x hx))
  | case3 e es h h' ih =>
    intro x hx
    exact List.mem_cons_of_mem _ (ih x hx)
  | case4 e es h ih =>
    intro x hx
    rcases List.mem_cons.1 hx with rfl | hx
    · exact List.mem_cons_self
    · exact List.mem_cons_of_mem _ (ih x hx)

theorem class_items (ver : Version) (c : String) : ∀ e ∈ typeEvents (some ver) (classTy c), ItemOk e.item := by
  intro e he
  simp only [typeEvents] at he
  have := filterVersion_mem ver _ e he
  simp only [compileType, classTy, mapTy] at this
  exact wrapped_ok (item_struct attrs_nil) (members_items _) e this

theorem class_wf (c : String) : WfTy (classTy c) := by
  unfold classTy; simp only [WfTy]; exact wf_toMembers _ (classes_wf c)

/-! ### Outcomes -/

theorem ptrace_mono {ctx : C} {total : Nat} (fuel : Nat) : ∀ {st : PSt V C} {r}, ptrace ctx total fuel st = some r →
    ∀ more, ptrace ctx total (fuel + more) st = some r := by
  induction fuel with
  | zero =>
    intro st r h more
    rw [ptrace] at h ⊢
    cases hd : st.deque with
    | nil => rw [hd] at h; exact h
    | cons e d => rw [hd] at h; cases h
  | succ fuel ih =>
    intro st r h more
    rw [show fuel + 1 + more = (fuel + more) + 1 by omega]
    rw [ptrace] at h ⊢
    cases hd : st.deque with
    | nil => rw [hd] at h; exact h
    | cons e d =>
      rw [hd] at h
      simp only at h ⊢
      cases hs : pstep ctx e { st with deque := d } with
      | error err => rw [hs] at h; exact h
      | ok st' =>
        rw [hs] at h
        simp only [Option.map_eq_some_iff] at h ⊢
        obtain ⟨q, hq, e'⟩ := h
        exact ⟨q, ih hq more, e'⟩

/-- What the events of reading say, given the outcome. -/
def EvGood (payload : Bytes) (first : Nat) (evs : List (BinEv V C)) (r : Except PyErr (List (String × Value V) × Bytes)) :
    Prop :=
  (∀ fs rest, r = .ok (fs, rest) → (∃ pre, payload = pre ++ rest) ∧
    ItemTiles payload first evs (payload.length - rest.length) ∧ Opens [] evs [] ∧
    ∀ m v, HasLeaf (.struct fs) m v → Reports evs m v) ∧
  (∀ err, r = .error err → err ≠ .parseError → ∃ last, ItemTiles payload first evs last) ∧
  (r = .error .parseError → ∃ pre name type offset, evs = pre ++ [.error name type offset] ∧
    ItemTiles payload first pre offset ∧ offset ≤ payload.length ∧ Unreadable type (payload.drop offset))

theorem class_good {fuel : Nat} {payload s : Bytes} (hp : ∃ pre, payload = pre ++ s) {ver : Version}
    {parent : Option (String × Fields)} {c : String} {evs : List (BinEv PVal DCtx)}
    {r : Except PyErr (Fields × Bytes)}
    (h : classEvents fuel payload.length ver parent c s = some (evs, r)) :
    EvGood payload (payload.length - s.length) evs r ∧
    ∃ fuel', readType fuel' (some ver) (⟨some ver, some parent⟩ : DCtx) (classTy c) s =
      some (r.map fun q => (.struct q.1, q.2)) := by
  simp only [classEvents, readTypeEvents, Option.map_eq_some_iff] at h
  obtain ⟨⟨out, q⟩, hq, e⟩ := h
  simp only [Prod.mk.injEq] at e
  obtain ⟨rfl, e⟩ := e
  have hrun : prun (⟨some ver, some parent⟩ : DCtx) fuel ⟨typeEvents (some ver) (classTy c), [], [], s, none⟩ = some q := by
    rw [← ptrace_outcome _ payload.length, hq]; rfl
  have hread : readType fuel (some ver) (⟨some ver, some parent⟩ : DCtx) (classTy c) s = some q := hrun
  have hst : ∀ v rest, q = .ok (v, rest) → ∃ fs, v = .struct fs := by
    intro v rest e'
    have := Props.C37_pipeline_result_unique (some ver) _ (classTy c) (class_wf c) s fuel q hread
    have ec : classTy c = .struct (membersOf c).toMembers := rfl
    rw [ec, readWhole_struct, e'] at this
    cases hm : readMembers .keyError (some ver) (⟨some ver, some parent⟩ : DCtx) (membersOf c).toMembers [] s with
    | error e2 => rw [hm] at this; cases this
    | ok q2 =>
      rw [hm] at this
      simp only [Except.map, Except.ok.injEq, Prod.mk.injEq] at this
      exact ⟨q2.1, this.1⟩
  have hinv : EvInv payload (payload.length - s.length) []
      (⟨typeEvents (some ver) (classTy c), [], [], s, none⟩ : PSt PVal DCtx) :=
    ⟨hp, .nil _, .nil _, (by intro f hf; cases hf), (by intro w hw; cases hw), class_items ver c, (by intro f hf; cases hf)⟩
  obtain ⟨i1, i2, i3⟩ := ptrace_inv fuel _ [] hinv hq
  simp only [List.nil_append] at i1 i2 i3
  cases q with
  | error err =>
    simp only at e
    subst e
    refine ⟨⟨(by intro _ _ h; cases h), ?_, ?_⟩, fuel, hread⟩
    · intro err' e' hne
      obtain ⟨st', hst'⟩ := i2 err' (by simp only [Except.error.injEq] at e' ⊢; exact e') hne
      exact ⟨_, hst'.tiles⟩
    · intro e'
      obtain ⟨pre, st', name, type, h1, h2, h3⟩ := i3 (by simp only [Except.error.injEq] at e' ⊢; exact e')
      exact ⟨pre, name, type, _, h1, h2.tiles, by omega, by rw [drop_offset h2.suffix]; exact h3⟩
  | ok q =>
    obtain ⟨v, rest⟩ := q
    obtain ⟨fs, rfl⟩ := hst v rest rfl
    simp only at e
    subst e
    refine ⟨⟨?_, (by intro _ h; cases h), (by intro h; cases h)⟩, fuel, hread⟩
    intro fs' rest' e'
    simp only [Except.ok.injEq, Prod.mk.injEq] at e'
    obtain ⟨rfl, rfl⟩ := e'
    obtain ⟨st', h1, h2, h3, h4, h5⟩ := i1 (.struct fs) rest rfl
    have hs0 : st'.stack = [] := by
      rw [typeEvents_eq] at h1
      exact final_stack (wf_filterTy ver _ (class_wf c)) h1 h2
    refine ⟨by rw [← h4]; exact h5.suffix, by rw [← h4]; exact h5.tiles, ?_, fun m v hv => h5.last _ h3 m v hv⟩
    have := h5.opens
    rw [hs0] at this
    exact this

theorem contentUpdate_mem : ∀ (more content : Fields) (x : String × Value PVal),
    x ∈ contentUpdate content more → x ∈ content ∨ x ∈ more := by
  intro more
  induction more with
  | nil => intro content x h; exact Or.inl h
  | cons p more ih =>
    intro content x h
    rcases ih _ x h with h | h
    · rcases setField_mem h with h | h
      · right; rw [h]; exact List.mem_cons_self
      · exact Or.inl h
    · exact Or.inr (List.mem_cons_of_mem _ h)

theorem contentUpdate_leaf {content more : Fields} {m : Option String} {v : PVal}
    (h : HasLeaf (.struct (contentUpdate content more)) m v) :
    HasLeaf (.struct content) m v ∨ HasLeaf (.struct more) m v := by
  cases h with
  | member hm => exact (contentUpdate_mem _ _ _ hm).imp (fun h => .member h) (fun h => .member h)
  | inMember hm hw => exact (contentUpdate_mem _ _ _ hm).imp (fun h => .inMember h hw) (fun h => .inMember h hw)

/-- Reading on after what was read before. -/
theorem EvGood.after {payload s : Bytes} {prev evs : List (BinEv PVal DCtx)} {first : Nat} {r : Except PyErr (Fields × Bytes)}
    (h1 : ItemTiles payload first prev (payload.length - s.length))
    (h : EvGood payload (payload.length - s.length) evs r) (he : ∀ q, r ≠ .ok q) :
    EvGood payload first (prev ++ evs) r := by
  refine ⟨fun fs rest e => absurd e (he _), ?_, ?_⟩
  · intro err e hne
    obtain ⟨last, hl⟩ := h.2.1 err e hne
    exact ⟨last, ItemTiles.append h1 hl⟩
  · intro e
    obtain ⟨pre, name, type, o, e1, e2, e3, e4⟩ := h.2.2 e
    exact ⟨prev ++ pre, name, type, o, by rw [e1, List.append_assoc], ItemTiles.append h1 e2, e3, e4⟩

theorem extension_good {fuel : Nat} {payload : Bytes} {ver : Version} {rd : ModelReader Fields} (hrd : ReadsDecls ver rd)
    {parent : PFrame Fields} {first : Nat} : ∀ (cs : List String) (content : Fields) (s : Bytes)
      (prev : List (BinEv PVal DCtx)), (∃ pre, payload = pre ++ s) →
      ItemTiles payload first prev (payload.length - s.length) → Opens [] prev [] →
      (∀ m v, HasLeaf (.struct content) m v → Reports prev m v) → ∀ {out r},
      extensionEvents fuel payload.length ver parent.model content s cs = some (out, r) →
      EvGood payload first (prev ++ out) r ∧ r = readClasses rd parent content s cs := by
  intro cs
  induction cs with
  | nil =>
    intro content s prev hp ht ho hl out r h
    simp only [extensionEvents, Option.some.injEq, Prod.mk.injEq] at h
    obtain ⟨rfl, rfl⟩ := h
    rw [List.append_nil]
    refine ⟨⟨?_, (by intro _ h; cases h), (by intro h; cases h)⟩, rfl⟩
    intro fs rest e
    simp only [Except.ok.injEq, Prod.mk.injEq] at e
    obtain ⟨rfl, rfl⟩ := e
    exact ⟨hp, ht, ho, hl⟩
  | cons c cs ih =>
    intro content s prev hp ht ho hl out r h
    simp only [extensionEvents] at h
    have huniq : ∀ {r'}, (∃ fuel', readType fuel' (some ver) (⟨some ver, some parent.model⟩ : DCtx) (classTy c) s =
        some ((r' : Except PyErr (Fields × Bytes)).map fun q => (.struct q.1, q.2))) → rd.read parent.model c s = r' := by
      intro r' ⟨f', hf'⟩
      obtain ⟨f2, hf2⟩ := hrd.read parent.model c s
      exact map_struct_inj (prun_unique hf2 hf')
    split at h
    · cases h
    · rename_i evs e hc
      simp only [Option.some.injEq, Prod.mk.injEq] at h
      obtain ⟨rfl, rfl⟩ := h
      obtain ⟨g, hf⟩ := class_good hp hc
      refine ⟨EvGood.after ht g (by simp), ?_⟩
      simp only [readClasses, huniq hf]; rfl
    · rename_i evs more s' hc
      obtain ⟨g, hf⟩ := class_good hp hc
      obtain ⟨g1, g2, g3, g4⟩ := g.1 more s' rfl
      simp only [Option.map_eq_some_iff, Prod.mk.injEq] at h
      obtain ⟨q, hq, rfl, rfl⟩ := h
      rw [← List.append_assoc]
      obtain ⟨i1, i2⟩ := ih (contentUpdate content more) s' (prev ++ evs) g1 (ItemTiles.append ht g2) (Opens.append ho g3) (by
        intro m v hv
        rcases contentUpdate_leaf hv with hv | hv
        · exact Reports.append_left (hl m v hv) _
        · exact Reports.append_right (g4 m v hv) _) hq
      refine ⟨i1, ?_⟩
      rw [i2]
      simp only [readClasses, huniq hf, hrd.update]; rfl

/-- What the events of a record say, and the outcome. -/
theorem model_good {fuel : Nat} {ver : Version} {rd : ModelReader Fields} (hrd : ReadsDecls ver rd)
    {parent : PFrame Fields} {r : Record} {evs : List (BinEv PVal DCtx)} {res}
    (h : modelBinEvents fuel ver rd parent r = some (evs, res)) :
    EvGood r.payload 0 evs (res.map fun q => (q.2.1, q.2.2)) ∧ res = resolveModel rd parent r := by
  have hp : ∃ pre, r.payload = pre ++ r.payload := ⟨[], rfl⟩
  have huniq : ∀ {r'}, (∃ fuel', readType fuel' (some ver) (⟨some ver, some parent.model⟩ : DCtx)
      (classTy (baseType r.tagid)) r.payload =
      some ((r' : Except PyErr (Fields × Bytes)).map fun q => (.struct q.1, q.2))) →
      rd.read parent.model (baseType r.tagid) r.payload = r' := by
    intro r' ⟨f', hf'⟩
    obtain ⟨f2, hf2⟩ := hrd.read parent.model (baseType r.tagid) r.payload
    exact map_struct_inj (prun_unique hf2 hf')
  simp only [modelBinEvents] at h
  split at h
  · cases h
  · rename_i evs' e hc
    simp only [Option.some.injEq, Prod.mk.injEq] at h
    obtain ⟨rfl, rfl⟩ := h
    obtain ⟨g, hf⟩ := class_good hp hc
    rw [Nat.sub_self] at g
    refine ⟨g, ?_⟩
    simp only [resolveModel, huniq hf]; rfl
  · rename_i evs' content s hc
    obtain ⟨g, hf⟩ := class_good hp hc
    rw [Nat.sub_self] at g
    obtain ⟨g1, g2, g3, g4⟩ := g.1 content s rfl
    split at h
    · rename_i e he
      simp only [Option.some.injEq, Prod.mk.injEq] at h
      obtain ⟨rfl, rfl⟩ := h
      refine ⟨⟨(by intro _ _ h; cases h), fun _ _ _ => ⟨_, g2⟩, ?_⟩, ?_⟩
      · intro e'
        exfalso
        simp only [Except.map, Except.error.injEq] at e'
        subst e'
        revert he
        unfold extensionOf
        rw [hrd.chid]
        split
        · refine (?_ : NoParse (contentChid content)).bind (fun _ => NoParse.pure _)
          unfold contentChid
          split <;> simp [NoParse]
        · repeat' split
          all_goals simp
      · simp only [resolveModel, huniq hf, bind, Except.bind, he]
    · rename_i he
      simp only [Option.some.injEq, Prod.mk.injEq] at h
      obtain ⟨rfl, rfl⟩ := h
      refine ⟨g, ?_⟩
      simp only [resolveModel, huniq hf, bind, Except.bind, he]; rfl
    · rename_i ext he
      simp only [Option.map_eq_some_iff, Prod.mk.injEq] at h
      obtain ⟨q, hq, rfl, rfl⟩ := h
      obtain ⟨i1, i2⟩ := extension_good hrd _ content s evs' g1 g2 g3 g4 hq
      refine ⟨?_, ?_⟩
      · have : (q.2.map fun p => (ext, p.1, p.2)).map (fun q => (q.2.1, q.2.2)) = q.2 := by
          cases q.2 <;> rfl
        rw [this]; exact i1
      · simp only [resolveModel, huniq hf, bind, Except.bind, he, ← i2]
        cases q.2 <;> rfl

/-! ### The bound on the number of rounds -/

theorem classEvents_mono {fuel total : Nat} {ver : Version} {parent : Option (String × Fields)} {c : String}
    {s : Bytes} {x} (h : classEvents fuel total ver parent c s = some x) (more : Nat) :
    classEvents (fuel + more) total ver parent c s = some x := by
  simp only [classEvents, readTypeEvents, Option.map_eq_some_iff] at h ⊢
  obtain ⟨q, hq, e⟩ := h
  exact ⟨q, ptrace_mono fuel hq more, e⟩

theorem extensionEvents_mono {fuel total : Nat} {ver : Version} {parent : Option (String × Fields)} :
    ∀ (cs : List String) {content : Fields} {s : Bytes} {x},
    extensionEvents fuel total ver parent content s cs = some x → ∀ more,
    extensionEvents (fuel + more) total ver parent content s cs = some x := by
  intro cs
  induction cs with
  | nil => intro content s x h more; exact h
  | cons c cs ih =>
    intro content s x h more
    simp only [extensionEvents] at h ⊢
    cases hc : classEvents fuel total ver parent c s with
    | none => rw [hc] at h; cases h
    | some q =>
      rw [classEvents_mono hc more]
      rw [hc] at h
      obtain ⟨evs, r⟩ := q
      cases r with
      | error e => exact h
      | ok q =>
        simp only [Option.map_eq_some_iff] at h ⊢
        obtain ⟨y, hy, e⟩ := h
        exact ⟨y, ih hy more, e⟩

theorem modelBinEvents_mono {fuel : Nat} {ver : Version} {rd : ModelReader Fields} {parent : PFrame Fields}
    {r : Record} {x} (h : modelBinEvents fuel ver rd parent r = some x) (more : Nat) :
    modelBinEvents (fuel + more) ver rd parent r = some x := by
  simp only [modelBinEvents] at h ⊢
  cases hc : classEvents fuel r.payload.length ver parent.model (baseType r.tagid) r.payload with
  | none => rw [hc] at h; cases h
  | some q =>
    rw [classEvents_mono hc more]
    rw [hc] at h
    obtain ⟨evs, q⟩ := q
    cases q with
    | error e => exact h
    | ok q =>
      simp only at h ⊢
      cases he : extensionOf rd (baseType r.tagid) parent q.1 with
      | error e => rw [he] at h; exact h
      | ok o =>
        rw [he] at h
        cases o with
        | none => exact h
        | some ext =>
          simp only [Option.map_eq_some_iff] at h ⊢
          obtain ⟨y, hy, e⟩ := h
          exact ⟨y, extensionEvents_mono _ hy more, e⟩

theorem classEvents_exists {ver : Version} {rd : ModelReader Fields} (hrd : ReadsDecls ver rd) (total : Nat)
    (parent : Option (String × Fields)) (c : String) (s : Bytes) :
    ∃ fuel evs, classEvents fuel total ver parent c s = some (evs, rd.read parent c s) := by
  obtain ⟨fuel, hf⟩ := hrd.read parent c s
  have : (ptrace (⟨some ver, some parent⟩ : DCtx) total fuel
      ⟨typeEvents (some ver) (classTy c), [], [], s, none⟩).map Prod.snd = _ := (ptrace_outcome _ total fuel _).trans hf
  rw [Option.map_eq_some_iff] at this
  obtain ⟨⟨evs, q⟩, hq, e⟩ := this
  simp only at e
  subst e
  refine ⟨fuel, evs, ?_⟩
  simp only [classEvents, readTypeEvents, hq, Option.map_some]
  cases rd.read parent c s <;> rfl

theorem extensionEvents_exists {ver : Version} {rd : ModelReader Fields} (hrd : ReadsDecls ver rd) (total : Nat)
    (parent : Option (String × Fields)) : ∀ (cs : List String) (content : Fields) (s : Bytes),
    ∃ fuel x, extensionEvents fuel total ver parent content s cs = some x := by
  intro cs
  induction cs with
  | nil => intro content s; exact ⟨0, _, rfl⟩
  | cons c cs ih =>
    intro content s
    obtain ⟨f1, evs, h1⟩ := classEvents_exists hrd total parent c s
    cases hr : rd.read parent c s with
    | error e =>
      rw [hr] at h1
      exact ⟨f1, (evs, .error e), by simp only [extensionEvents, h1]⟩
    | ok q =>
      rw [hr] at h1
      obtain ⟨f2, y, h2⟩ := ih (contentUpdate content q.1) q.2
      refine ⟨f1 + f2, (evs ++ y.1, y.2), ?_⟩
      have h2' := extensionEvents_mono cs h2 f1
      rw [Nat.add_comm] at h2'
      simp only [extensionEvents, classEvents_mono h1 f2, h2', Option.map_some]

theorem modelBinEvents_exists {ver : Version} {rd : ModelReader Fields} (hrd : ReadsDecls ver rd)
    (parent : PFrame Fields) (r : Record) : ∃ fuel x, modelBinEvents fuel ver rd parent r = some x := by
  obtain ⟨f1, evs, h1⟩ := classEvents_exists hrd r.payload.length parent.model (baseType r.tagid) r.payload
  cases hr : rd.read parent.model (baseType r.tagid) r.payload with
  | error e =>
    rw [hr] at h1
    exact ⟨f1, (evs, .error e), by simp only [modelBinEvents, h1]⟩
  | ok q =>
    rw [hr] at h1
    cases he : extensionOf rd (baseType r.tagid) parent q.1 with
    | error e => exact ⟨f1, (evs, .error e), by simp only [modelBinEvents, h1, he]⟩
    | ok o =>
      cases o with
      | none => exact ⟨f1, (evs, .ok (baseType r.tagid, q.1, q.2)), by simp only [modelBinEvents, h1, he]⟩
      | some ext =>
        obtain ⟨f2, y, h2⟩ := extensionEvents_exists hrd r.payload.length parent.model
          (extensionMro ext (baseType r.tagid)) q.1 q.2
        have h2' := extensionEvents_mono _ h2 f1
        rw [Nat.add_comm] at h2'
        refine ⟨f1 + f2, (evs ++ y.1, y.2.map fun p => (ext, p.1, p.2)), ?_⟩
        simp only [modelBinEvents, classEvents_mono h1 f2, he, h2', Option.map_some]

end Hwp
