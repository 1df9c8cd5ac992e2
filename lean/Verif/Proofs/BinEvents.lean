/- The events of reading a record. -/
import Verif.Spec.BinEvents
import Verif.Proofs.DeclBytes
set_option autoImplicit false
set_option linter.unusedSimpArgs false
set_option linter.unusedVariables false
namespace Hwp
open Spec

variable {V C : Type}

/-! ### The outcome is that of the pipeline -/

theorem ptrace_outcome (ctx : C) (total : Nat) : ∀ (fuel : Nat) (st : PSt V C),
    (ptrace ctx total fuel st).map Prod.snd = prun ctx fuel st := by
  intro fuel
  induction fuel with
  | zero =>
    intro st
    rw [ptrace, prun]
    cases st.deque with
    | nil => cases st.last <;> rfl
    | cons e d => rfl
  | succ fuel ih =>
    intro st
    rw [ptrace, prun]
    cases st.deque with
    | nil => cases st.last <;> rfl
    | cons e d =>
      simp only
      cases pstep ctx e { st with deque := d } with
      | error err => rfl
      | ok st' => simp only [← ih st', Option.map_map]; rfl

/-! ### Lists of events -/

theorem ItemTiles.append {p : Bytes} {a b c : Nat} {xs ys : List (BinEv V C)} (h : ItemTiles p a xs b)
    (h' : ItemTiles p b ys c) : ItemTiles p a (xs ++ ys) c := by
  induction h with
  | nil => exact h'
  | start n t _ ih => exact .start n t (ih h')
  | stop n t _ ih => exact .stop n t (ih h')
  | item n t v h1 h2 h3 _ ih => exact .item n t v h1 h2 h3 (ih h')

theorem Opens.append {a b c : List (Option String × TKind V C)} {xs ys : List (BinEv V C)}
    (h : Opens a xs b) (h' : Opens b ys c) : Opens a (xs ++ ys) c := by
  induction h with
  | nil => exact h'
  | start n t _ ih => exact .start n t (ih h')
  | stop n t _ ih => exact .stop n t (ih h')
  | item n t o v _ ih => exact .item n t o v (ih h')
  | error n t o _ ih => exact .error n t o (ih h')

theorem Reports.append_left {xs : List (BinEv V C)} {m : Option String} {v : V} (h : Reports xs m v)
    (ys : List (BinEv V C)) : Reports (xs ++ ys) m v := by
  obtain ⟨n, t, o, h1, h2⟩ := h
  exact ⟨n, t, o, List.mem_append_left _ h1, h2⟩

theorem Reports.append_right {ys : List (BinEv V C)} {m : Option String} {v : V} (h : Reports ys m v)
    (xs : List (BinEv V C)) : Reports (xs ++ ys) m v := by
  obtain ⟨n, t, o, h1, h2⟩ := h
  exact ⟨n, t, o, List.mem_append_right _ h1, h2⟩

theorem popSub_mem (es : List (TEv V C)) : ∀ (l : Nat) (e : TEv V C),
    (e ∈ (popSub l es).1 → e ∈ es) ∧ (e ∈ (popSub l es).2 → e ∈ es) := by
  induction es with
  | nil => intro l e; simp [popSub]
  | cons x es ih =>
    intro l e
    cases x with
    | leaf i =>
      have := ih l e
      simp only [popSub, List.mem_cons]
      exact ⟨fun h => h.imp_right this.1, fun h => Or.inr (this.2 h)⟩
    | start i =>
      have := ih (l + 1) e
      simp only [popSub, List.mem_cons]
      exact ⟨fun h => h.imp_right this.1, fun h => Or.inr (this.2 h)⟩
    | stop i =>
      cases l with
      | zero => simp only [popSub, List.mem_cons, List.not_mem_nil, or_false]; exact ⟨Or.inl, Or.inr⟩
      | succ l =>
        have := ih l e
        simp only [popSub, List.mem_cons]
        exact ⟨fun h => h.imp_right this.1, fun h => Or.inr (this.2 h)⟩

theorem skipTree_mem (e x : TEv V C) (d : List (TEv V C)) (h : x ∈ skipTree e d) : x ∈ d := by
  unfold skipTree at h
  split at h
  · exact (popSub_mem d 0 x).2 h
  · exact h

/-- Readers consume a prefix, references and conditions do not raise `ParseError`. -/
structure ItemOk (i : TItem V C) : Prop where
  leaf : ∀ r, i.kind = .leaf r → Consumes r
  flags : ∀ r conv, i.kind = .flags r conv → Consumes r
  var : ∀ r, i.kind = .var r → Consumes r
  xarr : ∀ ref, i.kind = .xarr ref → ∀ ctx v, ref ctx v ≠ .error .parseError
  sel : ∀ ref, i.kind = .sel ref → ∀ ctx v, ref ctx v ≠ .error .parseError
  cond : ∀ c, i.attrs.condition = some c → ∀ ctx v, c ctx v ≠ .error .parseError

theorem withAttrs_item (f : TAttrs V C → TAttrs V C) (e : TEv V C) :
    (e.withAttrs f).item = { e.item with attrs := f e.item.attrs } := by
  cases e <;> rfl

theorem ItemOk.withAttrs {e : TEv V C} (h : ItemOk e.item) (f : TAttrs V C → TAttrs V C)
    (hf : (f e.item.attrs).condition = none ∨ (f e.item.attrs).condition = e.item.attrs.condition) :
    ItemOk (e.withAttrs f).item := by
  rw [withAttrs_item]
  refine ⟨h.leaf, h.flags, h.var, h.xarr, h.sel, ?_⟩
  intro c hc
  simp only at hc
  rcases hf with hf | hf
  · rw [hf] at hc; cases hc
  · rw [hf] at hc; exact h.cond c hc

/-! ### The invariant -/

/-- Name and type of an open item. -/
def frameKey (f : Frame V C) : Option String × TKind V C := (f.item.attrs.name, f.item.kind)

/-- What holds between two rounds; `evs` are the events so far. -/
structure EvInv (payload : Bytes) (first : Nat) (evs : List (BinEv V C)) (st : PSt V C) : Prop where
  suffix : ∃ pre, payload = pre ++ st.stream
  tiles : ItemTiles payload first evs (payload.length - st.stream.length)
  opens : Opens [] evs (st.stack.map frameKey)
  leaves : ∀ f ∈ st.stack, ∀ m v, HasLeaf f.value m v → Reports evs m v
  last : ∀ w, st.last = some w → ∀ m v, HasLeaf w m v → Reports evs m v
  kinds : ∀ e ∈ st.deque, ItemOk e.item
  boxes : ∀ f ∈ st.stack, ∀ x, f.value ≠ .leaf x

theorem drop_offset {p s : Bytes} (h : ∃ pre, p = pre ++ s) : p.drop (p.length - s.length) = s := by
  obtain ⟨pre, rfl⟩ := h
  simp

theorem suffix_trans {p s t : Bytes} (h : ∃ pre, p = pre ++ s) (h' : ∃ used, s = used ++ t) :
    ∃ pre, p = pre ++ t := by
  obtain ⟨a, rfl⟩ := h
  obtain ⟨b, rfl⟩ := h'
  exact ⟨a ++ b, by simp⟩

theorem setField_mem {n : String} {v : Value V} : ∀ {fs : List (String × Value V)} {x},
    x ∈ setField n v fs → x = (n, v) ∨ x ∈ fs := by
  intro fs
  induction fs with
  | nil => intro x h; simp [setField] at h; exact Or.inl h
  | cons b fs ih =>
    intro x h
    obtain ⟨b1, b2⟩ := b
    simp only [setField] at h
    split at h
    · rename_i hb
      rcases List.mem_cons.1 h with h | h
      · left; rw [h, hb]
      · exact Or.inr (List.mem_cons_of_mem _ h)
    · rcases List.mem_cons.1 h with h | h
      · right; rw [h]; exact List.mem_cons_self
      · exact (ih h).imp_right (List.mem_cons_of_mem _)

/-- Collecting keeps the open items and adds nothing but the value. -/
theorem collect_frames {name : Option String} {v : Value V} : ∀ {fs stack : List (Frame V C)},
    collect name v fs = .ok stack → stack.map frameKey = fs.map frameKey ∧
      ∀ f ∈ stack, ∀ m x, HasLeaf f.value m x →
        (∃ g ∈ fs, HasLeaf g.value m x) ∨ HasLeaf v m x ∨ (v = .leaf x ∧ ∀ n, m = some n → name = some n) := by
  intro fs stack h
  cases fs with
  | nil =>
    simp only [collect, Except.ok.injEq] at h
    subst h
    simp
  | cons f fs =>
    simp only [collect] at h
    split at h
    · rename_i fields hf
      cases name with
      | none => cases h
      | some n =>
        simp only [Except.ok.injEq] at h
        subst h
        refine ⟨rfl, ?_⟩
        intro g hg m x hx
        rcases List.mem_cons.1 hg with rfl | hg
        · simp only at hx
          cases hx with
          | member hm =>
            rcases setField_mem hm with e | e
            · simp only [Prod.mk.injEq] at e
              right; right
              exact ⟨e.2.symm, fun k hk => by rw [← e.1]; exact hk.symm ▸ rfl⟩
            · left; exact ⟨f, List.mem_cons_self, by rw [hf]; exact .member e⟩
          | inMember hm hw =>
            rcases setField_mem hm with e | e
            · simp only [Prod.mk.injEq] at e
              right; left; rw [← e.2]; exact hw
            · left; exact ⟨f, List.mem_cons_self, by rw [hf]; exact .inMember e hw⟩
        · exact Or.inl ⟨g, List.mem_cons_of_mem _ hg, hx⟩
    · rename_i xs hf
      simp only [Except.ok.injEq] at h
      subst h
      refine ⟨rfl, ?_⟩
      intro g hg m x hx
      rcases List.mem_cons.1 hg with rfl | hg
      · simp only at hx
        cases hx with
        | element hm =>
          rcases List.mem_append.1 hm with e | e
          · left; exact ⟨f, List.mem_cons_self, by rw [hf]; exact .element e⟩
          · simp only [List.mem_singleton] at e
            right; right; exact ⟨e.symm, fun n hn => by cases hn⟩
        | inElement hm hw =>
          rcases List.mem_append.1 hm with e | e
          · left; exact ⟨f, List.mem_cons_self, by rw [hf]; exact .inElement e hw⟩
          · simp only [List.mem_singleton] at e
            right; left; rw [← e]; exact hw
      · exact Or.inl ⟨g, List.mem_cons_of_mem _ hg, hx⟩
    · simp only [Except.ok.injEq] at h
      subst h
      exact ⟨rfl, fun g hg m x hx => Or.inl ⟨g, hg, hx⟩⟩

theorem collect_boxes {name : Option String} {v : Value V} {fs stack : List (Frame V C)}
    (h : collect name v fs = .ok stack) (hb : ∀ f ∈ fs, ∀ x, f.value ≠ .leaf x) :
    ∀ f ∈ stack, ∀ x, f.value ≠ .leaf x := by
  cases fs with
  | nil =>
    simp only [collect, Except.ok.injEq] at h
    subst h
    simp
  | cons f fs =>
    simp only [collect] at h
    split at h
    · cases name with
      | none => cases h
      | some n =>
        simp only [Except.ok.injEq] at h
        subst h
        intro g hg x
        rcases List.mem_cons.1 hg with rfl | hg
        · simp
        · exact hb g (List.mem_cons_of_mem _ hg) x
    · simp only [Except.ok.injEq] at h
      subst h
      intro g hg x
      rcases List.mem_cons.1 hg with rfl | hg
      · simp
      · exact hb g (List.mem_cons_of_mem _ hg) x
    · simp only [Except.ok.injEq] at h
      subst h
      exact hb

theorem finishValue_box {k : TKind V C} {w : Value V} (h : ∀ x, w ≠ .leaf x) (x : V) :
    finishValue k w ≠ .leaf x := by
  unfold finishValue
  split
  · simp
  · exact h x

theorem finishValue_leaf {k : TKind V C} {v : Value V} {m : Option String} {x : V}
    (h : HasLeaf (finishValue k v) m x) : HasLeaf v m x := by
  unfold finishValue at h
  split at h
  · cases h with
    | component hm => exact .element hm
    | inComponent hm hw => exact .inElement hm hw
  · exact h

theorem initValue_leaf {k : TKind V C} {v : Value V} (hv : initValue k = .ok v) {m : Option String} {x : V}
    (h : HasLeaf v m x) : False := by
  unfold initValue at hv
  split at hv <;> simp only [Except.ok.injEq, reduceCtorEq] at hv
  all_goals (subst hv; cases h <;> simp_all)

/-- A silent round. -/
theorem EvInv.silent {p : Bytes} {first : Nat} {evs : List (BinEv V C)} {st st' : PSt V C}
    (h : EvInv p first evs st) (h1 : st'.stack = st.stack) (h2 : st'.stream = st.stream)
    (h3 : st'.last = st.last) (h4 : ∀ e ∈ st'.deque, ItemOk e.item) : EvInv p first (evs ++ []) st' := by
  rw [List.append_nil]
  exact ⟨by rw [h2]; exact h.suffix, by rw [h2]; exact h.tiles, by rw [h1]; exact h.opens,
    by rw [h1]; exact h.leaves, by rw [h3]; exact h.last, h4,
    by rw [h1]; exact h.boxes⟩

/-- A round that reads an item. -/
theorem EvInv.reads {p : Bytes} {first : Nat} {evs : List (BinEv V C)} {st st' : PSt V C}
    (h : EvInv p first evs st) (name : Option String) (k : TKind V C) (val : ItemVal V)
    (hr : ItemReads k st.stream val st'.stream) (hc : ∃ used, st.stream = used ++ st'.stream)
    (h1 : st'.stack.map frameKey = st.stack.map frameKey)
    (h2 : ∀ f ∈ st'.stack, ∀ m x, HasLeaf f.value m x → (∃ g ∈ st.stack, HasLeaf g.value m x) ∨
      (val = .val x ∧ ∀ n, m = some n → name = some n))
    (h3 : ∀ w, st'.last = some w → ∀ m x, HasLeaf w m x → Reports evs m x)
    (h4 : ∀ e ∈ st'.deque, ItemOk e.item) (h5 : ∀ f ∈ st'.stack, ∀ x, f.value ≠ .leaf x) :
    EvInv p first (evs ++ [.item name k (p.length - st.stream.length) val]) st' := by
  have hs := suffix_trans h.suffix hc
  have l1 : st'.stream.length ≤ st.stream.length := by
    obtain ⟨u, hu⟩ := hc; rw [hu]; simp
  refine ⟨hs, ?_, ?_, ?_, ?_, h4, h5⟩
  · refine ItemTiles.append h.tiles (.item name k val (by omega) (by omega) ?_ (.nil _))
    rw [drop_offset h.suffix, drop_offset hs]
    exact hr
  · refine Opens.append h.opens ?_
    rw [h1]
    exact .item _ _ _ _ (.nil _)
  · intro f hf m x hx
    rcases h2 f hf m x hx with ⟨g, hg, hgx⟩ | ⟨e, hn⟩
    · exact Reports.append_left (h.leaves g hg m x hgx) _
    · refine Reports.append_right ⟨name, k, p.length - st.stream.length, ?_, hn⟩ _
      rw [e]; exact List.mem_singleton.2 rfl
  · intro w hw m x hx
    exact Reports.append_left (h3 w hw m x hx) _

theorem readLeaf_events {k : TKind V C} {s s' : Bytes} {v : V} (h : readLeaf k s = .ok (v, s'))
    (total : Nat) (name : Option String) :
    leafEvents total name k s = [.item name k (total - s.length) (.val v)] ∧ ItemReads k s (.val v) s' := by
  cases k with
  | leaf r =>
    simp only [readLeaf] at h
    simp only [leafEvents, ItemReads]
    cases hr : r s with
    | error e => rw [hr] at h; cases h
    | ok q => rw [hr] at h; simp only [Except.ok.injEq] at h; rw [h]; exact ⟨rfl, rfl⟩
  | flags r conv =>
    simp only [readLeaf] at h
    simp only [leafEvents, ItemReads]
    cases hr : r s with
    | error e => rw [hr] at h; cases h
    | ok q =>
      obtain ⟨q1, q2⟩ := q
      rw [hr] at h
      simp only [Except.ok.injEq, Prod.mk.injEq] at h
      obtain ⟨rfl, rfl⟩ := h
      exact ⟨rfl, q1, rfl, rfl⟩
  | _ => simp [readLeaf] at h

theorem readLeaf_consumes {i : TItem V C} (hi : ItemOk i) {s s' : Bytes} {v : V}
    (h : readLeaf i.kind s = .ok (v, s')) : ∃ used, s = used ++ s' := by
  have h1 := hi.leaf
  have h2 := hi.flags
  revert h1 h2 h
  cases i.kind with
  | leaf r =>
    intro h h1 h2
    simp only [readLeaf] at h
    cases hr : r s with
    | error e => rw [hr] at h; cases h
    | ok q => rw [hr] at h; simp only [Except.ok.injEq] at h; exact h1 r rfl s v s' (by rw [hr, h])
  | flags r conv =>
    intro h h1 h2
    simp only [readLeaf] at h
    cases hr : r s with
    | error e => rw [hr] at h; cases h
    | ok q =>
      obtain ⟨q1, q2⟩ := q
      rw [hr] at h
      simp only [Except.ok.injEq, Prod.mk.injEq] at h
      exact h2 r conv rfl s q1 s' (by rw [hr, h.2])
  | _ => intro h; simp [readLeaf] at h

/-- Replacing the deque by events of the same kinds. -/
theorem array_deque {i : TItem V C} {d : List (TEv V C)} (hi : ItemOk i) (hk : ∀ x ∈ d, ItemOk x.item)
    (n : Nat) : ∀ x ∈ (TEv.start { i with attrs := { i.attrs with count := some n } } ::
      ((List.replicate n (popSub 0 d).1.dropLast).flatten ++ ((popSub 0 d).1.getLast?.toList ++ (popSub 0 d).2))),
      ItemOk x.item := by
  intro x hx
  rcases List.mem_cons.1 hx with rfl | hx
  · exact ⟨hi.leaf, hi.flags, hi.var, hi.xarr, hi.sel, hi.cond⟩
  · rcases List.mem_append.1 hx with hx | hx
    · rw [List.mem_flatten] at hx
      obtain ⟨l, hl, hxl⟩ := hx
      rw [(List.mem_replicate.1 hl).2] at hxl
      exact hk x ((popSub_mem d 0 x).1 (List.dropLast_subset _ hxl))
    · rcases List.mem_append.1 hx with hx | hx
      · rw [Option.mem_toList] at hx
        exact hk x ((popSub_mem d 0 x).1 (List.mem_of_getLast? hx))
      · exact hk x ((popSub_mem d 0 x).2 hx)

theorem stop_inv {ctx : C} {p : Bytes} {first : Nat} {evs : List (BinEv V C)} {st st' : PSt V C}
    {i : TItem V C} (h : EvInv p first evs st)
    (hs : pstep ctx (.stop i) st = .ok st') :
    EvInv p first (evs ++ pyield p.length (.stop i) st) st' := by
  simp only [pstep] at hs
  simp only [pyield]
  split at hs
  · rename_i r hr
    simp only [Except.ok.injEq] at hs
    subst hs
    simp only [hr]
    exact h.silent rfl rfl rfl h.kinds
  · rename_i k hr
    split at hs
    · cases hs
    · rename_i f fs hst
      split at hs
      · cases hs
      · rename_i stack hc
        simp only [Except.ok.injEq] at hs
        subst hs
        split
        · rename_i r hr'; exact absurd hr' (hr r)
        · simp only [hst, hc]
          have hleaf : ∀ m x, HasLeaf (finishValue i.kind f.value) m x → Reports evs m x :=
            fun m x hx => h.leaves f (by rw [hst]; exact List.mem_cons_self) m x (finishValue_leaf hx)
          refine ⟨h.suffix, ItemTiles.append h.tiles (.stop _ _ (.nil _)), ?_, ?_, ?_, h.kinds,
            collect_boxes hc (fun g hg => h.boxes g (by rw [hst]; exact List.mem_cons_of_mem _ hg))⟩
          · refine Opens.append h.opens ?_
            simp only
            rw [(collect_frames hc).1, hst]
            exact .stop _ _ (.nil _)
          · intro g hg m x hx
            refine Reports.append_left ?_ _
            rcases (collect_frames hc).2 g hg m x hx with ⟨g', hg', hx'⟩ | hx' | ⟨e, -⟩
            · exact h.leaves g' (by rw [hst]; exact List.mem_cons_of_mem _ hg') m x hx'
            · exact hleaf m x hx'
            · exact absurd e (finishValue_box (h.boxes f (by rw [hst]; exact List.mem_cons_self)) x)
          · intro w hw m x hx
            simp only [Option.some.injEq] at hw
            rw [← hw] at hx
            exact Reports.append_left (hleaf m x hx) _

theorem array_inv {ctx : C} {p : Bytes} {first : Nat} {evs : List (BinEv V C)} {st st' : PSt V C}
    {i : TItem V C} (he : ItemOk i) (h : EvInv p first evs st)
    (hs : (match resolveCount ctx i.kind st.stack st.stream with
            | .error err => (.error err : Except PyErr (PSt V C))
            | .ok (n, stream) =>
              .ok { st with
                stream := stream
                deque := .start { i with attrs := { i.attrs with count := some n } } ::
                  ((List.replicate n (popSub 0 st.deque).1.dropLast).flatten ++
                    ((popSub 0 st.deque).1.getLast?.toList ++ (popSub 0 st.deque).2)) }) = .ok st') :
    EvInv p first (evs ++ countEvents p.length i.kind st.stream) st' := by
  split at hs
  · cases hs
  rename_i n stream hn
  simp only [Except.ok.injEq] at hs
  subst hs
  have hv := he.var
  have hdq := array_deque he h.kinds n
  obtain ⟨a, k⟩ := i
  simp only at hn hv ⊢
  cases k with
  | var r =>
    simp only [resolveCount] at hn
    split at hn
    · rename_i q hq
      simp only [Except.ok.injEq] at hn
      subst hn
      simp only [countEvents, hq]
      exact h.reads none _ _ (by simp only [ItemReads]; exact hq) (hv r rfl _ _ _ hq) rfl
        (fun f hf m x hx => Or.inl ⟨f, hf, hx⟩) h.last hdq h.boxes
    · cases hn
  | fixed m =>
    simp only [resolveCount, Except.ok.injEq, Prod.mk.injEq] at hn
    exact h.silent rfl hn.2.symm rfl hdq
  | xarr ref =>
    simp only [resolveCount] at hn
    split at hn
    · cases hn
    · rename_i f fs hst
      cases hr : ref ctx f.value with
      | error e => rw [hr] at hn; cases hn
      | ok m =>
        rw [hr] at hn
        simp only [bind, Except.bind, pure, Except.pure, Except.ok.injEq, Prod.mk.injEq] at hn
        exact h.silent rfl hn.2.symm rfl hdq
  | _ => simp [resolveCount] at hn

theorem leaf_inv {ctx : C} {p : Bytes} {first : Nat} {evs : List (BinEv V C)} {st st' : PSt V C}
    {i : TItem V C} (he : ItemOk i) (h : EvInv p first evs st)
    (hs : pstep ctx (.leaf i) st = .ok st') :
    EvInv p first (evs ++ pyield p.length (.leaf i) st) st' := by
  simp only [pstep, TEv.item] at hs
  simp only [pyield, TEv.item]
  split at hs
  · cases hs
  rename_i k hk
  split
  · rename_i r hr; exact absurd hr (hk r)
  split at hs
  · -- select_when
    rename_i w hw
    simp only [hw]
    split at hs
    · cases hs
    · split at hs
      · simp only [Except.ok.injEq] at hs
        subst hs
        exact h.silent rfl rfl rfl (fun x hx => h.kinds x (skipTree_mem (.leaf i) x _ hx))
      · simp only [Except.ok.injEq] at hs
        subst hs
        refine h.silent rfl rfl rfl ?_
        intro x hx
        rcases List.mem_cons.1 hx with rfl | hx
        · exact ItemOk.withAttrs (e := .leaf i) he _ (Or.inr rfl)
        · exact h.kinds x hx
  rename_i hw
  simp only [hw]
  split at hs
  · -- condition
    rename_i c hc
    simp only [hc]
    split at hs
    · cases hs
    · split at hs
      · cases hs
      · simp only [Except.ok.injEq] at hs
        subst hs
        exact h.silent rfl rfl rfl (fun x hx => h.kinds x (skipTree_mem (.leaf i) x _ hx))
      · simp only [Except.ok.injEq] at hs
        subst hs
        refine h.silent rfl rfl rfl ?_
        intro x hx
        rcases List.mem_cons.1 hx with rfl | hx
        · exact ItemOk.withAttrs (e := .leaf i) he _ (Or.inl rfl)
        · exact h.kinds x hx
  rename_i hc
  simp only [hc]
  by_cases ha : i.kind.isArray = true ∧ i.attrs.count = none
  · simp only [ha.1, ha.2, and_self, if_true] at hs ⊢
    exact array_inv he h hs
  simp only [ha, if_false] at hs ⊢
  split at hs
  · cases hs
  rename_i v s' hv
  split at hs
  · cases hs
  rename_i stack hcol
  simp only [Except.ok.injEq] at hs
  subst hs
  simp only [hv, hcol]
  rw [(readLeaf_events hv p.length i.attrs.name).1]
  refine h.reads _ _ _ (readLeaf_events hv p.length i.attrs.name).2 (readLeaf_consumes he hv)
    (collect_frames hcol).1 ?_ ?_ h.kinds (collect_boxes hcol h.boxes)
  · intro f hf m x hx
    rcases (collect_frames hcol).2 f hf m x hx with hx' | hx' | ⟨e, hn⟩
    · exact Or.inl hx'
    · cases hx'
    · simp only [Value.leaf.injEq] at e
      exact Or.inr ⟨by rw [e], hn⟩
  · intro w hw m x hx
    simp only [Option.some.injEq] at hw
    rw [← hw] at hx
    cases hx

theorem start_inv {ctx : C} {p : Bytes} {first : Nat} {evs : List (BinEv V C)} {st st' : PSt V C}
    {i : TItem V C} (he : ItemOk i) (h : EvInv p first evs st)
    (hs : pstep ctx (.start i) st = .ok st') :
    EvInv p first (evs ++ pyield p.length (.start i) st) st' := by
  simp only [pstep, TEv.item] at hs
  simp only [pyield, TEv.item]
  split at hs
  · -- selective
    rename_i ref hk
    simp only [hk]
    split at hs
    · cases hs
    · split at hs
      · cases hs
      · simp only [Except.ok.injEq] at hs
        subst hs
        exact h.silent rfl rfl rfl h.kinds
  rename_i k hk
  split
  · rename_i r hr; exact absurd hr (hk r)
  split at hs
  · -- select_when
    rename_i w hw
    simp only [hw]
    split at hs
    · cases hs
    · split at hs
      · simp only [Except.ok.injEq] at hs
        subst hs
        exact h.silent rfl rfl rfl (fun x hx => h.kinds x (skipTree_mem (.start i) x _ hx))
      · simp only [Except.ok.injEq] at hs
        subst hs
        refine h.silent rfl rfl rfl ?_
        intro x hx
        rcases List.mem_cons.1 hx with rfl | hx
        · exact ItemOk.withAttrs (e := .start i) he _ (Or.inr rfl)
        · exact h.kinds x hx
  rename_i hw
  simp only [hw]
  split at hs
  · -- condition
    rename_i c hc
    simp only [hc]
    split at hs
    · cases hs
    · split at hs
      · cases hs
      · simp only [Except.ok.injEq] at hs
        subst hs
        exact h.silent rfl rfl rfl (fun x hx => h.kinds x (skipTree_mem (.start i) x _ hx))
      · simp only [Except.ok.injEq] at hs
        subst hs
        refine h.silent rfl rfl rfl ?_
        intro x hx
        rcases List.mem_cons.1 hx with rfl | hx
        · exact ItemOk.withAttrs (e := .start i) he _ (Or.inl rfl)
        · exact h.kinds x hx
  rename_i hc
  simp only [hc]
  by_cases ha : i.kind.isArray = true ∧ i.attrs.count = none
  · simp only [ha.1, ha.2, and_self, if_true] at hs ⊢
    exact array_inv he h hs
  simp only [ha, if_false] at hs ⊢
  split at hs
  · cases hs
  rename_i v hv
  simp only [Except.ok.injEq] at hs
  subst hs
  simp only [hv]
  refine ⟨h.suffix, ItemTiles.append h.tiles (.start _ _ (.nil _)), ?_, ?_, ?_, h.kinds, ?_⟩
  · exact Opens.append h.opens (.start _ _ (.nil _))
  · intro f hf m x hx
    rcases List.mem_cons.1 hf with rfl | hf
    · exact absurd hx (fun hx => initValue_leaf hv hx)
    · exact Reports.append_left (h.leaves f hf m x hx) _
  · intro w hw m x hx
    simp only [Option.some.injEq] at hw
    rw [← hw] at hx
    exact absurd hx (fun hx => initValue_leaf hv hx)
  · intro f hf x
    rcases List.mem_cons.1 hf with rfl | hf
    · unfold initValue at hv
      split at hv <;> simp only [Except.ok.injEq, reduceCtorEq] at hv
      all_goals (subst hv; simp)
    · exact h.boxes f hf x

/-- Every round keeps the invariant. -/
theorem step_inv {ctx : C} {p : Bytes} {first : Nat} {evs : List (BinEv V C)} {st st' : PSt V C}
    {e : TEv V C} {d : List (TEv V C)} (hd : st.deque = e :: d) (h : EvInv p first evs st)
    (hs : pstep ctx e { st with deque := d } = .ok st') :
    EvInv p first (evs ++ pyield p.length e { st with deque := d }) st' := by
  have he : ItemOk e.item := h.kinds e (by rw [hd]; exact List.mem_cons_self)
  have h' : EvInv p first evs { st with deque := d } :=
    ⟨h.suffix, h.tiles, h.opens, h.leaves, h.last,
      fun x hx => h.kinds x (by rw [hd]; exact List.mem_cons_of_mem _ hx), h.boxes⟩
  cases e with
  | leaf i => exact leaf_inv he h' hs
  | start i => exact start_inv he h' hs
  | stop i => exact stop_inv h' hs

/-! ### Runs -/

theorem collect_error {name : Option String} {v : Value V} {fs : List (Frame V C)} {err : PyErr}
    (h : collect name v fs = .error err) : err ≠ .parseError := by
  cases fs with
  | nil => simp [collect] at h
  | cons f fs =>
    simp only [collect] at h
    split at h
    · cases name with
      | none => simp only [Except.error.injEq] at h; subst h; simp
      | some n => cases h
    · cases h
    · cases h

/-- Either nothing is yielded, or an error event for what cannot be read here. -/
def ErrorOut (total : Nat) (s : Bytes) (err : PyErr) (out : List (BinEv V C)) : Prop :=
  (err ≠ .parseError ∧ out = []) ∨
    (err = .parseError ∧ ∃ name type, out = [.error name type (total - s.length)] ∧ Unreadable type s)

theorem array_error {ctx : C} {total : Nat} {st : PSt V C} {i : TItem V C} (he : ItemOk i) {err : PyErr}
    (h : resolveCount ctx i.kind st.stack st.stream = .error err) :
    ErrorOut total st.stream err (countEvents total i.kind st.stream) := by
  have hx := he.xarr
  revert h hx
  cases i.kind with
  | var r =>
    intro h _
    simp only [resolveCount] at h
    split at h
    · cases h
    · rename_i e hq
      simp only [Except.error.injEq] at h
      exact Or.inr ⟨h.symm, none, .var r, by simp only [countEvents, hq], e, hq⟩
  | fixed m => intro h; simp [resolveCount] at h
  | xarr ref =>
    intro h hx
    left
    refine ⟨?_, rfl⟩
    simp only [resolveCount] at h
    split at h
    · simp only [Except.error.injEq] at h; subst h; simp
    · rename_i f fs hst
      cases hr : ref ctx f.value with
      | error e =>
        rw [hr] at h
        simp only [bind, Except.bind, Except.error.injEq] at h
        rintro rfl
        exact hx ref rfl ctx f.value (by rw [hr, h])
      | ok m => rw [hr] at h; cases h
  | leaf r => intro h _; simp only [resolveCount, Except.error.injEq] at h; subst h; exact Or.inl ⟨by simp, rfl⟩
  | flags r c => intro h _; simp only [resolveCount, Except.error.injEq] at h; subst h; exact Or.inl ⟨by simp, rfl⟩
  | struct => intro h _; simp only [resolveCount, Except.error.injEq] at h; subst h; exact Or.inl ⟨by simp, rfl⟩
  | sel r => intro h _; simp only [resolveCount, Except.error.injEq] at h; subst h; exact Or.inl ⟨by simp, rfl⟩

theorem readLeaf_error {total : Nat} {name : Option String} {k : TKind V C} {s : Bytes} {err : PyErr}
    (h : readLeaf k s = .error err) : ErrorOut total s err (leafEvents total name k s) := by
  cases k with
  | leaf r =>
    simp only [readLeaf] at h
    split at h
    · cases h
    · rename_i e hq
      simp only [Except.error.injEq] at h
      exact Or.inr ⟨h.symm, name, .leaf r, by simp only [leafEvents, hq], e, hq⟩
  | flags r conv =>
    simp only [readLeaf] at h
    split at h
    · cases h
    · rename_i e hq
      simp only [Except.error.injEq] at h
      subst h
      exact Or.inl ⟨by simp, by simp only [leafEvents, hq]⟩
  | _ => simp only [readLeaf, Except.error.injEq] at h; subst h; exact Or.inl ⟨by simp, rfl⟩

/-- An error event, if the round raises because something could not be read. -/
theorem error_event {ctx : C} {total : Nat} {st : PSt V C} {e : TEv V C} (he : ItemOk e.item) {err : PyErr}
    (hs : pstep ctx e st = .error err) : ErrorOut total st.stream err (pyield total e st) := by
  cases e with
  | stop i =>
    simp only [pstep] at hs
    simp only [pyield]
    split at hs
    · cases hs
    rename_i k hk
    split
    · rename_i r hr; exact absurd hr (hk r)
    split at hs
    · rename_i hst
      simp only [Except.error.injEq] at hs
      subst hs
      exact Or.inl ⟨by simp, by simp only [hst]⟩
    · rename_i f fs hst
      split at hs
      · rename_i e' hc
        simp only [Except.error.injEq] at hs
        subst hs
        exact Or.inl ⟨collect_error hc, by simp only [hst, hc]⟩
      · cases hs
  | leaf i =>
    simp only [pstep, TEv.item] at hs
    simp only [pyield, TEv.item]
    split at hs
    · rename_i ref hk
      simp only [Except.error.injEq] at hs
      subst hs
      exact Or.inl ⟨by simp, by simp only [hk]⟩
    rename_i k hk
    split
    · rename_i r hr; exact absurd hr (hk r)
    split at hs
    · rename_i w hw
      simp only [hw]
      split at hs
      · simp only [Except.error.injEq] at hs
        subst hs
        exact Or.inl ⟨by simp, rfl⟩
      · split at hs <;> cases hs
    rename_i hw
    simp only [hw]
    split at hs
    · rename_i c hc
      simp only [hc]
      split at hs
      · simp only [Except.error.injEq] at hs
        subst hs
        exact Or.inl ⟨by simp, rfl⟩
      · split at hs
        · rename_i e' hce
          simp only [Except.error.injEq] at hs
          subst hs
          refine Or.inl ⟨?_, rfl⟩
          rintro rfl
          exact he.cond c hc _ _ hce
        · cases hs
        · cases hs
    rename_i hc
    simp only [hc]
    by_cases ha : i.kind.isArray = true ∧ i.attrs.count = none
    · simp only [ha.1, ha.2, and_self, if_true] at hs ⊢
      split at hs
      · rename_i e' hq
        simp only [Except.error.injEq] at hs
        subst hs
        exact array_error he hq
      · cases hs
    simp only [ha, if_false] at hs ⊢
    split at hs
    · rename_i e' hv
      simp only [Except.error.injEq] at hs
      subst hs
      simp only [hv]
      exact readLeaf_error hv
    rename_i v s' hv
    split at hs
    · rename_i e' hcol
      simp only [Except.error.injEq] at hs
      subst hs
      exact Or.inl ⟨collect_error hcol, by simp only [hv, hcol]⟩
    · cases hs
  | start i =>
    simp only [pstep, TEv.item] at hs
    simp only [pyield, TEv.item]
    split at hs
    · rename_i ref hk
      simp only [hk]
      refine Or.inl ⟨?_, rfl⟩
      split at hs
      · simp only [Except.error.injEq] at hs
        subst hs; simp
      · split at hs
        · rename_i e' hr
          simp only [Except.error.injEq] at hs
          subst hs
          rintro rfl
          exact he.sel ref hk _ _ hr
        · cases hs
    rename_i k hk
    split
    · rename_i r hr; exact absurd hr (hk r)
    split at hs
    · rename_i w hw
      simp only [hw]
      split at hs
      · simp only [Except.error.injEq] at hs
        subst hs
        exact Or.inl ⟨by simp, rfl⟩
      · split at hs <;> cases hs
    rename_i hw
    simp only [hw]
    split at hs
    · rename_i c hc
      simp only [hc]
      split at hs
      · simp only [Except.error.injEq] at hs
        subst hs
        exact Or.inl ⟨by simp, rfl⟩
      · split at hs
        · rename_i e' hce
          simp only [Except.error.injEq] at hs
          subst hs
          refine Or.inl ⟨?_, rfl⟩
          rintro rfl
          exact he.cond c hc _ _ hce
        · cases hs
        · cases hs
    rename_i hc
    simp only [hc]
    by_cases ha : i.kind.isArray = true ∧ i.attrs.count = none
    · simp only [ha.1, ha.2, and_self, if_true] at hs ⊢
      split at hs
      · rename_i e' hq
        simp only [Except.error.injEq] at hs
        subst hs
        exact array_error he hq
      · cases hs
    simp only [ha, if_false] at hs ⊢
    split at hs
    · rename_i e' hv
      simp only [Except.error.injEq] at hs
      subst hs
      refine Or.inl ⟨?_, by simp only [hv]⟩
      unfold initValue at hv
      split at hv <;> simp only [Except.error.injEq, reduceCtorEq] at hv
      subst hv; simp
    · cases hs

theorem ptrace_inv {ctx : C} {p : Bytes} {first : Nat} : ∀ (fuel : Nat) (st : PSt V C) (evs : List (BinEv V C)),
    EvInv p first evs st → ∀ {out r}, ptrace ctx p.length fuel st = some (out, r) →
    (∀ v rest, r = .ok (v, rest) → ∃ st', Reaches ctx st st' ∧ st'.deque = [] ∧ st'.last = some v ∧
      st'.stream = rest ∧ EvInv p first (evs ++ out) st') ∧
    (∀ err, r = .error err → err ≠ .parseError → ∃ st', EvInv p first (evs ++ out) st') ∧
    (r = .error .parseError → ∃ (pre : List (BinEv V C)) (st' : PSt V C) (name : Option String) (type : TKind V C),
      evs ++ out = pre ++ [.error name type (p.length - st'.stream.length)] ∧ EvInv p first pre st' ∧
      Unreadable type st'.stream) := by
  intro fuel
  induction fuel with
  | zero =>
    intro st evs h out r hr
    rw [ptrace] at hr
    cases hd : st.deque with
    | nil =>
      rw [hd] at hr
      cases hl : st.last with
      | none =>
        rw [hl] at hr
        simp only [Option.some.injEq, Prod.mk.injEq] at hr
        obtain ⟨rfl, rfl⟩ := hr
        exact ⟨by simp, fun err _ _ => ⟨st, by rw [List.append_nil]; exact h⟩, by simp⟩
      | some v =>
        rw [hl] at hr
        simp only [Option.some.injEq, Prod.mk.injEq] at hr
        obtain ⟨rfl, rfl⟩ := hr
        refine ⟨?_, by simp, by simp⟩
        intro w rest e
        simp only [Except.ok.injEq, Prod.mk.injEq] at e
        exact ⟨st, .refl st, hd, by rw [hl, e.1], e.2, by rw [List.append_nil]; exact h⟩
    | cons e d => rw [hd] at hr; simp at hr
  | succ fuel ih =>
    intro st evs h out r hr
    rw [ptrace] at hr
    cases hd : st.deque with
    | nil =>
      rw [hd] at hr
      cases hl : st.last with
      | none =>
        rw [hl] at hr
        simp only [Option.some.injEq, Prod.mk.injEq] at hr
        obtain ⟨rfl, rfl⟩ := hr
        exact ⟨by simp, fun err _ _ => ⟨st, by rw [List.append_nil]; exact h⟩, by simp⟩
      | some v =>
        rw [hl] at hr
        simp only [Option.some.injEq, Prod.mk.injEq] at hr
        obtain ⟨rfl, rfl⟩ := hr
        refine ⟨?_, by simp, by simp⟩
        intro w rest e
        simp only [Except.ok.injEq, Prod.mk.injEq] at e
        exact ⟨st, .refl st, hd, by rw [hl, e.1], e.2, by rw [List.append_nil]; exact h⟩
    | cons e d =>
      rw [hd] at hr
      simp only at hr
      cases hs : pstep ctx e { st with deque := d } with
      | error err =>
        rw [hs] at hr
        simp only [Option.some.injEq, Prod.mk.injEq] at hr
        obtain ⟨rfl, rfl⟩ := hr
        have he : ItemOk e.item := h.kinds e (by rw [hd]; exact List.mem_cons_self)
        rcases error_event (total := p.length) he hs with ⟨h1, h2⟩ | ⟨h1, name, type, h2, h3⟩
        · refine ⟨by simp, fun _ _ _ => ⟨st, by rw [h2, List.append_nil]; exact h⟩, ?_⟩
          intro e'
          simp only [Except.error.injEq] at e'
          exact absurd e' h1
        · refine ⟨by simp, ?_, fun _ => ⟨evs, st, name, type, by rw [h2], h, h3⟩⟩
          intro err' e' hne
          simp only [Except.error.injEq] at e'
          exact absurd (e' ▸ h1) hne
      | ok st' =>
        rw [hs] at hr
        simp only [Option.map_eq_some_iff] at hr
        obtain ⟨⟨out', r'⟩, hr', e'⟩ := hr
        simp only [Prod.mk.injEq] at e'
        obtain ⟨rfl, rfl⟩ := e'
        obtain ⟨i1, i2, i3⟩ := ih st' _ (step_inv hd h hs) hr'
        simp only [List.append_assoc] at i1 i2 i3
        refine ⟨?_, i2, i3⟩
        intro v rest e'
        obtain ⟨st'', r1, r2⟩ := i1 v rest e'
        exact ⟨st'', .step ⟨e, d, hd, hs⟩ r1, r2⟩

end Hwp
