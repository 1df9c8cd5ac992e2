/- The names and types of the reported items. -/
import Verif.Spec.EventNames
import Verif.Proofs.RecordEvents
set_option autoImplicit false
set_option linter.unusedSimpArgs false
set_option linter.unusedVariables false
namespace Hwp
open Spec

variable {V C : Type}

/-- Every event of the deque and every open item satisfies `P`. -/
structure NameInv (P : Option String → TKind V C → Prop) (st : PSt V C) : Prop where
  deque : ∀ e ∈ st.deque, P e.item.attrs.name e.item.kind
  stack : ∀ q ∈ st.stack.map frameKey, P q.1 q.2

theorem getLast?_mem' {α : Type} (l : List α) (x : α) (h : x ∈ l.getLast?.toList) : x ∈ l := by
  rw [Option.mem_toList] at h
  exact List.mem_of_getLast? h

theorem NameInv.collect {P : Option String → TKind V C → Prop} {name : Option String} {v : Value V}
    {fs stack : List (Frame V C)} (h : Hwp.collect name v fs = .ok stack)
    (hs : ∀ q ∈ fs.map frameKey, P q.1 q.2) : ∀ q ∈ stack.map frameKey, P q.1 q.2 := by
  rw [(collect_frames h).1]; exact hs

theorem leafEvents_named {P : Option String → TKind V C → Prop} (total : Nat) (name : Option String)
    (k : TKind V C) (s : Bytes) (h : P name k) : ∀ ev ∈ leafEvents total name k s, EventNamed P ev := by
  intro ev hev
  unfold leafEvents at hev
  split at hev
  · split at hev
    · rw [List.mem_singleton] at hev; subst hev; exact h
    · rw [List.mem_singleton] at hev; subst hev; exact h
  · split at hev
    · rw [List.mem_singleton] at hev; subst hev; exact h
    · cases hev
  · cases hev

theorem countEvents_named {P : Option String → TKind V C → Prop} (total : Nat) (name : Option String)
    (k : TKind V C) (s : Bytes) (h : P name k) : ∀ ev ∈ countEvents total k s, EventNamed P ev := by
  intro ev hev
  unfold countEvents at hev
  split at hev
  · split at hev
    · rw [List.mem_singleton] at hev; subst hev; exact ⟨rfl, name, h⟩
    · rw [List.mem_singleton] at hev; subst hev; exact ⟨rfl, name, h⟩
  · cases hev

/-- What a round yields. -/
theorem pyield_named {P : Option String → TKind V C → Prop} (total : Nat) (e : TEv V C) (st : PSt V C)
    (he : P e.item.attrs.name e.item.kind) (h : NameInv P st) :
    ∀ ev ∈ pyield total e st, EventNamed P ev := by
  intro ev hev
  unfold pyield at hev
  split at hev
  · split at hev
    · cases hev
    · split at hev
      · cases hev
      · rename_i f fs hst
        split at hev
        · cases hev
        · rw [List.mem_singleton] at hev
          subst hev
          exact h.stack (frameKey f) (by rw [hst]; simp)
  · split at hev
    · cases hev
    · split at hev
      · cases hev
      · split at hev
        · cases hev
        · split at hev
          · exact countEvents_named total _ _ _ he ev hev
          · split at hev
            · split at hev
              · cases hev
              · rw [List.mem_singleton] at hev; subst hev; exact he
            · split at hev
              · exact leafEvents_named total _ _ _ he ev hev
              · split at hev
                · cases hev
                · exact leafEvents_named total _ _ _ he ev hev

theorem withAttrs_named {P : Option String → TKind V C → Prop} {e : TEv V C}
    (h : P e.item.attrs.name e.item.kind) (f : TAttrs V C → TAttrs V C)
    (hf : (f e.item.attrs).name = e.item.attrs.name) :
    P (e.withAttrs f).item.attrs.name (e.withAttrs f).item.kind := by
  rw [withAttrs_item]; simp only [hf]; exact h

/-- A round keeps names and types. -/
theorem pstep_named {P : Option String → TKind V C → Prop} {ctx : C} {e : TEv V C} {st st' : PSt V C}
    (hs : pstep ctx e st = .ok st') (he : P e.item.attrs.name e.item.kind) (h : NameInv P st) :
    NameInv P st' := by
  unfold pstep at hs
  split at hs
  · split at hs
    · simp only [Except.ok.injEq] at hs; subst hs; exact ⟨h.deque, h.stack⟩
    · split at hs
      · cases hs
      · rename_i f fs hst
        simp only at hs
        split at hs
        · cases hs
        · rename_i stack hc
          simp only [Except.ok.injEq] at hs; subst hs
          exact ⟨h.deque, NameInv.collect hc fun q hq => h.stack q (by
            rw [hst, List.map_cons]; exact List.mem_cons_of_mem _ hq)⟩
  · simp only at hs
    split at hs
    · split at hs
      · split at hs
        · cases hs
        · split at hs
          · cases hs
          · simp only [Except.ok.injEq] at hs; subst hs; exact ⟨h.deque, h.stack⟩
      · cases hs
    · split at hs
      · split at hs
        · cases hs
        · split at hs
          · simp only [Except.ok.injEq] at hs; subst hs
            exact ⟨fun x hx => h.deque x (skipTree_mem _ x _ hx), h.stack⟩
          · simp only [Except.ok.injEq] at hs; subst hs
            refine ⟨fun x hx => ?_, h.stack⟩
            rcases List.mem_cons.1 hx with rfl | hx
            · exact withAttrs_named he _ rfl
            · exact h.deque x hx
      · split at hs
        · split at hs
          · cases hs
          · split at hs
            · cases hs
            · simp only [Except.ok.injEq] at hs; subst hs
              exact ⟨fun x hx => h.deque x (skipTree_mem _ x _ hx), h.stack⟩
            · simp only [Except.ok.injEq] at hs; subst hs
              refine ⟨fun x hx => ?_, h.stack⟩
              rcases List.mem_cons.1 hx with rfl | hx
              · exact withAttrs_named he _ rfl
              · exact h.deque x hx
        · split at hs
          · split at hs
            · cases hs
            · simp only [Except.ok.injEq] at hs; subst hs
              refine ⟨fun x hx => ?_, h.stack⟩
              simp only at hx
              rcases List.mem_cons.1 hx with rfl | hx
              · exact he
              · rcases List.mem_append.1 hx with hx | hx
                · obtain ⟨l, hl, hx⟩ := List.mem_flatten.1 hx
                  rw [(List.mem_replicate.1 hl).2] at hx
                  exact h.deque x ((popSub_mem _ 0 x).1 ((List.dropLast_sublist _).subset hx))
                · rcases List.mem_append.1 hx with hx | hx
                  · exact h.deque x ((popSub_mem _ 0 x).1 (getLast?_mem' _ x hx))
                  · exact h.deque x ((popSub_mem _ 0 x).2 hx)
          · split at hs
            · split at hs
              · cases hs
              · simp only [Except.ok.injEq] at hs; subst hs
                refine ⟨h.deque, fun q hq => ?_⟩
                simp only [List.map_cons] at hq
                rcases List.mem_cons.1 hq with rfl | hq
                · exact he
                · exact h.stack q hq
            · split at hs
              · cases hs
              · split at hs
                · cases hs
                · rename_i stack hc
                  simp only [Except.ok.injEq] at hs; subst hs
                  exact ⟨h.deque, NameInv.collect hc h.stack⟩

theorem ptrace_named {P : Option String → TKind V C → Prop} {ctx : C} {total : Nat} :
    ∀ (fuel : Nat) (st : PSt V C) (evs : List (BinEv V C)) (res : Except PyErr (Value V × Bytes)),
      NameInv P st → ptrace ctx total fuel st = some (evs, res) → ∀ ev ∈ evs, EventNamed P ev := by
  intro fuel
  induction fuel with
  | zero =>
    intro st evs res h ht ev hev
    rw [ptrace] at ht
    split at ht
    · split at ht
      · simp only [Option.some.injEq, Prod.mk.injEq] at ht; rw [← ht.1] at hev; cases hev
      · simp only [Option.some.injEq, Prod.mk.injEq] at ht; rw [← ht.1] at hev; cases hev
    · cases ht
  | succ fuel ih =>
    intro st evs res h ht ev hev
    rw [ptrace] at ht
    split at ht
    · split at ht
      · simp only [Option.some.injEq, Prod.mk.injEq] at ht; rw [← ht.1] at hev; cases hev
      · simp only [Option.some.injEq, Prod.mk.injEq] at ht; rw [← ht.1] at hev; cases hev
    · rename_i e d hd
      have he := h.deque e (by rw [hd]; exact List.mem_cons_self)
      have hi : NameInv P { st with deque := d } :=
        ⟨fun x hx => h.deque x (by rw [hd]; exact List.mem_cons_of_mem _ hx), h.stack⟩
      simp only at ht
      split at ht
      · simp only [Option.some.injEq, Prod.mk.injEq] at ht
        rw [← ht.1] at hev
        exact pyield_named total e _ he hi ev hev
      · rename_i st' hs
        rw [Option.map_eq_some_iff] at ht
        obtain ⟨r, hr, ht⟩ := ht
        simp only [Prod.mk.injEq] at ht
        rw [← ht.1] at hev
        rcases List.mem_append.1 hev with hev | hev
        · exact pyield_named total e _ he hi ev hev
        · exact ih st' r.1 r.2 (pstep_named hs he hi) hr ev hev

/-! ### The events of a declaration -/

theorem versionOk_spec {ver : Version} {since : Option Version} (h : versionOk (some ver) since = true) :
    ∀ v, since = some v → Version.lt ver v = false := by
  intro v hv
  subst hv
  simpa [versionOk] using h

mutual
theorem mapTy_declares (ver : Version) : ∀ (t : Ty V C) (b : TAttrs V C),
    ∀ e ∈ mapTy b (filterTy ver t), Declares ver b.name t e.item.attrs.name e.item.kind
  | .prim r, b, e, he => by
    simp only [filterTy, mapTy, List.mem_singleton] at he; subst he; rw [Declares]; exact ⟨rfl, rfl⟩
  | .flags r c, b, e, he => by
    simp only [filterTy, mapTy, List.mem_singleton] at he; subst he; rw [Declares]; exact ⟨rfl, rfl⟩
  | .struct ms, b, e, he => by
    simp only [filterTy, mapTy, List.mem_cons, List.mem_append, List.not_mem_nil, or_false] at he
    rw [Declares]
    rcases he with rfl | he | rfl
    · exact Or.inl ⟨rfl, rfl⟩
    · exact Or.inr (mapMembers_declares ver ms e he)
    · exact Or.inl ⟨rfl, rfl⟩
  | .fixedArray t n, b, e, he => by
    simp only [filterTy, mapTy, List.mem_cons, List.mem_append, List.not_mem_nil, or_false] at he
    rw [Declares]
    rcases he with rfl | he | rfl
    · exact Or.inl ⟨rfl, rfl⟩
    · exact Or.inr (mapTy_declares ver t {} e he)
    · exact Or.inl ⟨rfl, rfl⟩
  | .varArray r t, b, e, he => by
    simp only [filterTy, mapTy, List.mem_cons, List.mem_append, List.not_mem_nil, or_false] at he
    rw [Declares]
    rcases he with rfl | he | rfl
    · exact Or.inl ⟨rfl, rfl⟩
    · exact Or.inr (mapTy_declares ver t {} e he)
    · exact Or.inl ⟨rfl, rfl⟩
  | .xArray t r, b, e, he => by
    simp only [filterTy, mapTy, List.mem_cons, List.mem_append, List.not_mem_nil, or_false] at he
    rw [Declares]
    rcases he with rfl | he | rfl
    · exact Or.inl ⟨rfl, rfl⟩
    · exact Or.inr (mapTy_declares ver t {} e he)
    · exact Or.inl ⟨rfl, rfl⟩
  | .selective r ss, b, e, he => by
    simp only [filterTy, mapTy, List.mem_cons, List.mem_append, List.not_mem_nil, or_false] at he
    rw [Declares]
    rcases he with rfl | he | rfl
    · exact Or.inl ⟨rfl, rfl⟩
    · exact Or.inr (mapSels_declares ver ss b e he)
    · exact Or.inl ⟨rfl, rfl⟩
theorem mapMembers_declares (ver : Version) : ∀ (ms : Members V C),
    ∀ e ∈ mapMembers (filterMembers ver ms), MembersDeclare ver ms e.item.attrs.name e.item.kind
  | .nil, e, he => by simp [filterMembers, mapMembers] at he
  | .cons n since c t rest, e, he => by
    rw [MembersDeclare]
    simp only [filterMembers] at he
    split at he
    · rename_i hv
      simp only [mapMembers, List.mem_append] at he
      rcases he with he | he
      · exact Or.inl ⟨versionOk_spec hv, mapTy_declares ver t _ e he⟩
      · exact Or.inr (mapMembers_declares ver rest e he)
    · exact Or.inr (mapMembers_declares ver rest e he)
theorem mapSels_declares (ver : Version) : ∀ (ss : Selections V C) (b : TAttrs V C),
    ∀ e ∈ mapSels b (filterSels ver ss), SelectionsDeclare ver b.name ss e.item.attrs.name e.item.kind
  | .nil, b, e, he => by simp [filterSels, mapSels] at he
  | .cons k t rest, b, e, he => by
    rw [SelectionsDeclare]
    simp only [filterSels, mapSels, List.mem_append] at he
    rcases he with he | he
    · exact Or.inl (mapTy_declares ver t { b with selectWhen := some k } e he)
    · exact Or.inr (mapSels_declares ver rest b e he)
end

theorem readTypeEvents_named {fuel total : Nat} {ver : Version} {ctx : C} {t : Ty V C} {s : Bytes}
    {evs : List (BinEv V C)} {res : Except PyErr (Value V × Bytes)}
    (h : readTypeEvents fuel total (some ver) ctx t s = some (evs, res)) :
    ∀ ev ∈ evs, EventNamed (Declares ver none t) ev := by
  unfold readTypeEvents at h
  refine ptrace_named fuel _ evs res ⟨?_, ?_⟩ h
  · rw [typeEvents_eq]
    exact fun e he => mapTy_declares ver t {} e he
  · intro q hq; cases hq

theorem classEvents_named {fuel total : Nat} {ver : Version} {parent : Option (String × Fields)}
    {c : String} {s : Bytes} {evs : List (BinEv PVal DCtx)} {res : Except PyErr (Fields × Bytes)}
    (h : classEvents fuel total ver parent c s = some (evs, res)) :
    ∀ ev ∈ evs, EventNamed (Declares ver none (classTy c)) ev := by
  unfold classEvents at h
  rw [Option.map_eq_some_iff] at h
  obtain ⟨r, hr, h⟩ := h
  simp only [Prod.mk.injEq] at h
  rw [← h.1]
  exact readTypeEvents_named hr

theorem extensionEvents_named {fuel total : Nat} {ver : Version} {parent : Option (String × Fields)} :
    ∀ (cs : List String) (content : Fields) (s : Bytes) (evs : List (BinEv PVal DCtx))
      (res : Except PyErr (Fields × Bytes)),
      extensionEvents fuel total ver parent content s cs = some (evs, res) →
      ∀ ev ∈ evs, ∃ c ∈ cs, EventNamed (Declares ver none (classTy c)) ev := by
  intro cs
  induction cs with
  | nil =>
    intro content s evs res h ev hev
    simp only [extensionEvents, Option.some.injEq, Prod.mk.injEq] at h
    rw [← h.1] at hev; cases hev
  | cons c cs ih =>
    intro content s evs res h ev hev
    simp only [extensionEvents] at h
    split at h
    · cases h
    · rename_i hc
      simp only [Option.some.injEq, Prod.mk.injEq] at h
      rw [← h.1] at hev
      exact ⟨c, List.mem_cons_self, classEvents_named hc ev hev⟩
    · rename_i hc
      rw [Option.map_eq_some_iff] at h
      obtain ⟨r, hr, h⟩ := h
      simp only [Prod.mk.injEq] at h
      rw [← h.1] at hev
      rcases List.mem_append.1 hev with hev | hev
      · exact ⟨c, List.mem_cons_self, classEvents_named hc ev hev⟩
      · obtain ⟨c', h1, h2⟩ := ih _ _ r.1 r.2 hr ev hev
        exact ⟨c', List.mem_cons_of_mem _ h1, h2⟩

theorem modelBinEvents_named {fuel : Nat} {ver : Version} {rd : ModelReader Fields} {parent : PFrame Fields}
    {r : Record} {evs : List (BinEv PVal DCtx)} {res : Except PyErr (String × Fields × Bytes)}
    (h : modelBinEvents fuel ver rd parent r = some (evs, res)) :
    ∀ ev ∈ evs, ∃ c, ReadAs rd parent r c ∧ EventNamed (Declares ver none (classTy c)) ev := by
  intro ev hev
  unfold modelBinEvents at h
  split at h
  · cases h
  · rename_i hc
    simp only [Option.some.injEq, Prod.mk.injEq] at h
    rw [← h.1] at hev
    exact ⟨_, Or.inl rfl, classEvents_named hc ev hev⟩
  · rename_i evs' content s hc
    split at h
    · simp only [Option.some.injEq, Prod.mk.injEq] at h
      rw [← h.1] at hev
      exact ⟨_, Or.inl rfl, classEvents_named hc ev hev⟩
    · simp only [Option.some.injEq, Prod.mk.injEq] at h
      rw [← h.1] at hev
      exact ⟨_, Or.inl rfl, classEvents_named hc ev hev⟩
    · rename_i ext hext
      rw [Option.map_eq_some_iff] at h
      obtain ⟨q, hq, h⟩ := h
      simp only [Prod.mk.injEq] at h
      rw [← h.1] at hev
      rcases List.mem_append.1 hev with hev | hev
      · exact ⟨_, Or.inl rfl, classEvents_named hc ev hev⟩
      · obtain ⟨c, h1, h2⟩ := extensionEvents_named _ _ _ q.1 q.2 hq ev hev
        exact ⟨c, Or.inr ⟨content, ext, hext, h1⟩, h2⟩

end Hwp
