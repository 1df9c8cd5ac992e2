/- Reading declared records: references are resolved, and the content fits the declaration. -/
import Verif.Spec.Decls
import Verif.Proofs.Dataio
import Verif.Proofs.XmlShow
import Verif.Props.Dataio
set_option linter.unusedSimpArgs false
set_option linter.unnecessarySimpa false
set_option linter.unusedVariables false
namespace Hwp
open Spec

/-! ### KnownAll members -/

/-- What is known of the fields read so far. -/
def KnownVal (acc : Fields) (d : Declared) : Prop :=
  (∀ p, d.type = .prim (.int p) → ∃ n, acc.lookup d.name = some (.leaf (.int n))) ∧
  (d.type = .prim .chid → ∃ b, acc.lookup d.name = some (.leaf (.chid b))) ∧
  (∀ f, d.type = .flags f → ∃ n, acc.lookup d.name = some (.leaf (.flags f n)))

/-- All of them. -/
def KnownAll (acc : Fields) (ds : List Declared) : Prop :=
  ∀ d ∈ ds,
    match d.chid with
    | none => KnownVal acc d
    | some c => ∃ b, acc.lookup "chid" = some (.leaf (.chid b)) ∧ (b = asciiBytes c → KnownVal acc d)

/-- The integer members of the parent. -/
def ParentInts (ctx : DCtx) (ps : List String) : Prop :=
  ∀ n ∈ ps, ∃ type content v, ctx.parent = some (some (type, content)) ∧
    content.lookup n = some (.leaf (.int v))

/-- The parent has the integer members, and is not the root; or the exceptions for that are
allowed. -/
structure ParentFit (A : PyErr → Prop) (ctx : DCtx) (ps : List String) : Prop where
  ints : ∀ n ∈ ps, (∃ v, RefDecl.eval ctx [] (.parentMember n) = .ok v) ∨
    (∃ e, A e ∧ RefDecl.eval ctx [] (.parentMember n) = .error e)
  root : ctx.parent ≠ some none ∨ A .keyError

theorem ParentInts.fit {ctx : DCtx} {ps : List String} (A : PyErr → Prop) (h : ParentInts ctx ps)
    (hr : ctx.parent ≠ some none) : ParentFit A ctx ps := by
  refine ⟨?_, Or.inl hr⟩
  intro n hn
  obtain ⟨type, content, v, h1, h2⟩ := h n hn
  exact Or.inl ⟨v, by simp [RefDecl.eval, h1, getValue, h2, getInt, bind, Except.bind]⟩

theorem lookup_append_some {V} {k : String} {v : V} {fs gs : List (String × V)}
    (h : fs.lookup k = some v) : (fs ++ gs).lookup k = some v := by
  induction fs with
  | nil => simp at h
  | cons p fs ih =>
    simp only [List.cons_append, List.lookup] at h ⊢
    split
    · rename_i he; rw [he] at h; exact h
    · rename_i he; rw [he] at h; exact ih h

theorem lookup_snoc_new {V} {k : String} {v : V} {fs : List (String × V)}
    (h : k ∉ fs.map (·.1)) : (fs ++ [(k, v)]).lookup k = some v := by
  induction fs with
  | nil => simp [List.lookup]
  | cons p fs ih =>
    simp only [List.map_cons, List.mem_cons, not_or] at h
    simp only [List.cons_append, List.lookup, beq_eq_false_iff_ne.2 h.1]
    exact ih h.2

theorem KnownVal.mono {acc : Fields} {d : Declared} (h : KnownVal acc d) (gs : Fields) :
    KnownVal (acc ++ gs) d := by
  refine ⟨?_, ?_, ?_⟩
  · intro p hp; obtain ⟨n, hn⟩ := h.1 p hp; exact ⟨n, lookup_append_some hn⟩
  · intro hp; obtain ⟨n, hn⟩ := h.2.1 hp; exact ⟨n, lookup_append_some hn⟩
  · intro f hp; obtain ⟨n, hn⟩ := h.2.2 f hp; exact ⟨n, lookup_append_some hn⟩

theorem KnownAll.mono {acc : Fields} {ds : List Declared} (h : KnownAll acc ds) (gs : Fields) :
    KnownAll (acc ++ gs) ds := by
  intro d hd
  have := h d hd
  cases hc : d.chid with
  | none => simp only [hc] at this ⊢; exact this.mono gs
  | some c =>
    simp only [hc] at this ⊢
    obtain ⟨b, hb, hk⟩ := this
    exact ⟨b, lookup_append_some hb, fun e => (hk e).mono gs⟩

theorem known_int {acc : Fields} {ds : List Declared} (h : KnownAll acc ds) {n : String}
    (hd : intDeclared ds n = true) : ∃ v, acc.lookup n = some (.leaf (.int v)) := by
  unfold intDeclared at hd
  rw [List.any_eq_true] at hd
  obtain ⟨d, hm, hd⟩ := hd
  simp only [Bool.and_eq_true, decide_eq_true_eq, Option.isNone_iff_eq_none] at hd
  obtain ⟨⟨rfl, hc⟩, ht⟩ := hd
  have := h d hm
  simp only [hc] at this
  split at ht
  · rename_i p hp
    exact this.1 p hp
  · simp at ht

theorem known_chid {acc : Fields} {ds : List Declared} (h : KnownAll acc ds)
    (hd : chidDeclared ds = true) : ∃ b, acc.lookup "chid" = some (.leaf (.chid b)) := by
  unfold chidDeclared at hd
  rw [List.any_eq_true] at hd
  obtain ⟨d, hm, hd⟩ := hd
  simp only [Bool.and_eq_true, decide_eq_true_eq, Option.isNone_iff_eq_none] at hd
  obtain ⟨⟨hn, hc⟩, ht⟩ := hd
  have := h d hm
  simp only [hc] at this
  split at ht
  · rename_i hp
    rw [← hn]
    exact this.2.1 hp
  · simp at ht

theorem get_ok {f : FlagsDecl} {bit : String} (h : (f.bits.any fun b => b.name = bit) = true) (n : Nat) :
    ∃ m, f.get n bit = .ok m := by
  unfold FlagsDecl.get
  cases hf : f.bits.find? (fun b => b.name = bit) with
  | some b => exact ⟨_, rfl⟩
  | none =>
    rw [List.find?_eq_none] at hf
    rw [List.any_eq_true] at h
    obtain ⟨b, hb, hn⟩ := h
    exact absurd hn (hf b hb)

theorem known_bit {acc : Fields} {ds : List Declared} (h : KnownAll acc ds) {c : Option String}
    {n bit : String} (hd : bitDeclared ds c n bit = true)
    (hc : ∀ k, c = some k → acc.lookup "chid" = some (.leaf (.chid (asciiBytes k)))) :
    ∃ v m, acc.lookup n = some v ∧ getBit v bit = .ok m := by
  unfold bitDeclared at hd
  rw [List.any_eq_true] at hd
  obtain ⟨d, hm, hd⟩ := hd
  simp only [Bool.and_eq_true, Bool.or_eq_true, decide_eq_true_eq, Option.isNone_iff_eq_none] at hd
  obtain ⟨⟨rfl, hcd⟩, ht⟩ := hd
  have hk := h d hm
  have hv : KnownVal acc d := by
    cases hdc : d.chid with
    | none => simpa only [hdc] using hk
    | some k =>
      simp only [hdc] at hk
      obtain ⟨b, hb, hkv⟩ := hk
      rcases hcd with hcd | hcd
      · rw [hdc] at hcd; simp at hcd
      · rw [hdc] at hcd
        have := hc k hcd.symm
        rw [hb] at this
        simp only [Option.some.injEq, Value.leaf.injEq, PVal.chid.injEq] at this
        exact hkv this
  split at ht
  · rename_i f hf
    obtain ⟨v, hl⟩ := hv.2.2 f hf
    obtain ⟨m, hm⟩ := get_ok ht v
    exact ⟨_, m, hl, hm⟩
  · simp at ht

/-- Declared references have a value. -/
theorem ref_ok {A : PyErr → Prop} {ctx : DCtx} {ps : List String} (hp : ParentFit A ctx ps) {acc : Fields}
    {ds : List Declared} (h : KnownAll acc ds) {ref : RefDecl} (hr : refDeclared ps ds ref = true) :
    (∃ n, ref.eval ctx acc = .ok n) ∨
    ((∃ e, A e ∧ ref.eval ctx acc = .error e) ∧ ∃ n, ref = .parentMember n) := by
  cases ref with
  | member n =>
    left
    obtain ⟨v, hv⟩ := known_int h hr
    exact ⟨v, by simp [RefDecl.eval, getValue, hv, getInt, bind, Except.bind]⟩
  | flag n bit =>
    left
    obtain ⟨v, m, hv, hm⟩ := known_bit h hr (by simp)
    exact ⟨m, by simp [RefDecl.eval, getValue, hv, hm, bind, Except.bind, pure, Except.pure]⟩
  | flagMinusOne n bit =>
    left
    obtain ⟨v, m, hv, hm⟩ := known_bit h hr (by simp)
    exact ⟨(m : Int) - 1, by simp [RefDecl.eval, getValue, hv, hm, bind, Except.bind, pure, Except.pure]⟩
  | parentMember n =>
    have e : RefDecl.eval ctx acc (.parentMember n) = RefDecl.eval ctx [] (.parentMember n) := rfl
    rw [e]
    rcases hp.ints n (by simpa [refDeclared] using hr) with h | h
    · exact Or.inl h
    · exact Or.inr ⟨h, n, rfl⟩

/-- Declared conditions have a truth value. -/
theorem cond_ok {A : PyErr → Prop} {ctx : DCtx} (hroot : ctx.parent ≠ some none ∨ A .keyError) {acc : Fields}
    {ds : List Declared} (h : KnownAll acc ds) {c : CondDecl} (hr : condDeclared ds c = true) :
    (∃ b, c.eval ctx acc = .ok b) ∨ (A .keyError ∧ c.eval ctx acc = .error .keyError) := by
  by_cases hx : c = .parentIsGso ∧ ctx.parent = some none
  · rcases hroot with hroot | hroot
    · exact absurd hx.2 hroot
    · exact Or.inr ⟨hroot, by rw [hx.1]; simp [CondDecl.eval, hx.2]⟩
  left
  cases c with
  | flag n bit =>
    obtain ⟨v, m, hv, hm⟩ := known_bit h hr (by simp)
    exact ⟨_, by simp [CondDecl.eval, getValue, hv, hm, bind, Except.bind, pure, Except.pure]; rfl⟩
  | notFlag n bit =>
    obtain ⟨v, m, hv, hm⟩ := known_bit h hr (by simp)
    exact ⟨_, by simp [CondDecl.eval, getValue, hv, hm, bind, Except.bind, pure, Except.pure]; rfl⟩
  | chidIs k =>
    obtain ⟨b, hb⟩ := known_chid h hr
    exact ⟨_, by simp [CondDecl.eval, chidEq, getValue, hb, bind, Except.bind, pure, Except.pure]; rfl⟩
  | chidIsAndFlag k n bit =>
    simp only [condDeclared, Bool.and_eq_true] at hr
    obtain ⟨b, hb⟩ := known_chid h hr.1
    by_cases e : b = asciiBytes k
    · subst e
      obtain ⟨v, m, hv, hm⟩ := known_bit h hr.2 (by
        intro k' hk
        simp only [Option.some.injEq] at hk
        subst hk
        exact hb)
      exact ⟨_, by simp [CondDecl.eval, chidEq, getValue, hb, hv, hm, bind, Except.bind, pure, Except.pure]; rfl⟩
    · exact ⟨false, by simp [CondDecl.eval, chidEq, getValue, hb, e, bind, Except.bind, pure, Except.pure]⟩
  | parentIsGso =>
    simp only [CondDecl.eval]
    match h : ctx.parent with
    | none => exact ⟨_, rfl⟩
    | some none => exact absurd ⟨rfl, h⟩ hx
    | some (some (type, _)) => exact ⟨_, rfl⟩

theorem chidIs_true {ctx : DCtx} {acc : Fields} {c : String} {b : Bytes}
    (hb : acc.lookup "chid" = some (.leaf (.chid b))) :
    CondDecl.eval ctx acc (.chidIs c) = .ok (b == asciiBytes c) := by
  simp [CondDecl.eval, chidEq, getValue, hb, bind, Except.bind, pure, Except.pure]

/-! ### Primitive values -/

theorem prim_val (p : PTy) (s s' : Bytes) (v : PVal) (h : p.read s = .ok (v, s')) : PrimVal p v := by
  cases p with
  | int q =>
    simp only [PTy.read, bind, Except.bind, pure, Except.pure] at h
    cases h1 : q.read s with
    | error e => rw [h1] at h; simp at h
    | ok r =>
      rw [h1] at h
      simp at h
      obtain ⟨rfl, rfl⟩ := h
      exact (Props.C33_encode_read q s r.2 r.1 h1).1
  | colorref =>
    simp only [PTy.read, bind, Except.bind, pure, Except.pure] at h
    cases h1 : Prim.INT32.read s with
    | error e => rw [h1] at h; simp at h
    | ok r =>
      rw [h1] at h
      simp at h
      obtain ⟨rfl, rfl⟩ := h
      exact (Props.C33_encode_read _ s r.2 r.1 h1).1
  | binStorageId =>
    simp only [PTy.read, bind, Except.bind, pure, Except.pure] at h
    cases h1 : Prim.UINT16.read s with
    | error e => rw [h1] at h; simp at h
    | ok r =>
      rw [h1] at h
      simp at h
      obtain ⟨rfl, rfl⟩ := h
      exact (Props.C33_encode_read _ s r.2 r.1 h1).1
  | double =>
    simp only [PTy.read, bind, Except.bind, pure, Except.pure] at h
    cases h1 : readn 8 s with
    | error e => rw [h1] at h; simp at h
    | ok r =>
      rw [h1] at h
      simp only at h
      split at h
      · simp at h
      · rename_i hl
        simp at h
        obtain ⟨rfl, rfl⟩ := h
        simpa [PrimVal] using hl
  | chid =>
    simp only [PTy.read, bind, Except.bind, pure, Except.pure] at h
    cases h1 : readn 4 s with
    | error e => rw [h1] at h; simp at h
    | ok r =>
      rw [h1] at h
      simp only at h
      unfold chidDecode at h
      split at h
      · rename_i h2
        split at h2
        · simp at h2
        · simp at h
      · rename_i h2
        split at h2
        · simp at h2 h
          obtain ⟨rfl, rfl⟩ := h
          rw [← h2]
          simp [PrimVal]
        · simp at h2
  | bstr =>
    simp only [PTy.read, bind, Except.bind, pure, Except.pure] at h
    cases h1 : bstrRead s with
    | error e => rw [h1] at h; simp at h
    | ok r =>
      rw [h1] at h
      simp at h
      obtain ⟨rfl, rfl⟩ := h
      trivial
  | chunks =>
    simp only [PTy.read] at h
    split at h
    · simp at h
    · simp at h
      obtain ⟨rfl, rfl⟩ := h
      trivial
  | hexBytes n =>
    simp only [PTy.read, bind, Except.bind, pure, Except.pure] at h
    cases h1 : readn n s with
    | error e => rw [h1] at h; simp at h
    | ok r =>
      rw [h1] at h
      simp at h
      obtain ⟨rfl, rfl⟩ := h
      have hr := readn_ok h1
      simp only [PrimVal]
      exact ⟨by intro e; simp [e] at hr, by omega⟩
  | version =>
    simp only [PTy.read, bind, Except.bind, pure, Except.pure] at h
    cases h1 : readn 4 s with
    | error e => rw [h1] at h; simp at h
    | ok r =>
      rw [h1] at h
      simp only at h
      split at h
      · simp at h
        obtain ⟨rfl, rfl⟩ := h
        simp [PrimVal]
      · simp at h

/-! ### Reading -/

/-- Only the data can be at fault. -/
def DataError (A : PyErr → Prop) {α} (r : Except PyErr α) : Prop := ∀ e, r = .error e → e = .parseError ∨ A e

theorem readMany_all {A : PyErr → Prop} {f : List (Value PVal) → Bytes → Except PyErr (Option (Value PVal) × Bytes)}
    {P : Value PVal → Prop}
    (h : ∀ acc s, DataError A (f acc s) ∧ ∀ o s', f acc s = .ok (o, s') → ∃ v, o = some v ∧ P v) :
    ∀ (n : Nat) (acc : List (Value PVal)) (s : Bytes), (∀ x ∈ acc, P x) →
      DataError A (readMany f n acc s) ∧
      ∀ xs s', readMany f n acc s = .ok (xs, s') → xs.length = acc.length + n ∧ ∀ x ∈ xs, P x
  | 0, acc, s, ha => by
    refine ⟨by intro e he; simp [readMany] at he, ?_⟩
    intro xs s' h
    simp [readMany] at h
    obtain ⟨rfl, rfl⟩ := h
    exact ⟨rfl, ha⟩
  | n + 1, acc, s, ha => by
    have hf := h acc s
    simp only [readMany]
    cases hr : f acc s with
    | error e =>
      refine ⟨?_, by intro xs s' h; simp at h⟩
      intro e' he
      simp only [Except.error.injEq] at he
      subst he
      exact hf.1 e hr
    | ok r =>
      obtain ⟨o, s1⟩ := r
      obtain ⟨v, rfl, hv⟩ := hf.2 o s1 hr
      simp only
      have ih := readMany_all h n (acc ++ [v]) s1 (by
        intro x hx
        rcases List.mem_append.1 hx with hx | hx
        · exact ha x hx
        · simp only [List.mem_singleton] at hx; subst hx; exact hv)
      refine ⟨ih.1, ?_⟩
      intro xs s' hx
      have := ih.2 xs s' hx
      simp only [List.length_append, List.length_singleton] at this
      exact ⟨by omega, this.2⟩

theorem arrayResult_all {A : PyErr → Prop} {mk : List (Value PVal) → Value PVal}
    {r : Except PyErr (List (Value PVal) × Bytes)} (h : DataError A r) :
    DataError A (arrayResult mk r) ∧
    ∀ o s', arrayResult mk r = .ok (o, s') → ∃ xs, o = some (mk xs) ∧ r = .ok (xs, s') := by
  cases r with
  | error e =>
    refine ⟨?_, by intro o s' h; simp [arrayResult] at h⟩
    intro e' he
    simp only [arrayResult, Except.error.injEq] at he
    subst he
    exact h e rfl
  | ok p =>
    obtain ⟨xs, s1⟩ := p
    refine ⟨by intro e he; simp [arrayResult] at he, ?_⟩
    intro o s' h
    simp only [arrayResult, Except.ok.injEq, Prod.mk.injEq] at h
    exact ⟨xs, h.1.symm, by rw [h.2]⟩

/-- After a member that was read. -/
theorem known_there {ctx : DCtx} {acc : Fields} {ds : List Declared} (h : KnownAll acc ds)
    {name : String} {version : Option Version} {condition : Option CondDecl} {t : DTy} {v : Value PVal}
    (hc : ∀ c, condition = some c → condDeclared ds c = true) (hn : name ∉ acc.map (·.1))
    (hs : Shaped ctx t acc v) : KnownAll (acc ++ [(name, v)]) (declare name version condition t ds) := by
  have hm := h.mono [(name, v)]
  have hkv : ∀ chid, KnownVal (acc ++ [(name, v)]) ⟨name, chid, t⟩ := by
    intro chid
    have hl : (acc ++ [(name, v)]).lookup name = some v := lookup_snoc_new hn
    refine ⟨?_, ?_, ?_⟩
    · intro p hp
      simp only at hp
      subst hp
      cases v with
      | leaf x =>
        cases x with
        | int n => exact ⟨n, hl⟩
        | _ => simp [Shaped, PrimVal] at hs
      | _ => simp [Shaped] at hs
    · intro hp
      simp only at hp
      subst hp
      cases v with
      | leaf x =>
        cases x with
        | chid n => exact ⟨n, hl⟩
        | _ => simp [Shaped, PrimVal] at hs
      | _ => simp [Shaped] at hs
    · intro f hp
      simp only at hp
      subst hp
      cases v with
      | leaf x =>
        cases x with
        | flags g n =>
          simp only [Shaped] at hs
          exact ⟨n, by rw [hl, hs.1]⟩
        | _ => simp [Shaped] at hs
      | _ => simp [Shaped] at hs
  unfold declare
  split
  · intro d hd
    rcases List.mem_append.1 hd with hd | hd
    · exact hm d hd
    · simp only [List.mem_singleton] at hd
      subst hd
      exact hkv none
  · rename_i c
    intro d hd
    rcases List.mem_append.1 hd with hd | hd
    · exact hm d hd
    · simp only [List.mem_singleton] at hd
      subst hd
      obtain ⟨b, hb⟩ := known_chid h (hc _ rfl)
      exact ⟨b, lookup_append_some hb, fun _ => hkv _⟩
  · exact hm

/-- After a member that is not there because of its version or condition. -/
theorem known_absent {ctx : DCtx} {acc : Fields} {ds : List Declared} (h : KnownAll acc ds)
    {name : String} {version : Option Version} {condition : Option CondDecl} {t : DTy}
    (hc : ∀ c, condition = some c → condDeclared ds c = true)
    (ha : MemberAbsent ctx acc version condition) : KnownAll acc (declare name version condition t ds) := by
  unfold declare
  split
  · simp only [MemberAbsent] at ha
    rcases ha with ha | ⟨c, hc, _⟩
    · cases hv : ctx.version <;> simp [versionOk, hv] at ha
    · simp at hc
  · rename_i c
    intro d hd
    rcases List.mem_append.1 hd with hd | hd
    · exact h d hd
    · simp only [List.mem_singleton] at hd
      subst hd
      obtain ⟨b, hb⟩ := known_chid h (hc _ rfl)
      refine ⟨b, hb, ?_⟩
      rintro rfl
      rcases ha with ha | ⟨c', hc', hf⟩
      · cases hv : ctx.version <;> simp [versionOk, hv] at ha
      · simp only [Option.some.injEq] at hc'
        subst hc'
        rw [chidIs_true hb] at hf
        simp at hf
  · exact h

/-- After a selective member without a selection. -/
theorem known_unselected {acc : Fields} {ds : List Declared} (h : KnownAll acc ds)
    {name : String} {version : Option Version} {condition : Option CondDecl} {ref : RefDecl} {ss : DSels}
    (hc : ∀ c, condition = some c → condDeclared ds c = true) :
    KnownAll acc (declare name version condition (.selective ref ss) ds) := by
  have hkv : ∀ chid, KnownVal acc ⟨name, chid, .selective ref ss⟩ := by
    intro chid
    refine ⟨?_, ?_, ?_⟩
    · intro p hp; simp at hp
    · intro hp; simp at hp
    · intro f hp; simp at hp
  unfold declare
  split
  · intro d hd
    rcases List.mem_append.1 hd with hd | hd
    · exact h d hd
    · simp only [List.mem_singleton] at hd
      subst hd
      exact hkv none
  · rename_i c
    intro d hd
    rcases List.mem_append.1 hd with hd | hd
    · exact h d hd
    · simp only [List.mem_singleton] at hd
      subst hd
      obtain ⟨b, hb⟩ := known_chid h (hc _ rfl)
      exact ⟨b, hb, fun _ => hkv _⟩
  · exact h

/-- Plain types do not look at the fields before. -/
theorem shaped_plain (ctx : DCtx) (ps : List String) (t : DTy) (acc acc' : Fields) (v : Value PVal)
    (hp : innerOk ps false t = true) (h : Shaped ctx t acc v) : Shaped ctx t acc' v := by
  cases t with
  | xArray it ref => simp [innerOk] at hp
  | selective ref ss => simp [innerOk] at hp
  | prim p => cases v <;> simpa [Shaped] using h
  | flags f =>
    cases v with
    | leaf x => cases x <;> simpa [Shaped] using h
    | _ => simpa [Shaped] using h
  | struct n ms => cases v <;> simpa [Shaped] using h
  | array it n => cases v <;> simpa [Shaped] using h
  | nArray c it => cases v <;> simpa [Shaped] using h

theorem sel_sub : ∀ (ms : DMembers) n, n ∈ selNames ms → n ∈ ms.names
  | .nil, n, h => by simp [selNames] at h
  | .cons name version condition t rest, n, h => by
    unfold selNames at h
    split at h
    · rename_i h'
      simp at h'
    · rename_i h'
      simp only [DMembers.cons.injEq] at h'
      obtain ⟨rfl, _, _, _, rfl⟩ := h'
      rcases List.mem_cons.1 h with rfl | h
      · simp [DMembers.names]
      · simp [DMembers.names, sel_sub _ n h]
    · rename_i h'
      simp only [DMembers.cons.injEq] at h'
      obtain ⟨_, _, _, _, rfl⟩ := h'
      simp [DMembers.names, sel_sub _ n h]

mutual
/-- Plain types are read. -/
theorem read_ty (fe : PyErr) (A : PyErr → Prop) (hA : A fe) (ctx : DCtx) (ps : List String) (hp : ParentFit A ctx ps) : ∀ (t : DTy) (parent : Option (Value PVal)) (s : Bytes),
    innerOk ps false t = true →
    DataError A (readTy fe ctx.version ctx parent t.toTy s) ∧
    ∀ o s', readTy fe ctx.version ctx parent t.toTy s = .ok (o, s') →
      ∃ v, o = some v ∧ Shaped ctx t [] v
  | .prim p, parent, s, ht => by
    simp only [DTy.toTy, readTy]
    cases hr : p.read s with
    | error e =>
      simp only [leafResult]
      refine ⟨?_, by intro o s' h; simp at h⟩
      intro e' he
      simp only [Except.error.injEq] at he
      exact Or.inl he.symm
    | ok r =>
      obtain ⟨v, s1⟩ := r
      simp only [leafResult]
      refine ⟨by intro e he; simp at he, ?_⟩
      intro o s' h
      simp only [Except.ok.injEq, Prod.mk.injEq] at h
      obtain ⟨rfl, rfl⟩ := h
      exact ⟨_, rfl, by simpa [Shaped] using prim_val p s _ v hr⟩
  | .flags f, parent, s, ht => by
    simp only [DTy.toTy, readTy]
    cases hr : PTy.read (.int f.base) s with
    | error e =>
      simp only [leafResult, Except.map]
      refine ⟨?_, by intro o s' h; simp at h⟩
      intro e' he
      simp only [Except.error.injEq] at he
      exact Or.inr (he ▸ hA)
    | ok r =>
      obtain ⟨v, s1⟩ := r
      simp only [leafResult, Except.map]
      refine ⟨by intro e he; simp at he, ?_⟩
      intro o s' h
      simp only [Except.ok.injEq, Prod.mk.injEq] at h
      obtain ⟨rfl, rfl⟩ := h
      have hv := prim_val _ s _ v hr
      refine ⟨_, rfl, ?_⟩
      cases v with
      | int n =>
        simp only [toFlags, Shaped, true_and]
        simp only [PrimVal, InRange] at hv
        simp only [innerOk, Bool.not_eq_true'] at ht
        rw [ht] at hv
        simp only [Bool.false_eq_true, if_false] at hv
        have h2 : ((n.toNat : Nat) : Int) < ((2 ^ (8 * width f.base) : Nat) : Int) := by
          rw [Int.toNat_of_nonneg hv.1]
          push_cast
          exact hv.2
        exact_mod_cast h2
      | _ => simp [PrimVal] at hv
  | .struct n ms, parent, s, ht => by
    simp only [innerOk, Bool.and_eq_true, decide_eq_true_eq] at ht
    have ih := read_members fe A hA ctx ps hp ms [] [] s ht.1.1 (by intro d hd; simp at hd) ht.1.2 (by simp)
    simp only [DTy.toTy, readTy]
    cases hr : readMembers fe ctx.version ctx ms.toMembers [] s with
    | error e =>
      refine ⟨?_, by intro o s' h; simp at h⟩
      intro e' he
      simp only [Except.error.injEq] at he
      subst he
      exact ih.1 e hr
    | ok r =>
      obtain ⟨fs, s1⟩ := r
      refine ⟨by intro e he; simp at he, ?_⟩
      intro o s' h
      simp only [Except.ok.injEq, Prod.mk.injEq] at h
      obtain ⟨rfl, rfl⟩ := h
      obtain ⟨fs', hfs, hf, _⟩ := ih.2 fs s1 hr
      refine ⟨_, rfl, ?_⟩
      simp only [List.nil_append] at hfs
      subst hfs
      simp only [Shaped]
      exact hf (by rw [ht.2]; simp)
  | .array t n, parent, s, ht => by
    simp only [innerOk] at ht
    simp only [DTy.toTy, readTy]
    have hm := readMany_all (A := A) (f := fun acc s => readTy fe ctx.version ctx (some (.list acc)) t.toTy s)
      (P := Shaped ctx t [])
      (fun acc s => read_ty fe A hA ctx ps hp t (some (.list acc)) s ht) n [] s (by simp)
    have ha := arrayResult_all (mk := Value.tuple) hm.1
    refine ⟨ha.1, ?_⟩
    intro o s' h
    obtain ⟨xs, rfl, hx⟩ := ha.2 o s' h
    have := hm.2 xs s' hx
    refine ⟨_, rfl, ?_⟩
    simp only [Shaped]
    simpa using this
  | .nArray c t, parent, s, ht => by
    simp only [innerOk, Bool.and_eq_true, Bool.not_eq_true'] at ht
    simp only [DTy.toTy, readTy]
    cases hc : c.read s with
    | error e =>
      simp only [bind, Except.bind]
      refine ⟨?_, by intro o s' h; simp at h⟩
      intro e' he
      simp only [Except.error.injEq] at he
      exact Or.inl he.symm
    | ok r =>
      obtain ⟨n, s1⟩ := r
      simp only [bind, Except.bind, pure, Except.pure]
      have hm := readMany_all (A := A) (f := fun acc s => readTy fe ctx.version ctx (some (.list acc)) t.toTy s)
        (P := Shaped ctx t [])
        (fun acc s => read_ty fe A hA ctx ps hp t (some (.list acc)) s ht.2) n.toNat [] s1 (by simp)
      have ha := arrayResult_all (mk := Value.list) hm.1
      refine ⟨ha.1, ?_⟩
      intro o s' h
      obtain ⟨xs, rfl, hx⟩ := ha.2 o s' h
      have hl := hm.2 xs s' hx
      refine ⟨_, rfl, ?_⟩
      have hin := (Props.C33_encode_read c s s1 n hc).1
      simp only [List.length_nil, Nat.zero_add] at hl
      simp only [Shaped]
      refine ⟨?_, hl.2⟩
      rw [hl.1]
      have h0 : 0 ≤ n := by
        simp only [InRange] at hin
        rw [ht.1] at hin
        simp only [Bool.false_eq_true, if_false] at hin
        exact hin.1
      rw [Int.toNat_of_nonneg h0]
      exact hin
  | .xArray _ _, _, _, ht => by simp [innerOk] at ht
  | .selective _ _, _, _, ht => by simp [innerOk] at ht
/-- Selections. -/
theorem read_sels (fe : PyErr) (A : PyErr → Prop) (hA : A fe) (ctx : DCtx) (ps : List String) (hp : ParentFit A ctx ps) (key : Int) : ∀ (ss : DSels) (parent : Option (Value PVal)) (s : Bytes),
    innerSels ps ss = true →
    DataError A (readSelected fe ctx.version ctx parent key ss.toSelections s) ∧
    ∀ o s', readSelected fe ctx.version ctx parent key ss.toSelections s = .ok (o, s') →
      o = none ∨ ∃ v, o = some v ∧ ∀ acc, Selected ctx ss key acc v
  | .nil, parent, s, ht => by
    simp only [DSels.toSelections, readSelected]
    refine ⟨by intro e he; simp at he, ?_⟩
    intro o s' h
    simp only [Except.ok.injEq, Prod.mk.injEq] at h
    exact Or.inl h.1.symm
  | .cons k t rest, parent, s, ht => by
    simp only [innerSels, Bool.and_eq_true] at ht
    simp only [DSels.toSelections, readSelected]
    by_cases hk : (k : Int) = key
    · rw [if_pos hk]
      have ih := read_ty fe A hA ctx ps hp t parent s ht.1
      refine ⟨ih.1, ?_⟩
      intro o s' h
      obtain ⟨v, rfl, hv⟩ := ih.2 o s' h
      refine Or.inr ⟨v, rfl, ?_⟩
      intro acc
      simp only [Selected]
      rw [if_pos hk.symm]
      exact shaped_plain ctx ps t [] acc v ht.1 hv
    · rw [if_neg hk]
      have ih := read_sels fe A hA ctx ps hp key rest parent s ht.2
      refine ⟨ih.1, ?_⟩
      intro o s' h
      rcases ih.2 o s' h with rfl | ⟨v, rfl, hv⟩
      · exact Or.inl rfl
      · refine Or.inr ⟨v, rfl, ?_⟩
        intro acc
        simp only [Selected]
        rw [if_neg (fun e => hk e.symm)]
        exact hv acc
/-- Members. -/
theorem read_members (fe : PyErr) (A : PyErr → Prop) (hA : A fe) (ctx : DCtx) (ps : List String) (hp : ParentFit A ctx ps) : ∀ (ms : DMembers) (ds : List Declared) (acc : Fields) (s : Bytes),
    wellDeclared ps ds ms = true → KnownAll acc ds → ms.names.Nodup → (∀ n ∈ ms.names, n ∉ acc.map (·.1)) →
    DataError A (readMembers fe ctx.version ctx ms.toMembers acc s) ∧
    ∀ fs' s', readMembers fe ctx.version ctx ms.toMembers acc s = .ok (fs', s') →
      ∃ fs, fs' = acc ++ fs ∧ ((∀ n ∈ selNames ms, n ∈ fs.map (·.1)) → FieldsOf ctx ms acc fs) ∧
        ∀ n ∈ fs.map (·.1), n ∈ ms.names
  | .nil, ds, acc, s, hw, hk, hn, hd => by
    simp only [DMembers.toMembers, readMembers]
    refine ⟨by intro e he; simp at he, ?_⟩
    intro fs' s' h
    simp only [Except.ok.injEq, Prod.mk.injEq] at h
    exact ⟨[], by simp [h.1], fun _ => by simp [FieldsOf], by simp⟩
  | .cons name version condition t rest, ds, acc, s, hw, hk, hn, hd => by
    rw [wellDeclared] at hw
    simp only [Bool.and_eq_true] at hw
    obtain ⟨⟨⟨⟨hw1, hwr⟩, hwp⟩, hw2⟩, hw3⟩ := hw
    have hcd : ∀ c, condition = some c → condDeclared ds c = true := by
      rintro c rfl
      simpa using hw1
    simp only [DMembers.names, List.nodup_cons] at hn
    have hnew : name ∉ acc.map (·.1) := hd name (by simp [DMembers.names])
    have hd' : ∀ n ∈ rest.names, n ∉ acc.map (·.1) := fun n hm => hd n (by simp [DMembers.names, hm])
    have one : (RefOk ctx acc t ∨ (version = none ∧ condition = none)) ∧ DataError A (readTy fe ctx.version ctx (some (.struct acc)) t.toTy s) ∧
        ∀ o s', readTy fe ctx.version ctx (some (.struct acc)) t.toTy s = .ok (o, s') →
          (∃ v, o = some v ∧ Shaped ctx t acc v) ∨ (o = none ∧ ∃ ref ss, t = .selective ref ss) := by
      cases t with
      | xArray it ref =>
        simp only [innerOk, Bool.true_and] at hw2
        rcases ref_ok hp hk hwr with ⟨n, hr⟩ | ⟨⟨x, hfe, hr⟩, n, rfl⟩
        rotate_left
        · simp only [parentAlways, Bool.and_eq_true, Option.isNone_iff_eq_none] at hwp
          simp only [DTy.toTy, readTy, withParent, countOf, fieldsOf, hr, bind, Except.bind]
          refine ⟨Or.inr hwp, ?_, by intro o s' h; simp at h⟩
          intro e he
          simp only [Except.error.injEq] at he
          exact Or.inr (by rw [← he]; exact hfe)
        refine ⟨Or.inl ⟨n, hr⟩, ?_⟩
        simp only [DTy.toTy, readTy, withParent, countOf, fieldsOf, hr, bind, Except.bind, pure, Except.pure]
        have hm := readMany_all (A := A)
          (f := fun acc s => readTy fe ctx.version ctx (some (.list acc)) it.toTy s)
          (P := Shaped ctx it [])
          (fun acc s => read_ty fe A hA ctx ps hp it (some (.list acc)) s hw2) n.toNat [] s (by simp)
        have ha := arrayResult_all (mk := Value.list) hm.1
        refine ⟨ha.1, ?_⟩
        intro o s' h
        obtain ⟨xs, rfl, hx⟩ := ha.2 o s' h
        have hl := hm.2 xs s' hx
        refine Or.inl ⟨_, rfl, ?_⟩
        simp only [Shaped]
        exact ⟨⟨n, hr, by simpa using hl.1⟩, hl.2⟩
      | selective ref ss =>
        simp only [innerOk, Bool.true_and] at hw2
        rcases ref_ok hp hk hwr with ⟨n, hr⟩ | ⟨⟨x, hfe, hr⟩, n, rfl⟩
        rotate_left
        · simp only [parentAlways, Bool.and_eq_true, Option.isNone_iff_eq_none] at hwp
          simp only [DTy.toTy, readTy, withParent, countOf, fieldsOf, hr, bind, Except.bind]
          refine ⟨Or.inr hwp, ?_, by intro o s' h; simp at h⟩
          intro e he
          simp only [Except.error.injEq] at he
          exact Or.inr (by rw [← he]; exact hfe)
        refine ⟨Or.inl ⟨n, hr⟩, ?_⟩
        simp only [DTy.toTy, readTy, withParent, fieldsOf, hr]
        have hm := read_sels fe A hA ctx ps hp n ss (some (.struct acc)) s hw2
        refine ⟨hm.1, ?_⟩
        intro o s' h
        rcases hm.2 o s' h with rfl | ⟨v, rfl, hv⟩
        · exact Or.inr ⟨rfl, _, _, rfl⟩
        · refine Or.inl ⟨v, rfl, ?_⟩
          simp only [Shaped]
          exact ⟨n, hr, hv acc⟩
      | prim p =>
        have hw2 : innerOk ps false (.prim p) = true := by simpa only [innerOk] using hw2
        have := read_ty fe A hA ctx ps hp (.prim p) (some (.struct acc)) s hw2
        refine ⟨Or.inl trivial, this.1, fun o s' h => ?_⟩
        obtain ⟨v, hv, hs⟩ := this.2 o s' h
        exact Or.inl ⟨v, hv, shaped_plain ctx ps _ _ _ _ hw2 hs⟩
      | flags f =>
        have hw2 : innerOk ps false (.flags f) = true := by simpa only [innerOk] using hw2
        have := read_ty fe A hA ctx ps hp (.flags f) (some (.struct acc)) s hw2
        refine ⟨Or.inl trivial, this.1, fun o s' h => ?_⟩
        obtain ⟨v, hv, hs⟩ := this.2 o s' h
        exact Or.inl ⟨v, hv, shaped_plain ctx ps _ _ _ _ hw2 hs⟩
      | struct n ms =>
        have hw2 : innerOk ps false (.struct n ms) = true := by simpa only [innerOk] using hw2
        have := read_ty fe A hA ctx ps hp (.struct n ms) (some (.struct acc)) s hw2
        refine ⟨Or.inl trivial, this.1, fun o s' h => ?_⟩
        obtain ⟨v, hv, hs⟩ := this.2 o s' h
        exact Or.inl ⟨v, hv, shaped_plain ctx ps _ _ _ _ hw2 hs⟩
      | array it n =>
        have hw2 : innerOk ps false (.array it n) = true := by simpa only [innerOk] using hw2
        have := read_ty fe A hA ctx ps hp (.array it n) (some (.struct acc)) s hw2
        refine ⟨Or.inl trivial, this.1, fun o s' h => ?_⟩
        obtain ⟨v, hv, hs⟩ := this.2 o s' h
        exact Or.inl ⟨v, hv, shaped_plain ctx ps _ _ _ _ hw2 hs⟩
      | nArray c it =>
        have hw2 : innerOk ps false (.nArray c it) = true := by simpa only [innerOk] using hw2
        have := read_ty fe A hA ctx ps hp (.nArray c it) (some (.struct acc)) s hw2
        refine ⟨Or.inl trivial, this.1, fun o s' h => ?_⟩
        obtain ⟨v, hv, hs⟩ := this.2 o s' h
        exact Or.inl ⟨v, hv, shaped_plain ctx ps _ _ _ _ hw2 hs⟩
    obtain ⟨hro, one1, one2⟩ := one
    have hsel : ∀ n ∈ selNames rest, n ∈ selNames (.cons name version condition t rest) := by
      intro n hm
      unfold selNames
      split <;> simp_all
    -- a member that is not there
    have absent : MemberAbsent ctx acc version condition →
        DataError A (readMembers fe ctx.version ctx rest.toMembers acc s) ∧
        ∀ fs' s', readMembers fe ctx.version ctx rest.toMembers acc s = .ok (fs', s') →
          ∃ fs, fs' = acc ++ fs ∧
            ((∀ n ∈ selNames (.cons name version condition t rest), n ∈ fs.map (·.1)) →
              FieldsOf ctx (.cons name version condition t rest) acc fs) ∧
            ∀ n ∈ fs.map (·.1), n ∈ (DMembers.cons name version condition t rest).names := by
      intro ha
      have ih := read_members fe A hA ctx ps hp rest _ acc s hw3
        (known_absent (ctx := ctx) hk hcd ha) hn.2 hd'
      refine ⟨ih.1, ?_⟩
      intro fs' s' h
      obtain ⟨fs, h1, h2, h3⟩ := ih.2 fs' s' h
      refine ⟨fs, h1, fun hx => ?_, fun n hm => by simp [DMembers.names, h3 n hm]⟩
      rw [FieldsOf.eq_def]
      have hro : RefOk ctx acc t := by
        rcases hro with hro | ⟨rfl, rfl⟩
        · exact hro
        · rcases ha with ha | ⟨c, hc, _⟩
          · simp [versionOk] at ha
          · simp at hc
      exact Or.inl ⟨ha, hro, h2 (fun n hm => hx n (hsel n hm))⟩
    simp only [DMembers.toMembers, readMembers]
    by_cases hv : versionOk ctx.version version = true
    · rw [if_pos hv]
      cases condition with
      | none =>
        simp only [Option.map_none]
        have hthere : MemberThere ctx acc version none := ⟨hv, by simp⟩
        cases hr : readTy fe ctx.version ctx (some (.struct acc)) t.toTy s with
        | error e =>
          refine ⟨?_, by intro fs' s' h; simp at h⟩
          intro e' he
          simp only [Except.error.injEq] at he
          subst he
          exact one1 e hr
        | ok r =>
          obtain ⟨o, s1⟩ := r
          rcases one2 o s1 hr with ⟨v, rfl, hs⟩ | ⟨rfl, ref, ss, rfl⟩
          · simp only
            rw [setField_new name v acc hnew]
            have ih := read_members fe A hA ctx ps hp rest _ (acc ++ [(name, v)]) s1 hw3
              (known_there hk hcd hnew hs) hn.2 (by
                intro n hm
                simp only [List.map_append, List.map_cons, List.map_nil, List.mem_append,
                  List.mem_singleton, not_or]
                refine ⟨hd' n hm, ?_⟩
                rintro rfl
                exact hn.1 hm)
            refine ⟨ih.1, ?_⟩
            intro fs' s' h
            obtain ⟨fs, h1, h2, h3⟩ := ih.2 fs' s' h
            refine ⟨(name, v) :: fs, by simp [h1], fun hx => ?_, ?_⟩
            · rw [FieldsOf.eq_def]
              refine Or.inr ⟨hthere, v, fs, rfl, hs, h2 ?_⟩
              intro n hm
              have := hx n (hsel n hm)
              simp only [List.map_cons, List.mem_cons] at this
              rcases this with rfl | this
              · exact absurd (sel_sub rest n hm) hn.1
              · exact this
            · intro n hm
              simp only [List.map_cons, List.mem_cons] at hm
              rcases hm with rfl | hm
              · simp [DMembers.names]
              · simp [DMembers.names, h3 n hm]
          · simp only
            have ih := read_members fe A hA ctx ps hp rest _ acc s1 hw3
              (known_unselected hk hcd) hn.2 hd'
            refine ⟨ih.1, ?_⟩
            intro fs' s' h
            obtain ⟨fs, h1, h2, h3⟩ := ih.2 fs' s' h
            refine ⟨fs, h1, fun hx => ?_, fun n hm => by simp [DMembers.names, h3 n hm]⟩
            exact absurd (h3 name (hx name (by simp [selNames]))) hn.1
      | some c =>
        rcases cond_ok (ctx := ctx) hp.root hk (hcd c rfl) with ⟨b, hb⟩ | ⟨hfe, hb⟩
        rotate_left
        · simp only [Option.map_some, fieldsOf, hb]
          refine ⟨?_, by intro fs' s' h; simp at h⟩
          intro e he
          simp only [Except.error.injEq] at he
          exact Or.inr (by rw [← he]; exact hfe)
        simp only [Option.map_some, fieldsOf, hb]
        cases b with
        | false => exact absent (Or.inr ⟨c, rfl, hb⟩)
        | true =>
        simp only
        have hthere : MemberThere ctx acc version (some c) := ⟨hv, by simpa using hb⟩
        cases hr : readTy fe ctx.version ctx (some (.struct acc)) t.toTy s with
        | error e =>
          refine ⟨?_, by intro fs' s' h; simp at h⟩
          intro e' he
          simp only [Except.error.injEq] at he
          subst he
          exact one1 e hr
        | ok r =>
          obtain ⟨o, s1⟩ := r
          rcases one2 o s1 hr with ⟨v, rfl, hs⟩ | ⟨rfl, ref, ss, rfl⟩
          · simp only
            rw [setField_new name v acc hnew]
            have ih := read_members fe A hA ctx ps hp rest _ (acc ++ [(name, v)]) s1 hw3
              (known_there hk hcd hnew hs) hn.2 (by
                intro n hm
                simp only [List.map_append, List.map_cons, List.map_nil, List.mem_append,
                  List.mem_singleton, not_or]
                refine ⟨hd' n hm, ?_⟩
                rintro rfl
                exact hn.1 hm)
            refine ⟨ih.1, ?_⟩
            intro fs' s' h
            obtain ⟨fs, h1, h2, h3⟩ := ih.2 fs' s' h
            refine ⟨(name, v) :: fs, by simp [h1], fun hx => ?_, ?_⟩
            · rw [FieldsOf.eq_def]
              refine Or.inr ⟨hthere, v, fs, rfl, hs, h2 ?_⟩
              intro n hm
              have := hx n (hsel n hm)
              simp only [List.map_cons, List.mem_cons] at this
              rcases this with rfl | this
              · exact absurd (sel_sub rest n hm) hn.1
              · exact this
            · intro n hm
              simp only [List.map_cons, List.mem_cons] at hm
              rcases hm with rfl | hm
              · simp [DMembers.names]
              · simp [DMembers.names, h3 n hm]
          · simp only
            have ih := read_members fe A hA ctx ps hp rest _ acc s1 hw3
              (known_unselected hk hcd) hn.2 hd'
            refine ⟨ih.1, ?_⟩
            intro fs' s' h
            obtain ⟨fs, h1, h2, h3⟩ := ih.2 fs' s' h
            refine ⟨fs, h1, fun hx => ?_, fun n hm => by simp [DMembers.names, h3 n hm]⟩
            exact absurd (h3 name (hx name (by simp [selNames]))) hn.1
    · rw [if_neg hv]
      exact absent (Or.inl (by simpa using hv))
end

end Hwp
