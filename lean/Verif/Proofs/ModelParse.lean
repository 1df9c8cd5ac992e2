/- Helper lemmas for the parsing of models. -/
import Verif.Model.ModelParse
import Verif.Spec.ModelParse
import Verif.Proofs.Ancestors
import Verif.Proofs.Grouping
set_option linter.unusedSimpArgs false
namespace Hwp
open Spec
variable {κ : Type}

/-- The frame of the root. -/
def rootFrame : PFrame κ := ⟨none, false⟩

theorem parseModelsGo_start (rd : ModelReader κ) (err : Option PyErr) (st : List (PFrame κ)) (r : Record)
    (rs : List Record) :
    parseModelsGo rd err none st (r :: rs) = parseModelsGo rd err (some (r.level : Int)) st (r :: rs) := by
  simp [parseModelsGo, relLevel]

/-- Indices of the open records, innermost first, before record `i`. -/
def IdxStack (levels : List Nat) (b i : Nat) : List Nat → Prop
  | [] => True
  | j :: js => IdxStack levels b i js ∧ j < i ∧ levels[j]? = some (b + js.length) ∧
      ∀ k l, j < k → k < i → levels[k]? = some l → b + js.length < l

theorem IdxStack.drop {levels : List Nat} {b i : Nat} {js : List Nat} (n : Nat)
    (h : IdxStack levels b i js) : IdxStack levels b i (js.drop n) := by
  induction n generalizing js with
  | zero => simpa
  | succ n ih =>
    cases js with
    | nil => simp [IdxStack]
    | cons a st => exact ih h.1

theorem IdxStack.mono {levels : List Nat} {b i l : Nat} {js : List Nat} (h : IdxStack levels b i js)
    (hi : levels[i]? = some l) (hl : b + js.length ≤ l) : IdxStack levels b (i + 1) js := by
  induction js with
  | nil => trivial
  | cons j js ih =>
    obtain ⟨h1, hj, h2, h3⟩ := h
    simp only [List.length_cons] at hl
    refine ⟨ih h1 (by omega), by omega, h2, ?_⟩
    intro k m hk hlt hm
    by_cases he : k = i
    · subst he; rw [hi] at hm; injection hm; omega
    · exact h3 k m hk (by omega) hm

theorem IdxStack.level {levels : List Nat} {b i : Nat} {js : List Nat} (h : IdxStack levels b i js) :
    ∀ j ∈ js, j < i ∧ ∃ l, levels[j]? = some l ∧ l < b + js.length := by
  induction js with
  | nil => simp
  | cons a js ih =>
    intro j hj
    obtain ⟨h1, ha, h2, -⟩ := h
    simp only [List.mem_cons] at hj
    rcases hj with rfl | hj
    · exact ⟨ha, _, h2, by simp⟩
    · obtain ⟨h3, l, h4, h5⟩ := ih h1 j hj
      exact ⟨h3, l, h4, by simp; omega⟩

theorem IdxStack.enclosing_some {levels : List Nat} {b i l j : Nat} {js : List Nat}
    (h : IdxStack levels b i (j :: js)) (hi : levels[i]? = some l) (hl : l = b + js.length + 1) :
    enclosing levels i = some j := by
  obtain ⟨_, hj, h2, h3⟩ := h
  refine enclosing_eq_some hi h2 hj (by omega) ?_
  intro k m hk hlt hm
  have := h3 k m hk hlt hm
  omega

/-- What is claimed of the `i`-th model. -/
structure GoodModel (rd : ModelReader κ) (all : List Record) (out : List (PModel κ)) (i : Nat)
    (m : PModel κ) (parent : PFrame κ) (rest : Bytes) : Prop where
  record : all[i]? = some m.record
  resolved : resolveModel rd parent m.record = .ok (m.type, m.content, rest)
  unparsed : m.unparsed = if rest = [] then none else some rest
  top : enclosing (levelsOf all) i = none → parent = rootFrame
  inside : ∀ p, enclosing (levelsOf all) i = some p → p < i ∧ ∃ mp, out[p]? = some mp ∧
    parent.model = some (mp.type, mp.content) ∧
    (parent.seen = true ↔ (mp.type = "TableControl" ∧ BodyBefore all p i))

theorem type_tableBody {rd : ModelReader κ} {parent : PFrame κ} {r : Record} {t : String} {c : κ} {s : Bytes}
    (h : resolveModel rd parent r = .ok (t, c, s)) : t = "TableBody" ↔ r.tagid = 77 := by
  have key : ∀ (l : List (Nat × String)) (n : Nat) (s : String), l.lookup n = some s → (n, s) ∈ l := by
    intro l n s hl
    induction l with
    | nil => simp at hl
    | cons a l ih =>
      obtain ⟨k, v⟩ := a
      rw [List.lookup_cons] at hl
      split at hl
      · rename_i he; simp at he hl; subst he hl; simp
      · exact List.mem_cons_of_mem _ (ih hl)
  have hb : baseType r.tagid = "TableBody" ↔ r.tagid = 77 := by
    constructor
    · intro hb
      unfold baseType at hb
      cases hl : tagModels.lookup r.tagid with
      | none => rw [hl] at hb; simp at hb
      | some x =>
        rw [hl] at hb; simp at hb; subst hb
        have := key _ _ _ hl
        simp [tagModels] at this
        exact this
    · intro hb; rw [hb]; decide +kernel
  have mem : ∀ {α : Type} [BEq α] [LawfulBEq α] (l : List (α × String)) (n : α) (s : String),
      l.lookup n = some s → s ∈ l.map (·.2) := by
    intro α _ _ l n s hl
    induction l with
    | nil => simp at hl
    | cons a l ih =>
      obtain ⟨k, v⟩ := a
      rw [List.lookup_cons] at hl
      split at hl
      · simp at hl; subst hl; simp
      · exact List.mem_cons_of_mem _ (ih hl)
  have hc : "TableBody" ∉ controlModels.map (·.2) := by decide +kernel
  have hl : "TableBody" ∉ listHeaderModels.map (·.2) := by decide +kernel
  have hd : "TableBody" ∉ controlDataModels.map (·.2) := by decide +kernel
  unfold resolveModel at h
  simp only [bind, Except.bind, pure, Except.pure] at h
  split at h
  · cases h
  · rename_i v hv
    split at h
    · cases h
    · rename_i o ho
      split at h
      · injection h with h; injection h with h1 h2; rw [← h1]; exact hb
      · rename_i ext
        split at h
        · cases h
        · injection h with h; injection h with h1 h2
          subst h1
          have hne : ext ≠ "TableBody" ∧ baseType r.tagid ≠ "TableBody" := by
            unfold extensionOf at ho
            simp only [bind, Except.bind, pure, Except.pure] at ho
            split at ho
            · rename_i hbt
              refine ⟨?_, by rw [hbt]; decide⟩
              split at ho
              · cases ho
              · injection ho with ho
                intro he; subst he; exact hc (mem _ _ _ ho)
            · split at ho
              · rename_i hbt
                refine ⟨?_, by rw [hbt]; decide⟩
                split at ho
                · cases ho
                · injection ho with ho
                  intro he; subst he; exact hl (mem _ _ _ ho)
              · split at ho
                · rename_i hbt
                  refine ⟨?_, by rw [hbt]; decide⟩
                  split at ho
                  · cases ho
                  · injection ho with ho
                    intro he; subst he; exact hd (mem _ _ _ ho)
                · cases ho
          constructor
          · intro he; exact absurd he hne.1
          · intro he; exact absurd (hb.mpr he) hne.2

open Classical in
/-- The frame of the open record `j` before record `i`. -/
noncomputable def frameOf (all : List Record) (ms : List (PModel κ)) (i j : Nat) : PFrame κ :=
  ⟨(ms[j]?).map (fun m => (m.type, m.content)), decide ((∃ m, ms[j]? = some m ∧ m.type = "TableControl") ∧ BodyBefore all j i)⟩

theorem frameOf_congr {all : List Record} {ms ms' : List (PModel κ)} {i i' j : Nat}
    (h1 : ms[j]? = ms'[j]?)
    (h2 : ∀ m, ms[j]? = some m → m.type = "TableControl" → (BodyBefore all j i ↔ BodyBefore all j i')) :
    frameOf all ms i j = frameOf all ms' i' j := by
  unfold frameOf
  congr 1
  · rw [h1]
  · rw [decide_eq_decide, ← h1]
    constructor
    · rintro ⟨⟨m, h3, h4⟩, h5⟩; exact ⟨⟨m, h3, h4⟩, (h2 m h3 h4).mp h5⟩
    · rintro ⟨⟨m, h3, h4⟩, h5⟩; exact ⟨⟨m, h3, h4⟩, (h2 m h3 h4).mpr h5⟩

theorem popTo_ok {α : Type} {t : Int} {fs : List α} {root : α} {st : List α}
    (h : (popTo t (fs ++ [root])).2 = .ok st) (hne : st ≠ []) :
    ∃ n, st = fs.drop n ++ [root] ∧ n ≤ fs.length := by
  obtain ⟨pops, st', h1, -, h3⟩ := popTo_shape t (fs ++ [root])
  rcases h3 with h3 | ⟨e, h3, -⟩
  · rw [h3] at h; injection h with h; subst h
    refine ⟨pops.length, ?_, ?_⟩
    · have h4 := congrArg (List.drop pops.length) h1
      have hl := congrArg List.length h1
      simp only [List.length_append, List.length_cons, List.length_nil] at hl
      have : 0 < st'.length := List.length_pos_iff.mpr hne
      rw [List.drop_left, List.drop_append_of_le_length (by omega)] at h4
      exact h4.symm
    · have hl := congrArg List.length h1
      simp only [List.length_append, List.length_cons, List.length_nil] at hl
      have : 0 < st'.length := List.length_pos_iff.mpr hne
      omega
  · rw [h3] at h; cases h

theorem go_spec (rd : ModelReader κ) (err : Option PyErr) (all : List Record) (b : Nat)
    (rest : List Record) : ∀ (pre : List Record) (ms : List (PModel κ)) (js : List Nat),
    all = pre ++ rest → ms.map (·.record) = pre →
    (∀ k l, k < pre.length → (levelsOf all)[k]? = some l → b ≤ l) →
    IdxStack (levelsOf all) b pre.length js →
    ∀ i m, pre.length ≤ i →
      (ms ++ (parseModelsGo rd err (some (b : Int))
        (js.map (frameOf all ms pre.length) ++ [rootFrame]) rest).out)[i]? = some m →
      ∃ parent s, GoodModel rd all (ms ++ (parseModelsGo rd err (some (b : Int))
        (js.map (frameOf all ms pre.length) ++ [rootFrame]) rest).out) i m parent s := by
  induction rest with
  | nil =>
    intro pre ms js hall hms hb hjs i m hi hm
    have : ms.length = pre.length := by rw [← hms]; simp
    simp only [parseModelsGo, List.append_nil] at hm
    rw [List.getElem?_eq_none (by omega)] at hm
    cases hm
  | cons r rs ih =>
    intro pre ms js hall hms hb hjs i m hi hm
    have hlen : ms.length = pre.length := by rw [← hms]; simp
    have hcur : all[pre.length]? = some r := by rw [hall]; simp
    have hlev : (levelsOf all)[pre.length]? = some r.level := by simp [levelsOf, hcur]
    have hnone : ∀ g : Gen (PModel κ), g.out = [] → (ms ++ g.out)[i]? = some m → False := by
      intro g hg h
      rw [hg, List.append_nil, List.getElem?_eq_none (by omega)] at h
      cases h
    generalize hst : popTo ((relLevel (some (b : Int)) (r.level : Int)).1 + 1)
      (js.map (frameOf all ms pre.length) ++ [rootFrame]) = pt at *
    rw [parseModelsGo, hst] at hm ⊢
    obtain ⟨evs, res⟩ := pt
    cases res with
    | error e => exact (hnone _ rfl hm).elim
    | ok st =>
      simp only at hm ⊢
      by_cases h1 : (st.length : Int) < (relLevel (some (b : Int)) (r.level : Int)).1 + 1
      · rw [if_pos h1] at hm; exact (hnone _ rfl hm).elim
      rw [if_neg h1] at hm ⊢
      by_cases h2 : (st.length : Int) = (relLevel (some (b : Int)) (r.level : Int)).1 + 1
      rotate_left
      · rw [if_neg h2] at hm; exact (hnone _ rfl hm).elim
      rw [if_pos h2] at hm ⊢
      cases st with
      | nil => exact (hnone _ rfl hm).elim
      | cons parent st =>
        simp only at hm ⊢
        cases hres : resolveModel rd parent r with
        | error e => rw [hres] at hm; exact (hnone _ rfl hm).elim
        | ok v =>
          obtain ⟨type, content, s⟩ := v
          rw [hres] at hm
          simp only at hm ⊢
          -- the popped stack
          obtain ⟨n, hn, hnl⟩ := popTo_ok (by rw [hst]) (List.cons_ne_nil parent st)
          rw [← List.map_drop] at hn
          have hdrop := hjs.drop n
          generalize js.drop n = js' at hn hdrop
          have hl : r.level = b + js'.length := by
            have e := congrArg List.length hn
            simp only [List.length_cons, List.length_append, List.length_map, List.length_nil] at e
            simp only [relLevel, List.length_cons] at h2
            omega
          have hbl : (relLevel (some (b : Int)) (r.level : Int)).2 = (b : Int) := rfl
          rw [hbl] at hm ⊢
          -- the new model
          generalize hm0 : (⟨r, type, content, if s = [] then none else some s⟩ : PModel κ) = m0 at hm ⊢
          have hm0r : m0.record = r := by rw [← hm0]
          have hm0t : m0.type = type := by rw [← hm0]
          have hm0c : m0.content = content := by rw [← hm0]
          -- the frame of the parent
          have hpar : (js' = [] ∧ parent = rootFrame ∧ st = []) ∨
              (∃ p js'', js' = p :: js'' ∧ parent = frameOf all ms pre.length p ∧
                st = js''.map (frameOf all ms pre.length) ++ [rootFrame]) := by
            cases js' with
            | nil => left; simpa using hn
            | cons p js'' => right; simp at hn; exact ⟨p, js'', rfl, hn.1, hn.2⟩
          have hidx : ∀ j ∈ js', j < pre.length := fun j hj => (hdrop.level j hj).1
          -- frames with the new model
          have hframe : ∀ j ∈ js', enclosing (levelsOf all) pre.length ≠ some j →
              frameOf all (ms ++ [m0]) (pre.length + 1) j = frameOf all ms pre.length j := by
            intro j hj hne
            have hjl := hidx j hj
            have e : (ms ++ [m0])[j]? = ms[j]? := by rw [List.getElem?_append_left (by omega)]
            have eb : BodyBefore all j (pre.length + 1) ↔ BodyBefore all j pre.length := by
              constructor
              · rintro ⟨k, r', hk, h3, h4, h5⟩
                have : k ≠ pre.length := by rintro rfl; exact hne h5
                exact ⟨k, r', by omega, h3, h4, h5⟩
              · rintro ⟨k, r', hk, h3, h4, h5⟩
                exact ⟨k, r', by omega, h3, h4, h5⟩
            exact frameOf_congr e (fun _ _ _ => eb)
          have htb := type_tableBody hres
          have hstack : (⟨some (type, content), false⟩ : PFrame κ) :: onChild parent type :: st =
              (pre.length :: js').map (frameOf all (ms ++ [m0]) (pre.length + 1)) ++ [rootFrame] := by
            have hnew : frameOf all (ms ++ [m0]) (pre.length + 1) pre.length = ⟨some (type, content), false⟩ := by
              have e : (ms ++ [m0])[pre.length]? = some m0 := by
                rw [← hlen]; simp
              have : ¬ BodyBefore all pre.length (pre.length + 1) := by
                rintro ⟨k, r', hk, h3, h4, h5⟩
                have : pre.length < k := by
                  unfold enclosing at h5
                  split at h5
                  · cases h5
                  · have := List.mem_of_getLast? h5
                    simp at this; exact this.1
                omega
              simp only [frameOf, e, this, and_false, Option.map_some, hm0t, hm0c, decide_false]
            simp only [List.map_cons, hnew, List.cons_append]
            congr 1
            rcases hpar with ⟨rfl, rfl, rfl⟩ | ⟨p, js'', rfl, rfl, rfl⟩
            · simp [onChild, rootFrame, PFrame.type]
            · have hp : enclosing (levelsOf all) pre.length = some p := by
                refine hdrop.enclosing_some hlev ?_
                simp at hl; omega
              have hrest : js''.map (frameOf all ms pre.length) =
                  js''.map (frameOf all (ms ++ [m0]) (pre.length + 1)) := by
                apply List.map_congr_left
                intro j hj
                refine (hframe j (by simp [hj]) ?_).symm
                rw [hp]
                intro he; injection he with he; subst he
                obtain ⟨-, l1, h3, h4⟩ := hdrop.1.level _ hj
                obtain ⟨-, -, h5, -⟩ := hdrop
                rw [h3] at h5; injection h5; omega
              rw [hrest, List.map_cons, List.cons_append]
              congr 1
              have hpl := hidx p (by simp)
              have e : (ms ++ [m0])[p]? = ms[p]? := by rw [List.getElem?_append_left (by omega)]
              obtain ⟨mp, hmp⟩ : ∃ mp, ms[p]? = some mp := ⟨ms[p], by simp [List.getElem?_eq_getElem (show p < ms.length by omega)]⟩
              by_cases hc : mp.type = "TableControl" ∧ type = "TableBody"
              · have hbb : BodyBefore all p (pre.length + 1) := ⟨pre.length, r, by omega, hcur, htb.mp hc.2, hp⟩
                have h3 : (∃ m, (ms ++ [m0])[p]? = some m ∧ m.type = "TableControl") ∧
                    BodyBefore all p (pre.length + 1) := ⟨⟨mp, by rw [e]; exact hmp, hc.1⟩, hbb⟩
                simp only [onChild, PFrame.type, frameOf, hmp, e, Option.map_some, hc, and_self, if_true]
                congr 1
                classical exact (decide_eq_true h3).symm
              · have h3 : onChild (frameOf all ms pre.length p) type = frameOf all ms pre.length p := by
                  simp only [onChild, PFrame.type, frameOf, hmp, Option.map_some, Option.some.injEq]
                  rw [if_neg hc]
                rw [h3]
                refine (frameOf_congr e ?_).symm
                intro m1 hm1 ht1
                rw [e, hmp] at hm1; injection hm1 with hm1; subst hm1
                constructor
                · rintro ⟨k, r', hk, h3, h4, h5⟩
                  have : k ≠ pre.length := by
                    rintro rfl
                    rw [hcur] at h3; injection h3 with h3; subst h3
                    exact hc ⟨ht1, htb.mpr h4⟩
                  exact ⟨k, r', by omega, h3, h4, h5⟩
                · rintro ⟨k, r', hk, h3, h4, h5⟩
                  exact ⟨k, r', by omega, h3, h4, h5⟩
          rw [hstack] at hm ⊢
          have hsplit : ∀ g : Gen (PModel κ), ms ++ (Gen.cons m0 g).out = (ms ++ [m0]) ++ g.out := by
            intro g; simp [Gen.cons]
          rw [hsplit] at hm ⊢
          by_cases hi0 : i = pre.length
          · subst hi0
            have hm1 : m0 = m := by
              rw [List.getElem?_append_left (by simp; omega), ← hlen] at hm
              simpa using hm
            subst hm1
            refine ⟨parent, s, ?_, ?_, ?_, ?_, ?_⟩
            · rw [hm0r]; exact hcur
            · rw [← hm0]; exact hres
            · rw [← hm0]
            · intro he
              rcases hpar with ⟨-, h3, -⟩ | ⟨p, js'', rfl, -, -⟩
              · exact h3
              · have := hdrop.enclosing_some hlev (by simp at hl; omega)
                rw [he] at this; cases this
            · intro p he
              rcases hpar with ⟨rfl, -, -⟩ | ⟨p', js'', rfl, rfl, -⟩
              · have : enclosing (levelsOf all) pre.length = none := by
                  apply enclosing_eq_none hlev
                  intro j l hj hjl
                  have := hb j l hj hjl
                  simp at hl; omega
                rw [he] at this; cases this
              · have := hdrop.enclosing_some hlev (by simp at hl; omega)
                rw [he] at this; injection this with this; subst this
                have hpl := hidx p (by simp)
                obtain ⟨mp, hmp⟩ : ∃ mp, ms[p]? = some mp :=
                  ⟨ms[p], by simp [List.getElem?_eq_getElem (show p < ms.length by omega)]⟩
                refine ⟨hpl, mp, ?_, ?_, ?_⟩
                · rw [List.append_assoc, List.getElem?_append_left (by omega)]; exact hmp
                · simp [frameOf, hmp]
                · simp [frameOf, hmp]
          · have e : (pre ++ [r]).length = pre.length + 1 := by simp
            have := ih (pre ++ [r]) (ms ++ [m0]) (pre.length :: js') (by simp [hall]) (by simp [hms, hm0r])
              (by
                intro k l hk hkl
                rw [e] at hk
                by_cases hkp : k = pre.length
                · subst hkp; rw [hlev] at hkl; injection hkl; omega
                · exact hb k l (by omega) hkl)
              (by
                rw [e]
                refine ⟨hdrop.mono hlev (by omega), by omega, by rw [hlev, hl], ?_⟩
                intro k l h3 h4; omega)
              i m (by rw [e]; omega)
            rw [e] at this
            exact this hm

theorem GoodModel.parentOf {rd : ModelReader κ} {all : List Record} {out : List (PModel κ)} {i : Nat}
    {m : PModel κ} {parent : PFrame κ} {rest : Bytes} (h : GoodModel rd all out i m parent rest) :
    parent.model = parentOf all out i := by
  unfold Spec.parentOf
  cases he : enclosing (levelsOf all) i with
  | none => rw [h.top he]; rfl
  | some p =>
    obtain ⟨-, mp, h1, h2, -⟩ := h.inside p he
    simp [h1, h2]

/-- Every model of the output, with its parent. -/
theorem parseModels_good (rd : ModelReader κ) (rs : Gen Record) (i : Nat) (m : PModel κ)
    (h : (parseModels rd rs).out[i]? = some m) :
    ∃ parent s, GoodModel rd rs.out (parseModels rd rs).out i m parent s := by
  unfold parseModels at *
  cases hrs : rs.out with
  | nil => rw [hrs] at h; simp [parseModelsGo] at h
  | cons r l =>
    rw [hrs, parseModelsGo_start] at h
    rw [parseModelsGo_start]
    have := go_spec rd rs.err (r :: l) r.level (r :: l) [] [] [] rfl rfl (by simp) trivial i m (by simp)
    simp only [List.nil_append, List.map_nil] at this
    exact this h

/-! ### Content -/

theorem lookup_mem {α : Type} [BEq α] [LawfulBEq α] {l : List (α × String)} {n : α} {s : String}
    (hl : l.lookup n = some s) : (n, s) ∈ l := by
  induction l with
  | nil => simp at hl
  | cons a l ih =>
    obtain ⟨k, v⟩ := a
    rw [List.lookup_cons] at hl
    split at hl
    · rename_i he; simp at he hl; subst he hl; simp
    · exact List.mem_cons_of_mem _ (ih hl)

theorem lookup_mem_snd {α : Type} [BEq α] [LawfulBEq α] {l : List (α × String)} {n : α} {s : String}
    (hl : l.lookup n = some s) : s ∈ l.map (·.2) :=
  List.mem_map_of_mem (lookup_mem hl)

/-- The two cases of a successful resolution. -/
theorem resolveModel_ok {rd : ModelReader κ} {parent : PFrame κ} {r : Record} {t : String} {c : κ} {s : Bytes}
    (h : resolveModel rd parent r = .ok (t, c, s)) :
    ∃ c0 s0, rd.read parent.model (baseType r.tagid) r.payload = .ok (c0, s0) ∧
      ((extensionOf rd (baseType r.tagid) parent c0 = .ok none ∧ t = baseType r.tagid ∧ c = c0 ∧ s = s0) ∨
       (extensionOf rd (baseType r.tagid) parent c0 = .ok (some t) ∧
        readClasses rd parent c0 s0 (extensionMro t (baseType r.tagid)) = .ok (c, s))) := by
  unfold resolveModel at h
  simp only [bind, Except.bind, pure, Except.pure] at h
  split at h
  · cases h
  · rename_i v hv
    obtain ⟨c0, s0⟩ := v
    refine ⟨c0, s0, hv, ?_⟩
    split at h
    · cases h
    · rename_i o ho
      split at h
      · injection h with h; injection h with h1 h2; injection h2 with h2 h3
        left; exact ⟨ho, h1.symm, h2.symm, h3.symm⟩
      · rename_i ext
        split at h
        · cases h
        · rename_i v2 hv2
          injection h with h; injection h with h1 h2; injection h2 with h2 h3
          subst h1
          right
          exact ⟨ho, by rw [hv2, ← h2, ← h3]⟩

theorem readClasses_reads {rd : ModelReader κ} {parent : PFrame κ} (cs : List String) : ∀ {pre : List String} {p : Bytes} {c0 : κ}
    {s0 : Bytes} {c : κ} {s : Bytes}, Reads (rd.read parent.model) rd.update pre p c0 s0 →
    readClasses rd parent c0 s0 cs = .ok (c, s) → Reads (rd.read parent.model) rd.update (pre ++ cs) p c s := by
  induction cs with
  | nil =>
    intro pre p c0 s0 c s h1 h2
    simp only [readClasses] at h2
    injection h2 with h2; injection h2 with h2 h3; subst h2 h3
    simpa using h1
  | cons a cs ih =>
    intro pre p c0 s0 c s h1 h2
    simp only [readClasses, bind, Except.bind] at h2
    split at h2
    · cases h2
    · rename_i v hv
      have := ih (h1.snoc hv) h2
      simpa using this

/-- An extension is registered for the class of the tag. -/
theorem extensionOf_some {rd : ModelReader κ} {base : String} {parent : PFrame κ} {c : κ} {t : String}
    (h : extensionOf rd base parent c = .ok (some t)) :
    (base = "Control" ∧ t ∈ controlModels.map (·.2)) ∨
    (base = "ListHeader" ∧ t ∈ listHeaderModels.map (·.2)) ∨
    (base = "ControlData" ∧ t ∈ controlDataModels.map (·.2)) := by
  unfold extensionOf at h
  simp only [bind, Except.bind, pure, Except.pure] at h
  split at h
  · split at h
    · cases h
    · injection h with h; left; exact ⟨by assumption, lookup_mem_snd h⟩
  · split at h
    · split at h
      · cases h
      · injection h with h; right; left; exact ⟨by assumption, lookup_mem_snd h⟩
    · split at h
      · split at h
        · cases h
        · injection h with h; right; right; exact ⟨by assumption, lookup_mem_snd h⟩
      · cases h

theorem extensionMro_control : ∀ t ∈ controlModels.map (·.2),
    "Control" :: extensionMro t "Control" = memberClasses t := by
  decide +kernel

theorem extensionMro_list : ∀ t ∈ listHeaderModels.map (·.2),
    "ListHeader" :: extensionMro t "ListHeader" = memberClasses t := by
  decide +kernel

theorem extensionMro_data : ∀ t ∈ controlDataModels.map (·.2),
    "ControlData" :: extensionMro t "ControlData" = memberClasses t := by
  decide +kernel

theorem memberClasses_base (n : Nat) : memberClasses (baseType n) = [baseType n] := by
  have h : ∀ t ∈ "UnknownTagModel" :: tagModels.map (·.2), memberClasses t = [t] := by decide +kernel
  apply h
  unfold baseType
  cases hl : tagModels.lookup n with
  | none => simp
  | some t => exact List.mem_cons_of_mem _ (lookup_mem_snd hl)

theorem resolveModel_reads {rd : ModelReader κ} {parent : PFrame κ} {r : Record} {t : String} {c : κ} {s : Bytes}
    (h : resolveModel rd parent r = .ok (t, c, s)) :
    Reads (rd.read parent.model) rd.update (memberClasses t) r.payload c s := by
  obtain ⟨c0, s0, h1, h2⟩ := resolveModel_ok h
  rcases h2 with ⟨-, rfl, rfl, rfl⟩ | ⟨h2, h3⟩
  · rw [memberClasses_base]; exact .one h1
  · have := readClasses_reads _ (Reads.one (update := rd.update) h1) h3
    rcases extensionOf_some h2 with ⟨hb, hm⟩ | ⟨hb, hm⟩ | ⟨hb, hm⟩
    · rw [← extensionMro_control t hm]; rw [hb] at this; exact this
    · rw [← extensionMro_list t hm]; rw [hb] at this; exact this
    · rw [← extensionMro_data t hm]; rw [hb] at this; exact this

/-! ### Order -/

theorem parseModelsGo_prefix (rd : ModelReader κ) (err : Option PyErr) (rs : List Record) :
    ∀ (base : Option Int) (st : List (PFrame κ)),
      (parseModelsGo rd err base st rs).out.map (·.record) <+: rs ∧
      ((parseModelsGo rd err base st rs).err = none →
        (parseModelsGo rd err base st rs).out.map (·.record) = rs ∧ err = none) := by
  induction rs with
  | nil => intro base st; simp [parseModelsGo]
  | cons r rs ih =>
    intro base st
    rw [parseModelsGo]
    split
    · simp [Gen.raise]
    · split
      · simp [Gen.raise]
      · split
        · split
          · simp [Gen.raise]
          · split
            · simp [Gen.raise]
            · obtain ⟨h1, h2⟩ := ih _ _
              refine ⟨?_, ?_⟩
              · simp only [Gen.cons, List.map_cons]
                exact (List.prefix_cons_inj _).mpr h1
              · intro h
                obtain ⟨h3, h4⟩ := h2 h
                exact ⟨by simp [Gen.cons, h3], h4⟩
        · simp [Gen.raise]

/-! ### Groups -/

/-- Continue with `k` where the generator ends. -/
def Gen.seqThen {α} (g : Gen α) (k : Gen α) : Gen α :=
  match g.err with
  | none => .prepend g.out k
  | some e => ⟨g.out, some e⟩

theorem Gen.seqThen_cons {α} (a : α) (g k : Gen α) : (Gen.cons a g).seqThen k = .cons a (g.seqThen k) := by
  unfold Gen.seqThen Gen.cons
  dsimp only
  split <;> simp [Gen.prepend]

theorem popTo_root {st : List (PFrame κ)} : (popTo 1 (st ++ [rootFrame])).2 = .ok [rootFrame] := by
  induction st with
  | nil => simp [popTo]
  | cons a st ih =>
    simp only [List.cons_append, popTo]
    rw [if_pos (by simp; omega)]
    exact ih

/-- At a record of level 0 everything but the root has been forgotten. -/
theorem parseModelsGo_restart (rd : ModelReader κ) (err : Option PyErr) (st : List (PFrame κ)) (r : Record)
    (rs : List Record) (h : r.level = 0) :
    parseModelsGo rd err (some 0) (st ++ [rootFrame]) (r :: rs) =
      parseModelsGo rd err none [rootFrame] (r :: rs) := by
  rw [parseModelsGo_start, parseModelsGo, parseModelsGo]
  have e1 := popTo_root (st := st)
  have e2 := popTo_root (κ := κ) (st := [])
  simp only [List.nil_append] at e2
  simp only [relLevel, h, Int.sub_self, Int.ofNat_zero, Int.zero_add, Int.natCast_zero]
  generalize popTo 1 (st ++ [rootFrame]) = p at *
  generalize popTo 1 [rootFrame] = q at *
  obtain ⟨p1, p2⟩ := p
  obtain ⟨q1, q2⟩ := q
  subst e1 e2
  rfl

theorem parseModelsGo_append (rd : ModelReader κ) (err : Option PyErr) (r : Record) (rest : List Record)
    (h : r.level = 0) (g : List Record) : ∀ (st : List (PFrame κ)),
    parseModelsGo rd err (some 0) (st ++ [rootFrame]) (g ++ r :: rest) =
      (parseModelsGo rd none (some 0) (st ++ [rootFrame]) g).seqThen
        (parseModelsGo rd err none [rootFrame] (r :: rest)) := by
  induction g with
  | nil =>
    intro st
    rw [List.nil_append, parseModelsGo_restart rd err st r rest h]
    rw [parseModelsGo.eq_def rd none]
    simp [Gen.seqThen, Gen.prepend]
  | cons a g ih =>
    intro st
    rw [List.cons_append, parseModelsGo, parseModelsGo.eq_def rd none]
    simp only
    generalize hst : popTo ((relLevel (some 0) (a.level : Int)).1 + 1) (st ++ [rootFrame]) = pt
    obtain ⟨evs, res⟩ := pt
    cases res with
    | error e => simp [Gen.seqThen, Gen.raise]
    | ok st' =>
      simp only
      split
      · simp [Gen.seqThen, Gen.raise]
      · split
        · cases st' with
          | nil => simp [Gen.seqThen, Gen.raise]
          | cons parent st' =>
            simp only
            cases hres : resolveModel rd parent a with
            | error e => simp [Gen.seqThen, Gen.raise]
            | ok v =>
              obtain ⟨type, content, s⟩ := v
              simp only [Gen.seqThen_cons]
              congr 1
              obtain ⟨n, hn, -⟩ := popTo_ok (by rw [hst]) (List.cons_ne_nil parent st')
              have : ∃ st2, (⟨some (type, content), false⟩ : PFrame κ) :: onChild parent type :: st' =
                  st2 ++ [rootFrame] := by
                cases hd : st.drop n with
                | nil =>
                  rw [hd] at hn; simp at hn
                  exact ⟨[⟨some (type, content), false⟩], by rw [hn.1, hn.2]; simp [onChild, rootFrame, PFrame.type]⟩
                | cons p st2 =>
                  rw [hd] at hn; simp at hn
                  exact ⟨⟨some (type, content), false⟩ :: onChild parent type :: st2, by rw [hn.2]; simp⟩
              obtain ⟨st2, h2⟩ := this
              rw [h2]
              exact ih st2
        · simp [Gen.seqThen, Gen.raise]

theorem chainModels_cons (rd : ModelReader κ) (err : Option PyErr) (g : List Record) (gs : List (List Record)) :
    chainModels rd err (g :: gs) = (parseModels rd (.ofList g)).seqThen (chainModels rd err gs) := by
  rw [chainModels]
  unfold Gen.seqThen
  generalize parseModels rd (.ofList g) = p
  obtain ⟨out, _ | e⟩ := p <;> rfl

theorem Gen.seqThen_done {α} (g : Gen α) : g.seqThen ⟨[], none⟩ = g := by
  obtain ⟨out, _ | e⟩ := g <;> simp [Gen.seqThen, Gen.prepend]

theorem chain_groups (rd : ModelReader κ) (k : Nat) : ∀ (t : Record) (rs : List Record),
    rs.length = k → t.level = 0 →
    chainModels rd none (groupLoop t rs none).out = parseModelsGo rd none none [rootFrame] (t :: rs) := by
  induction k using Nat.strongRecOn with
  | ind k ih =>
    intro t rs hk ht
    rw [groupLoop_eq]
    obtain ⟨-, h2⟩ := takeTree_spec rs
    rcases htt : takeTree rs with ⟨g, _ | ⟨t', rest⟩⟩
    · rw [htt] at h2
      simp only at h2
      subst h2
      simp only [Gen.cons, Gen.done]
      rw [chainModels_cons]
      simp only [chainModels, Gen.seqThen_done]
      rfl
    · rw [htt] at h2
      simp only at h2
      obtain ⟨h3, h4⟩ := h2
      simp only [Gen.cons]
      rw [chainModels_cons]
      have hlt : rest.length < k := by rw [← hk, h4]; simp; omega
      rw [ih rest.length hlt t' rest rfl h3, h4]
      have := parseModelsGo_append rd none t' rest h3 (t :: g) []
      simp only [List.nil_append, List.cons_append] at this
      rw [parseModelsGo_start (r := t), ht]
      simp only [Int.ofNat_zero, Int.natCast_zero]
      rw [this]
      simp only [parseModels, Gen.ofList]
      congr 1
      show parseModelsGo rd none none [rootFrame] (t :: g) = _
      rw [parseModelsGo_start, ht]
      rfl

theorem chain_parts (rd : ModelReader κ) (gs : List (List Record)) (h : (chainModels rd none gs).err = none) :
    (chainModels rd none gs).out = (gs.map fun g => (parseModels rd (.ofList g)).out).flatten ∧
    ∀ g ∈ gs, (parseModels rd (.ofList g)).err = none := by
  induction gs with
  | nil => simp [chainModels]
  | cons g gs ih =>
    rw [chainModels_cons] at h ⊢
    unfold Gen.seqThen at h ⊢
    cases hp : (parseModels rd (.ofList g)).err with
    | some e => rw [hp] at h; simp at h
    | none =>
      rw [hp] at h
      simp only [Gen.prepend] at h ⊢
      obtain ⟨h1, h2⟩ := ih h
      refine ⟨by simp [h1], ?_⟩
      intro g' hg'
      simp only [List.mem_cons] at hg'
      rcases hg' with rfl | hg'
      · exact hp
      · exact h2 g' hg'

end Hwp
