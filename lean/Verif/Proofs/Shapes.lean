import Verif.Spec.Shapes
import Verif.Proofs.Utf16
set_option linter.unusedSimpArgs false
namespace Hwp
open Spec

variable {α σ : Type}

theorem shapeLoop_spec (ss se : Nat) (shape : σ) (M hi : Nat) (hM : hi ≤ M)
    (cur : RChunk α) (rest : List (RChunk α))
    (h0 : ss ≤ cur.start) (ht : RTiles cur.start hi (cur :: rest))
    (hs : ∀ c ∈ cur :: rest, c.start < M)
    (hc : ∀ c ∈ cur :: rest, (∃ d, c.val = .ctrl d) → ¬ (c.start < se ∧ se < c.stop)) :
    ∃ out fin, shapeLoop ss se shape none cur rest = (out, fin) ∧
      (∀ p ∈ out, ss ≤ p.start ∧ p.start < se ∧ p.stop ≤ se ∧ p.attr.1 = shape) ∧
      ((fin = .ret ∧ Cut (out.map unlabel) (cur :: rest)) ∨
       ∃ cur' rest', fin = .brk cur' rest' ∧ se ≤ cur'.start ∧ RTiles cur'.start hi (cur' :: rest') ∧
        (∀ c ∈ cur' :: rest', c.start < M) ∧
        (∀ c ∈ cur' :: rest', (∃ d, c.val = .ctrl d) → c ∈ cur :: rest) ∧
        ∀ ps, Cut ps (cur' :: rest') → Cut (out.map unlabel ++ ps) (cur :: rest)) := by
  fun_induction shapeLoop ss se shape none cur rest with
  | case1 cur rest h => omega
  | case2 cur rest h1 h2 =>
    exact ⟨_, _, rfl, by simp, .inr ⟨cur, rest, rfl, h2, ht, hs, fun c hc _ => hc, fun ps h => h⟩⟩
  | case3 cur rest h1 h2 h3 e he =>
    exfalso
    cases hv : cur.val with
    | text s => rw [hv] at he; simp [ChunkVal.cut] at he
    | ctrl d => exact hc cur (by simp) ⟨d, hv⟩ ⟨by omega, h3⟩
  | case4 cur rest h1 h2 h3 a b he r ih =>
    have hrec : shapeLoop ss se shape none ⟨se, cur.stop, cur.attr, b⟩ rest = r := rfl
    clear_value r
    obtain ⟨cs, ce, attr, val⟩ := cur
    simp only at *
    cases val with
    | ctrl d => simp [ChunkVal.cut] at he
    | text s =>
      simp [ChunkVal.cut] at he
      obtain ⟨rfl, rfl⟩ := he
      obtain ⟨_, ht2, ht3⟩ := ht
      have hce : ce ≤ hi := by
        have : ∀ (l : List (RChunk α)) (lo : Nat), RTiles lo hi l → lo ≤ hi := by
          intro l
          induction l with
          | nil => intro lo h; exact Nat.le_of_eq h
          | cons c l ih => intro lo h; exact Nat.le_trans h.2.1 (ih _ h.2.2)
        exact this rest ce ht3
      obtain ⟨out, fin, e1, e2, e3⟩ := ih (by omega) ⟨rfl, by dsimp only; omega, ht3⟩
        (by
          intro c hc'
          rcases List.mem_cons.1 hc' with rfl | hc'
          · dsimp only; omega
          · exact hs c (by simp [hc']))
        (by
          intro c hc' hd
          rcases List.mem_cons.1 hc' with rfl | hc'
          · obtain ⟨d, hd⟩ := hd; cases hd
          · exact hc c (by simp [hc']) hd)
      have hout := hrec.symm.trans e1
      have hlt : cs < se := Nat.lt_of_not_le h2
      rw [hout]
      refine ⟨_, _, rfl, ?_, ?_⟩
      · intro p hp
        rcases List.mem_cons.1 hp with rfl | hp
        · exact ⟨h0, by dsimp only; omega, Nat.le_refl _, rfl⟩
        · exact e2 p hp
      · rcases e3 with ⟨rfl, e3⟩ | ⟨cur', rest', rfl, f1, f2, f3, f4, f5⟩
        · left
          refine ⟨rfl, ?_⟩
          exact Cut.cut hlt h3 e3
        · right
          refine ⟨cur', rest', rfl, f1, f2, f3, ?_, ?_⟩
          · intro c hc' hd
            rcases List.mem_cons.1 (f4 c hc' hd) with rfl | h
            · obtain ⟨d, hd⟩ := hd; cases hd
            · simp [h]
          · intro ps hps
            exact Cut.cut hlt h3 (f5 ps hps)
  | case5 cur h1 h2 h3 piece c rest' r ih =>
    have hrec : shapeLoop ss se shape none c rest' = r := rfl
    clear_value r
    obtain ⟨ht1, ht2, ht3⟩ := ht
    have hcs : c.start = cur.stop := ht3.1
    obtain ⟨out, fin, e1, e2, e3⟩ := ih (by omega) (by rw [hcs]; exact ht3)
      (fun c hc' => hs c (by simp [List.mem_cons.1 hc']))
      (fun c hc' hd => hc c (by simp [List.mem_cons.1 hc']) hd)
    have hout := hrec.symm.trans e1
    rw [hout]
    refine ⟨_, _, rfl, ?_, ?_⟩
    · intro p hp
      rcases List.mem_cons.1 hp with rfl | hp
      · exact ⟨h0, by simp only [piece]; omega, by simp only [piece]; omega, rfl⟩
      · exact e2 p hp
    · rcases e3 with ⟨rfl, e3⟩ | ⟨cur', rest', rfl, f1, f2, f3, f4, f5⟩
      · left; exact ⟨rfl, Cut.keep e3⟩
      · right
        refine ⟨cur', rest', rfl, f1, f2, f3, ?_, ?_⟩
        · intro c hc' hd
          simp [List.mem_cons.1 (f4 c hc' hd)]
        · intro ps hps; exact Cut.keep (f5 ps hps)
  | case6 cur h1 h2 h3 piece =>
    refine ⟨_, _, rfl, ?_, .inl ⟨rfl, Cut.keep Cut.nil⟩⟩
    intro p hp
    simp at hp; subst hp
    exact ⟨h0, by simp only [piece]; omega, by simp only [piece]; omega, rfl⟩
  | case7 cur h1 h2 h3 piece e he => cases he

theorem ascending_tail {a : Nat × σ} {t : List (Nat × σ)} (h : Ascending (a :: t)) : Ascending t := by
  cases t with
  | nil => trivial
  | cons b t => exact h.2

theorem ascending_le {a : Nat × σ} {t : List (Nat × σ)} (h : Ascending (a :: t)) :
    ∀ p ∈ t, a.1 ≤ p.1 := by
  induction t generalizing a with
  | nil => simp
  | cons b t ih =>
    intro p hp
    rcases List.mem_cons.1 hp with rfl | hp
    · exact h.1
    · exact Nat.le_trans h.1 (ih h.2 p hp)

theorem ascending_append {pre t : List (Nat × σ)} {a : Nat × σ} (h : Ascending (pre ++ a :: t)) :
    (∀ p ∈ pre, p.1 ≤ a.1) ∧ Ascending (a :: t) := by
  induction pre with
  | nil => exact ⟨by simp, h⟩
  | cons b pre ih =>
    have := ih (ascending_tail h)
    refine ⟨?_, this.2⟩
    intro p hp
    rcases List.mem_cons.1 hp with rfl | hp
    · exact ascending_le h a (by simp)
    · exact this.1 p hp

theorem shapeAt_between {pre t : List (Nat × σ)} {a : Nat × σ} (h : Ascending (pre ++ a :: t))
    {x : Nat} (h1 : a.1 ≤ x) (h2 : ∀ b ∈ t.head?, x < b.1) :
    shapeAt (pre ++ a :: t) x = some a.2 := by
  obtain ⟨hp, ha⟩ := ascending_append h
  have ht : t.filter (fun p => decide (p.1 ≤ x)) = [] := by
    apply List.filter_eq_nil_iff.2
    intro p hpm
    cases t with
    | nil => simp at hpm
    | cons b t =>
      have := h2 b rfl
      rcases List.mem_cons.1 hpm with rfl | hpm
      · simp; omega
      · have := ascending_le ha.2 p hpm
        simp; omega
  unfold shapeAt
  rw [List.filter_append, List.filter_cons]
  simp [ht, h1]

theorem shapesLoop_spec (M : Nat) (hMe : M = 0x7fffffff) (hi : Nat) (hM : hi ≤ M)
    (shapes : List (Nat × σ)) : ∀ (pre : List (Nat × σ)) (last : Nat × σ)
    (cur : RChunk α) (rest : List (RChunk α)),
    Ascending (pre ++ last :: shapes) → last.1 ≤ cur.start →
    RTiles cur.start hi (cur :: rest) → (∀ c ∈ cur :: rest, c.start < M) →
    CtrlsUncut (last :: shapes) (cur :: rest) →
    ∃ out, shapesLoop none cur rest none (makeRangedShapesGo last shapes) = ⟨out, none⟩ ∧
      Cut (out.map unlabel) (cur :: rest) ∧
      ∀ p ∈ out, ∀ x, (x = p.start ∨ (p.start ≤ x ∧ x < p.stop)) →
        shapeAt (pre ++ last :: shapes) x = some p.attr.1 := by
  induction shapes with
  | nil =>
    intro pre last cur rest hasc h0 ht hs hc
    have hcM : ∀ c ∈ cur :: rest, c.stop ≤ M := by
      have : ∀ (l : List (RChunk α)) (lo : Nat), RTiles lo hi l → lo ≤ hi ∧ ∀ c ∈ l, c.stop ≤ hi := by
        intro l
        induction l with
        | nil => intro lo h; exact ⟨Nat.le_of_eq h, by simp⟩
        | cons c l ih =>
          intro lo h
          obtain ⟨h1, h2⟩ := ih _ h.2.2
          refine ⟨Nat.le_trans h.2.1 h1, ?_⟩
          intro c' hc'
          rcases List.mem_cons.1 hc' with rfl | hc'
          · exact h1
          · exact h2 c' hc'
      intro c hc'
      exact Nat.le_trans ((this _ _ ht).2 c hc') hM
    obtain ⟨out, fin, e1, e2, e3⟩ := shapeLoop_spec last.1 M last.2 M hi hM cur rest h0 ht hs
      (fun c hc' hd h => by have := hcM c hc'; omega)
    simp only [makeRangedShapesGo, shapesLoop]
    rw [← hMe, e1]
    rcases e3 with ⟨rfl, e3⟩ | ⟨cur', rest', rfl, f1, f2, f3, f4, f5⟩
    · refine ⟨out, rfl, e3, ?_⟩
      intro p hp x hx
      obtain ⟨g1, g2, g3, g4⟩ := e2 p hp
      rw [g4]
      exact shapeAt_between hasc (by omega) (by simp)
    · exfalso
      have := f3 cur' (by simp)
      omega
  | cons nxt shapes ih =>
    intro pre last cur rest hasc h0 ht hs hc
    obtain ⟨out, fin, e1, e2, e3⟩ := shapeLoop_spec last.1 nxt.1 last.2 M hi hM cur rest h0 ht hs
      (fun c hc' hd h => hc c hc' hd nxt (by simp) h)
    simp only [makeRangedShapesGo, shapesLoop]
    rw [e1]
    have hlab : ∀ p ∈ out, ∀ x, (x = p.start ∨ (p.start ≤ x ∧ x < p.stop)) →
        shapeAt (pre ++ last :: nxt :: shapes) x = some p.attr.1 := by
      intro p hp x hx
      obtain ⟨g1, g2, g3, g4⟩ := e2 p hp
      rw [g4]
      refine shapeAt_between hasc (by omega) ?_
      intro b hb; simp at hb; subst hb; omega
    rcases e3 with ⟨rfl, e3⟩ | ⟨cur', rest', rfl, f1, f2, f3, f4, f5⟩
    · exact ⟨out, rfl, e3, hlab⟩
    · obtain ⟨out2, g1, g2, g3⟩ := ih (pre ++ [last]) nxt cur' rest' (by simpa using hasc) f1 f2 f3
        (fun c hc' hd p hp => hc c (f4 c hc' hd) hd p (by simp [List.mem_cons.1 hp]))
      simp only [List.append_assoc, List.singleton_append] at g3
      simp only
      rw [g1]
      refine ⟨out ++ out2, rfl, ?_, ?_⟩
      · rw [List.map_append]; exact f5 _ g2
      · intro p hp
        rcases List.mem_append.1 hp with hp | hp
        · exact hlab p hp
        · exact g3 p hp

theorem _root_.Hwp.Spec.Cut.tiles {ps cs : List (RChunk α)} (h : Cut ps cs) : ∀ lo hi, RTiles lo hi cs → RTiles lo hi ps := by
  induction h with
  | nil => intro lo hi h; exact h
  | keep _ ih => intro lo hi h; exact ⟨h.1, h.2.1, ih _ _ h.2.2⟩
  | cut h1 h2 _ ih =>
    intro lo hi h
    obtain ⟨e1, e2, e3⟩ := h
    simp only at e1
    subst e1
    exact ⟨rfl, Nat.le_of_lt h1, ih _ _ ⟨rfl, Nat.le_of_lt h2, e3⟩⟩

theorem _root_.Hwp.Spec.Cut.text {ps cs : List (RChunk α)} (h : Cut ps cs) :
    textOf ps = textOf cs ∧ ctrlsOf ps = ctrlsOf cs := by
  induction h with
  | nil => exact ⟨rfl, rfl⟩
  | keep _ ih => simp [textOf, ctrlsOf] at ih ⊢; exact ⟨ih.1, ih.2⟩
  | cut h1 h2 _ ih =>
    simp [textOf, ctrlsOf] at ih ⊢
    refine ⟨?_, ih.2⟩
    rw [ih.1, ← List.append_assoc, List.take_append_drop]

/-- Cutting text whose length is the width of its range keeps that. -/
theorem _root_.Hwp.Spec.Cut.widths {ps cs : List (RChunk α)} (h : Cut ps cs)
    (hw : ∀ c ∈ cs, ∀ s, c.val = .text s → s.length = c.stop - c.start) :
    ∀ c ∈ ps, ∀ s, c.val = .text s → s.length = c.stop - c.start := by
  induction h with
  | nil => exact hw
  | keep _ ih =>
    intro c hc
    rcases List.mem_cons.1 hc with rfl | hc
    · exact hw _ (by simp)
    · exact ih (fun c hc => hw c (by simp [hc])) c hc
  | @cut a b m attr s ps cs h1 h2 _ ih =>
    have hs := hw ⟨a, b, attr, .text s⟩ (by simp) s rfl
    simp only at hs
    intro c hc
    rcases List.mem_cons.1 hc with rfl | hc
    · intro s' hs'; injection hs' with hs'; subst hs'
      rw [List.length_take]; dsimp only; omega
    · refine ih ?_ c hc
      intro c hc
      rcases List.mem_cons.1 hc with rfl | hc
      · intro s' hs'; injection hs' with hs'; subst hs'
        rw [List.length_drop]; dsimp only; omega
      · exact hw c (by simp [hc])

theorem charPositions_bmp (s : List Nat) (h : ∀ c ∈ s, c < 0x10000) (pos : Nat) :
    charPositions pos s = s.mapIdx fun i c => (pos + i, c) := by
  induction s generalizing pos with
  | nil => rfl
  | cons c s ih =>
    have hc : (units c).length = 1 := by simp [units, h c (by simp)]
    rw [charPositions, ih (fun c hc => h c (by simp [hc])), hc, List.mapIdx_cons]
    congr 1
    simp only [Nat.add_assoc, Nat.add_comm 1]

theorem charPositions_append (s t : List Nat) (pos : Nat) :
    charPositions pos (s ++ t) = charPositions pos s ++ charPositions (pos + (strUnits s).length) t := by
  induction s generalizing pos with
  | nil => simp [charPositions, strUnits]
  | cons c s ih =>
    simp only [List.cons_append, charPositions, ih, strUnits_cons, List.length_append, Nat.add_assoc]

theorem strUnits_bmp (s : List Nat) (h : ∀ c ∈ s, c < 0x10000) : (strUnits s).length = s.length := by
  induction s with
  | nil => rfl
  | cons c s ih =>
    have hc : (units c).length = 1 := by simp [units, h c (by simp)]
    rw [strUnits_cons, List.length_append, hc, ih (fun c hc => h c (by simp [hc]))]
    simp; omega

/-- Cutting BMP text keeps the position of every character. -/
theorem _root_.Hwp.Spec.Cut.positions {ps cs : List (RChunk α)} (h : Cut ps cs)
    (hb : ∀ c ∈ cs, ∀ s, c.val = .text s → (∀ x ∈ s, x < 0x10000) ∧ s.length = c.stop - c.start) :
    positionedChars ps = positionedChars cs := by
  induction h with
  | nil => rfl
  | keep _ ih =>
    have := ih (fun c hc => hb c (by simp [hc]))
    simp [positionedChars] at this ⊢
    exact this
  | @cut a b m attr s ps cs h1 h2 _ ih =>
    have hs := hb ⟨a, b, attr, .text s⟩ (by simp) s rfl
    simp only at hs
    have := ih (by
      intro c hc
      rcases List.mem_cons.1 hc with rfl | hc
      · intro s' hs'; injection hs' with hs'; subst hs'
        refine ⟨fun x hx => hs.1 x (List.mem_of_mem_drop hx), ?_⟩
        rw [List.length_drop]; dsimp only; omega
      · exact hb c (by simp [hc]))
    simp only [positionedChars, List.map_cons, List.flatten_cons] at this ⊢
    rw [this, ← List.append_assoc]
    congr 1
    conv => rhs; rw [← List.take_append_drop (m - a) s]
    rw [charPositions_append, strUnits_bmp _ (fun x hx => hs.1 x (List.mem_of_mem_take hx)),
      List.length_take, show a + min (m - a) s.length = m by omega]

end Hwp
