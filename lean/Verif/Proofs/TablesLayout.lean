/-
Tables whose cells fill a grid are laid out as they are declared.
-/
import Verif.Spec.Tables
set_option autoImplicit false
set_option linter.unusedSimpArgs false
set_option linter.unusedVariables false
namespace Hwp
open Spec

theorem le_foldr_max (l : List Nat) : ∀ x ∈ l, x ≤ l.foldr max 0 := by
  induction l with
  | nil => simp
  | cons a l ih =>
    intro x hx
    rcases List.mem_cons.1 hx with rfl | hx
    · exact Nat.le_max_left _ _
    · exact Nat.le_trans (ih x hx) (Nat.le_max_right _ _)

theorem find_range' (p : Nat → Bool) : ∀ (n x k : Nat), x ≤ k → k < x + n → p k = true → (∀ j, x ≤ j → j < k → p j = false) →
    (List.range' x n).find? p = some k := by
  intro n
  induction n with
  | zero => intro x k h1 h2; omega
  | succ n ih =>
    intro x k h1 h2 h3 h4
    rw [List.range'_succ, List.find?_cons]
    by_cases e : x = k
    · subst e; rw [h3]
    · rw [h4 x (Nat.le_refl _) (by omega)]
      exact ih (x + 1) k (by omega) (by omega) h3 fun j hj hk => h4 j (by omega) hk

/-- The first free slot is found. -/
theorem firstFree_eq (placed : List CellAt) (y x k : Nat) (h1 : x ≤ k) (h2 : ∀ c ∈ placed, ¬ c.covers y k)
    (h3 : ∀ j, x ≤ j → j < k → ∃ c ∈ placed, c.covers y j) : firstFree placed y x = k := by
  have hk : k < x + ((placed.map fun c => c.col + c.colspan).foldr max 0 + 1) := by
    by_cases e : x = k
    · omega
    · obtain ⟨c, hc, h⟩ := h3 (k - 1) (by omega) (by omega)
      have := le_foldr_max (placed.map fun c => c.col + c.colspan) (c.col + c.colspan) (List.mem_map_of_mem (f := fun c : CellAt => c.col + c.colspan) hc)
      have := h.2.2.2
      omega
  unfold firstFree
  simp only
  rw [find_range' _ _ x k h1 hk ?_ ?_]
  · rfl
  · simpa using h2
  · intro j hj hjk
    obtain ⟨c, hc, h⟩ := h3 j hj hjk
    simp only [List.all_eq_false]
    exact ⟨c, hc, by simpa using h⟩

variable {R C : Nat} {cells : List CellAt}

theorem htmlRow_eq (hf : FillsGrid R C cells) (ho : ReadingOrder cells) (hr : ∀ c ∈ cells, c.rowspan ≤ 65534) (hc : ∀ c ∈ cells, c.colspan ≤ 1000) (y : Nat) :
    ∀ (row pre post : List CellAt) (x : Nat), cells = pre ++ row ++ post → (∀ c ∈ row, c.row = y) →
    (∀ c rest, row = c :: rest → x ≤ c.col) →
    htmlRow R pre y x (row.map fun c => (c.rowspan, c.colspan)) = pre ++ row := by
  intro row
  induction row with
  | nil => intro pre post x _ _ _; simp [htmlRow]
  | cons c row ih =>
    intro pre post x he hy hx
    have hmem : c ∈ cells := by simp [he]
    obtain ⟨i1, i2, i3, i4⟩ := hf.inside c hmem
    have hcy : c.row = y := hy c (by simp)
    have hap : ∀ d ∈ pre, ∀ i j, ¬ (d.covers i j ∧ c.covers i j) := by
      intro d hd
      have := hf.apart
      rw [he, List.append_assoc, List.pairwise_append] at this
      exact this.2.2 d hd c (by simp)
    have hself : c.covers y c.col := ⟨by omega, by omega, by omega, by omega⟩
    have hcol : firstFree pre y x = c.col := by
      refine firstFree_eq _ _ _ _ (hx c row rfl) (fun d hd h => hap d hd _ _ ⟨h, hself⟩) ?_
      intro j h1 h2
      obtain ⟨d, hd, hcov⟩ := hf.full y (by omega) j (by omega)
      rw [he] at hd
      simp only [List.append_assoc, List.mem_append, List.cons_append, List.mem_cons] at hd
      rcases hd with hd | hd
      · exact ⟨d, hd, hcov⟩
      · exfalso
        have hlt : d = c ∨ (c.row < d.row ∨ (c.row = d.row ∧ c.col < d.col)) := by
          rcases hd with rfl | hd
          · exact .inl rfl
          · right
            have := ho
            unfold ReadingOrder at this
            rw [he, List.append_assoc, List.pairwise_append, List.cons_append, List.pairwise_cons] at this
            exact this.2.1.1 d (by simpa using hd)
        obtain ⟨g1, g2, g3, g4⟩ := hcov
        rcases hlt with rfl | h | h <;> omega
    have h1 := hr c hmem
    have h2 := hc c hmem
    have e1 : (if c.colspan = 0 then 1 else min c.colspan 1000) = c.colspan := by rw [if_neg (by omega)]; omega
    have e2 : (if c.rowspan = 0 then R - y else min (min c.rowspan 65534) (R - y)) = c.rowspan := by rw [if_neg (by omega)]; omega
    simp only [List.map_cons, htmlRow, hcol, e1, e2]
    have hceq : (⟨y, c.col, c.rowspan, c.colspan⟩ : CellAt) = c := by rw [← hcy]
    rw [hceq, ih (pre ++ [c]) post _ (by simp [he]) (fun d hd => hy d (by simp [hd])) ?_]
    · simp
    · intro d rest hd
      have hdy : d.row = y := hy d (by simp [hd])
      have hdm : d ∈ cells := by simp [he, hd]
      have hord : c.col < d.col := by
        have := ho
        unfold ReadingOrder at this
        rw [he, List.append_assoc, List.pairwise_append, List.cons_append, List.pairwise_cons] at this
        rcases this.2.1.1 d (by simp [hd]) with h | h <;> omega
      have hcd : ∀ i j, ¬ (c.covers i j ∧ d.covers i j) := by
        have := hf.apart
        rw [he, List.append_assoc, List.pairwise_append, List.cons_append, List.pairwise_cons] at this
        exact this.2.1.1 d (by simp [hd])
      obtain ⟨j1, j2, -, -⟩ := hf.inside d hdm
      have := hcd y d.col
      unfold CellAt.covers at this
      omega

theorem htmlRows_eq (hf : FillsGrid R C cells) (ho : ReadingOrder cells) (hr : ∀ c ∈ cells, c.rowspan ≤ 65534) (hc : ∀ c ∈ cells, c.colspan ≤ 1000) :
    ∀ (rows : List (List CellAt)) (pre : List CellAt) (y : Nat), cells = pre ++ rows.flatten →
    (∀ i row, rows[i]? = some row → ∀ c ∈ row, c.row = y + i) →
    htmlRows R pre y (rows.map fun r => r.map fun c => (c.rowspan, c.colspan)) = pre ++ rows.flatten := by
  intro rows
  induction rows with
  | nil => intro pre y _ _; simp [htmlRows]
  | cons row rows ih =>
    intro pre y he hy
    simp only [List.map_cons, htmlRows]
    rw [htmlRow_eq hf ho hr hc y row pre rows.flatten 0 (by simp [he]) (hy 0 row rfl) (fun _ _ _ => Nat.zero_le _)]
    rw [ih (pre ++ row) (y + 1) (by simp [he]) ?_]
    · simp
    · intro i r h c hc
      have := hy (i + 1) r (by simpa using h) c hc
      omega

/-- A browser shows a table as it is declared. -/
theorem htmlLayout_eq {cols : Nat} {rows : List (List CellAt)} (h : ProperTable cols rows) (hr : ∀ c ∈ rows.flatten, c.rowspan ≤ 65534)
    (hc : ∀ c ∈ rows.flatten, c.colspan ≤ 1000) : htmlLayout (rows.map fun r => r.map fun c => (c.rowspan, c.colspan)) = rows.flatten := by
  unfold htmlLayout
  rw [List.length_map, htmlRows_eq h.fills h.order hr hc rows [] 0 (by simp) (by simpa using h.inRow)]
  simp

/-- An office program shows a table without spans as it is declared. -/
theorem odfLayout_eq {cols : Nat} {rows : List (List CellAt)} (h : ProperTable cols rows) (hs : ∀ c ∈ rows.flatten, c.rowspan = 1 ∧ c.colspan = 1) :
    odfLayout (rows.map fun r => r.map fun c => (c.rowspan, c.colspan)) = rows.flatten := by
  unfold odfLayout
  congr 1
  apply List.ext_getElem
  · simp
  intro i h1 h2
  simp only [List.getElem_mapIdx, List.getElem_map]
  have hrow := h.inRow i (rows[i]) (List.getElem?_eq_getElem h2)
  have hin : ∀ c ∈ rows[i], c ∈ rows.flatten := fun c hc => List.mem_flatten.2 ⟨_, List.getElem_mem h2, hc⟩
  -- the columns of a row are 0, 1, 2 …
  have hcols : ∀ j (hj : j < rows[i].length), (rows[i])[j].col = j := by
    have hsorted : (rows[i]).Pairwise fun a b => a.col < b.col := by
      have := h.order
      unfold ReadingOrder at this
      rw [List.pairwise_flatten] at this
      refine List.Pairwise.imp_of_mem ?_ (this.1 _ (List.getElem_mem h2))
      intro a b ha hb hab
      have := hrow a ha
      have := hrow b hb
      omega
    have hall : ∀ k, k < cols → ∃ c ∈ rows[i], c.col = k := by
      intro k hk
      obtain ⟨c, hc, g1, g2, g3, g4⟩ := h.fills.full i h2 k hk
      have h11 := hs c hc
      obtain ⟨r, hr, hcr⟩ := List.mem_flatten.1 hc
      obtain ⟨i', hi', rfl⟩ := List.mem_iff_getElem.1 hr
      have := h.inRow i' _ (List.getElem?_eq_getElem hi') c hcr
      have : i' = i := by omega
      subst this
      exact ⟨c, hcr, by omega⟩
    have hlt : ∀ c ∈ rows[i], c.col < cols := by
      intro c hc
      have := h.fills.inside c (hin c hc)
      omega
    intro j hj
    have hmono : ∀ a b (ha : a < rows[i].length) (hb : b < rows[i].length), a < b → (rows[i])[a].col < (rows[i])[b].col :=
      fun a b ha hb hab => List.pairwise_iff_getElem.1 hsorted a b ha hb hab
    induction j using Nat.strongRecOn with
    | _ j ih =>
      have hge : j ≤ (rows[i])[j].col := by
        cases j with
        | zero => omega
        | succ j =>
          have := ih j (by omega) (by omega)
          have := hmono j (j + 1) (by omega) hj (by omega)
          omega
      by_cases e : (rows[i])[j].col = j
      · exact e
      · exfalso
        obtain ⟨c, hc, hcj⟩ := hall j (by have := hlt _ (List.getElem_mem hj); omega)
        obtain ⟨k, hk, rfl⟩ := List.mem_iff_getElem.1 hc
        rcases Nat.lt_trichotomy k j with hkj | hkj | hkj
        · have := ih k hkj hk; omega
        · subst hkj; exact e hcj
        · have := hmono j k hj hk hkj; omega
  apply List.ext_getElem
  · simp
  intro j g1 g2
  simp only [List.getElem_mapIdx, List.getElem_map]
  have e1 := hrow _ (List.getElem_mem g2)
  have e2 := hcols j g2
  generalize (rows[i])[j] = c at e1 e2 ⊢
  rw [← e1]
  cases c
  simp_all

end Hwp
