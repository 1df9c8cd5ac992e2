/-
Proofs about lengths.
-/
import Verif.Model.Lengths
import Verif.Spec.Lengths
import Verif.Proofs.Css
import Mathlib.Tactic.Linarith
import Mathlib.Tactic.NormNum
import Mathlib.Tactic.Positivity
import Mathlib.Tactic.FieldSimp
import Mathlib.Tactic.Ring
set_option autoImplicit false
set_option linter.unusedSimpArgs false
set_option linter.unusedVariables false
namespace Hwp
open Spec

/-! ### Double precision numbers -/

theorem nearestEven_close (x : ℚ) : |(nearestEven x : ℚ) - x| ≤ 1 / 2 := by
  have h1 := Int.floor_le x
  have h2 := Int.lt_floor_add_one x
  unfold nearestEven
  split
  · rw [abs_le]; constructor <;> linarith
  · split
    · push_cast; rw [abs_le]; constructor <;> linarith
    · split
      · rw [abs_le]; constructor <;> linarith
      · push_cast; rw [abs_le]; constructor <;> linarith

theorem double_close {x : ℚ} (h : 0 ≤ x) : |double x - x| ≤ x * (1 / 2 ^ 53) := by
  unfold double
  split
  · have : x = 0 := le_antisymm (by assumption) h
    subst this; simp
  · rename_i hx
    have hx : 0 < x := lt_of_not_ge hx
    have hl : (2 : ℚ) ^ Int.log 2 x ≤ x := Int.zpow_log_le_self (by decide) hx
    generalize Int.log 2 x = e at *
    have he : (2 : ℚ) ^ (e - 52) = 2 ^ e / 2 ^ 52 := by
      rw [zpow_sub₀ (by norm_num)]; norm_cast
    have hp : (0 : ℚ) < 2 ^ (e - 52) := zpow_pos (by norm_num) _
    generalize (2 : ℚ) ^ (e - 52) = p at *
    have := nearestEven_close (x / p)
    have e2 : (nearestEven (x / p) : ℚ) * p - x = ((nearestEven (x / p) : ℚ) - x / p) * p := by
      rw [sub_mul, div_mul_cancel₀ _ hp.ne']
    rw [e2, abs_mul, abs_of_pos hp]
    calc _ ≤ 1 / 2 * p := mul_le_mul_of_nonneg_right this hp.le
      _ = 2 ^ e * (1 / 2 ^ 53) := by rw [he]; ring
      _ ≤ _ := mul_le_mul_of_nonneg_right hl (by positivity)

theorem double_le {x y : ℚ} (h : 0 ≤ x) (hy : x ≤ y) : double x ≤ y * (1 + 1 / 2 ^ 53) := by
  have := (abs_le.1 (double_close h)).2
  have : x * (1 / 2 ^ 53) ≤ y * (1 / 2 ^ 53) := mul_le_mul_of_nonneg_right hy (by norm_num)
  linarith

theorem double_ge {x y : ℚ} (h : 0 ≤ x) (hy : y ≤ x) : y * (1 - 1 / 2 ^ 53) ≤ double x := by
  have := (abs_le.1 (double_close h)).1
  have : y * (1 - 1 / 2 ^ 53) ≤ x * (1 - 1 / 2 ^ 53) := mul_le_mul_of_nonneg_right hy (by norm_num)
  linarith

theorem double_nonneg {x : ℚ} (h : 0 ≤ x) : 0 ≤ double x :=
  le_trans (mul_nonneg h (by norm_num)) (double_ge h le_rfl)

/-- Three operations on a number that is not exact. -/
theorem product_bounds {x c : ℚ} (hx : 0 ≤ x) (hc : 0 ≤ c) :
    x * c * 100 * (1 - 1 / 2 ^ 53) ^ 4 ≤ double (double (double x * double c) * 100) ∧
    double (double (double x * double c) * 100) ≤ x * c * 100 * (1 + 1 / 2 ^ 53) ^ 4 := by
  have a1 := double_ge hx le_rfl
  have a2 := double_le hx le_rfl
  have b1 := double_ge hc le_rfl
  have b2 := double_le hc le_rfl
  have n1 := double_nonneg hx
  have n2 := double_nonneg hc
  have m1 : x * (1 - 1 / 2 ^ 53) * (c * (1 - 1 / 2 ^ 53)) ≤ double x * double c :=
    mul_le_mul a1 b1 (mul_nonneg hc (by norm_num)) n1
  have m2 : double x * double c ≤ x * (1 + 1 / 2 ^ 53) * (c * (1 + 1 / 2 ^ 53)) :=
    mul_le_mul a2 b2 n2 (mul_nonneg hx (by norm_num))
  have n3 : 0 ≤ double x * double c := mul_nonneg n1 n2
  have c1 := double_ge n3 m1
  have c2 := double_le n3 m2
  have n4 := double_nonneg n3
  have n5 : 0 ≤ double (double x * double c) * 100 := mul_nonneg n4 (by norm_num)
  have d1 := double_ge n5 (mul_le_mul_of_nonneg_right c1 (by norm_num : (0 : ℚ) ≤ 100))
  have d2 := double_le n5 (mul_le_mul_of_nonneg_right c2 (by norm_num : (0 : ℚ) ≤ 100))
  constructor
  · refine le_trans (le_of_eq ?_) d1; ring
  · refine le_trans d2 (le_of_eq ?_); ring

theorem odt_nearest {n : Nat} (hn : n < 2 ^ 32) :
    3600 * odtHundredths n ≤ 127 * n + 1800 ∧ 127 * (n : ℤ) ≤ 3600 * odtHundredths n + 1800 := by
  have hx : (0 : ℚ) ≤ (n : ℚ) / 7200 := by positivity
  obtain ⟨b1, b2⟩ := product_bounds hx (by norm_num : (0 : ℚ) ≤ 254 / 100)
  unfold odtHundredths
  generalize double (double (double ((n : ℚ) / 7200) * double (254 / 100)) * 100) = r at *
  have f1 := Int.floor_le (r + 1 / 2)
  have f2 := Int.lt_floor_add_one (r + 1 / 2)
  generalize ⌊r + 1 / 2⌋ = k at *
  have hn' : (n : ℚ) ≤ 2 ^ 32 := by exact_mod_cast hn.le
  have h0 : (0 : ℚ) ≤ n := by positivity
  have r1 : r ≤ n * (127 / 3600) + 1 / 7200 := by
    have : (n : ℚ) / 7200 * (254 / 100) * 100 * (1 + 1 / 2 ^ 53) ^ 4 = n * (127 / 3600) + n * (127 / 3600 * ((1 + 1 / 2 ^ 53) ^ 4 - 1)) := by ring
    rw [this] at b2
    have : (n : ℚ) * (127 / 3600 * ((1 + 1 / 2 ^ 53) ^ 4 - 1)) ≤ 2 ^ 32 * (127 / 3600 * ((1 + 1 / 2 ^ 53) ^ 4 - 1)) :=
      mul_le_mul_of_nonneg_right hn' (by norm_num)
    have : (2 : ℚ) ^ 32 * (127 / 3600 * ((1 + 1 / 2 ^ 53) ^ 4 - 1)) ≤ 1 / 7200 := by norm_num
    linarith
  have r2 : n * (127 / 3600) - 1 / 7200 ≤ r := by
    have : (n : ℚ) / 7200 * (254 / 100) * 100 * (1 - 1 / 2 ^ 53) ^ 4 = n * (127 / 3600) - n * (127 / 3600 * (1 - (1 - 1 / 2 ^ 53) ^ 4)) := by ring
    rw [this] at b1
    have : (n : ℚ) * (127 / 3600 * (1 - (1 - 1 / 2 ^ 53) ^ 4)) ≤ 2 ^ 32 * (127 / 3600 * (1 - (1 - 1 / 2 ^ 53) ^ 4)) :=
      mul_le_mul_of_nonneg_right hn' (by norm_num)
    have : (2 : ℚ) ^ 32 * (127 / 3600 * (1 - (1 - 1 / 2 ^ 53) ^ 4)) ≤ 1 / 7200 := by norm_num
    linarith
  constructor
  · have : (3600 * k : ℚ) < 127 * n + 1801 := by linarith
    have : 3600 * k < 127 * (n : ℤ) + 1801 := by exact_mod_cast this
    omega
  · have : (127 * n : ℚ) < 3600 * k + 1801 := by linarith
    have : 127 * (n : ℤ) < 3600 * k + 1801 := by exact_mod_cast this
    omega

/-- What is written in the page, before it is rounded. -/
theorem html_bounds {n : Nat} (hn : n < 2 ^ 32) :
    (htmlHundredths n : ℚ) ≤ n * (352777778 / 1000000000) + 1 / 2 + 1 / 100000 ∧
    n * (352777778 / 1000000000) + 1 / 2 - 1 / 100000 < (htmlHundredths n : ℚ) + 1 := by
  have hx : (0 : ℚ) ≤ (n : ℚ) / 100 := by positivity
  obtain ⟨b1, b2⟩ := product_bounds hx (by norm_num : (0 : ℚ) ≤ 352777778 / 1000000000)
  unfold htmlHundredths
  have hv : 0 ≤ double (double (double ((n : ℚ) / 100) * double (352777778 / 1000000000)) * 100) :=
    double_nonneg (mul_nonneg (double_nonneg (mul_nonneg (double_nonneg hx) (double_nonneg (by norm_num)))) (by norm_num))
  generalize double (double (double ((n : ℚ) / 100) * double (352777778 / 1000000000)) * 100) = v at *
  have hw : 0 ≤ v + 1 / 2 := by linarith
  have w1 := double_le hw le_rfl
  have w2 := double_ge hw le_rfl
  generalize double (v + 1 / 2) = w at *
  have f1 := Int.floor_le w
  have f2 := Int.lt_floor_add_one w
  generalize ⌊w⌋ = k at *
  have hn' : (n : ℚ) ≤ 2 ^ 32 := by exact_mod_cast hn.le
  have h0 : (0 : ℚ) ≤ n := by positivity
  have e1 : (n : ℚ) / 100 * (352777778 / 1000000000) * 100 * (1 + 1 / 2 ^ 53) ^ 4 =
      n * (352777778 / 1000000000) + n * (352777778 / 1000000000 * ((1 + 1 / 2 ^ 53) ^ 4 - 1)) := by ring
  have e2 : (n : ℚ) / 100 * (352777778 / 1000000000) * 100 * (1 - 1 / 2 ^ 53) ^ 4 =
      n * (352777778 / 1000000000) - n * (352777778 / 1000000000 * (1 - (1 - 1 / 2 ^ 53) ^ 4)) := by ring
  rw [e1] at b2
  rw [e2] at b1
  have g1 : (n : ℚ) * (352777778 / 1000000000 * ((1 + 1 / 2 ^ 53) ^ 4 - 1)) ≤ 2 ^ 32 * (352777778 / 1000000000 * ((1 + 1 / 2 ^ 53) ^ 4 - 1)) :=
    mul_le_mul_of_nonneg_right hn' (by norm_num)
  have g2 : (n : ℚ) * (352777778 / 1000000000 * (1 - (1 - 1 / 2 ^ 53) ^ 4)) ≤ 2 ^ 32 * (352777778 / 1000000000 * (1 - (1 - 1 / 2 ^ 53) ^ 4)) :=
    mul_le_mul_of_nonneg_right hn' (by norm_num)
  have g3 : (2 : ℚ) ^ 32 * (352777778 / 1000000000 * ((1 + 1 / 2 ^ 53) ^ 4 - 1)) ≤ 1 / 1000000 := by norm_num
  have g4 : (2 : ℚ) ^ 32 * (352777778 / 1000000000 * (1 - (1 - 1 / 2 ^ 53) ^ 4)) ≤ 1 / 1000000 := by norm_num
  have v1 : v ≤ 2 ^ 31 := by
    have : (n : ℚ) * (352777778 / 1000000000) ≤ 2 ^ 32 * (352777778 / 1000000000) := mul_le_mul_of_nonneg_right hn' (by norm_num)
    have : (2 : ℚ) ^ 32 * (352777778 / 1000000000) + 1 / 1000000 ≤ 2 ^ 31 := by norm_num
    linarith
  have g5 : (v + 1 / 2) * (1 / 2 ^ 53) ≤ (2 ^ 31 + 1 / 2) * (1 / 2 ^ 53) := mul_le_mul_of_nonneg_right (by linarith) (by norm_num)
  have g6 : ((2 : ℚ) ^ 31 + 1 / 2) * (1 / 2 ^ 53) ≤ 1 / 1000000 := by norm_num
  constructor
  · linarith
  · linarith

theorem html_nearest {n : Nat} (hn : n ≤ 12000000) :
    360 * htmlHundredths n ≤ 127 * n + 180 ∧ 127 * (n : ℤ) ≤ 360 * htmlHundredths n + 180 := by
  obtain ⟨h1, h2⟩ := html_bounds (n := n) (by omega)
  generalize htmlHundredths n = k at *
  have hn' : (n : ℚ) ≤ 12000000 := by exact_mod_cast hn
  have h0 : (0 : ℚ) ≤ n := by positivity
  constructor
  · have : (360 * k : ℚ) < 127 * n + 181 := by linarith
    have : 360 * k < 127 * (n : ℤ) + 181 := by exact_mod_cast this
    omega
  · have : (127 * n : ℚ) < 360 * k + 181 := by linarith
    have : 127 * (n : ℤ) < 360 * k + 181 := by exact_mod_cast this
    omega

theorem html_near {n : Nat} (hn : n < 2 ^ 32) :
    360 * htmlHundredths n ≤ 127 * n + 540 ∧ 127 * (n : ℤ) ≤ 360 * htmlHundredths n + 540 := by
  obtain ⟨h1, h2⟩ := html_bounds hn
  generalize htmlHundredths n = k at *
  have hn' : (n : ℚ) ≤ 2 ^ 32 := by exact_mod_cast hn.le
  have h0 : (0 : ℚ) ≤ n := by positivity
  constructor
  · have : (360 * k : ℚ) < 127 * n + 541 := by linarith
    have : 360 * k < 127 * (n : ℤ) + 541 := by exact_mod_cast this
    omega
  · have : (127 * n : ℚ) < 360 * k + 541 := by linarith
    have : 127 * (n : ℤ) < 360 * k + 541 := by exact_mod_cast this
    omega

/-! ### Texts of lengths -/

theorem wholeValue_natStr (n : Nat) : wholeValue (natStr n) = some n := by
  suffices h : ∀ n, natStr n ≠ [] ∧ (natStr n).foldl (fun n c => n.bind fun n => if 0x30 ≤ c ∧ c ≤ 0x39 then some (10 * n + (c - 0x30)) else none) (some 0) = some n by
    rw [wholeValue, if_neg (h n).1]; exact (h n).2
  intro n
  induction n using Nat.strongRecOn with
  | _ n ih =>
    rw [natStr]
    split
    · rename_i h
      refine ⟨by simp, ?_⟩
      simp only [List.foldl_cons, List.foldl_nil, Option.bind_some]
      rw [if_pos (by omega)]; congr 1; omega
    · rename_i h
      refine ⟨by simp, ?_⟩
      rw [List.foldl_append, (ih (n / 10) (by omega)).2]
      simp only [List.foldl_cons, List.foldl_nil, Option.bind_some]
      rw [if_pos (by omega)]; congr 1; omega

theorem natStr_noPoint (n : Nat) : 0x2E ∉ natStr n := by
  induction n using Nat.strongRecOn with
  | _ n ih =>
    rw [natStr]
    split
    · simp; omega
    · rename_i h
      have := ih (n / 10) (by omega)
      simp [this]; omega

theorem natStr_small {n : Nat} (h : n < 10) : natStr n = [0x30 + n] := by rw [natStr, if_pos h]

theorem decimalValue_hundredths (k : Nat) : decimalValue (hundredthsStr k) = some ((k : ℚ) / 100) := by
  have hk : (k : ℚ) = ((k / 100 : Nat) : ℚ) * 100 + ((k % 100 / 10 : Nat) : ℚ) * 10 + ((k % 10 : Nat) : ℚ) := by
    have : k = k / 100 * 100 + k % 100 / 10 * 10 + k % 10 := by omega
    exact_mod_cast this
  have pt : lit "." = [0x2E] := by decide
  unfold hundredthsStr decimalValue
  by_cases h : k % 100 = 0
  · rw [if_pos h, List.append_nil, partsAt_self _ _ (natStr_noPoint _)]
    simp only [wholeValue_natStr, Option.map_some]
    have h1 : k % 100 / 10 = 0 := by omega
    have h2 : k % 10 = 0 := by omega
    rw [h1, h2] at hk
    rw [hk]; congr 1; push_cast; ring
  · rw [if_neg h]
    by_cases h' : k % 10 = 0
    · rw [if_pos h', pt, List.singleton_append, partsAt_cut _ _ _ (natStr_noPoint _), partsAt_self _ _ (natStr_noPoint _)]
      simp only [wholeValue_natStr, Option.map_some, Option.bind_some]
      rw [h'] at hk
      rw [natStr_small (n := k % 100 / 10) (by omega), hk]; congr 1
      simp only [List.length_singleton]; push_cast; ring
    · rw [if_neg h']
      have e : natStr (k % 100 / 10) ++ natStr (k % 10) = [0x30 + k % 100 / 10, 0x30 + k % 10] := by
        rw [natStr_small (by omega), natStr_small (by omega)]; rfl
      rw [pt, List.append_assoc, e, List.singleton_append, partsAt_cut _ _ _ (natStr_noPoint _),
        partsAt_self _ _ (by simp; omega)]
      have : wholeValue [0x30 + k % 100 / 10, 0x30 + k % 10] = some (k % 100 / 10 * 10 + k % 10) := by
        rw [wholeValue, if_neg (by simp)]
        simp only [List.foldl_cons, List.foldl_nil, Option.bind_some]
        rw [if_pos (by omega), Option.bind_some, if_pos (by omega)]; congr 1; omega
      simp only [wholeValue_natStr, this, Option.map_some, Option.bind_some]
      rw [hk]; congr 1
      simp only [List.length_cons, List.length_nil]; push_cast; ring

theorem lengthIn_unit (unit : String) (s : PyStr) : lengthIn unit (s ++ lit unit) = decimalValue s := by
  rw [lengthIn, if_pos (List.suffix_append _ _), List.length_append, Nat.add_sub_cancel, List.take_left]

theorem odtHundredths_nonneg {n : Nat} (hn : n < 2 ^ 32) : 0 ≤ odtHundredths n := by
  have := (odt_nearest hn).2; omega

theorem htmlHundredths_nonneg {n : Nat} (hn : n ≤ 12000000) : 0 ≤ htmlHundredths n := by
  have := (html_nearest hn).2; omega

theorem mmOf_value {n : Nat} {s : PyStr} (hs : xpathNumber s = some n) :
    lengthIn "mm" (mmOf s) = some (((htmlHundredths n).toNat : ℚ) / 100) := by
  rw [mmOf, lengthIn_unit, hs]; exact decimalValue_hundredths _

theorem cmOf_value {n : Nat} {s : PyStr} (hs : xpathNumber s = some n) :
    lengthIn "cm" (cmOf s) = some (((odtHundredths n).toNat : ℚ) / 100) := by
  rw [cmOf, lengthIn_unit, hs]; exact decimalValue_hundredths _

theorem cmOf_closest {n : Nat} {s : PyStr} (hs : xpathNumber s = some n) (hn : n < 2 ^ 32) : ClosestCm n (cmOf s) := by
  refine ⟨_, cmOf_value hs, ?_⟩
  have h := odt_nearest hn
  have h0 := odtHundredths_nonneg hn
  generalize odtHundredths n = k at *
  obtain ⟨m, rfl⟩ := Int.eq_ofNat_of_zero_le h0
  have h1 : (3600 * m : ℚ) ≤ 127 * n + 1800 := by exact_mod_cast h.1
  have h2 : (127 * n : ℚ) ≤ 3600 * m + 1800 := by exact_mod_cast h.2
  simp only [Int.toNat_natCast, hwpMm]
  rw [abs_le]; constructor <;> linarith

theorem mmOf_closest {n : Nat} {s : PyStr} (hs : xpathNumber s = some n) (hn : n ≤ 12000000) : ClosestMm n (mmOf s) := by
  refine ⟨_, mmOf_value hs, ?_⟩
  have h := html_nearest hn
  have h0 := htmlHundredths_nonneg hn
  generalize htmlHundredths n = k at *
  obtain ⟨m, rfl⟩ := Int.eq_ofNat_of_zero_le h0
  have h1 : (360 * m : ℚ) ≤ 127 * n + 180 := by exact_mod_cast h.1
  have h2 : (127 * n : ℚ) ≤ 360 * m + 180 := by exact_mod_cast h.2
  simp only [Int.toNat_natCast, hwpMm]
  rw [abs_le]; constructor <;> linarith

theorem mmOf_near {n : Nat} {s : PyStr} (hs : xpathNumber s = some n) (hn : n < 2 ^ 32) :
    ∃ q, lengthIn "mm" (mmOf s) = some q ∧ |q - hwpMm n| ≤ 3 / 200 := by
  refine ⟨_, mmOf_value hs, ?_⟩
  have h := html_near hn
  have h0 : 0 ≤ htmlHundredths n := by have := (html_bounds hn).2; have := h.2; by_cases c : n ≤ 12000000
                                       · exact htmlHundredths_nonneg c
                                       · omega
  generalize htmlHundredths n = k at *
  obtain ⟨m, rfl⟩ := Int.eq_ofNat_of_zero_le h0
  have h1 : (360 * m : ℚ) ≤ 127 * n + 540 := by exact_mod_cast h.1
  have h2 : (127 * n : ℚ) ≤ 360 * m + 540 := by exact_mod_cast h.2
  simp only [Int.toNat_natCast, hwpMm]
  rw [abs_le]; constructor <;> linarith

end Hwp
