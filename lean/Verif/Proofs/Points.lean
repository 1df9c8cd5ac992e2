/-
Proofs about lengths in points.
-/
import Verif.Model.Points
import Verif.Spec.Margins
import Verif.Proofs.Lengths
set_option autoImplicit false
set_option linter.unusedSimpArgs false
set_option linter.unusedVariables false
namespace Hwp
open Spec

theorem decimal_neg (m : Nat) : Spec.decimal (Int.negSucc m) = 0x2D :: natStr (m + 1) := by
  rw [← intStr_eq]
  unfold intStr
  rw [if_pos (by omega)]
  rfl

theorem natStr_cons (n : Nat) : ∃ c t, natStr n = c :: t ∧ 0x30 ≤ c ∧ c ≤ 0x39 := by
  cases h : natStr n with
  | nil => exact absurd h (natStr_nonempty n)
  | cons c t => exact ⟨c, t, rfl, natStr_digit n c (by rw [h]; exact List.mem_cons_self)⟩

theorem xpathInt_decimal (n : Int) : xpathInt (Spec.decimal n) = some n := by
  cases n with
  | ofNat m =>
    rw [show Spec.decimal (Int.ofNat m) = natStr m from decimal_nat m]
    obtain ⟨c, t, e, h1, h2⟩ := natStr_cons m
    have : xpathInt (natStr m) = (xpathNumber (natStr m)).map fun n => (n : Int) := by
      rw [e]
      unfold xpathInt
      split
      · rename_i heq; injection heq with h; omega
      · rfl
    rw [this, xpathNumber_natStr]
    rfl
  | negSucc m =>
    rw [decimal_neg]
    simp only [xpathInt, xpathNumber_natStr, Option.map_some]
    rfl

theorem noNul_decimal (n : Int) : noNul (Spec.decimal n) = Spec.decimal n := by
  cases n with
  | ofNat m => rw [show Spec.decimal (Int.ofNat m) = natStr m from decimal_nat m, noNul_natStr]
  | negSucc m =>
    rw [decimal_neg]
    refine noNul_id _ ?_
    intro h
    rcases List.mem_cons.1 h with h | h
    · omega
    · exact absurd (natStr_digit _ 0 h).1 (by decide)

theorem decimalsStr_value (d : Nat) : ∀ r a : Nat, r < 10 ^ d → ∃ m, (decimalsStr d r).length ≤ d ∧ m * 10 ^ (d - (decimalsStr d r).length) = r ∧
    (decimalsStr d r).foldl (fun n c => n.bind fun n => if 0x30 ≤ c ∧ c ≤ 0x39 then some (10 * n + (c - 0x30)) else none) (some a) =
      some (a * 10 ^ (decimalsStr d r).length + m) ∧ (∀ c ∈ decimalsStr d r, 0x30 ≤ c ∧ c ≤ 0x39) := by
  induction d with
  | zero =>
    intro r a h
    refine ⟨0, ?_⟩
    simp [decimalsStr]
    simp at h; omega
  | succ d ih =>
    intro r a h
    rw [decimalsStr]
    by_cases hr : r = 0
    · rw [if_pos hr]; exact ⟨0, by simp [hr]⟩
    · rw [if_neg hr]
      have hp : 0 < 10 ^ d := by positivity
      have hc : r / 10 ^ d < 10 := by
        rw [Nat.div_lt_iff_lt_mul hp]; rw [Nat.pow_succ] at h; omega
      obtain ⟨m, h1, h2, h3, h4⟩ := ih (r % 10 ^ d) (10 * a + (r / 10 ^ d)) (Nat.mod_lt _ hp)
      generalize hL : (decimalsStr d (r % 10 ^ d)).length = L at h1 h2 h3
      have hq := Nat.div_add_mod' r (10 ^ d)
      generalize r / 10 ^ d = q at *
      refine ⟨q * 10 ^ L + m, by simp [hL]; omega, ?_, ?_, ?_⟩
      · simp only [List.length_cons, hL]
        rw [Nat.add_sub_add_right, Nat.add_mul, h2, Nat.mul_assoc, ← Nat.pow_add, Nat.add_sub_cancel' h1]
        exact hq
      · simp only [List.foldl_cons, Option.bind_some]
        rw [if_pos (by omega), show 10 * a + (48 + q - 48) = 10 * a + q by omega, h3]
        simp only [List.length_cons, hL]
        congr 1
        ring
      · intro c hm
        rcases List.mem_cons.1 hm with rfl | hm
        · omega
        · exact h4 c hm

theorem decimalValue_places (d k : Nat) :
    decimalValue (natStr (k / 10 ^ d) ++ if k % 10 ^ d = 0 then [] else lit "." ++ decimalsStr d (k % 10 ^ d)) = some ((k : ℚ) / 10 ^ d) := by
  have hp : 0 < 10 ^ d := by positivity
  have hpq : (10 : ℚ) ^ d ≠ 0 := by positivity
  have hk : (k : ℚ) = ((k / 10 ^ d : Nat) : ℚ) * 10 ^ d + ((k % 10 ^ d : Nat) : ℚ) := by
    exact_mod_cast (Nat.div_add_mod' k (10 ^ d)).symm
  unfold decimalValue
  by_cases h : k % 10 ^ d = 0
  · rw [if_pos h, List.append_nil, partsAt_self _ _ (natStr_noPoint _)]
    simp only [wholeValue_natStr, Option.map_some]
    rw [h] at hk
    rw [hk]; congr 1; push_cast; field_simp; ring
  · rw [if_neg h]
    obtain ⟨m, h1, h2, h3, h4⟩ := decimalsStr_value d (k % 10 ^ d) 0 (Nat.mod_lt _ hp)
    generalize hs : decimalsStr d (k % 10 ^ d) = s at *
    have hne : s ≠ [] := by
      rintro rfl
      cases d with
      | zero => omega
      | succ d => rw [decimalsStr, if_neg h] at hs; cases hs
    rw [show lit "." = [0x2E] from by decide, List.singleton_append, partsAt_cut _ _ _ (natStr_noPoint _),
      partsAt_self _ _ (fun hm => absurd (h4 _ hm) (by decide))]
    have hw : wholeValue s = some m := by
      rw [wholeValue, if_neg hne, h3]; simp
    simp only [wholeValue_natStr, hw, Option.map_some, Option.bind_some]
    congr 1
    have e : (10 : ℚ) ^ d = 10 ^ (d - s.length) * 10 ^ s.length := by rw [← pow_add]; congr 1; omega
    have g : ((k % 10 ^ d : Nat) : ℚ) = (m : ℚ) * 10 ^ (d - s.length) := by exact_mod_cast h2.symm
    rw [hk, g, e]
    have n1 : (10 : ℚ) ^ (d - s.length) ≠ 0 := by positivity
    have n2 : (10 : ℚ) ^ s.length ≠ 0 := by positivity
    field_simp

theorem signedLength_places (unit : String) (d : Nat) (k : Int) : signedLength unit (placesStr d k ++ lit unit) = some ((k : ℚ) / 10 ^ d) := by
  unfold placesStr
  by_cases h : k < 0
  · rw [if_pos h, show lit "-" = [0x2D] from by decide]
    have key : ∀ t : PyStr, signedLength unit ([0x2D] ++ natStr (k.natAbs / 10 ^ d) ++ t ++ lit unit) =
        (lengthIn unit ((natStr (k.natAbs / 10 ^ d) ++ t) ++ lit unit)).map fun q => -q := fun t => by
      simp [signedLength]
    rw [key, lengthIn_unit, decimalValue_places]
    have : (k : ℚ) = -(k.natAbs : ℚ) := by
      have h : k = -(k.natAbs : Int) := by omega
      calc (k : ℚ) = ((-(k.natAbs : Int) : Int) : ℚ) := by rw [← h]
        _ = _ := by rw [Int.cast_neg, Int.cast_natCast]
    rw [this, Option.map_some]
    congr 1
    ring
  · rw [if_neg h, List.nil_append]
    obtain ⟨c, t, e, h1, h2⟩ := natStr_cons (k.natAbs / 10 ^ d)
    have key : signedLength unit ((natStr (k.natAbs / 10 ^ d) ++ if k.natAbs % 10 ^ d = 0 then [] else lit "." ++ decimalsStr d (k.natAbs % 10 ^ d)) ++ lit unit) =
        lengthIn unit ((natStr (k.natAbs / 10 ^ d) ++ if k.natAbs % 10 ^ d = 0 then [] else lit "." ++ decimalsStr d (k.natAbs % 10 ^ d)) ++ lit unit) := by
      rw [e]
      simp only [List.cons_append]
      unfold signedLength
      split
      · rename_i heq; injection heq with h; omega
      · rfl
    rw [key, lengthIn_unit, decimalValue_places]
    have : (k : ℚ) = (k.natAbs : ℚ) := by
      have h : k = (k.natAbs : Int) := by omega
      calc (k : ℚ) = (((k.natAbs : Int) : Int) : ℚ) := by rw [← h]
        _ = _ := by rw [Int.cast_natCast]
    rw [this]

theorem ptOf_value (n : Int) : signedLength "pt" (ptOf (some n)) = some ((n : ℚ) / 200) := by
  unfold ptOf numberStr
  simp only [Option.map_some]
  rw [signedLength_places]
  push_cast
  congr 1
  ring

theorem ptOf_noSpace (n : Option Int) : 0x20 ∉ ptOf n := by
  have h : ∀ n : Int, 0x20 ∉ placesStr 3 n := by
    intro n hm
    unfold placesStr at hm
    rcases List.mem_append.1 hm with hm | hm
    · rcases List.mem_append.1 hm with hm | hm
      · split at hm
        · exact absurd hm (by decide)
        · simp at hm
      · exact absurd (natStr_digit _ _ hm).1 (by decide)
    · split at hm
      · simp at hm
      · rcases List.mem_append.1 hm with hm | hm
        · exact absurd hm (by decide)
        · obtain ⟨m, _, _, _, h4⟩ := decimalsStr_value 3 (n.natAbs % 10 ^ 3) 0 (Nat.mod_lt _ (by positivity))
          exact absurd (h4 _ hm) (by decide)
  intro hm
  unfold ptOf numberStr at hm
  rcases List.mem_append.1 hm with hm | hm
  · cases n with
    | none => exact absurd hm (by decide)
    | some n => exact h _ hm
  · exact absurd hm (by decide)

theorem ptOf_ne (n : Option Int) : ptOf n ≠ [] := by
  unfold ptOf
  intro h
  exact absurd (List.append_eq_nil_iff.1 h).2 (by decide)

end Hwp
