/-
Proofs about the text of a FILETIME.
-/
import Verif.Model.Filetime
import Verif.Spec.Filetime
import Mathlib.Tactic.IntervalCases
namespace Hwp
open Spec
set_option autoImplicit false
set_option linter.unusedSimpArgs false
set_option linter.unusedVariables false

/-! ### Rounding -/

theorem roundEven_near (a b : Nat) (hb : 0 < b) :
    2 * a ≤ 2 * (b * roundEven a b) + b ∧ 2 * (b * roundEven a b) ≤ 2 * a + b := by
  have h1 := Nat.div_add_mod a b
  have h2 := Nat.mod_lt a hb
  unfold roundEven
  simp only
  have e : b * (a / b + 1) = b * (a / b) + b := by rw [Nat.mul_add, Nat.mul_one]
  split
  · omega
  · split
    · rw [e]; omega
    · split
      · omega
      · rw [e]; omega

/-- The distance of the rounded time from the exact one, in units of 100 ns. -/
theorem filetimeMicros_near (v : Nat) (E : Nat) (hE : 1 ≤ E) (hv : v < 10 * 2 ^ (E + 53)) :
    v ≤ 10 * filetimeMicros v + 5 * 2 ^ E ∧ 10 * filetimeMicros v ≤ v + 5 * 2 ^ E := by
  have hE2 : 2 ≤ 2 ^ E := by
    calc 2 = 2 ^ 1 := rfl
      _ ≤ 2 ^ E := Nat.pow_le_pow_right (by decide) hE
  unfold filetimeMicros
  by_cases h0 : v = 0
  · simp [h0]
  rw [if_neg h0]
  simp only
  set e := Nat.log2 (16 * v / 10) with he
  have hne : 16 * v / 10 ≠ 0 := by omega
  split
  · rename_i h56
    have hp : 0 < 2 ^ (e - 56) := Nat.pow_pos (by decide)
    have hle : e - 56 ≤ E := by
      have h1 : 2 ^ e ≤ 16 * v / 10 := Nat.log2_self_le hne
      have h2 : 16 * v / 10 < 16 * 2 ^ (E + 53) := by omega
      have h3 : 2 ^ e < 2 ^ (E + 57) := by
        calc 2 ^ e < 16 * 2 ^ (E + 53) := by omega
          _ = 2 ^ (E + 57) := by rw [show (16 : Nat) = 2 ^ 4 from rfl, ← Nat.pow_add]; congr 1; omega
      have := (Nat.pow_lt_pow_iff_right (a := 2) (by decide)).mp h3
      omega
    have hpe : 2 ^ (e - 56) ≤ 2 ^ E := Nat.pow_le_pow_right (by decide) hle
    have := roundEven_near v (10 * 2 ^ (e - 56)) (by omega)
    have c : 10 * 2 ^ (e - 56) * roundEven v (10 * 2 ^ (e - 56)) =
        10 * (roundEven v (10 * 2 ^ (e - 56)) * 2 ^ (e - 56)) := by
      rw [Nat.mul_assoc, Nat.mul_comm (2 ^ (e - 56))]
    rw [c] at this
    omega
  · rename_i h56
    set k := 56 - e with hk
    have hk1 : 1 ≤ k := by omega
    have hK : 2 ≤ 2 ^ k := by
      calc 2 = 2 ^ 1 := rfl
        _ ≤ 2 ^ k := Nat.pow_le_pow_right (by decide) hk1
    set K := 2 ^ k with hKdef
    set m := roundEven (v * K) 10 with hm
    have a1 := roundEven_near (v * K) 10 (by decide)
    have a2 := roundEven_near m K (by omega)
    rw [← hm] at a1
    set r := roundEven m K with hr
    have b1 : v * K ≤ 10 * (K * r) + 5 * K + 5 := by omega
    have b2 : 10 * (K * r) ≤ v * K + 5 * K + 5 := by omega
    constructor
    · have : v * K < (10 * r + 8) * K := by
        rw [Nat.add_mul, Nat.mul_assoc, Nat.mul_comm r K]; omega
      have := Nat.lt_of_mul_lt_mul_right this
      omega
    · have : (10 * r) * K < (v + 8) * K := by
        rw [Nat.add_mul, Nat.mul_assoc, Nat.mul_comm r K]; omega
      have := Nat.lt_of_mul_lt_mul_right this
      omega

theorem roundEven_exact (q b : Nat) (hb : 0 < b) : roundEven (b * q) b = q := by
  unfold roundEven
  simp [Nat.mul_div_cancel_left q hb, hb]

/-- Times that are a whole number of seconds are not rounded. -/
theorem filetimeMicros_seconds (s : Nat) (hs : 10000000 * s < 10 * 2 ^ 59) : filetimeMicros (10000000 * s) = 1000000 * s := by
  unfold filetimeMicros
  by_cases h0 : 10000000 * s = 0
  · rw [if_pos h0]; omega
  rw [if_neg h0]
  simp only
  set e := Nat.log2 (16 * (10000000 * s) / 10) with he
  have hne : 16 * (10000000 * s) / 10 ≠ 0 := by omega
  split
  · rename_i h56
    have hle : e - 56 ≤ 6 := by
      have h1 : 2 ^ e ≤ 16 * (10000000 * s) / 10 := Nat.log2_self_le hne
      have h3 : 2 ^ e < 2 ^ 63 := by
        have : (2 : Nat) ^ 63 = 16 * 2 ^ 59 := by decide
        omega
      have := (Nat.pow_lt_pow_iff_right (a := 2) (by decide)).mp h3
      omega
    have hp : 0 < 2 ^ (e - 56) := Nat.pow_pos (by decide)
    have hs : 2 ^ (6 - (e - 56)) * 2 ^ (e - 56) = 64 := by
      rw [← Nat.pow_add, show 6 - (e - 56) + (e - 56) = 6 by omega]
    have hv : 10000000 * s = (10 * 2 ^ (e - 56)) * (2 ^ (6 - (e - 56)) * (15625 * s)) := by
      have : (10 * 2 ^ (e - 56)) * (2 ^ (6 - (e - 56)) * (15625 * s)) =
          10 * (2 ^ (6 - (e - 56)) * 2 ^ (e - 56)) * (15625 * s) := by
        simp only [Nat.mul_assoc, Nat.mul_left_comm, Nat.mul_comm]
      rw [this, hs]; omega
    have e1 : roundEven (10000000 * s) (10 * 2 ^ (e - 56)) = 2 ^ (6 - (e - 56)) * (15625 * s) := by
      rw [hv]; exact roundEven_exact _ _ (by omega)
    rw [e1]
    have : 2 ^ (6 - (e - 56)) * (15625 * s) * 2 ^ (e - 56) = (2 ^ (6 - (e - 56)) * 2 ^ (e - 56)) * (15625 * s) := by
      simp only [Nat.mul_assoc, Nat.mul_left_comm, Nat.mul_comm]
    rw [this, hs]; omega
  · have e1 : 10000000 * s * 2 ^ (56 - e) = 10 * (2 ^ (56 - e) * (1000000 * s)) := by
      have : 10 * (2 ^ (56 - e) * (1000000 * s)) = (10 * (1000000 * s)) * 2 ^ (56 - e) := by
        simp only [Nat.mul_assoc, Nat.mul_left_comm, Nat.mul_comm]
      rw [this]; congr 1; try omega
    rw [e1, roundEven_exact _ _ (by decide), roundEven_exact _ _ (Nat.pow_pos (by decide))]

/-! ### The calendar -/

theorem daysOfYears_closed (y : Nat) : daysOfYears y + y / 100 = 365 * y + y / 4 + y / 400 := by
  induction y with
  | zero => rfl
  | succ y ih =>
    rw [daysOfYears, yearDays]
    unfold leap
    split <;> rename_i h <;> simp only [decide_eq_true_eq, not_and, not_or] at h <;> omega

theorem daysOfMonths_table (y m : Nat) (hm : m ≤ 11) :
    daysOfMonths y m = daysBeforeMonthTable.getD m 0 + (if 2 ≤ m ∧ leap y then 1 else 0) := by
  interval_cases m <;> cases h : leap y <;> simp [daysOfMonths, monthDays, daysBeforeMonthTable, h]

theorem monthDays_pos (y m : Nat) : 28 ≤ monthDays y m := by
  unfold monthDays
  split
  · split <;> omega
  · split <;> omega

/-- Month and day of a day of a year. -/
theorem month_of_day (y n : Nat) (b : Bool) (hb : b = leap y) (hn : n < 365) :
    ∀ month preceding, month = (n + 50) / 32 →
      preceding = daysBeforeMonthTable.getD (month - 1) 0 + (if 2 < month ∧ b = true then 1 else 0) →
      (n < preceding → 2 ≤ month ∧ month ≤ 12 ∧
        daysOfMonths y (month - 1 - 1) +
            (daysInMonthTable.getD (month - 1 - 1) 0 + (if month - 1 = 2 ∧ b = true then 1 else 0)) = preceding ∧
        daysOfMonths y (month - 1 - 1) ≤ n ∧
        monthDays y (month - 1) = daysInMonthTable.getD (month - 1 - 1) 0 + (if month - 1 = 2 ∧ b = true then 1 else 0)) ∧
      (¬ n < preceding → 1 ≤ month ∧ month ≤ 12 ∧ daysOfMonths y (month - 1) = preceding ∧
        n < preceding + monthDays y month) := by
  intro month preceding hm hp
  subst hb
  have h1 : 1 ≤ month := by omega
  have h2 : month ≤ 12 := by omega
  interval_cases month <;> cases hl : leap y <;>
    simp [hl, daysBeforeMonthTable] at hp <;> subst hp <;>
    simp [daysOfMonths, monthDays, daysInMonthTable, hl] <;> omega

theorem ord2ymd_spec (N : Nat) (hN : 1 ≤ N) (y m d : Nat) (h : ord2ymd N = (y, m, d)) :
    1 ≤ y ∧ 1 ≤ m ∧ m ≤ 12 ∧ 1 ≤ d ∧ d ≤ monthDays y m ∧
      daysOfYears (y - 1) + daysOfMonths y (m - 1) + d = N := by
  unfold ord2ymd at h
  simp only at h
  set n400 := (N - 1) / 146097 with h400
  set r400 := (N - 1) % 146097 with hr400
  set n100 := r400 / 36524 with h100
  set r100 := r400 % 36524 with hr100
  set n4 := r100 / 1461 with h4
  set r4 := r100 % 1461 with hr4
  set n1 := r4 / 365 with h1
  set r := r4 % 365 with hr
  have b100 : n100 ≤ 4 := by omega
  have b4 : n4 ≤ 24 := by omega
  have b1 : n1 ≤ 4 := by omega
  split at h
  · rename_i hc
    simp only [Prod.mk.injEq] at h
    obtain ⟨rfl, rfl, rfl⟩ := h
    have hl : leap (n400 * 400 + 1 + n100 * 100 + n4 * 4 + n1 - 1) = true := by
      unfold leap; simp only [decide_eq_true_eq]; omega
    have hd := daysOfYears_closed (n400 * 400 + 1 + n100 * 100 + n4 * 4 + n1 - 1 - 1)
    rw [daysOfMonths_table _ _ (by decide)]
    simp [monthDays, hl, daysBeforeMonthTable]
    rcases hc with hc | hc
    · have c4 : n4 ≤ 23 := by omega
      have c100 : n100 ≤ 3 := by omega
      have q4 : (n400 * 400 + 1 + n100 * 100 + n4 * 4 + n1 - 1 - 1) / 4 = n400 * 100 + n100 * 25 + n4 := by omega
      have q100 : (n400 * 400 + 1 + n100 * 100 + n4 * 4 + n1 - 1 - 1) / 100 = n400 * 4 + n100 := by omega
      have q400 : (n400 * 400 + 1 + n100 * 100 + n4 * 4 + n1 - 1 - 1) / 400 = n400 := by omega
      rw [q4, q100, q400] at hd
      omega
    · have z100 : r100 = 0 := by omega
      have z4 : n4 = 0 := by omega
      have z1 : n1 = 0 := by omega
      have q4 : (n400 * 400 + 1 + n100 * 100 + n4 * 4 + n1 - 1 - 1) / 4 = n400 * 100 + 99 := by omega
      have q100 : (n400 * 400 + 1 + n100 * 100 + n4 * 4 + n1 - 1 - 1) / 100 = n400 * 4 + 3 := by omega
      have q400 : (n400 * 400 + 1 + n100 * 100 + n4 * 4 + n1 - 1 - 1) / 400 = n400 := by omega
      rw [q4, q100, q400] at hd
      omega
  · rename_i hc
    have hl : leap (n400 * 400 + 1 + n100 * 100 + n4 * 4 + n1) = decide (n1 = 3 ∧ (n4 ≠ 24 ∨ n100 = 3)) := by
      unfold leap
      rw [Bool.eq_iff_iff]
      simp only [decide_eq_true_eq]; omega
    have hd := daysOfYears_closed (n400 * 400 + 1 + n100 * 100 + n4 * 4 + n1 - 1)
    have c1 : n1 ≤ 3 := by omega
    have c100 : n100 ≤ 3 := by omega
    have q4 : (n400 * 400 + 1 + n100 * 100 + n4 * 4 + n1 - 1) / 4 = n400 * 100 + n100 * 25 + n4 := by omega
    have q100 : (n400 * 400 + 1 + n100 * 100 + n4 * 4 + n1 - 1) / 100 = n400 * 4 + n100 := by omega
    have q400 : (n400 * 400 + 1 + n100 * 100 + n4 * 4 + n1 - 1) / 400 = n400 := by omega
    rw [q4, q100, q400] at hd
    have hsum : daysOfYears (n400 * 400 + 1 + n100 * 100 + n4 * 4 + n1 - 1) + r + 1 = N := by omega
    have key := month_of_day _ r _ hl.symm (by omega) _ _ rfl rfl
    clear hd q4 q100 q400
    have hY1 : 1 ≤ n400 * 400 + 1 + n100 * 100 + n4 * 4 + n1 := by omega
    set Y := n400 * 400 + 1 + n100 * 100 + n4 * 4 + n1 with hY
    clear_value Y
    set lp : Bool := decide (n1 = 3 ∧ (n4 ≠ 24 ∨ n100 = 3)) with hlp
    set month := (r + 50) / 32 with hmonth
    set P := daysBeforeMonthTable.getD (month - 1) 0 + (if 2 < month ∧ lp = true then 1 else 0) with hP
    split at h
    · rename_i hlt
      obtain ⟨k1, k2, k3, k4, k5⟩ := key.1 hlt
      simp only [Prod.mk.injEq] at h
      obtain ⟨rfl, rfl, rfl⟩ := h
      omega
    · rename_i hlt
      obtain ⟨k1, k2, k3, k4⟩ := key.2 hlt
      simp only [Prod.mk.injEq] at h
      obtain ⟨rfl, rfl, rfl⟩ := h
      omega

theorem daysOfYears_mono {a b : Nat} (h : a ≤ b) : daysOfYears a ≤ daysOfYears b := by
  induction h with
  | refl => exact Nat.le_refl _
  | step _ ih => rw [daysOfYears]; omega

theorem daysOfMonths_year (y m : Nat) (hm : m ≤ 12) (hd : 0 < m) : daysOfMonths y (m - 1) + monthDays y m ≤ yearDays y := by
  interval_cases m <;> cases h : leap y <;> simp [daysOfMonths, monthDays, yearDays, h]

theorem daysOfMonths_mono (y : Nat) {a b : Nat} (h : a ≤ b) : daysOfMonths y a ≤ daysOfMonths y b := by
  induction h with
  | refl => exact Nat.le_refl _
  | step _ ih => rw [daysOfMonths]; omega

/-- The date of a day. -/
theorem days_inj (a b : Moment) (ha : a.Valid) (hb : b.Valid) (h : a.days = b.days) :
    a.year = b.year ∧ a.month = b.month ∧ a.day = b.day := by
  have key : ∀ a b : Moment, a.Valid → b.Valid → a.days = b.days → a.year ≤ b.year ∧
      (a.year = b.year → a.month ≤ b.month) := by
    intro a b ha hb h
    unfold Moment.days at h
    have ly := daysOfMonths_year b.year b.month hb.month.2 (by have := hb.month.1; omega)
    have lb : daysOfYears (b.year - 1) + yearDays b.year = daysOfYears b.year := by
      obtain ⟨y, hy⟩ : ∃ y, b.year = y + 1 := ⟨b.year - 1, by have := hb.year.1; omega⟩
      rw [hy]; rfl
    have d1 := hb.day
    have d2 := ha.day
    constructor
    · apply Classical.byContradiction
      intro hlt
      have := daysOfYears_mono (a := b.year) (b := a.year - 1) (by omega)
      omega
    · intro hyy
      apply Classical.byContradiction
      intro hlt
      have hm : daysOfMonths b.year (b.month - 1) + monthDays b.year b.month = daysOfMonths b.year b.month := by
        obtain ⟨y, hy⟩ : ∃ y, b.month = y + 1 := ⟨b.month - 1, by have := hb.month.1; omega⟩
        rw [hy]; rfl
      have := daysOfMonths_mono b.year (a := b.month) (b := a.month - 1) (by omega)
      rw [hyy] at h
      omega
  have k1 := key a b ha hb h
  have k2 := key b a hb ha h.symm
  have hy : a.year = b.year := by omega
  have hm : a.month = b.month := by
    have := k1.2 hy
    have := k2.2 hy.symm
    omega
  refine ⟨hy, hm, ?_⟩
  unfold Moment.days at h
  rw [hy, hm] at h
  have := ha.day
  have := hb.day
  omega

theorem days_mk (y m d h mi s us : Nat) : Moment.days ⟨y + 1, m + 1, d + 1, h, mi, s, us⟩ =
    daysOfYears y + daysOfMonths (y + 1) m + d := rfl

/-! ### Digits -/

theorem natStr_length_digits (w : Nat) : ∀ n, n < 10 ^ (w + 1) →
    (natStr n).length ≤ w + 1 ∧ List.replicate (w + 1 - (natStr n).length) 0x30 ++ natStr n = digits (w + 1) n := by
  induction w with
  | zero =>
    intro n hn
    have : n < 10 := by simpa using hn
    rw [natStr, if_pos this]
    simp [digits]
    omega
  | succ w ih =>
    intro n hn
    by_cases h : n < 10
    · rw [natStr, if_pos h]
      have i := ih (n / 10) (by omega)
      have e : natStr (n / 10) = [0x30] := by
        rw [natStr, if_pos (by omega)]
        simp; omega
      rw [e] at i
      rw [digits, ← i.2]
      refine ⟨by simp, ?_⟩
      have : 0x30 + n = 0x30 + n % 10 := by omega
      rw [this]
      simp [List.replicate_succ']
    · rw [natStr, if_neg h]
      have i := ih (n / 10) (by rw [Nat.pow_succ] at hn; omega)
      refine ⟨by simp; omega, ?_⟩
      rw [digits, ← i.2]
      simp

theorem zeroPad_digits (w n : Nat) (hn : n < 10 ^ (w + 1)) : zeroPad (w + 1) n = digits (w + 1) n :=
  (natStr_length_digits w n hn).2

theorem digits_length (w n : Nat) : (digits w n).length = w := by
  induction w generalizing n with
  | zero => rfl
  | succ w ih => simp [digits, ih]

theorem digits_inj (w : Nat) : ∀ a b, a < 10 ^ w → b < 10 ^ w → digits w a = digits w b → a = b := by
  induction w with
  | zero => intro a b ha hb _; simp at ha hb; omega
  | succ w ih =>
    intro a b ha hb h
    rw [Nat.pow_succ] at ha hb
    rw [digits, digits] at h
    have h := List.append_inj h (by rw [digits_length, digits_length])
    have h1 := ih (a / 10) (b / 10) (by omega) (by omega) h.1
    have h2 := h.2
    simp only [List.cons.injEq, and_true] at h2
    omega

/-! ### The text -/

/-- The moment that is shown. -/
def shownMoment (n us : Nat) : Moment :=
  ⟨(ord2ymd n).1, (ord2ymd n).2.1, (ord2ymd n).2.2, us / 1000000 / 3600, us / 1000000 / 60 % 60,
    us / 1000000 % 60, us % 1000000⟩

theorem daysOfYears_1600 : daysOfYears 1600 = 584388 := by
  have := daysOfYears_closed 1600
  omega

theorem daysOfYears_9999 : daysOfYears 9999 = 3652059 := by
  have := daysOfYears_closed 9999
  omega

theorem shownMoment_valid (n us : Nat) (h1 : ordinal1601 ≤ n) (h2 : n ≤ maxOrdinal) (hu : us < 86400000000) :
    (shownMoment n us).Valid ∧ (shownMoment n us).days = n - 1 ∧
      (shownMoment n us).micros = (n - ordinal1601) * 86400000000 + us := by
  unfold ordinal1601 at *
  unfold maxOrdinal at h2
  obtain ⟨y, m, d, ho⟩ : ∃ y m d, ord2ymd n = (y, m, d) := ⟨_, _, _, rfl⟩
  obtain ⟨k1, k2, k3, k4, k5, k6⟩ := ord2ymd_spec n (by omega) _ _ _ ho
  unfold shownMoment
  rw [ho]
  have hy := daysOfMonths_year y m k3 k2
  have hyd : daysOfYears (y - 1) + yearDays y = daysOfYears y := by
    obtain ⟨y', hy⟩ : ∃ y', y = y' + 1 := ⟨y - 1, by omega⟩
    rw [hy]; rfl
  have hd : Moment.days ⟨y, m, d, us / 1000000 / 3600, us / 1000000 / 60 % 60, us / 1000000 % 60, us % 1000000⟩ = n - 1 := by
    unfold Moment.days
    simp only
    omega
  refine ⟨⟨⟨?_, ?_⟩, ⟨k2, k3⟩, ⟨k4, k5⟩, ?_, ?_, ?_, ?_⟩, hd, ?_⟩
  · show 1601 ≤ y
    apply Classical.byContradiction
    intro hlt
    have := daysOfYears_mono (a := y) (b := 1600) (by omega)
    rw [daysOfYears_1600] at this
    omega
  · show y ≤ 9999
    apply Classical.byContradiction
    intro hlt
    have := daysOfYears_mono (a := 9999) (b := y - 1) (by omega)
    rw [daysOfYears_9999] at this
    omega
  · show us / 1000000 / 3600 < 24
    omega
  · show us / 1000000 / 60 % 60 < 60
    omega
  · show us / 1000000 % 60 < 60
    omega
  · show us % 1000000 < 1000000
    omega
  · rw [Moment.micros, hd, daysOfYears_1600]
    show ((((n - 1 - 584388) * 24 + us / 1000000 / 3600) * 60 + us / 1000000 / 60 % 60) * 60 +
      us / 1000000 % 60) * 1000000 + us % 1000000 = _
    omega

theorem datetimeText_eq (n us : Nat) (h1 : ordinal1601 ≤ n) (h2 : n ≤ maxOrdinal) (hu : us < 86400000000) :
    datetimeText n us = (shownMoment n us).text := by
  obtain ⟨⟨hy, hm, hd, hh, hmi, hs, hus⟩, -, -⟩ := shownMoment_valid n us h1 h2 hu
  have hmd : monthDays (shownMoment n us).year (shownMoment n us).month ≤ 31 := by
    unfold monthDays
    split
    · split <;> omega
    · split <;> omega
  obtain ⟨y, m, d, ho⟩ : ∃ y m d, ord2ymd n = (y, m, d) := ⟨_, _, _, rfl⟩
  unfold datetimeText Moment.text
  unfold shownMoment at *
  simp only [ho] at *
  rw [zeroPad_digits 3 _ (by omega), zeroPad_digits 1 m (by omega), zeroPad_digits 1 d (by omega),
    zeroPad_digits 1 (us / 1000000 / 3600) (by omega), zeroPad_digits 1 (us / 1000000 / 60 % 60) (by omega),
    zeroPad_digits 1 (us / 1000000 % 60) (by omega), zeroPad_digits 5 (us % 1000000) (by omega)]
  rfl

end Hwp
