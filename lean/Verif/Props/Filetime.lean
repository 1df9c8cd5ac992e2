/-
C95: times of the summary information.
-/
import Verif.Proofs.Filetime
namespace Hwp.Props
open Hwp Spec
set_option autoImplicit false

/-- C95: what is printed for a stored time is a date of the Gregorian calendar with a time of
day, and it is the stored time up to 16 microseconds; up to one microsecond for times in the
first 2^54 microseconds, which are those before November 2171.
Missing for the full property: the time is not always exact to the microsecond (`C95_inexact`).
(The number of a FILETIME has 64 bits.) -/
theorem C95_time_partial (v : Nat) (hv : v < 2 ^ 64) (t : PyStr) (h : filetimeText v = .ok t) :
    ∃ m : Moment, m.Valid ∧ t = m.text ∧
      v ≤ 10 * m.micros + 160 ∧ 10 * m.micros ≤ v + 160 ∧
      (v < 10 * 2 ^ 54 → v ≤ 10 * m.micros + 10 ∧ 10 * m.micros ≤ v + 10) := by
  unfold filetimeText at h
  simp only at h
  split at h
  · cases h
  · rename_i hle
    have hle' : ordinal1601 + filetimeMicros v / 86400000000 ≤ maxOrdinal := by omega
    obtain ⟨hval, -, hmic⟩ := shownMoment_valid _ (filetimeMicros v % 86400000000) (Nat.le_add_right _ _) hle'
      (Nat.mod_lt _ (by decide))
    have hm : (shownMoment (ordinal1601 + filetimeMicros v / 86400000000) (filetimeMicros v % 86400000000)).micros =
        filetimeMicros v := by rw [hmic]; omega
    refine ⟨_, hval, ?_, ?_⟩
    · simp only [Except.ok.injEq] at h
      rw [← h]
      exact datetimeText_eq _ _ (Nat.le_add_right _ _) hle' (Nat.mod_lt _ (by decide))
    · rw [hm]
      have big := filetimeMicros_near v 11 (by decide) (by omega)
      have : v < 10 * 2 ^ 58 := by
        unfold ordinal1601 maxOrdinal at hle'
        omega
      have n5 := filetimeMicros_near v 5 (by decide) (by omega)
      refine ⟨by omega, by omega, fun hs => ?_⟩
      have n1 := filetimeMicros_near v 1 (by decide) (by omega)
      omega

/-- C95: whole seconds are shown exactly. -/
theorem C95_whole_seconds (s : Nat) (t : PyStr) (hv : 10000000 * s < 2 ^ 64) (h : filetimeText (10000000 * s) = .ok t) :
    ∃ m : Moment, m.Valid ∧ t = m.text ∧ 10 * m.micros = 10000000 * s ∧ m.microsecond = 0 := by
  unfold filetimeText at h
  simp only at h
  split at h
  · cases h
  · rename_i hle
    have hle' : ordinal1601 + filetimeMicros (10000000 * s) / 86400000000 ≤ maxOrdinal := by omega
    have big := filetimeMicros_near (10000000 * s) 11 (by decide) (by omega)
    have hex := filetimeMicros_seconds s (by unfold ordinal1601 maxOrdinal at hle'; omega)
    rw [hex] at h hle'
    obtain ⟨hval, -, hmic⟩ := shownMoment_valid _ (1000000 * s % 86400000000) (Nat.le_add_right _ _) hle'
      (Nat.mod_lt _ (by decide))
    refine ⟨_, hval, ?_, ?_, ?_⟩
    · simp only [Except.ok.injEq] at h
      rw [← h]
      exact datetimeText_eq _ _ (Nat.le_add_right _ _) hle' (Nat.mod_lt _ (by decide))
    · rw [hmic]; omega
    · show 1000000 * s % 86400000000 % 1000000 = 0
      omega

/-- C95: the times that can be shown are those before the year 10000 (up to 16 microseconds);
for others the exception is an `OverflowError`. -/
theorem C95_range (v : Nat) (hv : v < 2 ^ 64) :
    (v + 160 < fileTimeEnd → ∃ t, filetimeText v = .ok t) ∧
    (fileTimeEnd + 160 < v → filetimeText v = .error .overflowError) := by
  have e : fileTimeEnd = 2650467744000000000 := by
    unfold fileTimeEnd; rw [daysOfYears_9999, daysOfYears_1600]
  rw [e]
  have big := filetimeMicros_near v 11 (by decide) (by omega)
  unfold filetimeText ordinal1601 maxOrdinal
  simp only
  constructor
  · intro h
    have n5 := filetimeMicros_near v 5 (by decide) (by omega)
    rw [if_neg (by omega)]
    exact ⟨_, rfl⟩
  · intro h
    by_cases hs : v < 10 * 2 ^ 58
    · have n5 := filetimeMicros_near v 5 (by decide) (by omega)
      rw [if_pos (by omega)]
    · rw [if_pos (by omega)]

/-- C95: the text can be read in one way only. -/
theorem C95_readable (a b : Moment) (ha : a.Valid) (hb : b.Valid) (h : a.text = b.text) : a = b := by
  obtain ⟨ay, am, ad, ah, ami, as, aus⟩ := a
  obtain ⟨by_, bm, bd, bh, bmi, bs, bus⟩ := b
  obtain ⟨hy, hm, hd, hh, hmi, hs, hus⟩ := ha
  obtain ⟨hy', hm', hd', hh', hmi', hs', hus'⟩ := hb
  have l1 : ∀ y m, monthDays y m ≤ 31 := by
    intro y m
    unfold monthDays
    split
    · split <;> omega
    · split <;> omega
  have l2 := l1 ay am
  have l3 := l1 by_ bm
  unfold Moment.text at h
  simp only [List.append_assoc] at *
  obtain ⟨h1, h⟩ := List.append_inj h (by rw [digits_length, digits_length])
  obtain ⟨-, h⟩ := List.append_inj h rfl
  obtain ⟨h2, h⟩ := List.append_inj h (by rw [digits_length, digits_length])
  obtain ⟨-, h⟩ := List.append_inj h rfl
  obtain ⟨h3, h⟩ := List.append_inj h (by rw [digits_length, digits_length])
  obtain ⟨-, h⟩ := List.append_inj h rfl
  obtain ⟨h4, h⟩ := List.append_inj h (by rw [digits_length, digits_length])
  obtain ⟨-, h⟩ := List.append_inj h rfl
  obtain ⟨h5, h⟩ := List.append_inj h (by rw [digits_length, digits_length])
  obtain ⟨-, h⟩ := List.append_inj h rfl
  obtain ⟨h6, h⟩ := List.append_inj h (by rw [digits_length, digits_length])
  have e1 := digits_inj 4 _ _ (by omega) (by omega) h1
  have e2 := digits_inj 2 _ _ (by omega) (by omega) h2
  have e3 := digits_inj 2 _ _ (by omega) (by omega) h3
  have e4 := digits_inj 2 _ _ (by omega) (by omega) h4
  have e5 := digits_inj 2 _ _ (by omega) (by omega) h5
  have e6 := digits_inj 2 _ _ (by omega) (by omega) h6
  have e7 : aus = bus := by
    split at h <;> split at h
    · omega
    · cases h
    · cases h
    · simp only [List.cons.injEq, true_and] at h
      exact digits_inj 6 _ _ (by omega) (by omega) h
  subst e1 e2 e3 e4 e5 e6 e7
  rfl

/-- C95: different dates and times are different numbers of microseconds, so the moment of
`C95_time_partial` is determined. -/
theorem C95_micros_injective (a b : Moment) (ha : a.Valid) (hb : b.Valid) (h : a.micros = b.micros) : a = b := by
  have low : ∀ m : Moment, m.Valid → daysOfYears 1600 ≤ m.days := by
    intro m hm
    have := daysOfYears_mono (a := 1600) (b := m.year - 1) (by have := hm.year.1; omega)
    unfold Moment.days
    omega
  have la := low a ha
  have lb := low b hb
  unfold Moment.micros at h
  have a1 := ha.hour; have a2 := ha.minute; have a3 := ha.second; have a4 := ha.microsecond
  have b1 := hb.hour; have b2 := hb.minute; have b3 := hb.second; have b4 := hb.microsecond
  obtain ⟨hy, hm, hd⟩ := days_inj a b ha hb (by omega)
  have e1 : a.hour = b.hour := by omega
  have e2 : a.minute = b.minute := by omega
  have e3 : a.second = b.second := by omega
  have e4 : a.microsecond = b.microsecond := by omega
  cases a; cases b
  simp_all

/-- C95 fails to the microsecond: the program divides by 10 in floating point numbers, so that a
time of today with an odd number of microseconds is shown one microsecond off. -/
theorem C95_inexact :
    ∃ m : Moment, filetimeText 131234567890123450 = .ok m.text ∧ m.Valid ∧ 10 * m.micros = 131234567890123440 ∧
      filetimeText 131234567890123430 = .ok m.text := by
  refine ⟨⟨2016, 11, 12, 20, 39, 49, 12344⟩, by decide +kernel, ?_, ?_, by decide +kernel⟩
  · exact ⟨by decide, by decide, by decide, by decide, by decide, by decide, by decide⟩
  · have h1 := daysOfYears_closed 2015
    have h2 := daysOfYears_1600
    have h3 : daysOfMonths 2016 10 = 305 := by decide
    have h4 := days_mk 2015 10 11 20 39 49 12344
    rw [Moment.micros, h4, h2, h3]
    dsimp only
    generalize daysOfYears 2015 = D at *
    omega

/-- The example of the documentation of FILETIME: 1970-01-01. -/
example : filetimeText 116444736000000000 = .ok (lit "1970-01-01 00:00:00") := by decide +kernel
example : filetimeText 131234567890123456 = .ok (lit "2016-11-12 20:39:49.012346") := by decide +kernel
example : filetimeText (2 ^ 64 - 1) = .error .overflowError := by decide +kernel
end Hwp.Props
