/- Helper lemmas about little-endian byte strings and bit fields. -/
import Verif.Model.Py
namespace Hwp

@[simp] theorem leBytes_length (n v : Nat) : (leBytes n v).length = n := by
  induction n generalizing v with
  | zero => rfl
  | succ n ih => simp [leBytes, ih]

theorem leNat_leBytes (n v : Nat) (h : v < 256 ^ n) : leNat (leBytes n v) = v := by
  induction n generalizing v with
  | zero => simp at h; subst h; rfl
  | succ n ih =>
    have h2 : v / 256 < 256 ^ n := by
      rw [Nat.pow_succ, Nat.mul_comm] at h
      exact Nat.div_lt_of_lt_mul h
    simp only [leBytes, leNat, ih _ h2]
    have : (UInt8.ofNat (v % 256)).toNat = v % 256 := by
      simp [UInt8.toNat_ofNat']
    rw [this]; omega

theorem leNat_lt (bs : Bytes) : leNat bs < 256 ^ bs.length := by
  induction bs with
  | nil => simp [leNat]
  | cons b bs ih =>
    have := b.toNat_lt
    simp only [leNat, List.length_cons, Nat.pow_succ]
    omega

theorem leBytes_leNat (bs : Bytes) : leBytes bs.length (leNat bs) = bs := by
  induction bs with
  | nil => rfl
  | cons b bs ih =>
    have hb := b.toNat_lt
    simp only [List.length_cons, leBytes, leNat]
    have h1 : (b.toNat + 256 * leNat bs) % 256 = b.toNat := by omega
    have h2 : (b.toNat + 256 * leNat bs) / 256 = leNat bs := by omega
    rw [h1, h2, ih]
    simp

theorem readn_append {n : Nat} {d r : Bytes} (hl : d.length = n) (hn : 0 < n) :
    readn n (d ++ r) = .ok (d, r) := by
  subst hl
  simp [readn, bioRead]
  intro h; simp [h] at hn

theorem readn_zero (s : Bytes) : readn 0 s = .error .eof := by simp [readn, bioRead]

theorem readn_nil (n : Nat) : readn n [] = .error .eof := by simp [readn, bioRead]

/-- A short but nonempty read is returned as is. -/
theorem readn_short {n : Nat} {s : Bytes} (h : s.length ≤ n) (hs : s ≠ []) :
    readn n s = .ok (s, []) := by
  simp only [readn, bioRead, List.take_of_length_le h, List.drop_of_length_le h]
  have : s.length ≠ 0 := by simpa using hs
  simp [this]

theorem readn_ok {n : Nat} {s d r : Bytes} (h : readn n s = .ok (d, r)) :
    s = d ++ r ∧ d ≠ [] ∧ (d.length = n ∨ (d.length < n ∧ r = [])) := by
  unfold readn bioRead at h
  simp only at h
  split at h
  · cases h
  · rename_i hne
    injection h with h; injection h with h1 h2
    subst h1 h2
    refine ⟨(List.take_append_drop n s).symm, ?_, ?_⟩
    · intro h0; simp [h0] at hne
    · rw [List.length_take]
      by_cases hc : n ≤ s.length
      · left; omega
      · right; refine ⟨by omega, ?_⟩
        apply List.drop_eq_nil_of_le; omega

theorem readU_append {w v : Nat} {r : Bytes} (hv : v < 256 ^ w) (hw : 0 < w) :
    readU w (leBytes w v ++ r) = .ok (v, r) := by
  simp [readU, readn_append (leBytes_length w v) hw, unpackU, leNat_leBytes _ _ hv,
    bind, Except.bind, pure, Except.pure]

theorem readU_append' {w : Nat} {d r : Bytes} (hd : d.length = w) (hw : 0 < w) :
    readU w (d ++ r) = .ok (leNat d, r) := by
  simp [readU, readn_append hd hw, unpackU, hd,
    bind, Except.bind, pure, Except.pure]

theorem readU_nil (w : Nat) : readU w [] = .error .eof := by
  simp [readU, readn_nil, bind, Except.bind]

theorem readU_short {w : Nat} {s : Bytes} (h : s.length < w) (hs : s ≠ []) :
    readU w s = .error .structError := by
  simp only [readU, readn_short (Nat.le_of_lt h) hs, bind, Except.bind, unpackU]
  have : s.length ≠ w := by omega
  simp [this]

theorem readU_ok {w v : Nat} {s r : Bytes} (h : readU w s = .ok (v, r)) :
    ∃ d, s = d ++ r ∧ d.length = w ∧ leNat d = v := by
  unfold readU at h
  simp only [bind, Except.bind, pure, Except.pure] at h
  split at h
  · cases h
  · rename_i v' heq
    obtain ⟨d, r'⟩ := v'
    simp only [unpackU] at h
    split at h
    · cases h
    · rename_i v'' hv
      split at hv
      · injection hv with hv
        injection h with h; injection h with h1 h2
        subst h1 h2
        exact ⟨d, (readn_ok heq).1, by assumption, hv⟩
      · cases hv

theorem readU_error {w : Nat} {s : Bytes} {e : PyErr} (h : readU w s = .error e)
    (hw : 0 < w) :
    (s = [] ∧ e = .eof) ∨ (s ≠ [] ∧ s.length < w ∧ e = .structError) := by
  by_cases hs : s = []
  · subst hs; rw [readU_nil] at h; injection h with h; left; exact ⟨rfl, h.symm⟩
  · by_cases hl : s.length < w
    · rw [readU_short hl hs] at h; injection h with h; right; exact ⟨hs, hl, h.symm⟩
    · have : s = s.take w ++ s.drop w := (List.take_append_drop w s).symm
      rw [this, readU_append' (by rw [List.length_take]; omega) hw] at h
      cases h

end Hwp
