/- Helper lemmas: UTF-16LE round trip. -/
import Verif.Model.Utf16
import Verif.Spec.Utf16
set_option linter.unusedSimpArgs false
namespace Hwp
open Spec

theorem toNat_ofNat_lt {n : Nat} (h : n < 256) : (UInt8.ofNat n).toNat = n := by
  simp [UInt8.toNat_ofNat']; omega

theorem unitBytes_val (u : Nat) (h : u < 65536) :
    (UInt8.ofNat (u % 256)).toNat + 256 * (UInt8.ofNat (u / 256)).toNat = u := by
  rw [toNat_ofNat_lt (by omega), toNat_ofNat_lt (by omega)]; omega

theorem unitBytes_of_bytes (a b : UInt8) : unitBytes (a.toNat + 256 * b.toNat) = [a, b] := by
  have ha := a.toNat_lt; have hb := b.toNat_lt
  unfold unitBytes
  have h1 : (a.toNat + 256 * b.toNat) % 256 = a.toNat := by omega
  have h2 : (a.toNat + 256 * b.toNat) / 256 = b.toNat := by omega
  rw [h1, h2]; simp

theorem strUnits_cons (c : Nat) (s : List Nat) : strUnits (c :: s) = units c ++ strUnits s := by
  simp [strUnits]

theorem encodeUtf16le_cons (c : Nat) (s : List Nat) :
    encodeUtf16le (c :: s) = ((units c).map unitBytes).flatten ++ encodeUtf16le s := by
  simp [encodeUtf16le, strUnits_cons]

theorem encodeUtf16le_append (s t : List Nat) :
    encodeUtf16le (s ++ t) = encodeUtf16le s ++ encodeUtf16le t := by
  simp [encodeUtf16le, strUnits]

theorem encodeUtf16le_length (s : List Nat) : (encodeUtf16le s).length = 2 * (strUnits s).length := by
  unfold encodeUtf16le
  induction strUnits s with
  | nil => rfl
  | cons u us ih => simp [unitBytes, ih]; omega

theorem utf16leDecode_encode (s : List Nat) (h : ∀ c ∈ s, Scalar c) :
    utf16leDecode (encodeUtf16le s) = .ok s := by
  induction s with
  | nil => rfl
  | cons c s ih =>
    have hc := h c (by simp)
    have ih := ih (fun c' hc' => h c' (by simp [hc']))
    rw [encodeUtf16le_cons]
    unfold units
    unfold Scalar at hc
    by_cases h1 : c < 0x10000
    · simp only [h1, if_true, List.map_cons, List.map_nil, List.flatten_cons, List.flatten_nil,
        List.append_nil, unitBytes, List.cons_append, List.nil_append]
      unfold utf16leDecode
      simp only [unitBytes_val c h1]
      rw [if_pos (by omega), ih]
      rfl
    · simp only [h1, if_false, List.map_cons, List.map_nil, List.flatten_cons, List.flatten_nil,
        List.append_nil, unitBytes, List.cons_append, List.nil_append]
      unfold utf16leDecode
      simp only [unitBytes_val (0xD800 + (c - 0x10000) / 0x400) (by omega),
        unitBytes_val (0xDC00 + (c - 0x10000) % 0x400) (by omega)]
      rw [if_neg (by omega), if_pos (by omega), if_pos (by omega), ih]
      have e : 0x10000 + (0xD800 + (c - 0x10000) / 0x400 - 0xD800) * 0x400 +
          (0xDC00 + (c - 0x10000) % 0x400 - 0xDC00) = c := by omega
      simp only [bind, Except.bind, pure, Except.pure]
      rw [e]

/-- Successful decoding is inverted by encoding. -/
theorem encode_utf16leDecode (bs : Bytes) : ∀ s, utf16leDecode bs = .ok s →
    encodeUtf16le s = bs ∧ ∀ c ∈ s, Scalar c := by
  induction hk : bs.length using Nat.strongRecOn generalizing bs with
  | ind k ih =>
    intro s h
    match bs with
    | [] => simp [utf16leDecode] at h; subst h; exact ⟨rfl, by simp⟩
    | [_] => simp [utf16leDecode] at h
    | a :: b :: rest =>
      have ha := a.toNat_lt; have hb := b.toNat_lt
      unfold utf16leDecode at h
      simp only at h
      split at h
      · rename_i hu
        cases hd : utf16leDecode rest with
        | error e => simp [hd, bind, Except.bind] at h
        | ok cs =>
          simp [hd, bind, Except.bind, pure, Except.pure] at h
          subst h
          obtain ⟨e1, e2⟩ := ih rest.length (by simp at hk; omega) rest rfl cs hd
          refine ⟨?_, ?_⟩
          · rw [encodeUtf16le_cons, e1]
            unfold units
            rw [if_pos (by omega)]
            simp [unitBytes_of_bytes]
          · intro c hc
            simp only [List.mem_cons] at hc
            rcases hc with rfl | hc
            · unfold Scalar; omega
            · exact e2 c hc
      · rename_i hu
        split at h
        · rename_i hu2
          match rest with
          | [] => simp at h
          | [_] => simp at h
          | c :: d :: rest' =>
            have hc := c.toNat_lt; have hd := d.toNat_lt
            simp only at h
            split at h
            · rename_i hl
              cases hd' : utf16leDecode rest' with
              | error e => simp [hd', bind, Except.bind] at h
              | ok cs =>
                simp [hd', bind, Except.bind, pure, Except.pure] at h
                subst h
                obtain ⟨e1, e2⟩ := ih rest'.length (by simp at hk; omega) rest' rfl cs hd'
                refine ⟨?_, ?_⟩
                · rw [encodeUtf16le_cons, e1]
                  unfold units
                  rw [if_neg (by omega)]
                  have g1 : 0xD800 + (0x10000 + (a.toNat + 256 * b.toNat - 0xD800) * 0x400 +
                      (c.toNat + 256 * d.toNat - 0xDC00) - 0x10000) / 0x400 = a.toNat + 256 * b.toNat := by
                    omega
                  have g2 : 0xDC00 + (0x10000 + (a.toNat + 256 * b.toNat - 0xD800) * 0x400 +
                      (c.toNat + 256 * d.toNat - 0xDC00) - 0x10000) % 0x400 = c.toNat + 256 * d.toNat := by
                    omega
                  rw [g1, g2]
                  simp [unitBytes_of_bytes]
                · intro x hx
                  simp only [List.mem_cons] at hx
                  rcases hx with hx | hx
                  · rw [Scalar, hx]; omega
                  · exact e2 x hx
            · cases h
        · cases h

end Hwp
