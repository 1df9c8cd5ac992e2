/- The text of values. -/
import Verif.Spec.XmlFormat
import Verif.Proofs.Dataio
import Mathlib.Tactic.NormNum
set_option linter.unusedSimpArgs false
namespace Hwp
open Spec

theorem digit_code : ∀ d : Fin 10, (Nat.digitChar d.val).toNat = 0x30 + d.val := by decide

theorem digit_code' (d : Nat) (h : d < 10) : (Nat.digitChar d).toNat = 0x30 + d := digit_code ⟨d, h⟩

theorem natStr_eq (n : Nat) : natStr n = (Nat.toDigits 10 n).map Char.toNat := by
  induction n using Nat.strongRecOn with
  | _ n ih =>
    rw [natStr]
    split
    · rename_i h
      rw [Nat.toDigits_of_lt_base h]
      simp [digit_code' n h]
    · rename_i h
      have e : Nat.toDigits 10 n = Nat.toDigits 10 (n / 10) ++ Nat.toDigits 10 (n % 10) := by
        rw [Nat.toDigits_append_toDigits (by omega) (by omega) (by omega)]
        congr 1; omega
      rw [ih (n / 10) (by omega), e, Nat.toDigits_of_lt_base (show n % 10 < 10 by omega)]
      simp [digit_code' (n % 10) (by omega)]

theorem toString_nat (n : Nat) : lit (toString n) = natStr n := by
  rw [natStr_eq]
  show lit (Nat.repr n) = _
  unfold Nat.repr lit
  rw [String.toList_ofList]

theorem decimal_nat (n : Nat) : decimal (n : Int) = natStr n := by
  rw [← toString_nat]; rfl

theorem intStr_eq (n : Int) : intStr n = decimal n := by
  cases n with
  | ofNat m =>
    have : intStr (Int.ofNat m) = natStr m := by
      unfold intStr
      rw [if_neg (by simp)]
      rfl
    rw [this, ← decimal_nat]; rfl
  | negSucc m =>
    have h1 : intStr (Int.negSucc m) = 0x2D :: natStr (m + 1) := by
      unfold intStr
      rw [if_pos (by omega)]
      rfl
    have h2 : decimal (Int.negSucc m) = lit ("-" ++ toString (m + 1)) := rfl
    rw [h1, h2, ← toString_nat]
    simp [lit, String.toList_append]

theorem hexDigit_eq : ∀ d : Fin 16, hexDigitU d.val = (Nat.digitChar d.val).toUpper := by decide

theorem hexNatU_eq (n : Nat) : hexNatU n = (Nat.toDigits 16 n).map Char.toUpper := by
  induction n using Nat.strongRecOn with
  | _ n ih =>
    rw [hexNatU]
    split
    · rename_i h
      rw [Nat.toDigits_of_lt_base h]
      simp [hexDigit_eq ⟨n, h⟩]
    · rename_i h
      have e : Nat.toDigits 16 n = Nat.toDigits 16 (n / 16) ++ Nat.toDigits 16 (n % 16) := by
        rw [Nat.toDigits_append_toDigits (by omega) (by omega) (by omega)]
        congr 1; omega
      rw [ih (n / 16) (by omega), e, Nat.toDigits_of_lt_base (show n % 16 < 16 by omega)]
      simp [hexDigit_eq ⟨n % 16, by omega⟩]

theorem hexPad_eq (w n : Nat) : hexPad w n = upperHex w n := by
  unfold hexPad upperHex chars
  simp only [List.leftpad, hexNatU_eq, List.map_append, List.map_replicate, List.length_map]
  rfl

theorem hexPadInt_nat (w n : Nat) : hexPadInt w (n : Int) = upperHex w n := by
  unfold hexPadInt
  rw [if_neg (by omega), ← hexPad_eq]
  rfl

theorem hex2_byteHex : ∀ m : Fin 256, chars (Colorref.hex2 m.val) = byteHex m.val := by decide +kernel

theorem byteHex_mod (n : Nat) : byteHex (n % 256) = byteHex n := by
  unfold byteHex
  have h1 : n % 256 / 16 % 16 = n / 16 % 16 := by omega
  have h2 : n % 256 % 16 = n % 16 := by omega
  rw [h1, h2]

theorem hex2_eq (n : Nat) : chars (Colorref.hex2 (n % 256)) = byteHex n := by
  rw [hex2_byteHex ⟨n % 256, Nat.mod_lt _ (by omega)⟩, byteHex_mod]

theorem and_shift (n k : Nat) : (n &&& (0xff * 2 ^ k)) >>> k = n / 2 ^ k % 256 := by
  have e : (0xff * 2 ^ k) = 0xff <<< k := by rw [Nat.shiftLeft_eq]
  rw [e, Nat.shiftRight_and_distrib, Nat.shiftLeft_shiftRight, Nat.shiftRight_eq_div_pow]
  exact Nat.and_two_pow_sub_one_eq_mod _ 8

theorem and_ff00 (u : Nat) : (u &&& 0xff00) >>> 8 = u / 256 % 256 := by
  have := and_shift u 8
  norm_num at this
  exact this

theorem and_ff0000 (u : Nat) : (u &&& 0xff0000) >>> 16 = u / 65536 % 256 := by
  have := and_shift u 16
  norm_num at this
  exact this

theorem colorref_str (n : Int) : chars (Colorref.str n) =
    lit "#" ++ byteHex (n % 2 ^ 32).toNat ++ byteHex ((n % 2 ^ 32).toNat / 256) ++
      byteHex ((n % 2 ^ 32).toNat / 65536) := by
  have hr : Colorref.r n = (n % 2 ^ 32).toNat % 256 := by
    unfold Colorref.r pyAnd32
    have := and_shift (n % 2 ^ 32).toNat 0
    simpa using this
  have hg : Colorref.g n = (n % 2 ^ 32).toNat / 256 % 256 := by
    unfold Colorref.g pyAnd32
    exact and_ff00 _
  have hb : Colorref.b n = (n % 2 ^ 32).toNat / 65536 % 256 := by
    unfold Colorref.b pyAnd32
    exact and_ff0000 _
  unfold Colorref.str
  rw [hr, hg, hb]
  have hc : ∀ a b : List Char, chars (a ++ b) = chars a ++ chars b := fun a b => List.map_append ..
  have h0 : chars ('#' :: (Colorref.hex2 ((n % 2 ^ 32).toNat % 256) ++
      Colorref.hex2 ((n % 2 ^ 32).toNat / 256 % 256) ++
      Colorref.hex2 ((n % 2 ^ 32).toNat / 65536 % 256))) =
      lit "#" ++ chars (Colorref.hex2 ((n % 2 ^ 32).toNat % 256) ++
      Colorref.hex2 ((n % 2 ^ 32).toNat / 256 % 256) ++
      Colorref.hex2 ((n % 2 ^ 32).toNat / 65536 % 256)) := rfl
  rw [h0, hc, hc, hex2_eq, hex2_eq, hex2_eq]
  simp [List.append_assoc]

theorem bitsNumber_eq (v lo n : Nat) : bitsNumber v lo n = v / 2 ^ lo % 2 ^ n := by
  apply Nat.eq_of_testBit_eq
  intro i
  rw [bitsNumber_testBit, Nat.testBit_mod_two_pow, Nat.testBit_div_two_pow, Bool.and_comm,
    Nat.add_comm]

theorem bitGroupInt_nat (lsb msb n : Nat) :
    bitGroupInt lsb msb (n : Int) = bitsNumber n lsb (msb + 1 - lsb) := by
  rw [bitsNumber_eq]
  unfold bitGroupInt
  have h1 : ((2 : Int) ^ lsb) = ((2 ^ lsb : Nat) : Int) := by simp
  have h2 : ((2 : Int) ^ (msb + 1 - lsb)) = ((2 ^ (msb + 1 - lsb) : Nat) : Int) := by simp
  rw [h1, h2, ← Int.natCast_ediv, ← Int.natCast_emod, Int.toNat_natCast]

theorem bitGroupInt_eq (lsb : Nat) (n : Int) (h : lsb ≤ 24) :
    bitGroupInt lsb (lsb + 7) n = (n % 2 ^ 32).toNat / 2 ^ lsb % 256 := by
  unfold bitGroupInt
  have e : lsb + 7 + 1 - lsb = 8 := by omega
  rw [e]
  have key : n / 2 ^ lsb % 2 ^ 8 = ((n % 2 ^ 32) / 2 ^ lsb) % 2 ^ 8 := by
    have h3 : n = n % 2 ^ 32 + 2 ^ lsb * (2 ^ (32 - lsb) * (n / 2 ^ 32)) := by
      rw [← Int.mul_assoc, ← Int.pow_add]
      have : lsb + (32 - lsb) = 32 := by omega
      rw [this]
      have := Int.emod_add_mul_ediv n (2 ^ 32)
      omega
    have hpos : (2 : Int) ^ lsb ≠ 0 := Int.ne_of_gt (Int.pow_pos (by decide))
    have h4 : n / 2 ^ lsb = (n % 2 ^ 32) / 2 ^ lsb + 2 ^ (32 - lsb) * (n / 2 ^ 32) := by
      rw [← Int.add_mul_ediv_left _ _ hpos, ← h3]
    rw [h4]
    have h5 : (2 : Int) ^ (32 - lsb) = 2 ^ 8 * 2 ^ (24 - lsb) := by
      rw [← Int.pow_add]; congr 1; omega
    rw [h5, Int.mul_assoc, Int.add_mul_emod_self_left]
  rw [key]
  have h6 : 0 ≤ n % 2 ^ 32 := Int.emod_nonneg _ (by decide)
  obtain ⟨m, hm⟩ := Int.eq_ofNat_of_zero_le h6
  rw [hm]
  have h1 : ((2 : Int) ^ lsb) = ((2 ^ lsb : Nat) : Int) := by simp
  have h2 : ((2 : Int) ^ 8) = ((256 : Nat) : Int) := by decide
  rw [h1, h2, ← Int.natCast_ediv, ← Int.natCast_emod, Int.toNat_natCast, Int.toNat_natCast]

end Hwp
