import Verif.Model.Py
import Verif.Model.Storage
import Mathlib.Data.List.Forall2
/-!
Specification of the escapes in formats, as in the reference of Python's string literals.
-/
set_option autoImplicit false
namespace Hwp.Spec

/-- The escapes of one character: backslash, quotes, `\a`, `\b`, `\f`, `\n`, `\r`, `\t`, `\v`. -/
def escapeTable : List (Nat × Nat) :=
  [(0x5c, 0x5c), (0x27, 0x27), (0x22, 0x22), (0x61, 7), (0x62, 8), (0x66, 12), (0x6e, 10), (0x72, 13), (0x74, 9), (0x76, 11)]

/-- The character of an octal digit. -/
def octChar (d : Nat) : Nat := 0x30 + d

/-- `c` is a character of the hexadecimal digit `d`. -/
def HexChar (c d : Nat) : Prop := (d < 10 ∧ c = 0x30 + d) ∨ (10 ≤ d ∧ d < 16 ∧ (c = 0x41 + (d - 10) ∨ c = 0x61 + (d - 10)))

/-- The number with the given digits. -/
def ofDigits (base : Nat) (ds : List Nat) : Nat := ds.foldl (fun n d => base * n + d) 0

/-- The letters before hexadecimal digits, with the number of digits. -/
def hexLetters : List (Nat × Nat) := [(0x78, 2), (0x75, 4), (0x55, 8)]

/-- `Unescaped names s t`: the text `s` of ASCII characters with escapes stands for `t`; `names` are the names of characters. -/
inductive Unescaped (names : PyStr → Option Nat) : PyStr → PyStr → Prop
  | nil : Unescaped names [] []
  | plain (c : Nat) (s t : PyStr) : c < 0x80 → c ≠ 0x5c → Unescaped names s t → Unescaped names (c :: s) (c :: t)
  | simple (e x : Nat) (s t : PyStr) : (e, x) ∈ escapeTable → Unescaped names s t → Unescaped names (0x5c :: e :: s) (x :: t)
  /-- A backslash before the end of a line joins the lines. -/
  | join (s t : PyStr) : Unescaped names s t → Unescaped names (0x5c :: 10 :: s) t
  /-- One to three octal digits, as many as there are. -/
  | octal (ds : List Nat) (s t : PyStr) : ds ≠ [] → ds.length ≤ 3 → (∀ d ∈ ds, d < 8) →
      (ds.length < 3 → ∀ d, d < 8 → s.head? ≠ some (octChar d)) → Unescaped names s t →
      Unescaped names (0x5c :: (ds.map octChar ++ s)) (ofDigits 8 ds :: t)
  | hex (e w : Nat) (cs ds : List Nat) (s t : PyStr) : (e, w) ∈ hexLetters → List.Forall₂ HexChar cs ds → ds.length = w →
      ofDigits 16 ds < 0x110000 → Unescaped names s t → Unescaped names (0x5c :: e :: (cs ++ s)) (ofDigits 16 ds :: t)
  | named (name : PyStr) (n : Nat) (s t : PyStr) : name ≠ [] → (∀ c ∈ name, c < 0x80 ∧ c ≠ 0x7d) → names name = some n →
      Unescaped names s t → Unescaped names (0x5c :: 0x4e :: 0x7b :: (name ++ 0x7d :: s)) (n :: t)
  /-- A backslash before any other character is a backslash. -/
  | other (e : Nat) (s t : PyStr) : e < 0x80 → e ≠ 10 → e ≠ 0x4e → (∀ x, (e, x) ∉ escapeTable) → (∀ w, (e, w) ∉ hexLetters) →
      (∀ d, d < 8 → e ≠ octChar d) → Unescaped names s t → Unescaped names (0x5c :: e :: s) (0x5c :: e :: t)

end Hwp.Spec
