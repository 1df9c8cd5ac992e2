/- Model of /repo/src/hwp5/charsets.py. -/
import Verif.Model.Utf16
namespace Hwp

/-- Language names returned by charsets.py:24-89. -/
inductive Lang where
  | ko | en | cn | symbol | jp | other
  deriving DecidableEq, Repr

/-- charsets.py:24-89 `get_unichr_lang`; `none` is Python's `None`. -/
def getUnichrLang (c : Nat) : Option Lang :=
  if 0xAC00 ≤ c ∧ c ≤ 0xD7FF then some .ko
  else if 0x0000 ≤ c ∧ c ≤ 0x0040 then none
  else if 0x1100 ≤ c ∧ c ≤ 0x11FF then some .ko
  else if 0x3130 ≤ c ∧ c ≤ 0x318F then some .ko
  else if 0xA960 ≤ c ∧ c ≤ 0xA97F then some .ko
  else if 0x0040 ≤ c ∧ c ≤ 0x024F then some .en
  else if 0x4E00 ≤ c ∧ c ≤ 0x9FFF then some .cn
  else if 0x2E80 ≤ c ∧ c ≤ 0x2FDF then some .cn
  else if 0x3400 ≤ c ∧ c ≤ 0x4DBF then some .cn
  else if 0xF900 ≤ c ∧ c ≤ 0xFAFF then some .cn
  else if 0x3000 ≤ c ∧ c ≤ 0x303F then some .symbol
  else if 0x3040 ≤ c ∧ c ≤ 0x30FF then some .jp
  else some .other

/-- `buf_lang or 'ko'`, charsets.py:106,110. -/
def orKo (l : Option Lang) : Lang := l.getD .ko

/-- charsets.py:95-110, the loop with its variables `buf` and `buf_lang`. -/
def tokenizeGo (buf : PyStr) (bufLang : Option Lang) : PyStr → List (Lang × PyStr)
  | [] => if buf ≠ [] then [(orKo bufLang, buf)] else []
  | uch :: rest =>
    match getUnichrLang uch with
    | none => tokenizeGo (buf ++ [uch]) bufLang rest
    | some lang =>
      if bufLang = some lang ∨ bufLang = none then tokenizeGo (buf ++ [uch]) (some lang) rest
      else (orKo bufLang, buf) :: tokenizeGo [uch] (some lang) rest

/-- charsets.py:92-110 `tokenize_unicode_by_lang`. -/
def tokenizeByLang (text : PyStr) : List (Lang × PyStr) := tokenizeGo [] none text

end Hwp
