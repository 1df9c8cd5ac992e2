/-
Specification of what the command line of `hwp5proc records` means.
-/
import Verif.Model.Xml
import Verif.Spec.PyDecl
import Verif.Spec.XmlFormat
namespace Hwp.Spec

/-- Decimal numerals of Python: digits, single underscores allowed between them. -/
inductive Numeral : PyStr → Nat → Prop
  | digit (d : Nat) : d < 10 → Numeral [0x30 + d] d
  | more (s : PyStr) (n d : Nat) : Numeral s n → d < 10 → Numeral (s ++ [0x30 + d]) (10 * n + d)
  | underscore (s : PyStr) (n d : Nat) : Numeral s n → d < 10 → Numeral (s ++ [0x5f, 0x30 + d]) (10 * n + d)

/-- White space: space, tab, line feed, vertical tab, form feed, carriage return. -/
def Blank (s : PyStr) : Prop := ∀ c ∈ s, c ∈ [0x20, 0x09, 0x0a, 0x0b, 0x0c, 0x0d]

/-- An optional sign and a numeral. -/
inductive Signed : PyStr → Int → Prop
  | none (s : PyStr) (n : Nat) : Numeral s n → Signed s n
  | plus (s : PyStr) (n : Nat) : Numeral s n → Signed (0x2b :: s) n
  | minus (s : PyStr) (n : Nat) : Numeral s n → Signed (0x2d :: s) (-n)

/-- Texts that are accepted as integers. -/
def IntText (s : PyStr) (n : Int) : Prop :=
  ∃ l t r, s = l ++ t ++ r ∧ Blank l ∧ Blank r ∧ Signed t n

/-- `N` means the record N, `N-M` the records from N up to M, without M. -/
inductive RangeText : PyStr → Int → Int → Prop
  | one (s : PyStr) (n : Int) : 0x2d ∉ s → IntText s n → RangeText s n (n + 1)
  | span (x y : PyStr) (n m : Int) : 0x2d ∉ x → IntText x n → IntText y m → RangeText (x ++ 0x2d :: y) n m

/-- The dictionary `tagnames` as it is written in tagids.py. -/
def sourceTagnames : List (Nat × String) :=
  match pyTags.lookup "HWPTAG_BEGIN", pyTags.lookup "tagnames" with
  | some (.num base), some (.dict items) => items.filterMap fun
    | (.add (.name "HWPTAG_BEGIN") (.num n), .str s) => some (base + n, s)
    | _ => none
  | _, _ => []

/-- The name of a tag: the one in the dictionary, or `HWPTAG` and the distance from the first tag. -/
inductive TagName : Nat → PyStr → Prop
  | known (t : Nat) (n : String) : (t, n) ∈ sourceTagnames → TagName t (lit n)
  | unknown (t : Nat) : (∀ n, (t, n) ∉ sourceTagnames) → TagName t (lit "HWPTAG" ++ decimal ((t : Int) - 16))

/-- A line of the listing: number (at least four digits), two blanks for each level, name. -/
def listingLine (seqno level : Nat) (name : PyStr) : PyStr :=
  (decimal seqno).leftpad 4 0x30 ++ lit " " ++ (List.replicate level (lit "  ")).flatten ++ lit " " ++ name ++ lit "\n"

end Hwp.Spec
