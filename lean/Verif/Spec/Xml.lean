/-
Specification: a parser for the XML subset with elements, attributes, character
data, predefined entities and decimal character references, after XML 1.0 (fifth
edition): Char [2], Name [4][4a][5], end-of-line handling 2.11, attribute value
normalisation 3.3.3, `<` not allowed in attribute values, unique attribute names,
`]]>` not allowed in character data, matching tags, one root element.
Written without reference to the serialiser.
-/
import Verif.Model.Xml
namespace Hwp.Spec

/-- Production [2] Char. -/
def xmlChar (c : Nat) : Bool :=
  c == 0x9 || c == 0xA || c == 0xD || (0x20 ≤ c && c ≤ 0xD7FF) || (0xE000 ≤ c && c ≤ 0xFFFD) ||
  (0x10000 ≤ c && c ≤ 0x10FFFF)

/-- Production [4] NameStartChar. -/
def nameStart (c : Nat) : Bool :=
  c == 0x3A || (0x41 ≤ c && c ≤ 0x5A) || c == 0x5F || (0x61 ≤ c && c ≤ 0x7A) ||
  (0xC0 ≤ c && c ≤ 0xD6) || (0xD8 ≤ c && c ≤ 0xF6) || (0xF8 ≤ c && c ≤ 0x2FF) ||
  (0x370 ≤ c && c ≤ 0x37D) || (0x37F ≤ c && c ≤ 0x1FFF) || (0x200C ≤ c && c ≤ 0x200D) ||
  (0x2070 ≤ c && c ≤ 0x218F) || (0x2C00 ≤ c && c ≤ 0x2FEF) || (0x3001 ≤ c && c ≤ 0xD7FF) ||
  (0xF900 ≤ c && c ≤ 0xFDCF) || (0xFDF0 ≤ c && c ≤ 0xFFFD) || (0x10000 ≤ c && c ≤ 0xEFFFF)

/-- Production [4a] NameChar. -/
def nameChar (c : Nat) : Bool :=
  nameStart c || c == 0x2D || c == 0x2E || (0x30 ≤ c && c ≤ 0x39) || c == 0xB7 ||
  (0x300 ≤ c && c ≤ 0x36F) || (0x203F ≤ c && c ≤ 0x2040)

/-- Production [5] Name. -/
def ValidName : PyStr → Prop
  | [] => False
  | c :: cs => nameStart c = true ∧ ∀ x ∈ cs, nameChar x = true

instance : DecidablePred ValidName := fun s =>
  match s with
  | [] => inferInstanceAs (Decidable False)
  | _ :: _ => inferInstanceAs (Decidable (_ ∧ _))

/-- 2.11 end-of-line handling. -/
def normEol : PyStr → PyStr
  | 0xD :: 0xA :: s => 0xA :: normEol s
  | 0xD :: s => 0xA :: normEol s
  | c :: s => c :: normEol s
  | [] => []

/-- Decimal number. -/
def decNumber (acc : Nat) : PyStr → Option Nat
  | [] => some acc
  | c :: s => if 0x30 ≤ c ∧ c ≤ 0x39 then decNumber (10 * acc + (c - 0x30)) s else none

/-- The character denoted by `&name;`. -/
def reference (name : PyStr) : Option Nat :=
  if name = lit "amp" then some 0x26
  else if name = lit "lt" then some 0x3C
  else if name = lit "gt" then some 0x3E
  else if name = lit "quot" then some 0x22
  else if name = lit "apos" then some 0x27
  else match name with
    | 0x23 :: d :: ds => (decNumber 0 (d :: ds)).filter (fun n => xmlChar n)
    | _ => none

/-- Replace references; the first argument is the reference name being read
(reversed). -/
def unescapeGo : Option PyStr → PyStr → Option PyStr
  | none, [] => some []
  | none, 0x26 :: s => unescapeGo (some []) s
  | none, c :: s => (unescapeGo none s).map (c :: ·)
  | some _, [] => none
  | some r, 0x3B :: s =>
    match reference r.reverse with
    | none => none
    | some c => (unescapeGo none s).map (c :: ·)
  | some r, c :: s => unescapeGo (some (c :: r)) s

/-- Replace all references. -/
def unescape (s : PyStr) : Option PyStr := unescapeGo none s

/-- 3.3.3: literal white space in attribute values becomes a blank. -/
def attrSpace (c : Nat) : Nat := if c = 0x9 ∨ c = 0xA ∨ c = 0xD then 0x20 else c

/-- A name at the beginning of the input. -/
def parseName (s : PyStr) : Option (PyStr × PyStr) :=
  if ValidName (s.takeWhile nameChar) then some (s.takeWhile nameChar, s.dropWhile nameChar)
  else none

/-- Attributes up to the closing `>`. -/
def parseAttrs : Nat → PyStr → Option (List (PyStr × PyStr) × PyStr)
  | _ + 1, 0x3E :: s => some ([], s)
  | n + 1, 0x20 :: s =>
    match parseName s with
    | some (name, 0x3D :: q :: s) =>
      if q = 0x22 ∨ q = 0x27 then
        match s.dropWhile (· ≠ q) with
        | _ :: rest =>
          let raw := s.takeWhile (· ≠ q)
          if 0x3C ∈ raw then none
          else
            match unescape (raw.map attrSpace), parseAttrs n rest with
            | some v, some (as, rest) =>
              if name ∈ as.map (·.1) then none else some ((name, v) :: as, rest)
            | _, _ => none
        | [] => none
      else none
    | _ => none
  | _, _ => none

/-- `]]>` occurs. -/
def hasCdEnd : PyStr → Bool
  | 0x5D :: 0x5D :: 0x3E :: _ => true
  | _ :: s => hasCdEnd s
  | [] => false

/-- Content inside the open elements `stack`; nothing may follow the root
element. -/
def parseContent : Nat → List PyStr → PyStr → Option (List XEv)
  | _, [], [] => some []
  | n + 1, top :: stack, 0x3C :: 0x2F :: s =>
    match parseName s with
    | some (name, 0x3E :: s) =>
      if name = top then (parseContent n stack s).map (.stop name :: ·) else none
    | _ => none
  | n + 1, top :: stack, 0x3C :: s =>
    match parseName s with
    | some (name, s) =>
      match parseAttrs n s with
      | some (attrs, s) => (parseContent n (name :: top :: stack) s).map (.start name attrs :: ·)
      | none => none
    | none => none
  | n + 1, top :: stack, c :: s =>
    let raw := (c :: s).takeWhile (· ≠ 0x3C)
    if hasCdEnd raw then none
    else
      match unescape raw with
      | some t => (parseContent n (top :: stack) ((c :: s).dropWhile (· ≠ 0x3C))).map (.text t :: ·)
      | none => none
  | _, _, _ => none

/-- A document: legal characters, line ends normalised, one root element. -/
def parseDocument (s : PyStr) : Option (List XEv) :=
  if s.all xmlChar then
    let s := normEol s
    match s with
    | 0x3C :: s =>
      match parseName s with
      | some (name, s) =>
        match parseAttrs (s.length + 1) s with
        | some (attrs, s) => (parseContent (s.length + 1) [name] s).map (.start name attrs :: ·)
        | none => none
      | none => none
    | _ => none
  else none

/-- Events inside the open elements: tags match, nothing after the root. -/
def Inside : List PyStr → List XEv → Prop
  | [], evs => evs = []
  | top :: st, .start n _ :: r => Inside (n :: top :: st) r
  | top :: st, .stop n :: r => n = top ∧ Inside st r
  | top :: st, .text _ :: r => Inside (top :: st) r
  | _ :: _, [] => False

/-- One root element with matching tags. -/
def OneRoot : List XEv → Prop
  | .start n _ :: r => Inside [n] r
  | _ => False

/-- NUL characters removed. -/
def noNul (s : PyStr) : PyStr := s.filter (· ≠ 0)

/-- What a reader of the document sees: values without NUL, adjacent text joined,
empty text dropped. -/
def joined : List XEv → List XEv
  | [] => []
  | .start n as :: r => .start n (as.map fun a => (a.1, noNul a.2)) :: joined r
  | .stop n :: r => .stop n :: joined r
  | .text t :: r =>
    match joined r with
    | .text u :: r' => .text (noNul t ++ u) :: r'
    | r' => if noNul t = [] then r' else .text (noNul t) :: r'

/-- Characters that may be written: legal XML characters, or NUL (removed). -/
def Writable (s : PyStr) : Prop := ∀ c ∈ s, xmlChar c = true ∨ c = 0

/-- Events with valid names, distinct attribute names, writable values and text
without carriage returns. -/
def EvOk : XEv → Prop
  | .start n as => ValidName n ∧ (as.map (·.1)).Nodup ∧ ∀ a ∈ as, ValidName a.1 ∧ Writable a.2
  | .stop n => ValidName n
  | .text t => Writable t ∧ 0xD ∉ t

/-- Values that can be written, and text without carriage returns. -/
def ValuesOk : XEv → Prop
  | .start _ as => ∀ a ∈ as, Writable a.2
  | .stop _ => True
  | .text t => Writable t ∧ 0xD ∉ t

/-- Six-bit value of a base64 character. -/
def b64Val (c : Char) : Option Nat := b64Alphabet.idxOf? c

/-- RFC 4648 decoding of four-character groups. -/
def b64decode : List Char → Option Bytes
  | [] => some []
  | [a, b, '=', '='] => do
    let a ← b64Val a; let b ← b64Val b
    return [UInt8.ofNat (a * 4 + b / 16)]
  | [a, b, c, '='] => do
    let a ← b64Val a; let b ← b64Val b; let c ← b64Val c
    return [UInt8.ofNat (a * 4 + b / 16), UInt8.ofNat (b % 16 * 16 + c / 4)]
  | a :: b :: c :: d :: rest => do
    let a ← b64Val a; let b ← b64Val b; let c ← b64Val c; let d ← b64Val d
    let r ← b64decode rest
    return UInt8.ofNat (a * 4 + b / 16) :: UInt8.ofNat (b % 16 * 16 + c / 4) ::
      UInt8.ofNat (c % 4 * 64 + d) :: r
  | _ => none

/-- Lines of a text. -/
def textLines : List Char → List (List Char)
  | [] => [[]]
  | '\n' :: s => [] :: textLines s
  | c :: s =>
    match textLines s with
    | l :: ls => (c :: l) :: ls
    | [] => [[c]]

end Hwp.Spec
