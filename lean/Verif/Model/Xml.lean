/-
Model of XML serialisation, /repo/src/hwp5/xmlformat.py:239-269, with the two
library functions it uses (`xml.sax.saxutils.escape`, `quoteattr`), and of the
base64 text of embedded binary data, /repo/src/hwp5/xmlmodel.py:518-545.
Strings are lists of code points; the final `.encode('utf-8')` is in Model/Utf8.lean.
-/
import Verif.Model.Dataio
namespace Hwp

/-- Code points of a literal. -/
def lit (s : String) : PyStr := s.toList.map Char.toNat

/-- `s.replace(c, r)` for a one-character `c`. -/
def replaceChar (c : Nat) (r : PyStr) (s : PyStr) : PyStr :=
  s.flatMap fun x => if x = c then r else [x]

/-- `xml.sax.saxutils.__dict_replace`. -/
def dictReplace (d : List (Nat × PyStr)) (s : PyStr) : PyStr :=
  d.foldl (fun s kv => replaceChar kv.1 kv.2 s) s

/-- `xml.sax.saxutils.escape(data, entities)`: ampersand first. -/
def saxEscape (entities : List (Nat × PyStr)) (s : PyStr) : PyStr :=
  let s := replaceChar 0x26 (lit "&amp;") s
  let s := replaceChar 0x3E (lit "&gt;") s
  let s := replaceChar 0x3C (lit "&lt;") s
  dictReplace entities s

/-- `xml.sax.saxutils.quoteattr(data, entities)`; the library adds `\n`, `\r`, `\t`
to the entities, which xmlformat.py:247-249 gives with the same values. -/
def quoteattr (entities : List (Nat × PyStr)) (s : PyStr) : PyStr :=
  let s := saxEscape entities s
  if 0x22 ∈ s then
    if 0x27 ∈ s then [0x22] ++ replaceChar 0x22 (lit "&quot;") s ++ [0x22]
    else [0x27] ++ s ++ [0x27]
  else [0x22] ++ s ++ [0x22]

/-- xmlformat.py:247-249 -/
def xmlEntities : List (Nat × PyStr) := [(0x0D, lit "&#13;"), (0x0A, lit "&#10;"), (0x09, lit "&#9;")]

/-- XML events: `(STARTEVENT, (name, attributes))`, `(Text, text)`,
`(ENDEVENT, name)`. The attribute dictionary is a list in insertion order. -/
inductive XEv where
  | start (name : PyStr) (attrs : List (PyStr × PyStr))
  | text (t : PyStr)
  | stop (name : PyStr)
  deriving DecidableEq, Repr

/-- xmlformat.py:254-261: one attribute. -/
def attrChunks (nv : PyStr × PyStr) : List PyStr :=
  [lit " ", nv.1, lit "=", replaceChar 0 [] (quoteattr xmlEntities nv.2)]

/-- xmlformat.py:250-269: the chunks of one event. -/
def evChunks : XEv → List PyStr
  | .start name attrs => [lit "<", name] ++ attrs.flatMap attrChunks ++ [lit ">"]
  | .text t => [replaceChar 0 [] (saxEscape [] t)]
  | .stop name => [lit "</", name, lit ">"]

/-- xmlformat.py:246-269 `xmlevents_to_textchunks`. -/
def xmlTextChunks (evs : List XEv) : List PyStr := evs.flatMap evChunks

/-- The document text: all chunks written one after the other (xmlmodel.py:592-601
`bytechunks`, without the declaration line). -/
def xmlText (evs : List XEv) : PyStr := (xmlTextChunks evs).flatten

/-! ### Attribute dictionaries -/

/-- xmlformat.py:129-131 `xmlattr_dashednames`. -/
def dashedNames (attrs : List (PyStr × PyStr)) : List (PyStr × PyStr) :=
  attrs.map fun (k, v) => (replaceChar 0x5F [0x2D] k, v)

/-- xmlformat.py:134-139 `xmlattr_uniqnames`; `names` are those seen so far. -/
def uniqNamesGo (names : List PyStr) :
    List (PyStr × PyStr) → Except PyErr (List (PyStr × PyStr))
  | [] => .ok []
  | (k, v) :: rest =>
    if k ∈ names then .error .assertionError
    else do
      let r ← uniqNamesGo (k :: names) rest
      return (k, v) :: r

/-- xmlformat.py:142-145 `xmlattributes_for_plainvalues`, after expansion; building
the dict from distinct names keeps all of them. -/
def xmlAttributes (ntvs : List (PyStr × PyStr)) : Except PyErr (List (PyStr × PyStr)) :=
  uniqNamesGo [] (dashedNames ntvs)

/-! ### Base64 -/

/-- The base64 alphabet. -/
def b64Alphabet : List Char :=
  "ABCDEFGHIJKLMNOPQRSTUVWXYZabcdefghijklmnopqrstuvwxyz0123456789+/".toList

/-- Alphabet character of a six bit number. -/
def b64Char (n : Nat) : Char := b64Alphabet.getD n 'A'

/-- `base64.b64encode(data).decode('ascii')` (RFC 4648). -/
def b64encode : Bytes → List Char
  | [] => []
  | [a] => [b64Char (a.toNat / 4), b64Char (a.toNat % 4 * 16), '=', '=']
  | [a, b] =>
    [b64Char (a.toNat / 4), b64Char (a.toNat % 4 * 16 + b.toNat / 16),
     b64Char (b.toNat % 16 * 4), '=']
  | a :: b :: c :: rest =>
    b64Char (a.toNat / 4) :: b64Char (a.toNat % 4 * 16 + b.toNat / 16) ::
    b64Char (b.toNat % 16 * 4 + c.toNat / 64) :: b64Char (c.toNat % 64) :: b64encode rest

/-- xmlmodel.py:533-539: pieces of at most 64 characters. -/
def split64 (s : List Char) : List (List Char) :=
  if s = [] then []
  else if 64 < s.length then s.take 64 :: split64 (s.drop 64)
  else [s]
termination_by s.length
decreasing_by simp; omega

/-- xmlmodel.py:531-541: the text placed in the document. -/
def embedText (binary : Bytes) : List Char :=
  ['\n'] ++ joinWith ['\n'] (split64 (b64encode binary)) ++ ['\n']

/-- Upper case hexadecimal digit. -/
def hexDigitU (n : Nat) : Char := if n < 10 then Char.ofNat (48 + n) else Char.ofNat (55 + n)

/-- `'%X' % n`. -/
def hexNatU (n : Nat) : List Char :=
  if n < 16 then [hexDigitU n] else hexNatU (n / 16) ++ [hexDigitU (n % 16)]
termination_by n

/-- `'%04X' % n`. -/
def hex04U (n : Nat) : List Char :=
  let d := hexNatU n
  List.replicate (4 - d.length) '0' ++ d

/-- xmlmodel.py:522-524: name of the stream of embedded data. -/
def binName (storageId : Nat) (ext : List Char) : List Char :=
  "BIN".toList ++ hex04U storageId ++ ['.'] ++ ext

/-- xmlmodel.py:518-545 for one `BinData` start event: `none` when the data is not
embedded; `bindata` is the BinData storage. A missing stream is a `KeyError`. -/
def embedBindata (embedding : Bool) (storageId : Nat) (ext : List Char)
    (bindata : List (List Char × Bytes)) : Except PyErr (Option (List Char)) :=
  if embedding then
    match bindata.lookup (binName storageId ext) with
    | none => .error .keyError
    | some binary => .ok (some (embedText binary))
  else .ok none

end Hwp
