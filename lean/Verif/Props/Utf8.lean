/- C86: the XML document as bytes. -/
import Verif.Proofs.Utf8
import Verif.Props.Document
set_option autoImplicit false
set_option linter.unusedSimpArgs false
set_option linter.unusedVariables false
namespace Hwp.Props
open Hwp Spec

/-- C86: the bytes of a string are those of RFC 3629: they decode to the string, and only they do. -/
theorem C86_utf8 (s : PyStr) (bs : Bytes) : utf8Encode s = .ok bs ↔ decodeUtf8 bs = some s := utf8_iff s bs

/-- C86: exactly the strings of Unicode scalar values have bytes. -/
theorem C86_encodable (s : PyStr) :
    (∃ bs, utf8Encode s = .ok bs) ↔ ∀ c ∈ s, Scalar c := utf8Encode_ok s

example : utf8Encode (lit "aé한😀") = .ok [0x61, 0xC3, 0xA9, 0xED, 0x95, 0x9C, 0xF0, 0x9F, 0x98, 0x80] := by decide +kernel
example : decodeUtf8 [0xC0, 0x80] = none ∧ decodeUtf8 [0xED, 0xA0, 0x80] = none ∧ decodeUtf8 [0xF4, 0x90, 0x80, 0x80] = none ∧
    decodeUtf8 [0xE1, 0x80] = none := by decide +kernel

/-- C86: a parser of the file gets back the events written, with or without the declaration. -/
theorem C86_events (declaration : Bool) (evs : List XEv) (hok : ∀ e ∈ evs, EvOk e) (hroot : OneRoot evs) :
    ∃ bs, xmlDump declaration (.ofList evs) = (bs, none) ∧ xmlOpen declaration (.ofList evs) = .ok bs ∧
      parseFile bs = some (joined evs) := by
  obtain ⟨-, h, -⟩ := dump_spec declaration (.ofList evs)
  obtain ⟨h1, h2⟩ := h (fun e he => evOk_encodable e (hok e he))
  have h3 : xmlDump declaration (.ofList evs) = ((xmlDump declaration (.ofList evs)).1, none) := Prod.ext rfl h1
  refine ⟨_, h3, ?_, parseFile_text declaration evs hok hroot _ h2⟩
  unfold xmlOpen
  rw [h3]

/-- C86: the file of a proper document is read back as what the document shows (C73, C74).
Missing: values with characters XML does not allow and text with carriage returns, as for C74. -/
theorem C86_document_partial (declaration : Bool) (env : XmlEnv) (rd : ModelReader Fields) (filetime : Nat → PyStr) (d : DocSource)
    (hrd : ReadsDecls d.version rd) (h : ProperDocument rd d) (evs : List XEv)
    (he : documentXml env rd filetime d = .ofList evs) (hv : ∀ e ∈ evs, ValuesOk e) :
    ∃ bs, xmlDump declaration (documentXml env rd filetime d) = (bs, none) ∧
      xmlOpen declaration (documentXml env rd filetime d) = .ok bs ∧ parseFile bs = some (joined evs) := by
  obtain ⟨X, h1, h2, h3⟩ := C74_well_formed env rd filetime d hrd h
  obtain rfl : evs = X := congrArg Gen.out (he.symm.trans h1)
  rw [he]
  refine C86_events declaration evs (fun e hm => ?_) h2
  have hn := h3 e hm
  have hw := hv e hm
  cases e with
  | start n as => exact ⟨hn.1, hn.2.1, fun a ha => ⟨hn.2.2 a ha, hw a ha⟩⟩
  | stop n => exact hn
  | text t => exact hw

/-- C86: nothing is lost silently.  `dump` returns exactly if all events were produced and all their characters
can be encoded; if they can, the exception is that of the events and the file has all of the text before it;
otherwise the exception is `UnicodeEncodeError`.  In any case the file decodes to the first part of the text. -/
theorem C86_complete_or_exception (declaration : Bool) (g : Gen XEv) :
    ((xmlDump declaration g).2 = none ↔ g.err = none ∧ ∀ e ∈ g.out, EncodableEv e) ∧
    ((∀ e ∈ g.out, EncodableEv e) → (xmlDump declaration g).2 = g.err ∧
      decodeUtf8 (xmlDump declaration g).1 = some ((if declaration then utf8Declaration else []) ++ xmlText g.out)) ∧
    ((¬∀ e ∈ g.out, EncodableEv e) → (xmlDump declaration g).2 = some .unicodeEncodeError) ∧
    ∃ t u, (if declaration then utf8Declaration else []) ++ xmlText g.out = t ++ u ∧
      decodeUtf8 (xmlDump declaration g).1 = some t := dump_spec declaration g

/-- C86: a file is opened only if it is complete. -/
theorem C86_open (declaration : Bool) (g : Gen XEv) :
    (∃ bs, xmlOpen declaration g = .ok bs) ↔ g.err = none ∧ ∀ e ∈ g.out, EncodableEv e := by
  rw [← (dump_spec declaration g).1]
  unfold xmlOpen
  split
  · rename_i h; simp [h]
  · rename_i h; simp [h]

example : xmlDump false (.ofList [.start (lit "a") [(lit "b", lit "<é>")], .stop (lit "a")]) =
    (asciiBytes "<a b=\"&lt;" ++ [0xC3, 0xA9] ++ asciiBytes "&gt;\"></a>", none) := by decide +kernel
example : (xmlDump true (.ofList [.start (lit "a") [], .stop (lit "a")])).1 = asciiBytes "<?xml version=\"1.0\" encoding=\"utf-8\"?>\n<a></a>" ∧
    parseFile (asciiBytes "<?xml version=\"1.0\" encoding=\"utf-8\"?>\n<a></a>") = some [.start (lit "a") [], .stop (lit "a")] := by decide +kernel
example : xmlDump false ⟨[.start (lit "a") []], some .keyError⟩ = (asciiBytes "<a>", some .keyError) := by decide +kernel

/-- A document whose `DocInfo` has a bullet with the character `c`. -/
def bulletDoc (c : List UInt8) : DocSource :=
  { sampleDoc with docinfo := recordBytes 16 0 (List.replicate 26 1) ++ recordBytes 24 0 (List.replicate 12 0 ++ c), sections := [], bindata := none }

/-- C86 is violated: the character of a bullet is shown with `chr`, also if it is half of a surrogate pair.  All
records are read and all events produced, but the file stops inside the element. -/
theorem C86_surrogate :
    (documentXml sampleEnv (directReader [5, 0, 1, 7]) (fun _ => []) (bulletDoc [0, 0xD8])).err = none ∧
    (xmlDump true (documentXml sampleEnv (directReader [5, 0, 1, 7]) (fun _ => []) (bulletDoc [0, 0xD8]))).2 = some .unicodeEncodeError ∧
    xmlOpen true (documentXml sampleEnv (directReader [5, 0, 1, 7]) (fun _ => []) (bulletDoc [0, 0xD8])) = .error .unicodeEncodeError ∧
    parseFile (xmlDump true (documentXml sampleEnv (directReader [5, 0, 1, 7]) (fun _ => []) (bulletDoc [0, 0xD8]))).1 = none := by
  decide +kernel

example : (xmlDump true (documentXml sampleEnv (directReader [5, 0, 1, 7]) (fun _ => []) (bulletDoc [0x41, 0]))).2 = none ∧
    (parseFile (xmlDump true (documentXml sampleEnv (directReader [5, 0, 1, 7]) (fun _ => []) (bulletDoc [0x41, 0]))).1).isSome = true := by
  decide +kernel

end Hwp.Props
