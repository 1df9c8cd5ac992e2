/- Properties C27-C29: XML serialisation and embedded data. -/
import Verif.Proofs.XmlDoc
set_option linter.unusedSimpArgs false
namespace Hwp.Props
open Hwp Hwp.Spec

/-! ### C27 escaping -/

/-- C27: the serialised form of a text unescapes to the text without NULs and
contains no markup delimiters. -/
theorem C27_text_unescapes (t : PyStr) :
    unescape (xmlText [.text t]) = some (noNul t) ∧
    0x3C ∉ xmlText [.text t] ∧ 0x3E ∉ xmlText [.text t] := by
  have : xmlText [.text t] = (noNul t).flatMap escT := by
    rw [xmlText_cons, chunks_text]; simp [xmlText, xmlTextChunks]
  rw [this]
  exact ⟨unescape_text _, no_lt_text _, no_gt_text _⟩

/-- C27: an attribute value is written between two equal quote characters that do
not occur in between; what is in between unescapes to the value without NULs even
after white space normalisation, and contains no `<`. -/
theorem C27_attribute_unescapes (n v : PyStr) :
    ∃ q raw, (attrChunks (n, v)).flatten = lit " " ++ n ++ lit "=" ++ [q] ++ raw ++ [q] ∧
      (q = 0x22 ∨ q = 0x27) ∧ q ∉ raw ∧ 0x3C ∉ raw ∧
      unescape (raw.map attrSpace) = some (noNul v) := by
  refine ⟨(attrQuote v).1, (noNul v).flatMap (escA (attrQuote v).2), ?_, attrQuote_quote v, ?_,
    no_lt_attr _ _, ?_⟩
  · simp [attrChunks, attr_serialised]
  · have := quote_not_inside (noNul v)
    rw [attrQuote_noNul] at this
    exact this
  · rw [attrSpace_id, unescape_attr]

example : xmlText [.text (lit "a<b & c\"")] = lit "a&lt;b &amp; c\"" := by decide +kernel
example : (attrChunks (lit "n", lit "it's \"1\"\n")).flatten =
    lit " n=\"it's &quot;1&quot;&#10;\"" := by decide +kernel
example : (attrChunks (lit "n", lit "\"1\"")).flatten = lit " n='\"1\"'" := by decide +kernel

/-! ### C28 documents -/

/-- C28 (partial: text without carriage returns and only legal XML characters): the
serialised document of a single well nested element is well formed and parses to the
same elements, attributes and text (NULs removed, adjacent text joined). -/
theorem C28_document_parses_back_partial (evs : List XEv) (hok : ∀ e ∈ evs, EvOk e)
    (hroot : OneRoot evs) : parseDocument (xmlText evs) = some (joined evs) :=
  parseDocument_text evs hok hroot

/-- C28: two well nested event streams with the same document show the same content. -/
theorem C28_document_determines_content_partial (evs evs' : List XEv) (hok : ∀ e ∈ evs, EvOk e)
    (hroot : OneRoot evs) (hok' : ∀ e ∈ evs', EvOk e) (hroot' : OneRoot evs')
    (h : xmlText evs = xmlText evs') : joined evs = joined evs' := by
  have h1 := parseDocument_text evs hok hroot
  have h2 := parseDocument_text evs' hok' hroot'
  rw [h, h2] at h1
  simpa using h1.symm

/-- C28 fails for carriage returns in text: they are written raw, and a parser
turns them into line feeds. -/
theorem C28_carriage_return_lost :
    parseDocument (xmlText [.start (lit "a") [], .text (lit "x\ry"), .stop (lit "a")]) =
      some [.start (lit "a") [], .text (lit "x\ny"), .stop (lit "a")] := by decide +kernel

/-- C28 fails for control characters: the document is not well formed. -/
theorem C28_control_character_not_well_formed :
    parseDocument (xmlText [.start (lit "a") [(lit "n", [1])], .stop (lit "a")]) = none ∧
    parseDocument (xmlText [.start (lit "a") [], .text [0xFFFE], .stop (lit "a")]) = none := by
  decide +kernel

example : xmlText [.start (lit "a") [(lit "x", lit "1 < 2")], .text (lit "b"), .start (lit "c") [],
    .stop (lit "c"), .stop (lit "a")] = lit "<a x=\"1 &lt; 2\">b<c></c></a>" := by decide +kernel
example : let evs := [XEv.start (lit "a") [(lit "x", lit "1 < 2")], .text (lit "b\u0000"), .text (lit "d"),
    .start (lit "c") [], .stop (lit "c"), .stop (lit "a")]
    OneRoot evs ∧ parseDocument (xmlText evs) = some [XEv.start (lit "a") [(lit "x", lit "1 < 2")],
      .text (lit "bd"), .start (lit "c") [], .stop (lit "c"), .stop (lit "a")] := by
  refine ⟨by simp [OneRoot, Inside, lit], by decide +kernel⟩

/-! ### C29 embedded data -/

/-- C29: the embedded text, line breaks removed, decodes to the binary data. -/
theorem C29_embedded_data_recoverable (d : Bytes) :
    b64decode ((textLines (embedText d)).flatten) = some d := by
  have hno : ∀ l ∈ split64 (b64encode d), '\n' ∉ l := fun l hl hc =>
    b64encode_no_newline d ((split64_le _ l hl).2.2 _ hc)
  have : textLines (embedText d) = [] :: ((if split64 (b64encode d) = [] then [[]]
      else split64 (b64encode d)) ++ [[]]) := by
    unfold embedText
    simp only [List.append_assoc, List.cons_append, List.nil_append]
    rw [textLines]
    congr 1
    exact textLines_join _ hno
  rw [this]
  have h2 : (([] : List Char) :: ((if split64 (b64encode d) = [] then [[]]
      else split64 (b64encode d)) ++ [[]])).flatten = b64encode d := by
    rw [List.flatten_cons, List.flatten_append]
    split
    · rename_i h
      have := split64_flatten (b64encode d)
      rw [h] at this
      simpa using this
    · rw [split64_flatten]; simp
  rw [h2, b64decode_encode]

/-- C29: no line of the embedded text is longer than 64 characters. -/
theorem C29_lines_short (d : Bytes) : ∀ l ∈ textLines (embedText d), l.length ≤ 64 := by
  have hno : ∀ l ∈ split64 (b64encode d), '\n' ∉ l := fun l hl hc =>
    b64encode_no_newline d ((split64_le _ l hl).2.2 _ hc)
  have : textLines (embedText d) = [] :: ((if split64 (b64encode d) = [] then [[]]
      else split64 (b64encode d)) ++ [[]]) := by
    unfold embedText
    simp only [List.append_assoc, List.cons_append, List.nil_append]
    rw [textLines]
    congr 1
    exact textLines_join _ hno
  rw [this]
  intro l hl
  simp only [List.mem_cons, List.mem_append, List.not_mem_nil, or_false] at hl
  rcases hl with rfl | hl | rfl
  · simp
  · split at hl
    · simp at hl; subst hl; simp
    · exact (split64_le _ l hl).1
  · simp

/-- C29: the data comes from the stream `BINxxxx.ext`; a missing stream is a
`KeyError`, and data that is not embedded is left alone. -/
theorem C29_embedded_stream (embedding : Bool) (sid : Nat) (ext : List Char)
    (bindata : List (List Char × Bytes)) (r : Option (List Char))
    (h : embedBindata embedding sid ext bindata = .ok r) :
    (embedding = false ∧ r = none) ∨
    (embedding = true ∧ ∃ d text, bindata.lookup (binName sid ext) = some d ∧ r = some text ∧
      b64decode ((textLines text).flatten) = some d) := by
  unfold embedBindata at h
  split at h
  · rename_i he
    right
    split at h
    · simp at h
    · rename_i d hd
      simp at h
      exact ⟨he, d, embedText d, hd, h.symm, C29_embedded_data_recoverable d⟩
  · rename_i he
    left
    simp at h
    exact ⟨by simpa using he, h.symm⟩

example : String.ofList (b64encode [0x4d, 0x61, 0x6e, 0xff]) = "TWFu/w==" := by decide +kernel
example : String.ofList (binName 0x1f "jpg".toList) = "BIN001F.jpg" := by decide +kernel
example : (textLines (embedText (List.replicate 49 7))).map List.length = [0, 64, 4, 0] := by
  decide +kernel

/-! ### Attribute names -/

private theorem uniqNamesGo_spec (l : List (PyStr × PyStr)) : ∀ names,
    (((l.map (·.1)).Nodup ∧ ∀ k ∈ l.map (·.1), k ∉ names) → uniqNamesGo names l = .ok l) ∧
    (¬ ((l.map (·.1)).Nodup ∧ ∀ k ∈ l.map (·.1), k ∉ names) → uniqNamesGo names l = .error .assertionError) := by
  induction l with
  | nil => intro names; simp [uniqNamesGo]
  | cons kv l ih =>
    intro names
    obtain ⟨k, v⟩ := kv
    obtain ⟨i1, i2⟩ := ih (k :: names)
    simp only [uniqNamesGo, List.map_cons, List.nodup_cons, List.forall_mem_cons]
    constructor
    · rintro ⟨⟨h1, h2⟩, h3, h4⟩
      rw [if_neg h3, i1 ⟨h2, fun x hx => by
        simp only [List.mem_cons, not_or]
        exact ⟨fun e => h1 (e ▸ hx), h4 x hx⟩⟩]
      rfl
    · intro h
      by_cases hk : k ∈ names
      · rw [if_pos hk]
      · rw [if_neg hk, i2]
        · rfl
        · rintro ⟨g1, g2⟩
          apply h
          refine ⟨⟨fun hm => ?_, g1⟩, hk, fun x hx => ?_⟩
          · exact g2 k hm (by simp)
          · exact fun hn => g2 x hx (by simp [hn])

/-- C28: the attributes of an element are its plain values with every underscore
of a name replaced by a hyphen, values and order unchanged, provided the resulting
names are all different; otherwise the conversion stops with an `AssertionError`
and no attribute is overwritten. -/
theorem C28_attribute_names (ntvs : List (PyStr × PyStr)) :
    let dashed := ntvs.map fun kv => (kv.1.map fun c => if c = 0x5F then 0x2D else c, kv.2)
    ((dashed.map (·.1)).Nodup → xmlAttributes ntvs = .ok dashed) ∧
    (¬ (dashed.map (·.1)).Nodup → xmlAttributes ntvs = .error .assertionError) := by
  have hd : dashedNames ntvs = ntvs.map fun kv => (kv.1.map fun c => if c = 0x5F then 0x2D else c, kv.2) := by
    unfold dashedNames
    apply List.map_congr_left
    rintro ⟨k, v⟩ _
    have : ∀ k : PyStr, replaceChar 0x5F [0x2D] k = k.map fun c => if c = 0x5F then 0x2D else c := by
      intro k
      induction k with
      | nil => rfl
      | cons c k ih =>
        simp only [replaceChar, List.flatMap_cons, List.map_cons] at ih ⊢
        rw [ih]
        split <;> rfl
    simp only [this]
  obtain ⟨h1, h2⟩ := uniqNamesGo_spec (dashedNames ntvs) []
  simp only [xmlAttributes]
  rw [hd] at h1 h2 ⊢
  exact ⟨fun h => h1 ⟨h, by simp⟩, fun h => h2 (fun hc => h hc.1)⟩

example : xmlAttributes [(lit "section_id", lit "3"), (lit "a", lit "b_c")] =
    .ok [(lit "section-id", lit "3"), (lit "a", lit "b_c")] ∧
    xmlAttributes [(lit "a_b", lit "1"), (lit "a-b", lit "2")] = .error .assertionError := by decide +kernel

/-- C29: the stream of embedded data is named by its number as four upper case
hexadecimal digits. -/
theorem C29_stream_name (sid : Nat) (h : sid < 65536) (ext : List Char) :
    ∃ a b c d : Fin 16, sid = ((a.val * 16 + b.val) * 16 + c.val) * 16 + d.val ∧
      binName sid ext = 'B' :: 'I' :: 'N' ::
        ([a, b, c, d].map fun x => "0123456789ABCDEF".toList.getD x.val ' ') ++ '.' :: ext := by
  have hdig : ∀ n (hn : n < 16), hexDigitU n = "0123456789ABCDEF".toList.getD n ' ' := by decide
  have key : hex04U sid = [hexDigitU (sid / 4096), hexDigitU (sid / 256 % 16), hexDigitU (sid / 16 % 16),
      hexDigitU (sid % 16)] := by
    unfold hex04U
    by_cases h1 : sid < 16
    · have e1 : sid / 4096 = 0 := by omega
      have e2 : sid / 256 % 16 = 0 := by omega
      have e3 : sid / 16 % 16 = 0 := by omega
      have e4 : sid % 16 = sid := by omega
      rw [hexNatU, if_pos h1, e1, e2, e3, e4]
      simp [hexDigitU, List.replicate]
    · rw [hexNatU, if_neg h1]
      by_cases h2 : sid / 16 < 16
      · have e1 : sid / 4096 = 0 := by omega
        have e2 : sid / 256 % 16 = 0 := by omega
        have e3 : sid / 16 % 16 = sid / 16 := by omega
        rw [hexNatU, if_pos h2, e1, e2, e3]
        simp [hexDigitU, List.replicate]
      · rw [hexNatU, if_neg h2]
        by_cases h3 : sid / 16 / 16 < 16
        · have e1 : sid / 4096 = 0 := by omega
          have e2 : sid / 256 % 16 = sid / 16 / 16 := by omega
          rw [hexNatU, if_pos h3, e1, e2]
          simp [hexDigitU, List.replicate]
        · have h4 : sid / 16 / 16 / 16 < 16 := by omega
          have e1 : sid / 4096 = sid / 16 / 16 / 16 := by omega
          have e2 : sid / 256 % 16 = sid / 16 / 16 % 16 := by omega
          rw [hexNatU, if_neg h3, hexNatU, if_pos h4, e1, e2]
          simp
  refine ⟨⟨sid / 4096, by omega⟩, ⟨sid / 256 % 16, by omega⟩, ⟨sid / 16 % 16, by omega⟩, ⟨sid % 16, by omega⟩,
    by dsimp only; omega, ?_⟩
  unfold binName
  rw [key, hdig _ (by omega), hdig _ (by omega), hdig _ (by omega), hdig _ (by omega)]
  rfl

example : String.ofList (binName 0xABC "bmp".toList) = "BIN0ABC.bmp" := by decide +kernel

end Hwp.Props
