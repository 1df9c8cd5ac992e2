/-
C82: the JSON output of `hwp5proc records`.
-/
import Verif.Proofs.Json
import Verif.Proofs.Enum
import Verif.Props.Commands
set_option autoImplicit false
set_option linter.unusedSimpArgs false
set_option linter.unusedVariables false
namespace Hwp.Props
open Hwp Spec

theorem joinWith_intercalate (sep : List Char) (l : List (List Char)) : joinWith sep l = sep.intercalate l := by
  induction l with
  | nil => simp [joinWith, List.intercalate]
  | cons a l ih =>
    cases l with
    | nil => simp [joinWith, List.intercalate]
    | cons b l =>
      rw [joinWith, ih]
      · simp [List.intercalate]
      · simp

theorem utf16_bmp (s : PyStr) (h : ∀ c ∈ s, c < 0x10000) : utf16 s = s := by
  induction s with
  | nil => rfl
  | cons c s ih =>
    rw [utf16_cons, ih fun d hd => h d (by simp [hd])]
    unfold utf16
    simp [h c (by simp)]

/-! ### Lines of the dump and names are ASCII -/

theorem hexDigit_ascii : ∀ n < 16, (hexDigit n).toNat < 0x80 := by decide

theorem hexLine_ascii (d : Bytes) : ∀ c ∈ joinWith [' '] (d.map hex02), c.toNat < 0x80 := by
  have hex : ∀ b : UInt8, ∀ c ∈ hex02 b, c.toNat < 0x80 := by
    intro b c hc
    have := b.toNat_lt
    simp only [hex02, List.mem_cons, List.not_mem_nil, or_false] at hc
    rcases hc with rfl | rfl
    · exact hexDigit_ascii _ (by omega)
    · exact hexDigit_ascii _ (by omega)
  induction d with
  | nil => intro c hc; simp [joinWith] at hc
  | cons b d ih =>
    intro c hc
    cases d with
    | nil => exact hex b c (by simpa [joinWith] using hc)
    | cons b' d =>
      rw [List.map_cons, List.map_cons, joinWith] at hc
      · rw [List.append_assoc, List.mem_append, List.mem_append] at hc
        rcases hc with hc | hc | hc
        · exact hex b c hc
        · simp only [List.mem_cons, List.not_mem_nil, or_false] at hc; subst hc; decide
        · exact ih c hc
      · simp

theorem dumpbytes_ascii (d : Bytes) : ∀ l ∈ dumpbytes false d, ∀ c ∈ l, c.toNat < 0x80 := by
  have key : ∀ (o : Nat) (d : Bytes), ∀ l ∈ dumpLoop false o d, ∀ c ∈ l, c.toNat < 0x80 := by
    intro o d
    induction o, d using dumpLoop.induct with
    | case1 o d h ih =>
      intro l hl
      rw [dumpLoop, if_pos h, List.mem_cons] at hl
      rcases hl with rfl | hl
      · simp only [dumpLine, Bool.false_eq_true, if_false, List.nil_append]; exact hexLine_ascii _
      · exact ih l hl
    | case2 o d h =>
      intro l hl
      rw [dumpLoop, if_neg h, List.mem_singleton] at hl
      subst hl
      simp only [dumpLine, Bool.false_eq_true, if_false, List.nil_append]; exact hexLine_ascii _
  intro l hl
  exact key 0 d l (by simpa [dumpbytes] using hl)

theorem intStr_ascii (n : Int) : ∀ c ∈ intStr n, c < 0x80 := by
  rw [intStr_decimal]
  cases n with
  | ofNat m => intro c hc; have := decDigits_mem m c hc; omega
  | negSucc m =>
    intro c hc
    simp only [Hwp.decimal, List.mem_cons] at hc
    rcases hc with rfl | hc
    · omega
    · have := decDigits_mem _ c hc; omega

theorem tagname_ascii (t : Nat) : ∀ c ∈ tagname t, c < 0x80 := by
  have hk : ∀ x ∈ tagnames, ∀ c ∈ lit x.2, c < 0x80 := by decide +kernel
  intro c hc
  unfold tagname at hc
  split at hc
  · next n h =>
    exact hk (t, n) (List.lookup_eq_some_iff.1 h |> fun ⟨l1, l2, e, _⟩ => by rw [e]; simp) c hc
  · rw [List.mem_append] at hc
    rcases hc with hc | hc
    · have : ∀ c ∈ lit "HWPTAG", c < 0x80 := by decide
      exact this c hc
    · exact intStr_ascii _ c hc

theorem all_lt (s : PyStr) (h : ∀ c ∈ s, c < 0x80) : (s.all fun c => decide (c < 0x110000)) = true := by
  rw [List.all_eq_true]; intro c hc; simpa using Nat.lt_trans (h c hc) (by decide)

/-- The value a record is written as. -/
def recordValue (r : Record) : JValue :=
  .obj [(ascii "level", .num r.level 0),
    (ascii "payload", .arr ((dumpbytes false r.payload).map fun l => .str (l.map Char.toNat))),
    (ascii "seqno", .num r.seqno 0), (ascii "size", .num r.size 0), (ascii "tagid", .num r.tagid 0),
    (ascii "tagname", .str (tagname r.tagid))]

theorem recordDict_sorted (r : Record) : sortKeys (recordDict r) =
    [(lit "level", .int r.level),
     (lit "payload", .arr ((dumpbytes false r.payload).map fun l => .str (l.map Char.toNat))),
     (lit "seqno", .int r.seqno), (lit "size", .int r.size), (lit "tagid", .int r.tagid),
     (lit "tagname", .str (tagname r.tagid))] := rfl

theorem jvs_lines (ls : List (List Char)) (h : ∀ l ∈ ls, ∀ c ∈ l, c.toNat < 0x80) :
    jvs (ls.map fun l => .str (l.map Char.toNat)) = some (ls.map fun l => .str (l.map Char.toNat)) := by
  induction ls with
  | nil => rfl
  | cons l ls ih =>
    rw [List.map_cons, jvs, ih fun x hx => h x (by simp [hx]), jv]
    have hl : ∀ c ∈ l.map Char.toNat, c < 0x80 := by
      intro c hc; rw [List.mem_map] at hc; obtain ⟨a, ha, rfl⟩ := hc; exact h l (by simp) a ha
    rw [if_pos (all_lt _ hl), utf16_bmp _ fun c hc => Nat.lt_trans (hl c hc) (by decide)]
    rfl

theorem jv_record (r : Record) : jv (.obj (sortKeys (recordDict r))) = some (recordValue r) := by
  rw [recordDict_sorted]
  have h1 := jvs_lines _ (dumpbytes_ascii r.payload)
  have h2 := all_lt _ (tagname_ascii r.tagid)
  have h3 := utf16_bmp _ fun c hc => Nat.lt_trans (tagname_ascii r.tagid c hc) (by decide)
  simp only [jv, jvf, h1, h2, h3, Option.map_some, if_true]
  rfl

theorem jvs_records (rs : List Record) :
    jvs (rs.map fun r => .obj (sortKeys (recordDict r))) = some (rs.map recordValue) := by
  induction rs with
  | nil => rfl
  | cons r rs ih => rw [List.map_cons, jvs, ih, jv_record]; rfl

theorem recordValue_shows (r : Record) : ShowsRecord (recordValue r) r.tagid r.level r.size r.seqno r.payload := by
  refine ⟨dumpbytes false r.payload, tagname r.tagid, rfl, (tagname_iff _ _).2 rfl, ?_⟩
  rw [← joinWith_intercalate]
  have := dumpLoop_undump 0 r.payload
  simpa [dumpbytes] using this

/-! ### Arrays of texts -/

theorem arrayLoop_items (xs : List Json) :
    (jsonArrayLoop false (xs.map (jsonDumps 0))).flatten = jsonItems 0 xs ++ [0x0a, 0x5d] := by
  induction xs with
  | nil => rw [jsonItems]; rfl
  | cons x xs ih =>
    rw [List.map_cons, jsonArrayLoop, jsonItems, List.flatten_cons, List.flatten_cons, ih]
    simp [jsonNewline]

theorem array_text (x : Json) (xs : List Json) :
    (generateJsonArray ((x :: xs).map (jsonDumps 0))).flatten =
      0x5b :: 0x0a :: (jsonDumps 0 x ++ (jsonItems 0 xs ++ (jsonNewline 0 ++ ([0x5d] ++ [])))) := by
  rw [generateJsonArray, List.map_cons, jsonArrayLoop, List.flatten_cons, List.flatten_cons, arrayLoop_items]
  simp [jsonNewline]

theorem jvs_cons {x : Json} {xs : List Json} {ws : List JValue} (h : jvs (x :: xs) = some ws) :
    ∃ w us, jv x = some w ∧ jvs xs = some us ∧ ws = w :: us := by
  rw [jvs] at h
  cases hx : jv x <;> cases hxs : jvs xs <;> simp [hx, hxs] at h
  exact ⟨_, _, rfl, rfl, h.symm⟩

theorem skipSpace_nl (s : PyStr) : skipSpace (0x0a :: s) = skipSpace s := skipSpace_newline 0 s

theorem arr_len (x : Json) (xs : List Json) (ws : List JValue) (h : jvs (x :: xs) = some ws) :
    jcosts (x :: xs) ≤ 2 + (jsonDumps 0 x).length + (jsonItems 0 xs).length := by
  have := jcosts_le (x :: xs) 0 ws h
  rw [jsonItems] at this
  simp only [List.length_append, List.length_cons, List.length_nil, jsonNewline, List.length_replicate] at this
  omega

/-- The texts of values, put together, are the array of the values. -/
theorem readJson_array (x : Json) (xs : List Json) (ws : List JValue) (h : jvs (x :: xs) = some ws) :
    readJson (generateJsonArray ((x :: xs).map (jsonDumps 0))).flatten = some (.arr ws) := by
  rw [array_text]
  have hlen := arr_len x xs ws h
  obtain ⟨w, us, hx, -, -⟩ := jvs_cons h
  obtain ⟨c, t, e, h1, h2, h3, h4, h5, -⟩ := jsonDumps_head 0 x w hx
  unfold readJson
  rw [readValue_arr _ _ (t ++ (jsonItems 0 xs ++ (jsonNewline 0 ++ ([0x5d] ++ [])))) c
      (by rw [skipSpace_nl, e, List.cons_append, skipSpace_other _ _ ⟨h1, h2, h3, h4⟩]) h5]
  rw [readArray_skip _ (skipSpace_nl _),
    readArray_dumps x xs 0 0 _ ws [] h (by simp only [List.length_append, List.length_cons]; omega)]
  rfl

theorem readArray_open (xs : List Json) : ∀ (x : Json) (f : Nat) (ws : List JValue), jvs (x :: xs) = some ws →
    jcosts (x :: xs) ≤ f → readArray f (jsonDumps 0 x ++ jsonItems 0 xs) = none := by
  induction xs with
  | nil =>
    intro x f ws h hf
    obtain ⟨w, us, hx, -, -⟩ := jvs_cons h
    rw [jcosts] at hf
    match f with
    | 0 => omega
    | f + 1 =>
      have := readValue_dumps x 0 f w [] hx (by omega) (by intro c t e; cases e)
      rw [jsonItems, readArray, this]
      rfl
  | cons y ys ih =>
    intro x f ws h hf
    obtain ⟨w, us, hx, hys, -⟩ := jvs_cons h
    rw [jcosts] at hf
    match f with
    | 0 => omega
    | f + 1 =>
      have hs : Stop (jsonItems 0 (y :: ys)) := by
        intro c t e; rw [jsonItems] at e; injection e with e; exact .inl e.symm
      have h1 := readValue_dumps x 0 f w _ hx (by omega) hs
      have h2 := ih y f us hys (by omega)
      have e : jsonItems 0 (y :: ys) = 0x2c :: (jsonNewline 0 ++ (jsonDumps 0 y ++ jsonItems 0 ys)) := by
        rw [jsonItems]; simp
      rw [readArray, h1]
      rw [e]
      have h3 : readArray f (jsonNewline 0 ++ (jsonDumps 0 y ++ jsonItems 0 ys)) = none :=
        (readArray_skip f (skipSpace_newline 0 _)).trans h2
      show (match skipSpace (0x2c :: (jsonNewline 0 ++ (jsonDumps 0 y ++ jsonItems 0 ys))) with
        | 0x5d :: s => some ([w], s)
        | 0x2c :: s => do
          let (xs, s) ← readArray f s
          some (w :: xs, s)
        | _ => none) = none
      rw [skipSpace_other _ _ (by decide)]
      show (readArray f (jsonNewline 0 ++ (jsonDumps 0 y ++ jsonItems 0 ys))).bind _ = none
      rw [h3]; rfl

/-- Without the closing bracket the text is not JSON. -/
theorem readJson_open (xs : List Json) (ws : List JValue) (h : jvs xs = some ws) :
    readJson (generateJsonArray (xs.map (jsonDumps 0))).dropLast.flatten = none := by
  cases xs with
  | nil => rfl
  | cons x xs =>
    have e : (generateJsonArray ((x :: xs).map (jsonDumps 0))).dropLast.flatten =
        0x5b :: 0x0a :: (jsonDumps 0 x ++ jsonItems 0 xs) := by
      have key : ∀ xs : List Json, (jsonArrayLoop false (xs.map (jsonDumps 0))).dropLast.flatten = jsonItems 0 xs := by
        intro xs
        induction xs with
        | nil => rw [jsonItems]; rfl
        | cons x xs ih =>
          have hne : jsonArrayLoop false (xs.map (jsonDumps 0)) ≠ [] := by
            cases xs <;> simp [jsonArrayLoop]
          rw [List.map_cons, jsonArrayLoop, jsonItems, List.dropLast_cons_of_ne_nil (by simp),
            List.dropLast_cons_of_ne_nil hne, List.flatten_cons, List.flatten_cons, ih]
          simp [jsonNewline]
      have hne : jsonArrayLoop false (xs.map (jsonDumps 0)) ≠ [] := by
        cases xs <;> simp [jsonArrayLoop]
      rw [generateJsonArray, List.map_cons, jsonArrayLoop, List.dropLast_cons_of_ne_nil (by simp),
        List.dropLast_cons_of_ne_nil hne, List.flatten_cons, List.flatten_cons, key]
      simp
    rw [e]
    have hlen := arr_len x xs ws h
    obtain ⟨w, us, hx, -, -⟩ := jvs_cons h
    obtain ⟨c, t, e, h1, h2, h3, h4, h5, -⟩ := jsonDumps_head 0 x w hx
    unfold readJson
    rw [readValue_arr _ _ (t ++ jsonItems 0 xs) c
        (by rw [skipSpace_nl, e, List.cons_append, skipSpace_other _ _ ⟨h1, h2, h3, h4⟩]) h5]
    rw [readArray_skip _ (skipSpace_nl _),
      readArray_open xs x _ ws h (by simp only [List.length_append, List.length_cons]; omega)]
    rfl

/-! ### C82 -/

/-- C82: a nonempty selection of records is written as a JSON array with one object for each
record, in order; the object shows the record.  Missing from the claim: the empty selection. -/
theorem C82_array_partial (g : Gen Record) (hne : g.out ≠ []) (herr : g.err = none) :
    (recordsJson g).err = none ∧
    ∃ vs, readJson (recordsJson g).out.flatten = some (.arr vs) ∧ vs.length = g.out.length ∧
      ∀ x ∈ g.out.zip vs, ShowsRecord x.2 x.1.tagid x.1.level x.1.size x.1.seqno x.1.payload := by
  have e : recordsJson g = .ofList (generateJsonArray (g.out.map recordToJson)) := by
    unfold recordsJson jsonObjects; rw [herr]
  rw [e]
  refine ⟨rfl, g.out.map recordValue, ?_, by simp, ?_⟩
  · show readJson (generateJsonArray (g.out.map recordToJson)).flatten = _
    have hj := jvs_records g.out
    cases hg : g.out with
    | nil => exact absurd hg hne
    | cons r rs =>
      rw [hg] at hj
      have := readJson_array _ _ _ hj
      rw [← List.map_cons (f := fun r => Json.obj (sortKeys (recordDict r))), List.map_map] at this
      exact this
  · intro x hx
    rw [List.zip_map_right, List.mem_map] at hx
    obtain ⟨⟨a, b⟩, hab, rfl⟩ := hx
    have : a = b := by
      obtain ⟨i, hi⟩ := List.mem_iff_getElem?.1 hab
      rw [List.getElem?_zip_eq_some] at hi
      simpa using hi.1.symm.trans hi.2
    subst this
    exact recordValue_shows a

/-- **Violated**: for an empty selection the output is not JSON. -/
theorem C82_empty_not_json (g : Gen Record) (h : g.out = []) : readJson (recordsJson g).out.flatten = none := by
  unfold recordsJson jsonObjects
  rw [h]
  cases g.err with
  | none => decide +kernel
  | some e => rfl

/-- C82: when the stream cannot be read to its end the exception is passed on, and what was
written before is not a JSON text, so the loss cannot pass unnoticed. -/
theorem C82_unfinished (g : Gen Record) (e : PyErr) (herr : g.err = some e) :
    (recordsJson g).err = some e ∧ readJson (recordsJson g).out.flatten = none := by
  unfold recordsJson jsonObjects
  rw [herr]
  refine ⟨rfl, ?_⟩
  have := readJson_open _ _ (jvs_records g.out)
  rw [List.map_map] at this
  exact this

theorem showsRecord_inj {v : JValue} {t l z n t' l' z' n' : Nat} {p p' : Bytes} (h : ShowsRecord v t l z n p)
    (h' : ShowsRecord v t' l' z' n' p') : t = t' ∧ l = l' ∧ z = z' ∧ n = n' ∧ p = p' := by
  obtain ⟨ls, nm, e, -, hp⟩ := h
  obtain ⟨ls', nm', e', -, hp'⟩ := h'
  rw [e] at e'
  simp only [JValue.obj.injEq, List.cons.injEq, Prod.mk.injEq, JValue.num.injEq, JValue.arr.injEq, true_and, and_true,
    JValue.str.injEq, Int.natCast_inj] at e'
  obtain ⟨h1, h2, h3, h4, h5, -⟩ := e'
  have : ls = ls' := by
    have inj : Function.Injective fun l : List Char => JValue.str (l.map Char.toNat) := by
      intro a b hab
      injection hab with hab
      exact List.map_injective_iff.2 (fun c d hcd => Char.toNat_inj.1 hcd) hab
    exact List.map_injective_iff.2 inj h2
  subst this
  rw [hp] at hp'
  injection hp' with hp'
  exact ⟨h5, h1, h4, h3, hp'⟩

/-- C82: the JSON text determines the records. -/
theorem C82_lossless (g g' : Gen Record) (hne : g.out ≠ []) (hne' : g'.out ≠ []) (herr : g.err = none)
    (herr' : g'.err = none) (h : (recordsJson g).out.flatten = (recordsJson g').out.flatten) : g.out = g'.out := by
  obtain ⟨-, vs, h1, h2, h3⟩ := C82_array_partial g hne herr
  obtain ⟨-, vs', h1', h2', h3'⟩ := C82_array_partial g' hne' herr'
  rw [h, h1'] at h1
  injection h1 with h1; injection h1 with h1; subst h1
  refine List.ext_getElem (h2.symm.trans h2') fun i hi hi' => ?_
  have a := h3 (g.out[i], vs'[i]) (by
    rw [List.mem_iff_getElem]; exact ⟨i, by simp; omega, by simp⟩)
  have b := h3' (g'.out[i], vs'[i]) (by
    rw [List.mem_iff_getElem]; exact ⟨i, by simp; omega, by simp⟩)
  obtain ⟨e1, e2, e3, e4, e5⟩ := showsRecord_inj a b
  generalize g.out[i] = r at *
  generalize g'.out[i] = r' at *
  cases r; cases r'
  simp_all

/-- The value as a text, for the examples. -/
def showJValue : Nat → JValue → String
  | 0, _ => ""
  | _, .null => "null"
  | _, .bool b => toString b
  | _, .num m e => toString m ++ "e" ++ toString e
  | _, .str u => toString u
  | f + 1, .arr xs => "[" ++ " ".intercalate (xs.map (showJValue f)) ++ "]"
  | f + 1, .obj fs => "{" ++ " ".intercalate (fs.map fun x => toString x.1 ++ ":" ++ showJValue f x.2) ++ "}"

example : (readJson (lit "[{\"a\": [1.5e1, -0, \"\\u00e9\\n\"]}, null, true ]")).map (showJValue 9) =
    some "[{[97]:[15e0 0e0 [233, 10]]} null true]" := by decide +kernel
example : (readJson (lit "[1, 2")).isNone := by decide +kernel
example : (readJson (lit "[1, ]")).isNone := by decide +kernel
example : (readJson (lit "[01]")).isNone := by decide +kernel
example : (readJson (lit "NaN")).isNone := by decide +kernel
example : (recordsJson (selectRecords (some (lit "1-3")) none threeRecords)).out.flatten = lit
    "[\n{\n  \"level\": 1,\n  \"payload\": [\n    \"bb\"\n  ],\n  \"seqno\": 1,\n  \"size\": 1,\n  \"tagid\": 67,\n  \"tagname\": \"HWPTAG_PARA_TEXT\"\n},\n{\n  \"level\": 1,\n  \"payload\": [\n    \"cc\"\n  ],\n  \"seqno\": 2,\n  \"size\": 1,\n  \"tagid\": 1023,\n  \"tagname\": \"HWPTAG1007\"\n}\n]" := by
  decide +kernel

end Hwp.Props
