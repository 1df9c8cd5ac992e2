/-
C83: the outputs of `hwp5proc models`.
-/
import Verif.Proofs.ModelJson
import Verif.Proofs.DocFail
import Verif.Spec.Records
set_option autoImplicit false
set_option linter.unusedSimpArgs false
set_option linter.unusedVariables false
namespace Hwp.Props
open Hwp Spec

/-! ### The object of a model -/

theorem dump_shown (b : Bytes) : ∃ w, jv (jsonDump b) = some w ∧ DumpShown w b := by
  refine ⟨.arr ((dumpbytes false b).map fun l => .str (l.map Char.toNat)), ?_, dumpbytes false b, rfl, ?_⟩
  · rw [jsonDump, jv, jvs_lines _ (dumpbytes_ascii b)]; rfl
  · rw [← joinWith_intercalate]
    have := dumpLoop_undump 0 b
    simpa [dumpbytes] using this

theorem model_shown (env : JsonEnv) (hf : NumberText env.floatRepr) (m : PModel Fields)
    (h : GoodV LeafOk (.struct m.content)) :
    ∃ j w, modelToJson env m = .ok (jsonDumps 0 j) ∧ jv j = some w ∧ ShowsModel env.floatRepr w m := by
  obtain ⟨c, cw, hc, hcw, hs⟩ := value_shown env hf (.struct m.content) h
  obtain ⟨pw, hpw, hps⟩ := dump_shown m.record.payload
  have hi : ∀ n : Int, jv (.int n) = some (.num n 0) := fun n => by rw [jv]
  have hn : jv (.str (tagname m.record.tagid)) = some (.str (tagname m.record.tagid)) := by
    rw [jv, if_pos (all_lt _ (tagname_ascii _)),
      utf16_bmp _ fun c hc => Nat.lt_trans (tagname_ascii m.record.tagid c hc) (by decide)]
  have ht : jv (.str (lit m.type)) = some (.str (utf16 (lit m.type))) := jv_str (lit_scalar _)
  have hu : ∀ k : String, (∀ c ∈ lit k, c < 0x80) → utf16 (lit k) = ascii k := by
    intro k hk
    rw [utf16_bmp _ fun c hc => Nat.lt_trans (hk c hc) (by decide)]; rfl
  cases hm : m.unparsed with
  | none =>
    refine ⟨.obj [(lit "content", c), (lit "level", .int m.record.level), (lit "payload", jsonDump m.record.payload),
      (lit "seqno", .int m.record.seqno), (lit "size", .int m.record.size), (lit "tagid", .int m.record.tagid),
      (lit "tagname", .str (tagname m.record.tagid)), (lit "type", .str (lit m.type))], _, ?_, ?_,
      cw, pw, tagname m.record.tagid, [], hs, hps, (tagname_iff _ _).2 rfl, by rw [hm], rfl⟩
    · rw [modelToJson, hc, hm]; rfl
    · rw [jv, jvf_cons_some hcw (jvf_cons_some (hi _) (jvf_cons_some hpw (jvf_cons_some (hi _) (jvf_cons_some (hi _)
        (jvf_cons_some (hi _) (jvf_cons_some hn (jvf_cons_some ht (by rw [jvf]) (key_ok _)) (key_ok _)) (key_ok _)) (key_ok _))
          (key_ok _)) (key_ok _)) (key_ok _)) (key_ok _)]
      rw [hu "content" (by decide), hu "level" (by decide), hu "payload" (by decide), hu "seqno" (by decide),
        hu "size" (by decide), hu "tagid" (by decide), hu "tagname" (by decide), hu "type" (by decide)]
      rfl
  | some u =>
    obtain ⟨uw, huw, hus⟩ := dump_shown u
    refine ⟨.obj [(lit "content", c), (lit "level", .int m.record.level), (lit "payload", jsonDump m.record.payload),
      (lit "seqno", .int m.record.seqno), (lit "size", .int m.record.size), (lit "tagid", .int m.record.tagid),
      (lit "tagname", .str (tagname m.record.tagid)), (lit "type", .str (lit m.type)), (lit "unparsed", jsonDump u)], _, ?_, ?_,
      cw, pw, tagname m.record.tagid, [(ascii "unparsed", uw)], hs, hps, (tagname_iff _ _).2 rfl,
      by rw [hm]; exact ⟨uw, rfl, hus⟩, rfl⟩
    · rw [modelToJson, hc, hm]; rfl
    · rw [jv, jvf_cons_some hcw (jvf_cons_some (hi _) (jvf_cons_some hpw (jvf_cons_some (hi _) (jvf_cons_some (hi _)
        (jvf_cons_some (hi _) (jvf_cons_some hn (jvf_cons_some ht (jvf_cons_some huw (by rw [jvf]) (key_ok _)) (key_ok _)) (key_ok _))
          (key_ok _)) (key_ok _)) (key_ok _)) (key_ok _)) (key_ok _)) (key_ok _)]
      rw [hu "content" (by decide), hu "level" (by decide), hu "payload" (by decide), hu "seqno" (by decide),
        hu "size" (by decide), hu "tagid" (by decide), hu "tagname" (by decide), hu "type" (by decide), hu "unparsed" (by decide)]
      rfl

theorem models_shown (env : JsonEnv) (hf : NumberText env.floatRepr) (err : Option PyErr) (ms : List (PModel Fields))
    (h : ∀ m ∈ ms, GoodV LeafOk (.struct m.content)) :
    ∃ js ws, writeEach (fun m => do return [← modelToJson env m]) err ms = ⟨js.map (jsonDumps 0), err⟩ ∧
      jvs js = some ws ∧ ws.length = ms.length ∧ ∀ x ∈ ms.zip ws, ShowsModel env.floatRepr x.2 x.1 := by
  induction ms with
  | nil => exact ⟨[], [], rfl, by rw [jvs], rfl, by simp⟩
  | cons m ms ih =>
    obtain ⟨js, ws, h1, h2, h3, h4⟩ := ih fun x hx => h x (by simp [hx])
    obtain ⟨j, w, e1, e2, e3⟩ := model_shown env hf m (h m (by simp))
    refine ⟨j :: js, w :: ws, ?_, jvs_cons_some e2 h2, by simp [h3], ?_⟩
    · rw [writeEach, e1, h1]; rfl
    · intro x hx
      rw [List.zip_cons_cons, List.mem_cons] at hx
      rcases hx with rfl | hx
      · exact e3
      · exact h4 x hx

theorem selected_ok {ver : Version} {rd : ModelReader Fields} (hrd : ReadsDecls ver rd) (tg seqno : Option PyStr) (s : Bytes)
    (hfin : ∀ m ∈ (selectModels rd tg seqno s).out, ∀ b ∈ doubles (.struct m.content), Finite b) :
    ∀ m ∈ (selectModels rd tg seqno s).out, GoodV LeafOk (.struct m.content) := by
  intro m hm
  have := (reader_unique ver rd).1 hrd
  subst this
  obtain ⟨rs, hrs⟩ := selectModels_mem _ _ _ _ m hm
  exact good_finite _ (content_good hrs) (hfin m hm)

/-! ### C83: the array -/

/-- C83: a nonempty selection of models is written as a JSON array with one object for each model,
in order; the object shows record, type, every member of the content and what was not parsed.
Missing from the claim: the empty selection, and numbers that are not finite. -/
theorem C83_array_partial (ver : Version) (rd : ModelReader Fields) (hrd : ReadsDecls ver rd) (env : JsonEnv)
    (hf : NumberText env.floatRepr) (tg seqno : Option PyStr) (s : Bytes)
    (hne : (selectModels rd tg seqno s).out ≠ []) (herr : (selectModels rd tg seqno s).err = none)
    (hfin : ∀ m ∈ (selectModels rd tg seqno s).out, ∀ b ∈ doubles (.struct m.content), Finite b) :
    (modelsJson env (selectModels rd tg seqno s)).err = none ∧
    ∃ vs, readJson (modelsJson env (selectModels rd tg seqno s)).out.flatten = some (.arr vs) ∧
      vs.length = (selectModels rd tg seqno s).out.length ∧
      ∀ x ∈ (selectModels rd tg seqno s).out.zip vs, ShowsModel env.floatRepr x.2 x.1 := by
  have hok := selected_ok hrd tg seqno s hfin
  generalize selectModels rd tg seqno s = g at *
  obtain ⟨js, ws, h1, h2, h3, h4⟩ := models_shown env hf g.err g.out hok
  unfold modelsJson jsonObjects
  rw [h1, herr, List.map_id]
  refine ⟨rfl, ws, ?_, h3, h4⟩
  cases js with
  | nil =>
    rw [jvs] at h2
    injection h2 with h2; subst h2
    exact absurd (List.eq_nil_of_length_eq_zero h3.symm) hne
  | cons j js => exact readJson_array j js ws h2

/-- C83: what has been read can be written: the command fails only when reading fails. -/
theorem C83_never_unwritable (ver : Version) (rd : ModelReader Fields) (hrd : ReadsDecls ver rd) (env : JsonEnv)
    (tg seqno : Option PyStr) (s : Bytes) :
    (modelsJson env (selectModels rd tg seqno s)).err = (selectModels rd tg seqno s).err := by
  have hg : ∀ m ∈ (selectModels rd tg seqno s).out, GoodV LeafRead (.struct m.content) := by
    intro m hm
    have := (reader_unique ver rd).1 hrd
    subst this
    obtain ⟨rs, hrs⟩ := selectModels_mem _ _ _ _ m hm
    exact content_good hrs
  generalize selectModels rd tg seqno s = g at *
  have key : (writeEach (fun m => do return [← modelToJson env m]) g.err g.out).err = g.err := by
    generalize g.err = e
    revert hg
    generalize g.out = ms
    intro hg
    induction ms with
    | nil => rfl
    | cons m ms ih =>
      obtain ⟨j, hj⟩ := value_written env _ (hg m (by simp))
      have : ∃ t, modelToJson env m = .ok t := by rw [modelToJson, hj]; exact ⟨_, rfl⟩
      obtain ⟨t, ht⟩ := this
      rw [writeEach, ht]
      exact ih fun x hx => hg x (by simp [hx])
  unfold modelsJson jsonObjects
  rw [key]
  cases g.err <;> rfl

/-- C83: when the stream cannot be read to its end the exception is passed on, and what was
written before is not a JSON text. -/
theorem C83_unfinished (ver : Version) (rd : ModelReader Fields) (hrd : ReadsDecls ver rd) (env : JsonEnv)
    (hf : NumberText env.floatRepr) (tg seqno : Option PyStr) (s : Bytes) (e : PyErr)
    (herr : (selectModels rd tg seqno s).err = some e)
    (hfin : ∀ m ∈ (selectModels rd tg seqno s).out, ∀ b ∈ doubles (.struct m.content), Finite b) :
    (modelsJson env (selectModels rd tg seqno s)).err = some e ∧
    readJson (modelsJson env (selectModels rd tg seqno s)).out.flatten = none := by
  have hok := selected_ok hrd tg seqno s hfin
  generalize selectModels rd tg seqno s = g at *
  obtain ⟨js, ws, h1, h2, h3, h4⟩ := models_shown env hf g.err g.out hok
  unfold modelsJson jsonObjects
  rw [h1, herr, List.map_id]
  exact ⟨rfl, readJson_open js ws h2⟩

/-- **Violated**: for an empty selection the output is not JSON. -/
theorem C83_empty_not_json (env : JsonEnv) (g : Gen (PModel Fields)) (h : g.out = []) :
    readJson (modelsJson env g).out.flatten = none := by
  unfold modelsJson jsonObjects
  rw [h]
  cases hg : g.err with
  | none => rw [writeEach]; dsimp only; decide +kernel
  | some e => rfl

theorem dumpShown_inj {j : JValue} {b b' : Bytes} (h : DumpShown j b) (h' : DumpShown j b') : b = b' := by
  obtain ⟨ls, e, hb⟩ := h
  obtain ⟨ls', e', hb'⟩ := h'
  rw [e] at e'
  injection e' with e'
  have inj : Function.Injective fun l : List Char => JValue.str (l.map Char.toNat) := by
    intro a b hab
    injection hab with hab
    exact List.map_injective_iff.2 (fun c d hcd => Char.toNat_inj.1 hcd) hab
  have : ls = ls' := List.map_injective_iff.2 inj e'
  subst this
  rw [hb] at hb'
  injection hb'

/-- C83: an object shows only one record, type and rest. -/
theorem C83_object_record (text : Bytes → PyStr) (j : JValue) (m m' : PModel (List (String × Value PVal)))
    (h : ShowsModel text j m) (h' : ShowsModel text j m') :
    m.record = m'.record ∧ m.type = m'.type ∧ m.unparsed = m'.unparsed := by
  obtain ⟨c, p, n, x, -, h2, -, h4, e⟩ := h
  obtain ⟨c', p', n', x', -, h2', -, h4', e'⟩ := h'
  rw [e] at e'
  simp only [List.cons_append, List.nil_append, JValue.obj.injEq, List.cons.injEq, Prod.mk.injEq, JValue.num.injEq, true_and, and_true,
    JValue.str.injEq, Int.natCast_inj] at e'
  obtain ⟨-, e1, e2, e3, e4, e5, e6, e7, e8⟩ := e'
  subst e2 e8
  have hp := dumpShown_inj h2 h2'
  refine ⟨?_, key_inj e7, ?_⟩
  · cases hr : m.record; cases hr' : m'.record
    simp_all
  · cases hm : m.unparsed <;> cases hm' : m'.unparsed <;> rw [hm] at h4 <;> rw [hm'] at h4'
    · rw [h4] at h4'; obtain ⟨d, hd, -⟩ := h4'; cases hd
    · obtain ⟨d, hd, -⟩ := h4; rw [h4'] at hd; cases hd
    · obtain ⟨d, hd, hs⟩ := h4
      obtain ⟨d', hd', hs'⟩ := h4'
      rw [hd] at hd'
      simp only [List.cons.injEq, Prod.mk.injEq, true_and, and_true] at hd'
      subst hd'
      rw [dumpShown_inj hs hs']

/-! ### C83: which models -/

theorem chainModels_prefix {κ} (rd : ModelReader κ) (err : Option PyErr) (gs : List (List Record)) :
    (chainModels rd err gs).out.map PModel.record <+: gs.flatten := by
  induction gs with
  | nil => exact List.prefix_refl _
  | cons g gs ih =>
    have hp := C64_order rd (.ofList g)
    rw [chainModels]
    split
    · next out h =>
      rw [h] at hp
      show (out ++ _).map _ <+: _
      rw [List.map_append, List.flatten_cons]
      have e : out.map PModel.record = g := (hp.2 rfl).1
      rw [e]
      exact (List.prefix_append_right_inj g).2 ih
    · next out e h =>
      rw [h] at hp
      exact hp.1.trans (List.prefix_append _ _)

theorem dropLast_flatten {α} : ∀ gs : List (List α), gs.dropLast.flatten <+: gs.flatten := by
  intro gs
  obtain ⟨t, ht⟩ := List.dropLast_prefix gs
  conv => rhs; rw [← ht]
  rw [List.flatten_append]
  exact List.prefix_append _ _

/-- The models are those of the first records of the stream. -/
theorem streamModels_prefix {κ} (rd : ModelReader κ) (s : Bytes) :
    (streamModels rd s).out.map PModel.record <+: (readRecords s).out := by
  refine (chainModels_prefix rd _ _).trans ?_
  obtain ⟨gs, h1, h2, -⟩ := C05_groups_partition (readRecords s).out
  cases he : (readRecords s).err with
  | none =>
    have e : groupByTop (readRecords s) = ⟨gs, none⟩ := by rw [← h1]; congr 1; exact Gen.ext rfl he
    rw [e]
    dsimp only
    rw [h2]
    exact List.prefix_refl _
  | some x =>
    have e : groupByTop (readRecords s) = ⟨gs.dropLast, some x⟩ := by
      rw [show readRecords s = ⟨(readRecords s).out, some x⟩ from Gen.ext rfl he, C05_groups_failing_source, h1]
    rw [e]
    exact h2 ▸ dropLast_flatten gs

theorem intText_cons {t : PyStr} {n : Int} (h : IntText t n) : ∃ c r, t = c :: r := by
  cases t with
  | cons c r => exact ⟨c, r, rfl⟩
  | nil =>
    obtain ⟨l, t, r, e, -, -, hs⟩ := h
    have : t = [] := by
      have := congrArg List.length e
      simp only [List.length_append, List.length_nil] at this
      exact List.eq_nil_of_length_eq_zero (by omega)
    subst this
    generalize he : ([] : PyStr) = t at hs
    cases hs with
    | none s n hn => cases hn <;> simp at he
    | plus => cases he
    | minus => cases he

/-- C83: `--seqno n` selects exactly the model of the record with this number. -/
theorem C83_seqno {rd : ModelReader Fields} (s : Bytes) (t : PyStr) (n : Nat) (ht : IntText t n) (hn : n < sysMaxsize) :
    (selectModels rd none (some t) s).out = (streamModels rd s).out.filter (fun m => m.record.seqno = n) ∧
    (selectModels rd none (some t) s).err =
      if n < (streamModels rd s).out.length then none else (streamModels rd s).err := by
  have e : selectModels rd none (some t) s = islice (streamModels rd s) n (n + 1) := by
    obtain ⟨c, r, rfl⟩ := intText_cons ht
    unfold selectModels
    have h1 : isliceArg ((n : Int) + 1) = .ok (n + 1) := isliceArg_nat (n := n + 1) hn
    simp [intArg_ok.2 ht, isliceArg_nat (Nat.le_of_lt hn), h1, bind, Except.bind, pure, Except.pure]
  rw [e]
  constructor
  · have hs := C02_seqno_consecutive s
    obtain ⟨x, hx⟩ := streamModels_prefix rd s
    rw [← hx] at hs
    have out_eq : (islice (streamModels rd s) n (n + 1)).out = ((streamModels rd s).out.take (n + 1)).drop n := rfl
    rw [out_eq]
    generalize (streamModels rd s).out = ms at hs ⊢
    have hs' : ms.map (fun m => m.record.seqno) = List.range' 0 ms.length := by
      have := congrArg (List.take ms.length) hs
      rw [List.map_append, List.take_append_of_le_length (by simp), List.map_map] at this
      rw [List.take_of_length_le (by simp)] at this
      rw [show (fun m : PModel Fields => m.record.seqno) = Record.seqno ∘ PModel.record from rfl, this, List.take_range,
        Nat.min_eq_left (by simp), List.range_eq_range']
    have key : ∀ (ms : List (PModel Fields)) (k : Nat), ms.map (fun m => m.record.seqno) = List.range' k ms.length → k ≤ n →
        ms.filter (fun m => m.record.seqno = n) = (ms.take (n + 1 - k)).drop (n - k) := by
      intro ms
      induction ms with
      | nil => intro k _ _; simp
      | cons m ms ih =>
        intro k hk hkn
        rw [List.map_cons, List.length_cons, List.range'_succ, List.cons.injEq] at hk
        obtain ⟨h1, h2⟩ := hk
        by_cases hb : k = n
        · subst hb
          rw [List.filter_cons, if_pos (by simpa using h1), show k + 1 - k = 1 by omega, Nat.sub_self, List.drop_zero]
          have : ms.filter (fun m => m.record.seqno = k) = [] := by
            rw [List.filter_eq_nil_iff]
            intro a ha
            have : a.record.seqno ∈ ms.map (fun m => m.record.seqno) := List.mem_map.2 ⟨a, ha, rfl⟩
            rw [h2, List.mem_range'_1] at this
            simp; omega
          rw [this]; rfl
        · rw [List.filter_cons, if_neg (by simp; omega), ih (k + 1) h2 (by omega),
            show n + 1 - k = (n + 1 - (k + 1)) + 1 by omega, show n - k = (n - (k + 1)) + 1 by omega]
          rfl
    exact (key ms 0 hs' (by omega)).symm
  · unfold islice
    dsimp only
    rw [show max n (n + 1) = n + 1 by omega]
    rfl

/-- C83: `--treegroup` with the text of a number selects the models of that group of the partition
of the records at the records of level 0; a number that is too large is a `TypeError`, and every
other nonempty text is a `ValueError`. -/
theorem C83_treegroup {rd : ModelReader Fields} (s : Bytes) (h : (readRecords s).err = none) (sq : Option PyStr) :
    ∃ gs : List (List Record), gs.flatten = (readRecords s).out ∧
      (∀ g ∈ gs, g ≠ []) ∧ (∀ g ∈ gs.tail, ∃ r t, g = r :: t ∧ r.level = 0) ∧
      (∀ g ∈ gs, ∀ r ∈ g.tail, r.level ≠ 0) ∧
      (∀ (t : PyStr) (n : Nat), IntText t n → n ≤ sysMaxsize →
        selectModels rd (some t) sq s = match gs[n]? with
          | some g => parseModels rd (.ofList g)
          | none => .raise .typeError) ∧
      ∀ t : PyStr, t ≠ [] → (¬ ∃ n : Nat, IntText t n ∧ n ≤ sysMaxsize) → selectModels rd (some t) sq s = .raise .valueError := by
  obtain ⟨gs, h1, h2, h3, h4, h5⟩ := C05_groups_partition (readRecords s).out
  refine ⟨gs, h2, h3, h4, h5, ?_, ?_⟩
  · intro t n ht hn
    have e : groupByTop (readRecords s) = ⟨gs, none⟩ := by
      rw [← h1]; congr 1; exact Gen.ext rfl h
    have hg : recordsTreegroup s n = .ok gs[n]? := by
      unfold recordsTreegroup nth
      rw [e]
      cases hgn : gs[n]? <;> simp [hgn]
    obtain ⟨c, r, rfl⟩ := intText_cons ht
    unfold selectModels treegroupModels
    cases hgn : gs[n]? <;>
      simp [intArg_ok.2 ht, isliceArg_nat hn, hg, hgn, bind, Except.bind, pure, Except.pure]
  · intro t hne ht
    cases t with
    | nil => exact absurd rfl hne
    | cons c r =>
    unfold selectModels
    by_cases hi : ∃ n, IntText (c :: r) n
    · obtain ⟨n, hi⟩ := hi
      have : ¬ ∃ m : Nat, n = m ∧ m ≤ sysMaxsize := by
        rintro ⟨m, rfl, hm⟩; exact ht ⟨m, hi, hm⟩
      simp [intArg_ok.2 hi, isliceArg_err this, bind, Except.bind, pure, Except.pure]
    · simp [intArg_err hi, bind, Except.bind, pure, Except.pure]

/-- C83: without options, or with empty ones, all models are selected. -/
theorem C83_all (rd : ModelReader Fields) (s : Bytes) :
    selectModels rd none none s = streamModels rd s ∧ selectModels rd (some []) (some []) s = streamModels rd s :=
  ⟨rfl, rfl⟩

theorem modelLine_eq (m : PModel Fields) : modelLine m =
    (Spec.decimal m.record.seqno).leftpad 4 0x30 ++ lit " " ++
      (List.replicate m.record.level (lit " ")).flatten ++ lit m.type ++ lit "\n" := by
  have h2 : ∀ k, (List.replicate k (lit " ")).flatten = List.replicate k 0x20 := by
    intro k
    induction k with
    | zero => rfl
    | succ k ih => rw [List.replicate_succ, List.flatten_cons, ih]; rfl
  have h3 : lit " " = [0x20] := by decide
  have h4 : lit "\n" = [0x0a] := by decide
  unfold modelLine pad4
  rw [h2, leftpad_eq, decimal_nat, h3, h4]

/-- C83: `--simple` writes one line for each model: the number with at least four digits, a blank
and one more for each level, the type. -/
theorem C83_listing (g : Gen (PModel Fields)) :
    modelsSimple g = ⟨(g.out.map fun m => (Spec.decimal m.record.seqno).leftpad 4 0x30 ++ lit " " ++
      (List.replicate m.record.level (lit " ")).flatten ++ lit m.type ++ lit "\n").flatten, g.err⟩ := by
  unfold modelsSimple
  exact writeEach_ok _ _ _ _ fun m _ => congrArg Except.ok (modelLine_eq m)

/-! ### Examples -/

/-- A record of an unknown tag with a shape component in it; the first number of the matrix is
`x`. -/
def shapeStream (x : Bytes) : Bytes :=
  streamBytes [⟨1000, 0, [1]⟩, ⟨76, 1, asciiBytes "loop" ++ List.replicate 44 0 ++ x ++ List.replicate 40 0⟩]

/-- All numbers are 0.5. -/
def halfEnv : JsonEnv := ⟨fun _ => lit "0.5"⟩

theorem halfEnv_ok : NumberText halfEnv.floatRepr := fun _ _ _ => ⟨5, -1, by rfl⟩

theorem directReader_ok (ver : Version) : ReadsDecls ver (directReader ver) := (reader_unique ver _).2 rfl

/-- **Violated**: a number that is not finite is written as `NaN`, which is not JSON, although the
stream is read without error. -/
theorem C83_not_finite_not_json :
    (selectModels (directReader [5, 0, 3, 0]) none none (shapeStream [0, 0, 0, 0, 0, 0, 0xf8, 0x7f])).err = none ∧
    readJson (modelsJson halfEnv
      (selectModels (directReader [5, 0, 3, 0]) none none (shapeStream [0, 0, 0, 0, 0, 0, 0xf8, 0x7f]))).out.flatten = none := by
  have h : (readJson (modelsJson halfEnv
      (selectModels (directReader [5, 0, 3, 0]) none none (shapeStream [0, 0, 0, 0, 0, 0, 0xf8, 0x7f]))).out.flatten).isNone := by
    decide +kernel
  exact ⟨by decide +kernel, Option.isNone_iff_eq_none.1 h⟩

example : ∃ vs, readJson (modelsJson halfEnv
    (selectModels (directReader [5, 0, 3, 0]) none none (shapeStream (List.replicate 8 0)))).out.flatten = some (.arr vs) ∧
    vs.length = 2 := by
  have h := C83_array_partial _ _ (directReader_ok [5, 0, 3, 0]) halfEnv halfEnv_ok none none (shapeStream (List.replicate 8 0))
    (by
      have : (selectModels (directReader [5, 0, 3, 0]) none none (shapeStream (List.replicate 8 0))).out.isEmpty = false := by
        decide +kernel
      intro e; rw [e] at this; cases this)
    (by decide +kernel)
    (by
      have : ∀ b ∈ ((selectModels (directReader [5, 0, 3, 0]) none none (shapeStream (List.replicate 8 0))).out.flatMap
          fun m => doubles (.struct m.content)), leNat b / 2 ^ 52 % 2 ^ 11 ≠ 2 ^ 11 - 1 := by decide +kernel
      intro m hm b hb
      exact this b (List.mem_flatMap.2 ⟨m, hm, hb⟩))
  obtain ⟨-, vs, h1, h2, -⟩ := h
  exact ⟨vs, h1, h2.trans (by decide +kernel)⟩
example : (modelsSimple (selectModels (directReader [5, 0, 3, 0]) none none (shapeStream (List.replicate 8 0)))).out =
    lit "0000 UnknownTagModel\n0001  ShapeComponent\n" := by decide +kernel
example : ((selectModels (directReader [5, 0, 3, 0]) none (some (lit "1")) (shapeStream (List.replicate 8 0))).out.map (·.type)) =
    ["ShapeComponent"] := by decide +kernel
example : ((selectModels (directReader [5, 0, 3, 0]) (some (lit "0")) none (shapeStream (List.replicate 8 0))).out.map (·.type)) =
    ["UnknownTagModel", "ShapeComponent"] := by decide +kernel
example : (selectModels (directReader [5, 0, 3, 0]) (some (lit "-1")) none (shapeStream (List.replicate 8 0))).err =
    some .valueError := by decide +kernel
example : (modelsJson halfEnv (selectModels (directReader [5, 0, 3, 0]) none (some (lit "0")) (shapeStream []))).out.flatten = lit
    "[\n{\n  \"content\": {},\n  \"level\": 0,\n  \"payload\": [\n    \"01\"\n  ],\n  \"seqno\": 0,\n  \"size\": 1,\n  \"tagid\": 1000,\n  \"tagname\": \"HWPTAG984\",\n  \"type\": \"UnknownTagModel\",\n  \"unparsed\": [\n    \"01\"\n  ]\n}\n]" := by
  decide +kernel
example : Finite [0, 0, 0, 0, 0, 0, 0xe0, 0x3f] := by unfold Finite; decide
example : ¬ Finite [0, 0, 0, 0, 0, 0, 0xf0, 0xff] := by unfold Finite; decide

end Hwp.Props
