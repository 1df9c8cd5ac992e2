/- Record contents as XML elements. -/
import Verif.Proofs.XmlText
import Verif.Proofs.XmlDoc
set_option linter.unusedSimpArgs false
set_option linter.unusedVariables false
namespace Hwp
open Spec

/-! ### Generators -/

theorem Gen.andThen_ofList {α} (as bs : List α) :
    (Gen.ofList as).andThen (.ofList bs) = .ofList (as ++ bs) := rfl

theorem Gen.cons_ofList {α} (a : α) (as : List α) : Gen.cons a (.ofList as) = .ofList (a :: as) := rfl

theorem Gen.chain_ofList {α} (xss : List (List α)) :
    Gen.chain (xss.map Gen.ofList) = .ofList xss.flatten := by
  induction xss with
  | nil => rfl
  | cons xs xss ih =>
    simp only [List.map_cons, Gen.chain, ih]
    rfl

/-! ### Plain values -/

/-- The text of a decimal value. -/
theorem leafRepr_int (env : XmlEnv) (n : Int) : pyRepr env (.leaf (.int n)) = decimal n := by
  simp [pyRepr, leafRepr, intStr_eq]

theorem commaJoin_eq (items : List PyStr) : commaJoin items = listed items := by
  fun_induction commaJoin items with
  | case1 => rfl
  | case2 s => simp [listed]
  | case3 s ss h ih =>
    cases ss with
    | nil => exact absurd rfl h
    | cons t ss => rw [ih]; simp [listed]

theorem tupleRepr_eq (items : List PyStr) : tupleRepr items = bracketed items := by
  unfold tupleRepr bracketed
  split
  · have h : lit ",)" = lit "," ++ lit ")" := by decide +kernel
    simp [listed, h]
  · rename_i h
    rw [if_neg, commaJoin_eq]
    · simp
    · intro hl
      obtain ⟨s, hs⟩ := List.length_eq_one_iff.1 hl
      exact h s hs

mutual
theorem pyRepr_eq (env : XmlEnv) : ∀ v, pyRepr env v = reprOf env v
  | .leaf p => by
    cases p with
    | hex b =>
      have e : b.flatMap (fun x => chars (Colorref.hex2 x.toNat)) = b.flatMap (fun x => byteHex x.toNat) := by
        congr 1
        funext x
        exact hex2_byteHex ⟨x.toNat, x.toNat_lt⟩
      simp only [pyRepr, leafRepr, reprOf, e]
    | version ns =>
      have e : (ns.map fun (n : Nat) => decimal n) = ns.map natStr := by
        apply List.map_congr_left
        intro n _
        exact decimal_nat n
      simp only [pyRepr, leafRepr, reprOf, tupleRepr_eq, e]
    | _ => simp [pyRepr, leafRepr, reprOf, intStr_eq, decimal_nat]
  | .list xs => by simp only [pyRepr, reprOf, commaJoin_eq, pyReprs_eq env xs]
  | .tuple xs => by simp only [pyRepr, reprOf, tupleRepr_eq, pyReprs_eq env xs]
  | .struct fs => by simp only [pyRepr, reprOf, commaJoin_eq, pyReprFields_eq env fs]
theorem pyReprs_eq (env : XmlEnv) : ∀ xs, pyReprs env xs = reprsOf env xs
  | [] => by simp [pyReprs, reprsOf]
  | x :: xs => by simp only [pyReprs, reprsOf, pyRepr_eq env x, pyReprs_eq env xs]
theorem pyReprFields_eq (env : XmlEnv) : ∀ fs, pyReprFields env fs = fieldReprs env fs
  | [] => by simp [pyReprFields, fieldReprs]
  | (k, v) :: fs => by simp only [pyReprFields, fieldReprs, pyRepr_eq env v, pyReprFields_eq env fs]
end

theorem puaSymbols_eq (n : Nat) : (puaSymbols.lookup n).getD n = symbolOf n := by
  unfold symbolOf
  split
  case h_15 =>
    have h : puaSymbols.lookup n = none := by
      rw [List.lookup_eq_none_iff]
      intro p hp
      simp only [puaSymbols, List.mem_cons, List.not_mem_nil, or_false] at hp
      rcases hp with rfl | rfl | rfl | rfl | rfl | rfl | rfl | rfl | rfl | rfl | rfl | rfl | rfl | rfl <;>
        (simp only [bne_iff_ne, ne_eq]; assumption)
    rw [h]; rfl
  all_goals decide +kernel

theorem wcharStr_ok (n : Int) (h : InRange .WCHAR n) :
    wcharStr n = .ok (if n = 0 then [] else [symbolOf n.toNat]) := by
  rw [← puaSymbols_eq]
  simp only [InRange, signed, width, Bool.false_eq_true, if_false] at h
  obtain ⟨h0, h'⟩ := h
  norm_num at h'
  unfold wcharStr
  split
  · rfl
  · split
    · rename_i h1 c hc
      rw [if_neg (by omega)]
      simp [hc]
    · rename_i h1 hc
      rw [if_neg (by omega)]
      simp [hc]

theorem expand_prim (env : XmlEnv) (k : String) (p : PTy) (x : PVal) (h : PrimVal p x) :
    expand env k (some (.prim p)) (.leaf x) = .ok [(lit k, showPrim env p x)] := by
  cases p with
  | int q =>
    cases x with
    | int n =>
      by_cases hq : q = .WCHAR
      · subst hq
        have hw := wcharStr_ok n h
        simp only [expand, intOf, hw, bind, Except.bind, pure, Except.pure, showPrim]
      · have h1 : expand env k (some (.prim (.int q))) (.leaf (.int n)) =
            .ok [(lit k, xmlattrval env (.leaf (.int n)))] := by
          cases q <;> first | rfl | exact absurd rfl hq
        have h2 : showPrim env (.int q) (.int n) = decimal n := by
          cases q <;> first | rfl | exact absurd rfl hq
        rw [h1, h2]
        simp [xmlattrval, leafRepr_int]
    | _ => simp [PrimVal] at h
  | colorref =>
    cases x with
    | int n =>
      simp only [expand, intOf, bind, Except.bind, pure, Except.pure, showPrim, colorref_str]
    | _ => simp [PrimVal] at h
  | binStorageId =>
    cases x with
    | int n =>
      simp only [PrimVal, InRange, signed, width, Bool.false_eq_true, if_false] at h
      obtain ⟨m, rfl⟩ := Int.eq_ofNat_of_zero_le h.1
      simp only [expand, intOf, bind, Except.bind, pure, Except.pure, showPrim, hexPadInt_nat,
        Int.toNat_natCast]
    | _ => simp [PrimVal] at h
  | version =>
    cases x with
    | version ns =>
      have e : (ns.map fun (n : Nat) => decimal n) = ns.map natStr := by
        apply List.map_congr_left
        intro n _
        exact decimal_nat n
      simp only [expand, showPrim, e]
    | _ => simp [PrimVal] at h
  | hexBytes m =>
    cases x with
    | hex b =>
      have e : b.flatMap (fun x => chars (Colorref.hex2 x.toNat)) = b.flatMap (fun x => byteHex x.toNat) := by
        congr 1
        funext x
        exact hex2_byteHex ⟨x.toNat, x.toNat_lt⟩
      simp only [expand, xmlattrval, pyRepr, leafRepr, showPrim, e]
    | _ => simp [PrimVal] at h
  | bstr => cases x <;> first | simp [PrimVal] at h; done | rfl
  | chid => cases x <;> first | simp [PrimVal] at h; done | rfl
  | chunks =>
    cases x <;> first | simp [PrimVal] at h; done | simp [expand, xmlattrval, pyRepr, leafRepr, showPrim]
  | double =>
    cases x <;> first | simp [PrimVal] at h; done | simp [expand, xmlattrval, pyRepr, leafRepr, showPrim]

theorem fmtWidth (p : Prim) : (fmtInfo p.binfmt).1 = width p := by cases p <;> rfl

theorem expand_flags (env : XmlEnv) (k : String) (f : FlagsDecl) (n : Nat) :
    expand env k (some (.flags f)) (.leaf (.flags f n)) = .ok (showFlags k f n) := by
  simp only [expand, intOf, bind, Except.bind, pure, Except.pure, expandFlags, showFlags,
    hexPadInt_nat, fmtWidth]
  congr 2
  apply List.map_congr_left
  intro b _
  rw [bitGroupInt_nat]
  congr 1
  unfold bitStr showBits
  cases b.enum with
  | none => simp [decimal_nat]
  | some e =>
    simp only [enumName]
    cases e.find? _ with
    | none => simp [decimal_nat]
    | some x =>
      simp only [Option.map_some]
      rfl

/-! ### Margins -/

/-- The fields of a margin are the four integers. -/
theorem margin_fields (ctx : DCtx) : ∀ (ms : DMembers) (ns : List String) (acc fs : Fields),
    isMarginMembers ms ns = true → FieldsOf ctx ms acc fs →
    fs.map (·.1) = ns ∧ ∀ p ∈ fs, ∃ n, p.2 = .leaf (.int n)
  | .nil, [], acc, fs, _, h => by
    simp only [FieldsOf] at h
    subst h
    simp
  | .nil, _ :: _, _, _, hm, _ => by simp [isMarginMembers] at hm
  | .cons name version condition t rest, [], _, _, hm, _ => by
    unfold isMarginMembers at hm
    split at hm <;> simp_all
  | .cons name version condition t rest, n :: ns, acc, fs, hm, h => by
    unfold isMarginMembers at hm
    split at hm
    · simp_all
    · rename_i h1 h2
      cases h1
      cases h2
      simp only [Bool.and_eq_true, decide_eq_true_eq] at hm
      obtain ⟨⟨hn, _⟩, hm⟩ := hm
      subst hn
      rw [FieldsOf.eq_def] at h
      simp only at h
      rcases h with ⟨ha, _⟩ | ⟨_, v, fs', rfl, hs, hr⟩
      · simp [MemberAbsent, versionOk] at ha
      · have ih := margin_fields ctx _ ns _ fs' hm hr
        have hv : ∃ n, v = .leaf (.int n) := by
          cases v with
          | leaf x =>
            cases x with
            | int n => exact ⟨n, rfl⟩
            | _ => simp [Shaped, PrimVal] at hs
          | _ => simp [Shaped] at hs
        refine ⟨by simp [ih.1], ?_⟩
        intro p hp
        rcases List.mem_cons.1 hp with rfl | hp
        · exact hv
        · exact ih.2 p hp
    · simp_all

theorem expand_margin (env : XmlEnv) (k : String) (ms : DMembers) (fs : Fields)
    (hn : fs.map (·.1) = marginNames) (hv : ∀ p ∈ fs, ∃ n, p.2 = .leaf (.int n)) :
    expand env k (some (.struct "Margin" ms)) (.struct fs) = .ok (showMargin env k fs) := by
  match fs, hn, hv with
  | [(a, v1), (b, v2), (c, v3), (d, v4)], hn, hv =>
    simp only [marginNames, List.map_cons, List.map_nil, List.cons.injEq, and_true] at hn
    obtain ⟨rfl, rfl, rfl, rfl⟩ := hn
    obtain ⟨n1, h1⟩ := hv ("left", v1) (by simp)
    obtain ⟨n2, h2⟩ := hv ("right", v2) (by simp)
    obtain ⟨n3, h3⟩ := hv ("top", v3) (by simp)
    obtain ⟨n4, h4⟩ := hv ("bottom", v4) (by simp)
    simp only at h1 h2 h3 h4
    subst h1 h2 h3 h4
    simp [expand, expandMargin, marginNames, showMargin, List.lookup, xmlattrval, leafRepr_int]
  | [], hn, _ => simp [marginNames] at hn
  | [_], hn, _ => simp [marginNames] at hn
  | [_, _], hn, _ => simp [marginNames] at hn
  | [_, _, _], hn, _ => simp [marginNames] at hn
  | _ :: _ :: _ :: _ :: _ :: _, hn, _ => simp [marginNames] at hn

/-! ### Items -/

/-- The item is shown as the attributes `s.1` and the elements `s.2`, of which one part is
empty. -/
def ItemShows (env : XmlEnv) (i : AItem) (s : List (PyStr × PyStr) × List XEv) : Prop :=
  (i.complex = true → i.sub = .ofList s.2 ∧ s.1 = []) ∧
  (i.complex = false → expand env i.name i.ty i.value = .ok s.1 ∧ s.2 = [])

/-- All items together. -/
def AllShow (env : XmlEnv) : List AItem → List (PyStr × PyStr) × List XEv → Prop
  | [], s => s = ([], [])
  | i :: is, s => ∃ a b, ItemShows env i a ∧ AllShow env is b ∧ s = (a.1 ++ b.1, a.2 ++ b.2)

theorem AllShow.append (env : XmlEnv) {is js : List AItem} {s t} (h1 : AllShow env is s)
    (h2 : AllShow env js t) : AllShow env (is ++ js) (s.1 ++ t.1, s.2 ++ t.2) := by
  induction is generalizing s with
  | nil =>
    simp only [AllShow] at h1
    subst h1
    simpa using h2
  | cons i is ih =>
    obtain ⟨a, b, ha, hb, rfl⟩ := h1
    refine ⟨a, (b.1 ++ t.1, b.2 ++ t.2), ha, ih hb, ?_⟩
    simp

theorem AllShow.complex (env : XmlEnv) : ∀ {is : List AItem} {s}, AllShow env is s →
    ∃ xss : List (List XEv), (is.filter (·.complex)).map (·.sub) = xss.map Gen.ofList ∧ s.2 = xss.flatten
  | [], s, h => ⟨[], rfl, by simp only [AllShow] at h; subst h; rfl⟩
  | i :: is, s, h => by
    obtain ⟨a, b, ha, hb, rfl⟩ := h
    obtain ⟨xss, h1, h2⟩ := AllShow.complex env hb
    cases hc : i.complex with
    | true =>
      refine ⟨a.2 :: xss, ?_, by simp [h2]⟩
      simp [hc, h1, (ha.1 hc).1]
    | false =>
      refine ⟨xss, by simp [hc, h1], ?_⟩
      simp [h2, (ha.2 hc).2]

theorem AllShow.plain (env : XmlEnv) : ∀ {is : List AItem} {s}, AllShow env is s →
    ∃ ass : List (List (PyStr × PyStr)), (is.filter (!·.complex)).mapM (fun i => expand env i.name i.ty i.value) =
      (.ok ass : Except PyErr _) ∧ s.1 = ass.flatten
  | [], s, h => ⟨[], rfl, by simp only [AllShow] at h; subst h; rfl⟩
  | i :: is, s, h => by
    obtain ⟨a, b, ha, hb, rfl⟩ := h
    obtain ⟨ass, h1, h2⟩ := AllShow.plain env hb
    cases hc : i.complex with
    | true =>
      refine ⟨ass, by simp [hc, h1], ?_⟩
      simp [h2, (ha.1 hc).2]
    | false =>
      refine ⟨a.1 :: ass, ?_, by simp [h2]⟩
      simp only [List.filter_cons, hc, Bool.not_false, if_true, List.mapM_cons, (ha.2 hc).1, h1]
      rfl

theorem setItem_new (i : AItem) (p : List AItem) (h : ∀ j ∈ p, j.name ≠ i.name) :
    setItem i p = p ++ [i] := by
  induction p with
  | nil => rfl
  | cons j p ih =>
    simp only [setItem]
    rw [if_neg (h j (by simp)), ih (fun j hj => h j (by simp [hj]))]
    rfl

theorem setItems_nodup (is : List AItem) : ∀ p : List AItem, ((p ++ is).map (·.name)).Nodup →
    is.foldl (fun p i => setItem i p) p = p ++ is := by
  induction is with
  | nil => intro p _; simp
  | cons i is ih =>
    intro p h
    have h' : (((p ++ [i]) ++ is).map (·.name)).Nodup := by simpa using h
    simp only [List.foldl_cons]
    rw [setItem_new i p, ih _ h']
    · simp
    · intro j hj e
      simp only [List.map_append, List.map_cons, List.nodup_append, List.nodup_cons] at h
      exact h.2.2 j.name (List.mem_map_of_mem hj) i.name (by simp) e

theorem uniq_ok (as : List (PyStr × PyStr)) (h : ((as.map (·.1)).map hyphen).Nodup) :
    xmlAttributes as = .ok (hyphens as) := by
  have hd : dashedNames as = hyphens as := by
    unfold dashedNames hyphens
    apply List.map_congr_left
    rintro ⟨k, v⟩ _
    have : ∀ k : PyStr, replaceChar 0x5F [0x2D] k = k.map fun c => if c = 0x5F then 0x2D else c := by
      intro k
      induction k with
      | nil => rfl
      | cons c k ih =>
        simp only [replaceChar, List.flatMap_cons, List.map_cons] at ih ⊢
        rw [ih]
        split <;> rfl
    simp only [this]
  have hn : ((hyphens as).map (·.1)).Nodup := by
    have : (hyphens as).map (·.1) = (as.map (·.1)).map hyphen := by
      simp [hyphens, List.map_map]
      intro a b _
      rfl
    rw [this]; exact h
  have : ∀ (l : List (PyStr × PyStr)) (seen : List PyStr), (l.map (·.1)).Nodup →
      (∀ x ∈ l, x.1 ∉ seen) → uniqNamesGo seen l = .ok l := by
    intro l
    induction l with
    | nil => intro _ _ _; rfl
    | cons x l ih =>
      obtain ⟨k, v⟩ := x
      intro seen h1 h2
      simp only [List.map_cons, List.nodup_cons] at h1
      simp only [uniqNamesGo]
      rw [if_neg (h2 (k, v) (by simp)), ih (k :: seen) h1.2 ?_]
      · rfl
      · intro y hy
        simp only [List.mem_cons, not_or]
        refine ⟨?_, h2 y (by simp [hy])⟩
        intro e
        exact h1.1 (by rw [← e]; exact List.mem_map_of_mem hy)
  unfold xmlAttributes
  rw [hd]
  exact this _ _ hn (by simp)

/-- The start of an element whose items are shown. -/
theorem startElement_show (env : XmlEnv) (name : PyStr) (is : List AItem) (s)
    (h : AllShow env is s) (hn : (is.map (·.name)).Nodup) (ht : ∀ i ∈ is, i.name ≠ "<text>")
    (hu : ((s.1.map (·.1)).map hyphen).Nodup) :
    startElement env false name (.ok is) = .ofList (.start name (hyphens s.1) :: s.2) := by
  obtain ⟨xss, h1, h2⟩ := h.complex
  obtain ⟨ass, h3, h4⟩ := h.plain
  have hp : (is.filter (!·.complex)).foldl (fun p i => setItem i p) [] = is.filter (!·.complex) := by
    rw [setItems_nodup _ []]
    · rfl
    · simp only [List.nil_append]
      exact List.Nodup.sublist (List.Sublist.map _ List.filter_sublist) hn
  have hf : (is.filter (!·.complex)).find? (fun i => decide (i.name = "<text>")) = none := by
    rw [List.find?_eq_none]
    intro i hi
    simp only [decide_eq_true_eq]
    exact ht i (List.mem_filter.1 hi).1
  have h4' : ((ass.flatten.map (·.1)).map hyphen).Nodup := by rw [← h4]; exact hu
  have hx : plainAttributes env (is.filter (!·.complex)) = .ok (hyphens s.1) := by
    simp only [plainAttributes, h3, bind, Except.bind]
    rw [← h4, uniq_ok s.1 hu]
  simp only [startElement, separate, hp, popText, Bool.false_eq_true, if_false, hf, hx,
    textEvents, h1, Gen.chain_ofList, ← h2]
  rfl

/-- A whole element. -/
theorem elementOf_show (env : XmlEnv) (name : PyStr) (is : List AItem) (s)
    (h : AllShow env is s) (hn : (is.map (·.name)).Nodup) (ht : ∀ i ∈ is, i.name ≠ "<text>")
    (hu : ((s.1.map (·.1)).map hyphen).Nodup) :
    elementOf env name (.ok is) = .ofList (elem name s.1 s.2) := by
  simp only [elementOf, startElement_show env name is s h hn ht hu, Gen.andThen_ofList, elem]
  rfl

end Hwp
