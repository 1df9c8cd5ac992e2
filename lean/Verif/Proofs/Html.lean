import Verif.Spec.Html
import Verif.Proofs.Unpack
/-!
Proofs about the commands that write files.
-/
set_option autoImplicit false
set_option linter.unusedSimpArgs false
namespace Hwp
open Spec

/-! ### Names -/

theorem takeWhile_until_stop {α : Type} (f : α → Bool) (l : List α) (c : α) (r : List α) (h : ∀ x ∈ l, f x = true) (hc : f c = false) :
    (l ++ c :: r).takeWhile f = l := by
  induction l with
  | nil => simp [List.takeWhile, hc]
  | cons x l ih =>
    rw [List.cons_append, List.takeWhile_cons, if_pos (h x (by simp)), ih (fun y hy => h y (by simp [hy]))]

theorem takeWhile_all {α : Type} (f : α → Bool) (l : List α) (h : ∀ x ∈ l, f x = true) : l.takeWhile f = l := by
  induction l with
  | nil => rfl
  | cons x l ih => rw [List.takeWhile_cons, if_pos (h x (by simp)), ih (fun y hy => h y (by simp [hy]))]

theorem basename_append (dir name : PyStr) (hd : dir = [] ∨ dir.getLast? = some slash) (hn : slash ∉ name) :
    basename (dir ++ name) = name := by
  have hall : ∀ x ∈ name.reverse, decide (x ≠ slash) = true := by
    intro x hx
    simp only [decide_eq_true_eq]
    rintro rfl
    exact hn (by simpa using hx)
  unfold basename
  rw [List.reverse_append]
  rcases hd with rfl | hd
  · rw [List.reverse_nil, List.append_nil, takeWhile_all _ _ hall, List.reverse_reverse]
  · obtain ⟨l, rfl⟩ : ∃ l, dir = l ++ [slash] := by
      rw [List.getLast?_eq_some_iff] at hd
      exact hd
    rw [List.reverse_append, List.reverse_singleton, List.singleton_append, takeWhile_until_stop _ _ _ _ hall (by simp), List.reverse_reverse]

theorem basename_no_slash (p : PyStr) : slash ∉ basename p := by
  unfold basename
  intro h
  have := List.all_eq_true.1 (List.all_takeWhile (l := p.reverse) (p := fun x => decide (x ≠ slash))) _ (List.mem_reverse.1 h)
  simp at this

theorem splitext_parts (stem ext : PyStr) (hs : ∃ c ∈ stem, c ≠ 0x2e) (he : 0x2e ∉ ext) :
    splitext (stem ++ 0x2e :: ext) = (stem, 0x2e :: ext) := by
  have h1 : ((stem ++ 0x2e :: ext).reverse.takeWhile (fun x => decide (x ≠ 0x2e))).reverse = ext := by
    rw [List.reverse_append, List.reverse_cons, List.append_assoc, List.singleton_append,
      takeWhile_until_stop _ _ _ _ (by
        intro x hx
        simp only [decide_eq_true_eq]
        rintro rfl
        exact he (by simpa using hx)) (by simp), List.reverse_reverse]
  unfold splitext
  dsimp only
  rw [h1]
  have h2 : (stem ++ 0x2e :: ext).length - ext.length = stem.length + 1 := by
    simp
    omega
  rw [h2, if_neg (by omega)]
  simp only [Nat.add_sub_cancel, List.take_left', List.drop_left']
  rw [if_pos]
  simpa using hs

/-- The root is the name itself or has a character that is not a dot. -/
theorem splitext_root (p : PyStr) : (splitext p).1 = p ∨
    ((∃ c ∈ (splitext p).1, c ≠ 0x2e) ∧ (splitext p).1 ++ (splitext p).2 = p) := by
  unfold splitext
  dsimp only
  split
  · left; rfl
  · split
    · rename_i h
      right
      refine ⟨by simpa using h, List.take_append_drop _ _⟩
    · left; rfl

theorem splitext_plain {p : PyStr} (hp : PlainName p) : PlainName (splitext p).1 := by
  rcases splitext_root p with h | ⟨⟨c, hc, h⟩, -⟩
  · rw [h]; exact hp
  · refine ⟨?_, ?_, ?_⟩ <;> intro he <;> rw [he] at hc
    · cases hc
    · simp at hc; exact h hc
    · simp at hc; exact h hc

theorem splitext_mem {p : PyStr} {c : Nat} (h : c ∈ (splitext p).1) : c ∈ p := by
  rcases splitext_root p with h1 | ⟨-, h1⟩
  · rwa [h1] at h
  · rw [← h1]; exact List.mem_append_left _ h

theorem splitSlash_no_slash (s : PyStr) (h : slash ∉ s) : splitSlash s = [s] := by
  induction s with
  | nil => rfl
  | cons c cs ih =>
    rw [List.mem_cons, not_or] at h
    rw [splitSlash, if_neg (fun e => h.1 e.symm), ih h.2]

/-- A single name is in the current directory. -/
theorem pathSegments_name (cwd : List PyStr) (s : PyStr) (h : OneSegment s) : pathSegments cwd s = cwd ++ [s] := by
  have hs : slash ∉ s := h.2
  unfold pathSegments
  rw [splitSlash_no_slash s hs, if_neg]
  · simp [h.1.1]
  · intro he
    exact hs (List.mem_of_mem_head? he)

/-! ### Directories -/

theorem dirAt_of_proper {fs : FS} {p : List PyStr} (hp : ProperFS fs) (h : fs p = some .dir) : DirAt fs p := by
  intro q hq
  by_cases he : q = p
  · rw [he]; exact h
  · exact hp p q (by rw [h]; simp) hq he

theorem openDir_ok (fs : FS) (parent : List PyStr) (n : PyStr) (hfs : ProperFS fs) (hd : fs parent = some .dir)
    (hplain : ∀ s ∈ parent ++ [n], PlainName s) (hfile : ∀ d, fs (parent ++ [n]) ≠ some (.file d)) :
    ∃ fs', openDir fs (parent ++ [n]) = (fs', none) ∧
      ∀ r, fs' r = if r = parent ++ [n] then some .dir else if parent ++ [n] <+: r then none else fs r := by
  have hpar : ∀ s ∈ parent, PlainName s := fun s hs => hplain s (by simp [hs])
  have hn : PlainName n := hplain n (by simp)
  have hdir := dirAt_of_proper hfs hd
  have hres := resolve_dir hpar hn hdir
  have hlast : ¬ ((parent ++ [n]).getLast? = some [0x2e] ∨ (parent ++ [n]).getLast? = some [0x2e, 0x2e] ∨ parent ++ [n] = []) := by
    rintro (h | h | h)
    · simp at h; exact hn.2.1 h
    · simp at h; exact hn.2.2 h
    · simp at h
  cases hc : fs (parent ++ [n]) with
  | none =>
    refine ⟨fs.set (parent ++ [n]) .dir, ?_, ?_⟩
    · unfold openDir pathExists mkdir
      rw [hres]
      simp [hc, andThen, hres]
    · intro r
      unfold FS.set
      split
      · rfl
      · split
        · rename_i h1 h2
          apply Classical.byContradiction
          intro hcon
          have := hfs r (parent ++ [n]) hcon h2 (fun e => h1 e.symm)
          rw [hc] at this
          cases this
        · rfl
  | some node =>
    cases node with
    | file d => exact absurd hc (hfile d)
    | dir =>
      have hd' : DirAt (fun r => if parent ++ [n] <+: r then none else fs r) parent := by
        intro q hq
        have : ¬ parent ++ [n] <+: q := fun h => not_prefix_of_longer (h.trans hq)
        simp [this, hdir q hq]
      have hres' := resolve_dir hpar hn hd'
      refine ⟨FS.set (fun r => if parent ++ [n] <+: r then none else fs r) (parent ++ [n]) .dir, ?_, ?_⟩
      · unfold openDir pathExists rmtree mkdir
        rw [hres]
        simp only [hc, Option.isSome_some, if_true, hlast, if_false, andThen, hres', List.prefix_refl]
      · intro r
        unfold FS.set
        rfl

theorem writeWith_ok {fs : FS} {p : List PyStr} {n : PyStr} {b : Bytes} {e : Option PyErr} (hplain : ∀ s ∈ p, PlainName s)
    (hn : PlainName n) (hd : DirAt fs p) (hc : fs (p ++ [n]) ≠ some .dir) :
    writeWith fs (p ++ [n]) (b, e) = (fs.set (p ++ [n]) (.file b), e) := by
  unfold writeWith writeFile
  rw [resolve_dir hplain hn hd]
  simp [hc, andThen]

/-- Either the file could not be opened, or it has what was written. -/
theorem writeWith_cases (fs : FS) (p : List PyStr) (b : Bytes) (e : Option PyErr) :
    writeWith fs p (b, e) = (fs, some .ioError) ∨ ∃ q, writeWith fs p (b, e) = (fs.set q (.file b), e) := by
  unfold writeWith writeFile
  split
  · split
    · left; rfl
    · rename_i q _ _
      right; exact ⟨q, rfl⟩
  · left; rfl

theorem append_ne_append {p : List PyStr} {a b : PyStr} {q r : List PyStr} (h : a ≠ b) : p ++ a :: q ≠ p ++ b :: r := by
  intro e
  exact h (List.cons.inj (List.append_cancel_left e)).1

theorem nodeAt_not_mem (es : StgEntries) (m : PyStr) (q : List PyStr) (h : m ∉ fileNames es) : nodeAt es m q = none := by
  match es with
  | .nil => rw [nodeAt]
  | .cons n i rest =>
    have hn : fileNames (.cons n i rest) = fileName n :: fileNames rest := rfl
    rw [hn, List.mem_cons, not_or] at h
    rw [nodeAt, if_neg (fun e => h.1 e.symm)]
    exact nodeAt_not_mem rest m q h.2

/-- The whole conversion into an empty directory. -/
theorem hwp5ToDir_ok (xsl : HtmlXsl) (xml xhtml css : Bytes) (hx : xsl.xhtml xml = (xhtml, none)) (hcss : xsl.css xml = (css, none))
    (bindata : Option StgEntries) (hb : ∀ es, bindata = some es → Unpackable es) (fs : FS) (p : List PyStr)
    (hplain : ∀ s ∈ p, 5 ∉ s ∧ PlainName s) (hd : DirAt fs p) (hempty : ∀ n q, fs (p ++ n :: q) = none) :
    ∃ fs', hwp5ToDir xsl ⟨(xml, none), bindata⟩ fs p = (fs', none) ∧
      (∀ r, fs' (p ++ r) = htmlNode xhtml css bindata r) ∧ ∀ r, ¬ p <+: r → fs' r = fs r := by
  have hpl : ∀ s ∈ p, PlainName s := fun s hs => (hplain s hs).2
  have e1 : lit "index.xhtml" ≠ lit "styles.css" := by decide
  have e2 : lit "index.xhtml" ≠ lit "bindata" := by decide
  have e3 : lit "styles.css" ≠ lit "bindata" := by decide
  have n1 : PlainName (lit "index.xhtml") := by decide
  have n2 : PlainName (lit "styles.css") := by decide
  have n3 : PlainName (lit "bindata") := by decide
  have n35 : 5 ∉ lit "bindata" := by decide
  have w1 := writeWith_ok (b := xhtml) (e := none) hpl n1 hd (by rw [hempty]; simp)
  generalize hf1 : fs.set (p ++ [lit "index.xhtml"]) (.file xhtml) = fs1 at w1
  have hd1 : DirAt fs1 p := by rw [← hf1]; exact dirAt_set hd not_prefix_of_longer
  have w2 := writeWith_ok (b := css) (e := none) hpl n2 hd1 (by
    rw [← hf1]
    simp only [FS.set, if_neg (append_ne_append (p := p) (q := []) (r := []) e1.symm), hempty]
    simp)
  generalize hf2 : fs1.set (p ++ [lit "styles.css"]) (.file css) = fs2 at w2
  have hd2 : DirAt fs2 p := by rw [← hf2]; exact dirAt_set hd1 not_prefix_of_longer
  have hfs2 : ∀ r, fs2 r = if r = p ++ [lit "styles.css"] then some (.file css) else
      if r = p ++ [lit "index.xhtml"] then some (.file xhtml) else fs r := by
    intro r; rw [← hf2, ← hf1]; rfl
  have hout : ∀ r, ¬ p <+: r → fs2 r = fs r := by
    intro r hr
    rw [hfs2, if_neg, if_neg] <;> rintro rfl <;> exact hr (List.prefix_append _ _)
  have hnil : fs2 p = some .dir := hd2 p (List.prefix_refl _)
  have hrun : hwp5ToDir xsl ⟨(xml, none), bindata⟩ fs p = extractBindata bindata fs2 (p ++ [lit "bindata"]) := by
    unfold hwp5ToDir xhwp5ToDir
    simp only [hx, hcss, andThen, w1, w2]
  cases bindata with
  | none =>
    refine ⟨fs2, hrun, ?_, hout⟩
    intro r
    match r with
    | [] => rw [List.append_nil, hnil]; rfl
    | [n] =>
      rw [hfs2, htmlNode]
      simp only [List.append_cancel_left_eq, List.cons.injEq, and_true, Option.map_none, ite_self, hempty]
      by_cases h1 : n = lit "styles.css"
      · subst h1; simp [e1.symm]
      · simp [h1]
    | n :: m :: q =>
      rw [hfs2, htmlNode]
      simp [hempty]
  | some es =>
    have hbd : fs2 (p ++ [lit "bindata"]) = none := by
      rw [hfs2, if_neg (append_ne_append e3.symm), if_neg (append_ne_append e2.symm), hempty]
    have hres := resolve_dir hpl n3 hd2
    have hmk : (if pathExists fs2 (p ++ [lit "bindata"]) then (fs2, none) else mkdir fs2 (p ++ [lit "bindata"])) =
        (fs2.set (p ++ [lit "bindata"]) .dir, none) := by
      unfold pathExists mkdir
      rw [hres]
      simp [hbd]
    generalize hf3 : fs2.set (p ++ [lit "bindata"]) .dir = fs3 at hmk
    have hfs3 : ∀ r, fs3 r = if r = p ++ [lit "bindata"] then some .dir else fs2 r := by
      intro r; rw [← hf3]; rfl
    obtain ⟨fs', h1, h2, h3⟩ := unpack_spec es (hb es rfl) (p ++ [lit "bindata"]) fs3 (by
        intro s hs
        rcases List.mem_append.1 hs with h | h
        · exact hplain s h
        · rw [List.mem_singleton.1 h]; exact ⟨n35, n3⟩)
      (by rw [← hf3]; exact dirAt_child hd2)
      (by
        intro n hn q
        rw [List.append_assoc, List.singleton_append, hfs3, if_neg (by simp), hfs2, if_neg (append_ne_append e3.symm),
          if_neg (append_ne_append e2.symm), hempty])
    have hstay : ∀ r, (∀ m q, r ≠ lit "bindata" :: m :: q) → fs' (p ++ r) = fs3 (p ++ r) := by
      intro r hr
      apply h3
      intro m _ q he
      rw [List.append_assoc, List.singleton_append] at he
      exact hr m q (List.append_cancel_left he)
    refine ⟨fs', ?_, ?_, ?_⟩
    · rw [hrun]
      unfold extractBindata
      simp only [hmk, andThen]
      exact h1
    · intro r
      match r with
      | [] =>
        rw [hstay _ (by simp), hfs3, List.append_nil, if_neg (by simp), hnil]; rfl
      | [n] =>
        rw [hstay _ (by simp), hfs3, hfs2, htmlNode]
        simp only [List.append_cancel_left_eq, List.cons.injEq, and_true, Option.map_some, hempty]
        by_cases h1 : n = lit "bindata"
        · subst h1; simp [e2.symm, e3.symm]
        · by_cases h2 : n = lit "styles.css"
          · subst h2; simp [e1.symm, h1]
          · simp [h1, h2]
      | n :: m :: q =>
        rw [htmlNode]
        by_cases hn : n = lit "bindata"
        · subst hn
          by_cases hm : m ∈ fileNames es
          · have := h2 m q hm
            rw [List.append_assoc, List.singleton_append] at this
            rw [this]; simp
          · rw [h3]
            · rw [hfs3, if_neg (by simp), hfs2, if_neg (append_ne_append e3.symm), if_neg (append_ne_append e2.symm), hempty]
              simp [nodeAt_not_mem es m q hm]
            · intro m' hm' q' he
              rw [List.append_assoc, List.singleton_append] at he
              have := (List.cons.inj (List.cons.inj (List.append_cancel_left he)).2).1
              exact hm (this ▸ hm')
        · rw [hstay _ (by intro m' q' he; exact hn (List.cons.inj he).1), hfs3, if_neg (by simp), hfs2, if_neg (by simp), if_neg (by simp), hempty,
            if_neg hn]
    · intro r hr
      rw [h3, hfs3, if_neg, hout r hr]
      · rintro rfl; exact hr (List.prefix_append _ _)
      · intro m _ q he
        apply hr
        rw [he, List.append_assoc]
        exact List.prefix_append _ _

/-! ### Nothing outside -/

/-- A step that leaves what is not below `p` as it is. -/
def OnlyBelow (p : List PyStr) (f : FS → FS × Option PyErr) : Prop := ∀ fs r, ¬ p <+: r → (f fs).1 r = fs r

theorem OnlyBelow.andThen {p : List PyStr} {f g : FS → FS × Option PyErr} (hf : OnlyBelow p f) (hg : OnlyBelow p g) :
    OnlyBelow p fun fs => Hwp.andThen (f fs) g := by
  intro fs r hr
  dsimp only
  unfold Hwp.andThen
  split
  · rename_i s hs
    rw [hg s r hr, show s = _ from (congrArg Prod.fst hs).symm, hf fs r hr]
  · rename_i s e hs
    rw [show s = _ from (congrArg Prod.fst hs).symm, hf fs r hr]

theorem onlyBelow_id (p : List PyStr) (e : Option PyErr) : OnlyBelow p fun fs => (fs, e) := fun _ _ _ => rfl

theorem onlyBelow_mkdir (p q : List PyStr) (h : ∀ s ∈ p ++ q, PlainName s) : OnlyBelow p fun fs => mkdir fs (p ++ q) := by
  intro fs r hr
  exact mkdir_only fs (p ++ q) h r (by rintro rfl; exact hr (List.prefix_append _ _))

theorem onlyBelow_exists_mkdir (p q : List PyStr) (h : ∀ s ∈ p ++ q, PlainName s) :
    OnlyBelow p fun fs => if pathExists fs (p ++ q) then (fs, none) else mkdir fs (p ++ q) := by
  intro fs r hr
  dsimp only
  split
  · rfl
  · exact onlyBelow_mkdir p q h fs r hr

theorem onlyBelow_writeWith (p q : List PyStr) (h : ∀ s ∈ p ++ q, PlainName s) (w : Bytes × Option PyErr) :
    OnlyBelow p fun fs => writeWith fs (p ++ q) w := by
  have h1 : OnlyBelow p fun fs => writeFile fs (p ++ q) w.1 := by
    intro fs r hr
    exact writeFile_only fs (p ++ q) w.1 h r (by rintro rfl; exact hr (List.prefix_append _ _))
  exact h1.andThen (onlyBelow_id p w.2)

theorem onlyBelow_rmtree (p : List PyStr) (h : ∀ s ∈ p, PlainName s) : OnlyBelow p fun fs => rmtree fs p := by
  intro fs r hr
  dsimp only
  unfold rmtree
  rcases resolve_plain fs p h with h | h <;> rw [h]
  dsimp only
  split
  · split
    · dsimp only; rw [if_neg (fun h => hr h.1)]
    · dsimp only; rw [if_neg hr]
  · rfl

theorem onlyBelow_openDir (p : List PyStr) (h : ∀ s ∈ p, PlainName s) : OnlyBelow p fun fs => openDir fs p := by
  have h1 : OnlyBelow p fun fs => if pathExists fs p then rmtree fs p else (fs, none) := by
    intro fs r hr
    dsimp only
    split
    · exact onlyBelow_rmtree p h fs r hr
    · rfl
  have h2 : OnlyBelow p fun fs => mkdir fs p := by
    have := onlyBelow_mkdir p [] (by simpa using h)
    simpa using this
  exact h1.andThen h2

theorem onlyBelow_unpack (p q : List PyStr) (hp : ∀ s ∈ p, 5 ∉ s ∧ PlainName s) (hq : ∀ s ∈ q, PlainName s) (es : StgEntries) (he : PlainEntries es) :
    OnlyBelow p fun fs => unpack fs (p ++ q) es := fun fs r hr => unpack_only es he p hp q hq fs r hr

theorem onlyBelow_hwp5ToDir (xsl : HtmlXsl) (d : HtmlInput) (hb : ∀ es, d.bindata = some es → PlainEntries es) (p : List PyStr)
    (hp : ∀ s ∈ p, 5 ∉ s ∧ PlainName s) : OnlyBelow p fun fs => hwp5ToDir xsl d fs p := by
  have hpl : ∀ n, PlainName n → ∀ s ∈ p ++ [n], PlainName s := by
    intro n hn s hs
    rcases List.mem_append.1 hs with h | h
    · exact (hp s h).2
    · rw [List.mem_singleton.1 h]; exact hn
  unfold hwp5ToDir xhwp5ToDir
  refine (onlyBelow_id p _).andThen (((onlyBelow_writeWith p _ (hpl _ (by decide)) _).andThen (onlyBelow_writeWith p _ (hpl _ (by decide)) _)).andThen ?_)
  unfold extractBindata
  cases h : d.bindata with
  | none => exact onlyBelow_id p none
  | some es =>
    exact (onlyBelow_exists_mkdir p _ (hpl _ (by decide))).andThen
      (onlyBelow_unpack p _ hp (by simp; decide) es (hb es h))

end Hwp
