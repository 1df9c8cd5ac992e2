/- Proofs: reading declared types is the inverse of writing. -/
import Verif.Spec.DeclBytes
import Verif.Proofs.DeclContent
import Verif.Props.Dataio
set_option linter.unusedSimpArgs false
set_option linter.unusedVariables false
namespace Hwp
open Spec

theorem bstr_length {b rest : Bytes} {s : PyStr} (h : bstrRead b = .ok (s, rest)) : (strUnits s).length < 65536 := by
  unfold bstrRead at h
  simp only [bind, Except.bind, pure, Except.pure] at h
  split at h
  · simp at h
  · rename_i p hp
    obtain ⟨n, r⟩ := p
    obtain ⟨d, hb, hd, hn⟩ := readU_ok hp
    have hnl : n < 65536 := by have := leNat_lt d; rw [hd, hn] at this; simpa using this
    simp only at h
    split at h
    · simp at h
      obtain ⟨rfl, rfl⟩ := h
      simp [strUnits]
    · split at h
      · simp at h
      · rename_i q hq
        obtain ⟨dat, r'⟩ := q
        simp only at h
        split at h
        · simp at h
        · rename_i str hstr
          simp at h
          obtain ⟨rfl, rfl⟩ := h
          obtain ⟨h1, h2⟩ := encode_utf16leDecode dat str hstr
          obtain ⟨h3, _, h4⟩ := readn_ok hq
          have hlen := encodeUtf16le_length str
          rw [h1] at hlen
          rcases h4 with h4 | ⟨h4, h5⟩ <;> omega

/-! ### Writing, then reading -/

theorem prim_write_read (p : PTy) (x : PVal) (b r : Bytes) (h : writePrim p x = some b) : p.read (b ++ r) = .ok (x, r) := by
  cases p with
  | int q =>
    cases x <;> simp only [writePrim, reduceCtorEq] at h
    split at h
    · rename_i n hr
      injection h with h; subst h
      simp [PTy.read, Props.C33_read_encoded q _ r hr, bind, Except.bind, pure, Except.pure]
    · cases h
  | colorref =>
    cases x <;> simp only [writePrim, reduceCtorEq] at h
    split at h
    · rename_i n hr
      injection h with h; subst h
      simp [PTy.read, Props.C33_read_encoded .INT32 _ r hr, bind, Except.bind, pure, Except.pure]
    · cases h
  | binStorageId =>
    cases x <;> simp only [writePrim, reduceCtorEq] at h
    split at h
    · rename_i n hr
      injection h with h; subst h
      simp [PTy.read, Props.C33_read_encoded .UINT16 _ r hr, bind, Except.bind, pure, Except.pure]
    · cases h
  | double =>
    cases x <;> simp only [writePrim, reduceCtorEq] at h
    split at h
    · rename_i hr
      injection h with h; subst h
      simp [PTy.read, readn_append hr (by omega), bind, Except.bind, pure, Except.pure, hr]
    · cases h
  | hexBytes k =>
    cases x <;> simp only [writePrim, reduceCtorEq] at h
    split at h
    · rename_i b0 hr
      injection h with h; subst h
      have : 0 < k := by rw [← hr.2]; exact List.length_pos_iff.2 hr.1
      simp [PTy.read, readn_append hr.2 this, bind, Except.bind, pure, Except.pure]
    · cases h
  | bstr =>
    cases x <;> simp only [writePrim, reduceCtorEq] at h
    split at h
    · rename_i hr
      injection h with h; subst h
      simp [PTy.read, Props.C34_read_encoded _ r hr.1 hr.2, bind, Except.bind, pure, Except.pure]
    · cases h
  | chid =>
    cases x <;> simp only [writePrim, reduceCtorEq] at h
    split at h
    · rename_i b0 hr
      injection h with h; subst h
      match b0, hr with
      | [c0, c1, c2, c3], hr =>
        have e : readn 4 (c3 :: c2 :: c1 :: c0 :: r) = .ok ([c3, c2, c1, c0], r) :=
          readn_append (n := 4) (d := [c3, c2, c1, c0]) rfl (by omega)
        simp [PTy.read, e, bind, Except.bind, pure, Except.pure, chidDecode]
    · cases h
  | chunks => cases x <;> simp only [writePrim, reduceCtorEq] at h
  | version =>
    cases x <;> simp only [writePrim, reduceCtorEq] at h
    split at h
    · rename_i ns hr
      injection h with h; subst h
      match ns, hr with
      | [c0, c1, c2, c3], hr =>
        have h0 := hr.2 c0 (by simp)
        have h1 := hr.2 c1 (by simp)
        have h2 := hr.2 c2 (by simp)
        have h3 := hr.2 c3 (by simp)
        have e : readn 4 (UInt8.ofNat c3 :: UInt8.ofNat c2 :: UInt8.ofNat c1 :: UInt8.ofNat c0 :: r) = .ok ([UInt8.ofNat c3, UInt8.ofNat c2, UInt8.ofNat c1, UInt8.ofNat c0], r) :=
          readn_append (n := 4) (d := [UInt8.ofNat c3, UInt8.ofNat c2, UInt8.ofNat c1, UInt8.ofNat c0]) rfl (by omega)
        simp [PTy.read, e, bind, Except.bind, pure, Except.pure,
          Nat.mod_eq_of_lt h0, Nat.mod_eq_of_lt h1, Nat.mod_eq_of_lt h2, Nat.mod_eq_of_lt h3]
    · cases h

theorem prim_read_write (p : PTy) (x : PVal) (s r : Bytes) (h : p.read s = .ok (x, r)) (hf : r ≠ [] ∨ fixedPrim p = true) :
    ∃ b, writePrim p x = some b ∧ s = b ++ r := by
  cases p with
  | int q =>
    simp only [PTy.read, bind, Except.bind, pure, Except.pure] at h
    cases h1 : q.read s with
    | error e => rw [h1] at h; cases h
    | ok v =>
      rw [h1] at h
      simp only [Except.ok.injEq, Prod.mk.injEq] at h
      obtain ⟨rfl, rfl⟩ := h
      obtain ⟨h2, h3⟩ := Props.C33_encode_read q s v.2 v.1 h1
      exact ⟨_, by simp only [writePrim]; rw [if_pos h2], h3⟩
  | colorref =>
    simp only [PTy.read, bind, Except.bind, pure, Except.pure] at h
    cases h1 : Prim.INT32.read s with
    | error e => rw [h1] at h; cases h
    | ok v =>
      rw [h1] at h
      simp only [Except.ok.injEq, Prod.mk.injEq] at h
      obtain ⟨rfl, rfl⟩ := h
      obtain ⟨h2, h3⟩ := Props.C33_encode_read .INT32 s v.2 v.1 h1
      exact ⟨_, by simp only [writePrim]; rw [if_pos h2], h3⟩
  | binStorageId =>
    simp only [PTy.read, bind, Except.bind, pure, Except.pure] at h
    cases h1 : Prim.UINT16.read s with
    | error e => rw [h1] at h; cases h
    | ok v =>
      rw [h1] at h
      simp only [Except.ok.injEq, Prod.mk.injEq] at h
      obtain ⟨rfl, rfl⟩ := h
      obtain ⟨h2, h3⟩ := Props.C33_encode_read .UINT16 s v.2 v.1 h1
      exact ⟨_, by simp only [writePrim]; rw [if_pos h2], h3⟩
  | double =>
    simp only [PTy.read, bind, Except.bind, pure, Except.pure] at h
    cases h1 : readn 8 s with
    | error e => rw [h1] at h; cases h
    | ok v =>
      rw [h1] at h
      simp only at h
      split at h
      · cases h
      · rename_i hl
        simp only [Except.ok.injEq, Prod.mk.injEq] at h
        obtain ⟨rfl, rfl⟩ := h
        exact ⟨v.1, by simp only [writePrim]; rw [if_pos (by simpa using hl)], (readn_ok (d := v.1) (r := v.2) h1).1⟩
  | hexBytes k =>
    simp only [fixedPrim, Bool.false_eq_true, or_false] at hf
    simp only [PTy.read, bind, Except.bind, pure, Except.pure] at h
    cases h1 : readn k s with
    | error e => rw [h1] at h; cases h
    | ok v =>
      rw [h1] at h
      simp only [Except.ok.injEq, Prod.mk.injEq] at h
      obtain ⟨rfl, rfl⟩ := h
      obtain ⟨h2, h3, h4⟩ := readn_ok (d := v.1) (r := v.2) h1
      refine ⟨v.1, ?_, h2⟩
      simp only [writePrim]
      rw [if_pos ⟨h3, by rcases h4 with h4 | ⟨_, h4⟩; exact h4; exact absurd h4 hf⟩]
  | bstr =>
    simp only [fixedPrim, Bool.false_eq_true, or_false] at hf
    simp only [PTy.read, bind, Except.bind, pure, Except.pure] at h
    cases h1 : bstrRead s with
    | error e => rw [h1] at h; cases h
    | ok v =>
      rw [h1] at h
      simp only [Except.ok.injEq, Prod.mk.injEq] at h
      obtain ⟨rfl, rfl⟩ := h
      obtain ⟨h2, h3⟩ := Props.C34_encode_read s v.2 v.1 h1
      refine ⟨_, by simp only [writePrim]; rw [if_pos ⟨h2, bstr_length (s := v.1) (rest := v.2) h1⟩], ?_⟩
      rcases h3 with h3 | ⟨h3, -⟩
      · exact h3
      · exact absurd h3 hf
  | chid =>
    simp only [PTy.read, bind, Except.bind, pure, Except.pure] at h
    cases h1 : readn 4 s with
    | error e => rw [h1] at h; cases h
    | ok v =>
      rw [h1] at h
      simp only at h
      cases h2 : chidDecode v.1 with
      | error e => rw [h2] at h; cases h
      | ok c =>
        rw [h2] at h
        simp only [Except.ok.injEq, Prod.mk.injEq] at h
        obtain ⟨rfl, rfl⟩ := h
        obtain ⟨h3, -, h4⟩ := readn_ok (d := v.1) (r := v.2) h1
        obtain ⟨d, r⟩ := v
        have h5 : d.length = 4 ∧ c = d.reverse := by
          unfold chidDecode at h2
          split at h2
          · rename_i b0 b1 b2 b3 e0 e1 e2 e3
            have hl : d.length = 4 := by
              have := (List.getElem?_eq_some_iff.1 e3).1
              rcases h4 with h4 | ⟨h4, -⟩ <;> dsimp only at h4 this <;> omega
            match d, hl with
            | [x0, x1, x2, x3], _ => simp_all
          · cases h2
        refine ⟨d, ?_, h3⟩
        simp [writePrim, h5.2, h5.1]
  | chunks =>
    simp only [fixedPrim, Bool.false_eq_true, or_false] at hf
    simp only [PTy.read] at h
    split at h
    · cases h
    · simp only [Except.ok.injEq, Prod.mk.injEq] at h
      exact absurd h.2.symm hf
  | version =>
    simp only [PTy.read, bind, Except.bind, pure, Except.pure] at h
    cases h1 : readn 4 s with
    | error e => rw [h1] at h; cases h
    | ok v =>
      rw [h1] at h
      obtain ⟨d, r'⟩ := v
      simp only at h
      split at h
      · simp only [Except.ok.injEq, Prod.mk.injEq] at h
        obtain ⟨rfl, rfl⟩ := h
        rename_i b0 b1 b2 b3
        refine ⟨[b0, b1, b2, b3], ?_, (readn_ok h1).1⟩
        simp [writePrim]
        exact ⟨b3.toNat_lt, b2.toNat_lt, b1.toNat_lt, b0.toNat_lt⟩
      · cases h

theorem many_write_read {f : List (Value PVal) → Bytes → Except PyErr (Option (Value PVal) × Bytes)}
    {w : Value PVal → Option Bytes} (h : ∀ acc v b r, w v = some b → f acc (b ++ r) = .ok (some v, r)) :
    ∀ (xs : List (Value PVal)) (acc : List (Value PVal)) (b r : Bytes), writeAll w xs = some b →
      readMany f xs.length acc (b ++ r) = .ok (acc ++ xs, r)
  | [], acc, b, r, hw => by
    simp only [writeAll, Option.some.injEq] at hw
    subst hw
    simp [readMany]
  | x :: xs, acc, b, r, hw => by
    simp only [writeAll, bind, Option.bind, pure] at hw
    cases h1 : w x with
    | none => rw [h1] at hw; cases hw
    | some b1 =>
      rw [h1] at hw
      simp only at hw
      cases h2 : writeAll w xs with
      | none => rw [h2] at hw; cases hw
      | some b2 =>
        rw [h2] at hw
        simp only [Option.some.injEq] at hw
        subst hw
        simp only [List.length_cons, readMany, List.append_assoc]
        rw [h acc x b1 (b2 ++ r) h1]
        simp only
        rw [many_write_read h xs (acc ++ [x]) b2 r h2]
        simp

theorem read_cons (fe : PyErr) (ctx : DCtx) (name : String) (version : Option Version) (condition : Option CondDecl)
    (t : DTy) (rest : DMembers) (acc : Fields) (s : Bytes) :
    readMembers fe ctx.version ctx (DMembers.cons name version condition t rest).toMembers acc s =
      match isThere ctx acc version condition with
      | .error e => .error e
      | .ok false => readMembers fe ctx.version ctx rest.toMembers acc s
      | .ok true =>
        match readTy fe ctx.version ctx (some (.struct acc)) t.toTy s with
        | .error e => .error e
        | .ok (none, s) => readMembers fe ctx.version ctx rest.toMembers acc s
        | .ok (some v, s) => readMembers fe ctx.version ctx rest.toMembers (setField name v acc) s := by
  unfold isThere
  simp only [DMembers.toMembers, readMembers]
  by_cases hv : versionOk ctx.version version = true
  · rw [if_pos hv, if_pos hv]
    cases condition with
    | none =>
      simp only [Option.map_none]
      cases readTy fe ctx.version ctx (some (.struct acc)) t.toTy s with
      | error e => rfl
      | ok p => obtain ⟨o, s'⟩ := p; cases o <;> rfl
    | some c =>
      simp only [Option.map_some, fieldsOf]
      cases c.eval ctx acc with
      | error e => rfl
      | ok b =>
        cases b with
        | false => rfl
        | true =>
          simp only
          cases readTy fe ctx.version ctx (some (.struct acc)) t.toTy s with
          | error e => rfl
          | ok p => obtain ⟨o, s'⟩ := p; cases o <;> rfl
  · rw [if_neg hv, if_neg hv]

mutual
theorem write_read_ty (fe : PyErr) (ctx : DCtx) : ∀ (t : DTy) (acc : Fields) (v p : Value PVal) (b r : Bytes),
    fieldsOf p = acc → writableTy t = true → writeTy ctx t acc v = some b →
    readTy fe ctx.version ctx (some p) t.toTy (b ++ r) = .ok (some v, r)
  | .prim q, acc, v, p, b, r, hp, ht, h => by
    cases v with
    | leaf x =>
      simp only [writeTy] at h
      simp [DTy.toTy, readTy, prim_write_read q x b r h, leafResult]
    | _ => simp [writeTy] at h
  | .flags f, acc, v, p, b, r, hp, ht, h => by
    cases v with
    | leaf x =>
      cases x with
      | flags g n =>
        simp only [writeTy] at h
        split at h
        · rename_i hc
          obtain ⟨rfl, hc⟩ := hc
          injection h with h
          subst h
          simp [DTy.toTy, readTy, PTy.read, Props.C33_read_encoded _ _ r hc, leafResult, bind, Except.bind, pure, Except.pure, Except.map, toFlags]
        · cases h
      | _ => simp [writeTy] at h
    | _ => simp [writeTy] at h
  | .struct sn ms, acc, v, p, b, r, hp, ht, h => by
    simp only [writableTy, Bool.and_eq_true, decide_eq_true_eq] at ht
    cases v with
    | struct fs =>
      simp only [writeTy] at h
      have := write_read_members fe ctx ms [] fs b r h ht.2 (by simp) ht.1
      simp [DTy.toTy, readTy, this]
    | _ => simp [writeTy] at h
  | .array t n, acc, v, p, b, r, hp, ht, h => by
    simp only [writableTy] at ht
    cases v with
    | tuple xs =>
      simp only [writeTy] at h
      split at h
      · rename_i hl
        subst hl
        have := many_write_read (f := fun acc s => readTy fe ctx.version ctx (some (.list acc)) t.toTy s) (w := writeTy ctx t [])
          (fun acc v b r hw => write_read_ty fe ctx t [] v _ b r rfl ht hw) xs [] b r h
        simp [DTy.toTy, readTy, this, arrayResult]
      · cases h
    | _ => simp [writeTy] at h
  | .nArray c t, acc, v, p, b, r, hp, ht, h => by
    simp only [writableTy] at ht
    cases v with
    | list xs =>
      simp only [writeTy] at h
      split at h
      · rename_i hl
        cases hw : writeAll (writeTy ctx t []) xs with
        | none => rw [hw] at h; cases h
        | some b' =>
          rw [hw] at h
          simp only [Option.map_some, Option.some.injEq] at h
          subst h
          have := many_write_read (f := fun acc s => readTy fe ctx.version ctx (some (.list acc)) t.toTy s) (w := writeTy ctx t [])
            (fun acc v b r hw => write_read_ty fe ctx t [] v _ b r rfl ht hw) xs [] b' r hw
          simp only [DTy.toTy, readTy, List.append_assoc]
          rw [Props.C33_read_encoded c _ (b' ++ r) hl]
          simp [bind, Except.bind, pure, Except.pure, this, arrayResult]
      · cases h
    | _ => simp [writeTy] at h
  | .xArray t ref, acc, v, p, b, r, hp, ht, h => by
    simp only [writableTy] at ht
    cases v with
    | list xs =>
      simp only [writeTy] at h
      cases hr : ref.eval ctx acc with
      | error e => rw [hr] at h; cases h
      | ok n =>
        rw [hr] at h
        simp only at h
        split at h
        · rename_i hl
          have := many_write_read (f := fun acc s => readTy fe ctx.version ctx (some (.list acc)) t.toTy s) (w := writeTy ctx t [])
            (fun acc v b r hw => write_read_ty fe ctx t [] v _ b r rfl ht hw) xs [] b r h
          rw [hl] at this
          simp [DTy.toTy, readTy, withParent, countOf, hp, hr, bind, Except.bind, pure, Except.pure, this, arrayResult]
        · cases h
    | _ => simp [writeTy] at h
  | .selective ref ss, acc, v, p, b, r, hp, ht, h => by
    simp only [writableTy] at ht
    simp only [writeTy] at h
    cases hr : ref.eval ctx acc with
    | error e => rw [hr] at h; cases h
    | ok n =>
      rw [hr] at h
      simp only at h
      have := write_read_sels fe ctx ss n acc v p b r hp ht h
      simp [DTy.toTy, readTy, withParent, hp, hr, this]
theorem write_read_sels (fe : PyErr) (ctx : DCtx) : ∀ (ss : DSels) (n : Int) (acc : Fields) (v p : Value PVal) (b r : Bytes),
    fieldsOf p = acc → writableSels ss = true → writeSels ctx ss n acc v = some b →
    readSelected fe ctx.version ctx (some p) n ss.toSelections (b ++ r) = .ok (some v, r)
  | .nil, n, acc, v, p, b, r, hp, ht, h => by simp [writeSels] at h
  | .cons k t rest, n, acc, v, p, b, r, hp, ht, h => by
    simp only [writableSels, Bool.and_eq_true] at ht
    simp only [writeSels] at h
    simp only [DSels.toSelections, readSelected]
    by_cases hk : n = k
    · rw [if_pos hk] at h
      rw [if_pos hk.symm]
      exact write_read_ty fe ctx t acc v p b r hp ht.1 h
    · rw [if_neg hk] at h
      rw [if_neg (fun e => hk e.symm)]
      exact write_read_sels fe ctx rest n acc v p b r hp ht.2 h
theorem write_read_members (fe : PyErr) (ctx : DCtx) : ∀ (ms : DMembers) (acc fs : Fields) (b r : Bytes),
    writeMembers ctx ms acc fs = some b → ms.names.Nodup → (∀ n ∈ ms.names, n ∉ acc.map (·.1)) → writableMembers ms = true →
    readMembers fe ctx.version ctx ms.toMembers acc (b ++ r) = .ok (acc ++ fs, r)
  | .nil, acc, fs, b, r, h, hn, hd, hw => by
    simp only [writeMembers] at h
    split at h
    · rename_i he
      subst he
      injection h with h
      subst h
      simp [DMembers.toMembers, readMembers]
    · cases h
  | .cons name version condition t rest, acc, fs, b, r, h, hn, hd, hw => by
    simp only [writableMembers, Bool.and_eq_true] at hw
    simp only [DMembers.names, List.nodup_cons] at hn
    have hd' : ∀ n ∈ rest.names, n ∉ acc.map (·.1) := fun n hm => hd n (by simp [DMembers.names, hm])
    have absent : writeMembers ctx rest acc fs = some b →
        readMembers fe ctx.version ctx rest.toMembers acc (b ++ r) = .ok (acc ++ fs, r) := fun h =>
      write_read_members fe ctx rest acc fs b r h hn.2 hd' hw.2
    rw [read_cons]
    cases hc : isThere ctx acc version condition with
    | error e => simp [writeMembers, hc] at h
    | ok x =>
      cases x with
      | false =>
        simp only [writeMembers, hc] at h
        exact absent h
      | true =>
        cases fs with
        | nil => simp [writeMembers, hc] at h
        | cons a fs =>
          obtain ⟨n, v⟩ := a
          simp only [writeMembers, hc] at h
          split at h
          · rename_i he
            subst he
            simp only [bind, Option.bind, pure] at h
            cases h1 : writeTy ctx t acc v with
            | none => rw [h1] at h; cases h
            | some b1 =>
              rw [h1] at h
              simp only at h
              cases h2 : writeMembers ctx rest (acc ++ [(n, v)]) fs with
              | none => rw [h2] at h; cases h
              | some b2 =>
                rw [h2] at h
                simp only [Option.some.injEq] at h
                subst h
                rw [List.append_assoc, write_read_ty fe ctx t acc v (.struct acc) b1 (b2 ++ r) rfl hw.1 h1]
                simp only
                rw [setField_new n v acc (hd n (by simp [DMembers.names]))]
                rw [write_read_members fe ctx rest (acc ++ [(n, v)]) fs b2 r h2 hn.2 ?_ hw.2]
                · simp
                · intro m hm
                  rw [List.map_append, List.mem_append]
                  rintro (h3 | h3)
                  · exact hd' m hm h3
                  · simp at h3; subst h3; exact hn.1 hm
          · cases h
end

/-! ### Consumption -/

theorem pty_consumes (p : PTy) : Consumes p.read := by
  intro s x r h
  by_cases hf : r ≠ [] ∨ fixedPrim p = true
  · obtain ⟨b, -, h1⟩ := prim_read_write p x s r h hf
    exact ⟨b, h1⟩
  · have : r = [] := by
      by_cases hr : r = []
      · exact hr
      · exact absurd (Or.inl hr) hf
    exact ⟨s, by simp [this]⟩

mutual
theorem readers_toTy : ∀ (t : DTy), ReadersTy Consumes t.toTy
  | .prim p => by simp only [DTy.toTy, ReadersTy]; exact pty_consumes p
  | .flags f => by simp only [DTy.toTy, ReadersTy]; exact pty_consumes _
  | .struct _ ms => by simp only [DTy.toTy, ReadersTy]; exact readers_toMembers ms
  | .array t _ => by simp only [DTy.toTy, ReadersTy]; exact readers_toTy t
  | .nArray c t => by
    simp only [DTy.toTy, ReadersTy]
    refine ⟨?_, readers_toTy t⟩
    intro s x r h
    simp only [bind, Except.bind, pure, Except.pure] at h
    cases h1 : c.read s with
    | error e => rw [h1] at h; cases h
    | ok v =>
      rw [h1] at h
      simp only [Except.ok.injEq, Prod.mk.injEq] at h
      obtain ⟨u, hu⟩ := Props.C36_prim_consumes c s v.1 v.2 h1
      exact ⟨u, by rw [hu, h.2]⟩
  | .xArray t _ => by simp only [DTy.toTy, ReadersTy]; exact readers_toTy t
  | .selective _ ss => by simp only [DTy.toTy, ReadersTy]; exact readers_toSels ss
theorem readers_toMembers : ∀ (ms : DMembers), ReadersMembers Consumes ms.toMembers
  | .nil => by simp [DMembers.toMembers, ReadersMembers]
  | .cons _ _ _ t rest => by
    simp only [DMembers.toMembers, ReadersMembers]
    exact ⟨readers_toTy t, readers_toMembers rest⟩
theorem readers_toSels : ∀ (ss : DSels), ReadersSels Consumes ss.toSelections
  | .nil => by simp [DSels.toSelections, ReadersSels]
  | .cons _ t rest => by
    simp only [DSels.toSelections, ReadersSels]
    exact ⟨readers_toTy t, readers_toSels rest⟩
end

theorem directRead_consumes (ver : Version) (parent : Option (String × Fields)) (c : String) :
    Consumes (directRead ver parent c) := by
  intro s v r h
  exact readMembers_consumes _ _ _ _ [] (readers_toMembers (membersOf c)) s v r h

/-! ### Reading, then writing -/

theorem setField_names (k : String) (x : Value PVal) (fs : Fields) (n : String) :
    n ∈ (setField k x fs).map (·.1) → n = k ∨ n ∈ fs.map (·.1) := by
  induction fs with
  | nil => simp [setField]
  | cons b fs ihf =>
    obtain ⟨b1, b2⟩ := b
    simp only [setField]
    split
    · simp; tauto
    · simp only [List.map_cons, List.mem_cons]
      rintro (h | h)
      · tauto
      · rcases ihf h with h | h <;> tauto

theorem read_names (fe : PyErr) (ctx : DCtx) : ∀ (ms : DMembers) (acc fs : Fields) (s r : Bytes),
    readMembers fe ctx.version ctx ms.toMembers acc s = .ok (fs, r) →
    ∀ n ∈ fs.map (·.1), n ∈ acc.map (·.1) ∨ n ∈ ms.names
  | .nil, acc, fs, s, r, h, n, hn => by
    simp only [DMembers.toMembers, readMembers, Except.ok.injEq, Prod.mk.injEq] at h
    rw [← h.1] at hn
    exact Or.inl hn
  | .cons name version condition t rest, acc, fs, s, r, h, n, hn => by
    have step : ∀ acc' s', readMembers fe ctx.version ctx rest.toMembers acc' s' = .ok (fs, r) →
        (∀ n ∈ acc'.map (·.1), n = name ∨ n ∈ acc.map (·.1)) → n ∈ acc.map (·.1) ∨ n ∈ (DMembers.cons name version condition t rest).names := by
      intro acc' s' h1 h2
      rcases read_names fe ctx rest acc' fs s' r h1 n hn with h3 | h3
      · rcases h2 n h3 with h4 | h4
        · right; simp [DMembers.names, h4]
        · exact Or.inl h4
      · right; simp [DMembers.names, h3]
    rw [read_cons] at h
    split at h
    · cases h
    · exact step _ _ h (fun m hm => Or.inr hm)
    · split at h
      · cases h
      · exact step _ _ h (fun m hm => Or.inr hm)
      · exact step _ _ h (fun m hm => setField_names _ _ _ _ hm)

/-- What may follow a value that was not cut off. -/
def Follows (fixed : Bool) (r : Bytes) : Prop := r ≠ [] ∨ fixed = true

theorem Follows.before {fixed : Bool} {s u r : Bytes} (h : Follows fixed r) (e : s = u ++ r) : Follows fixed s := by
  rcases h with h | h
  · left
    rw [e]
    simp [h]
  · exact Or.inr h

theorem Follows.weaken {a b : Bool} {r : Bytes} (h : Follows a r) (hab : a = true → b = true) : Follows b r :=
  h.imp id hab

theorem many_read_write {f : List (Value PVal) → Bytes → Except PyErr (Option (Value PVal) × Bytes)}
    {w : Value PVal → Option Bytes} {fixed : Bool} (hc : ∀ acc, Consumes (f acc))
    (h : ∀ acc s o r, f acc s = .ok (o, r) → Follows fixed r → ∃ v b, o = some v ∧ w v = some b ∧ s = b ++ r) :
    ∀ (n : Nat) (acc ys : List (Value PVal)) (s r : Bytes), readMany f n acc s = .ok (ys, r) → Follows fixed r →
      ∃ xs b, ys = acc ++ xs ∧ xs.length = n ∧ writeAll w xs = some b ∧ s = b ++ r
  | 0, acc, ys, s, r, hr, hqr => by
    simp only [readMany, Except.ok.injEq, Prod.mk.injEq] at hr
    obtain ⟨rfl, rfl⟩ := hr
    exact ⟨[], [], by simp, rfl, rfl, by simp⟩
  | n + 1, acc, ys, s, r, hr, hqr => by
    simp only [readMany] at hr
    cases h1 : f acc s with
    | error e => rw [h1] at hr; cases hr
    | ok p =>
      obtain ⟨o, s1⟩ := p
      rw [h1] at hr
      cases o with
      | none =>
        simp only at hr
        obtain ⟨u, hu⟩ := readMany_consumes hc n acc s1 ys r hr
        obtain ⟨v, b, h3, -⟩ := h acc s none s1 h1 (hqr.before hu)
        cases h3
      | some v =>
        simp only at hr
        obtain ⟨u, hu⟩ := readMany_consumes hc n _ s1 ys r hr
        obtain ⟨xs, b, h2, h3, h4, h5⟩ := many_read_write hc h n _ ys s1 r hr hqr
        obtain ⟨v', b', h6, h7, h8⟩ := h acc s (some v) s1 h1 (hqr.before hu)
        injection h6 with h6
        subst h6
        refine ⟨v :: xs, b' ++ b, by simp [h2], by simp [h3], ?_, ?_⟩
        · simp [writeAll, h7, h4]
        · rw [h8, h5]; simp

theorem arrayResult_ok {mk : List (Value PVal) → Value PVal} {r : Except PyErr (List (Value PVal) × Bytes)}
    {o : Option (Value PVal)} {s : Bytes} (h : arrayResult mk r = .ok (o, s)) : ∃ xs, o = some (mk xs) ∧ r = .ok (xs, s) := by
  cases r with
  | error e => simp [arrayResult] at h
  | ok p =>
    obtain ⟨xs, s'⟩ := p
    simp only [arrayResult, Except.ok.injEq, Prod.mk.injEq] at h
    exact ⟨xs, h.1.symm, by rw [h.2]⟩

mutual
theorem read_write_ty (fe : PyErr) (ctx : DCtx) (ps : List String) : ∀ (t : DTy) (p : Option (Value PVal)) (o : Option (Value PVal)) (s r : Bytes),
    innerOk ps false t = true → readTy fe ctx.version ctx p t.toTy s = .ok (o, r) → Follows (fixedTy t) r →
    ∃ v b, o = some v ∧ (∀ acc, writeTy ctx t acc v = some b) ∧ s = b ++ r
  | .prim q, p, o, s, r, ht, h, hf => by
    simp only [DTy.toTy, readTy] at h
    cases h1 : q.read s with
    | error e => rw [h1] at h; simp [leafResult] at h
    | ok v =>
      rw [h1] at h
      simp only [leafResult, Except.ok.injEq, Prod.mk.injEq] at h
      obtain ⟨rfl, rfl⟩ := h
      obtain ⟨b, h2, h3⟩ := prim_read_write q v.1 s v.2 h1 (by simpa [Follows, fixedTy] using hf)
      exact ⟨_, b, rfl, fun acc => by simpa [writeTy] using h2, h3⟩
  | .flags f, p, o, s, r, ht, h, hf => by
    simp only [DTy.toTy, readTy] at h
    cases h1 : PTy.read (.int f.base) s with
    | error e => rw [h1] at h; simp [leafResult, Except.map] at h
    | ok v =>
      rw [h1] at h
      simp only [leafResult, Except.map, Except.ok.injEq, Prod.mk.injEq] at h
      obtain ⟨rfl, rfl⟩ := h
      simp only [PTy.read, bind, Except.bind, pure, Except.pure] at h1
      cases h2 : f.base.read s with
      | error e => rw [h2] at h1; cases h1
      | ok n =>
        rw [h2] at h1
        simp only [Except.ok.injEq] at h1
        subst h1
        obtain ⟨h3, h4⟩ := Props.C33_encode_read f.base s n.2 n.1 h2
        have h0 : 0 ≤ n.1 := by
          simp only [innerOk, Bool.not_eq_true'] at ht
          simp only [InRange, ht, Bool.false_eq_true, if_false] at h3
          exact h3.1
        refine ⟨_, encodeInt f.base n.1, rfl, ?_, h4⟩
        intro acc
        simp only [toFlags, writeTy, Int.toNat_of_nonneg h0]
        rw [if_pos ⟨trivial, h3⟩]
  | .struct sn ms, p, o, s, r, ht, h, hf => by
    simp only [innerOk, Bool.and_eq_true, decide_eq_true_eq] at ht
    simp only [DTy.toTy, readTy] at h
    cases h1 : readMembers fe ctx.version ctx ms.toMembers [] s with
    | error e => rw [h1] at h; cases h
    | ok v =>
      obtain ⟨fs', s1⟩ := v
      rw [h1] at h
      simp only [Except.ok.injEq, Prod.mk.injEq] at h
      obtain ⟨rfl, rfl⟩ := h
      obtain ⟨fs, b, h2, h3, h4⟩ := read_write_members fe ctx ps ms [] [] fs' s s1 ht.1.1 ht.1.2 (by simp) h1
        (by rw [ht.2]; simp) (by simpa [fixedTy] using hf)
      simp only [List.nil_append] at h2
      subst h2
      exact ⟨_, b, rfl, fun acc => by simpa [writeTy] using h3, h4⟩
  | .array t n, p, o, s, r, ht, h, hf => by
    simp only [innerOk] at ht
    simp only [DTy.toTy, readTy] at h
    obtain ⟨xs, rfl, h1⟩ := arrayResult_ok h
    obtain ⟨ys, b, h2, h3, h4, h5⟩ := many_read_write (w := writeTy ctx t []) (fixed := fixedTy t)
      (fun acc => readTy_consumes fe _ ctx _ _ (readers_toTy t))
      (fun acc s o r hr hfr => by
        obtain ⟨v, b, h6, h7, h8⟩ := read_write_ty fe ctx ps t _ o s r ht hr hfr
        exact ⟨v, b, h6, h7 [], h8⟩) n [] xs s r h1 (by simpa [fixedTy] using hf)
    simp only [List.nil_append] at h2
    subst h2
    exact ⟨_, b, rfl, fun acc => by simp [writeTy, h3, h4], h5⟩
  | .nArray c t, p, o, s, r, ht, h, hf => by
    simp only [innerOk, Bool.and_eq_true, Bool.not_eq_true'] at ht
    simp only [DTy.toTy, readTy, bind, Except.bind, pure, Except.pure] at h
    cases hc : c.read s with
    | error e => rw [hc] at h; cases h
    | ok v =>
      obtain ⟨n, s1⟩ := v
      rw [hc] at h
      simp only at h
      obtain ⟨xs, rfl, h1⟩ := arrayResult_ok h
      obtain ⟨ys, b, h2, h3, h4, h5⟩ := many_read_write (w := writeTy ctx t []) (fixed := fixedTy t)
        (fun acc => readTy_consumes fe _ ctx _ _ (readers_toTy t))
        (fun acc s o r hr hfr => by
          obtain ⟨v, b, h6, h7, h8⟩ := read_write_ty fe ctx ps t _ o s r ht.2 hr hfr
          exact ⟨v, b, h6, h7 [], h8⟩) n.toNat [] xs s1 r h1 (by simpa [fixedTy] using hf)
      simp only [List.nil_append] at h2
      subst h2
      obtain ⟨h6, h7⟩ := Props.C33_encode_read c s s1 n hc
      have h0 : 0 ≤ n := by
        simp only [InRange, ht.1, Bool.false_eq_true, if_false] at h6
        exact h6.1
      have hl : ((xs.length : Nat) : Int) = n := by rw [h3, Int.toNat_of_nonneg h0]
      refine ⟨_, encodeInt c n ++ b, rfl, ?_, by rw [h7, h5, List.append_assoc]⟩
      intro acc
      simp [writeTy, hl, h6, h4]
  | .xArray _ _, _, _, _, _, ht, _, _ => by simp [innerOk] at ht
  | .selective _ _, _, _, _, _, ht, _, _ => by simp [innerOk] at ht
theorem read_write_sels (fe : PyErr) (ctx : DCtx) (ps : List String) (key : Int) : ∀ (ss : DSels) (p : Option (Value PVal)) (o : Option (Value PVal)) (s r : Bytes),
    innerSels ps ss = true → readSelected fe ctx.version ctx p key ss.toSelections s = .ok (o, r) → Follows (fixedSels ss) r →
    o = none ∨ ∃ v b, o = some v ∧ (∀ acc, writeSels ctx ss key acc v = some b) ∧ s = b ++ r
  | .nil, p, o, s, r, ht, h, hf => by
    simp only [DSels.toSelections, readSelected, Except.ok.injEq, Prod.mk.injEq] at h
    exact Or.inl h.1.symm
  | .cons k t rest, p, o, s, r, ht, h, hf => by
    simp only [innerSels, Bool.and_eq_true] at ht
    simp only [DSels.toSelections, readSelected] at h
    by_cases hk : (k : Int) = key
    · rw [if_pos hk] at h
      obtain ⟨v, b, h1, h2, h3⟩ := read_write_ty fe ctx ps t p o s r ht.1 h
        (hf.weaken (by simp only [fixedSels, Bool.and_eq_true]; exact And.left))
      exact Or.inr ⟨v, b, h1, fun acc => by simp only [writeSels]; rw [if_pos hk.symm]; exact h2 acc, h3⟩
    · rw [if_neg hk] at h
      rcases read_write_sels fe ctx ps key rest p o s r ht.2 h
        (hf.weaken (by simp only [fixedSels, Bool.and_eq_true]; exact And.right)) with h1 | ⟨v, b, h1, h2, h3⟩
      · exact Or.inl h1
      · exact Or.inr ⟨v, b, h1, fun acc => by simp only [writeSels]; rw [if_neg (fun e => hk e.symm)]; exact h2 acc, h3⟩
theorem read_write_members (fe : PyErr) (ctx : DCtx) (ps : List String) : ∀ (ms : DMembers) (ds : List Declared) (acc fs' : Fields) (s r : Bytes),
    wellDeclared ps ds ms = true → ms.names.Nodup → (∀ n ∈ ms.names, n ∉ acc.map (·.1)) →
    readMembers fe ctx.version ctx ms.toMembers acc s = .ok (fs', r) →
    (∀ n ∈ selNames ms, n ∈ fs'.map (·.1)) → Follows (fixedMembers ms) r →
    ∃ fs b, fs' = acc ++ fs ∧ writeMembers ctx ms acc fs = some b ∧ s = b ++ r
  | .nil, ds, acc, fs', s, r, hw, hn, hd, h, hs, hf => by
    simp only [DMembers.toMembers, readMembers, Except.ok.injEq, Prod.mk.injEq] at h
    obtain ⟨rfl, rfl⟩ := h
    exact ⟨[], [], by simp, by simp [writeMembers], by simp⟩
  | .cons name version condition t rest, ds, acc, fs', s, r, hw, hn, hd, h, hs, hf => by
    simp only [wellDeclared, Bool.and_eq_true] at hw
    simp only [DMembers.names, List.nodup_cons] at hn
    have hd' : ∀ n ∈ rest.names, n ∉ acc.map (·.1) := fun n hm => hd n (by simp [DMembers.names, hm])
    have hs' : ∀ n ∈ selNames rest, n ∈ fs'.map (·.1) := by
      intro n hm
      refine hs n ?_
      cases t <;> simp only [selNames] <;> first | exact hm | exact List.mem_cons_of_mem _ hm
    have hfr : Follows (fixedMembers rest) r := hf.weaken (by simp only [fixedMembers, Bool.and_eq_true]; exact And.right)
    have hft : Follows (fixedTy t) r := hf.weaken (by simp only [fixedMembers, Bool.and_eq_true]; exact And.left)
    rw [read_cons] at h
    cases hc : isThere ctx acc version condition with
    | error e => rw [hc] at h; cases h
    | ok x =>
      rw [hc] at h
      cases x with
      | false =>
        simp only at h
        obtain ⟨fs, b, h1, h2, h3⟩ := read_write_members fe ctx ps rest _ acc fs' s r hw.2 hn.2 hd' h hs' hfr
        exact ⟨fs, b, h1, by simp only [writeMembers, hc]; exact h2, h3⟩
      | true =>
        simp only at h
        cases ht : readTy fe ctx.version ctx (some (.struct acc)) t.toTy s with
        | error e => rw [ht] at h; cases h
        | ok q =>
          obtain ⟨o, s1⟩ := q
          rw [ht] at h
          have one : Follows (fixedTy t) s1 → (o = none ∧ ∃ ref ss, t = .selective ref ss) ∨
              ∃ v b, o = some v ∧ writeTy ctx t acc v = some b ∧ s = b ++ s1 := by
            intro hf1
            have hin := hw.1.2
            cases t with
            | xArray it ref =>
              simp only [innerOk, Bool.true_and] at hin
              simp only [DTy.toTy, readTy, withParent, countOf, fieldsOf, bind, Except.bind, pure, Except.pure] at ht
              cases hr : ref.eval ctx acc with
              | error e => rw [hr] at ht; cases ht
              | ok n =>
                rw [hr] at ht
                simp only at ht
                obtain ⟨xs, rfl, h1⟩ := arrayResult_ok ht
                obtain ⟨ys, b, h2, h3, h4, h5⟩ := many_read_write (w := writeTy ctx it []) (fixed := fixedTy it)
                  (fun acc => readTy_consumes fe _ ctx _ _ (readers_toTy it))
                  (fun acc s o r hr hfr => by
                    obtain ⟨v, b, h6, h7, h8⟩ := read_write_ty fe ctx ps it _ o s r hin hr hfr
                    exact ⟨v, b, h6, h7 [], h8⟩) n.toNat [] xs s s1 h1 (by simpa [fixedTy] using hf1)
                simp only [List.nil_append] at h2
                subst h2
                exact Or.inr ⟨_, b, rfl, by simp [writeTy, hr, h3, h4], h5⟩
            | selective ref ss =>
              simp only [innerOk, Bool.true_and] at hin
              simp only [DTy.toTy, readTy, withParent, fieldsOf] at ht
              cases hr : ref.eval ctx acc with
              | error e => rw [hr] at ht; cases ht
              | ok n =>
                rw [hr] at ht
                simp only at ht
                rcases read_write_sels fe ctx ps n ss _ o s s1 hin ht (by simpa [fixedTy] using hf1) with h1 | ⟨v, b, h1, h2, h3⟩
                · exact Or.inl ⟨h1, ref, ss, rfl⟩
                · exact Or.inr ⟨v, b, h1, by simp [writeTy, hr, h2], h3⟩
            | prim q =>
              obtain ⟨v, b, h1, h2, h3⟩ := read_write_ty fe ctx ps (.prim q) _ o s s1 (by simpa [innerOk] using hin) ht hf1
              exact Or.inr ⟨v, b, h1, h2 acc, h3⟩
            | flags q =>
              obtain ⟨v, b, h1, h2, h3⟩ := read_write_ty fe ctx ps (.flags q) _ o s s1 (by simpa [innerOk] using hin) ht hf1
              exact Or.inr ⟨v, b, h1, h2 acc, h3⟩
            | struct q1 q2 =>
              obtain ⟨v, b, h1, h2, h3⟩ := read_write_ty fe ctx ps (.struct q1 q2) _ o s s1 (by simpa [innerOk] using hin) ht hf1
              exact Or.inr ⟨v, b, h1, h2 acc, h3⟩
            | array q1 q2 =>
              obtain ⟨v, b, h1, h2, h3⟩ := read_write_ty fe ctx ps (.array q1 q2) _ o s s1 (by simpa [innerOk] using hin) ht hf1
              exact Or.inr ⟨v, b, h1, h2 acc, h3⟩
            | nArray q1 q2 =>
              obtain ⟨v, b, h1, h2, h3⟩ := read_write_ty fe ctx ps (.nArray q1 q2) _ o s s1 (by simpa [innerOk] using hin) ht hf1
              exact Or.inr ⟨v, b, h1, h2 acc, h3⟩
          cases o with
          | none =>
            exfalso
            simp only at h
            obtain ⟨u, hu⟩ := readMembers_consumes fe _ ctx _ _ (readers_toMembers rest) s1 fs' r h
            rcases one (hft.before hu) with ⟨-, ref, ss, rfl⟩ | ⟨v, b, h1, -⟩
            · have h1 := hs name (by simp [selNames])
              have h2 := read_names fe ctx rest acc fs' s1 r h
              rcases h2 name h1 with h2 | h2
              · exact hd name (by simp [DMembers.names]) h2
              · exact hn.1 h2
            · cases h1
          | some v =>
            simp only at h
            obtain ⟨u, hu⟩ := readMembers_consumes fe _ ctx _ _ (readers_toMembers rest) s1 fs' r h
            rcases one (hft.before hu) with ⟨h1, -⟩ | ⟨v', b, h1, h2, h3⟩
            · cases h1
            · injection h1 with h1
              subst h1
              rw [setField_new name v acc (hd name (by simp [DMembers.names]))] at h
              obtain ⟨fs, b', h4, h5, h6⟩ := read_write_members fe ctx ps rest _ (acc ++ [(name, v)]) fs' s1 r hw.2 hn.2 (by
                intro m hm
                rw [List.map_append, List.mem_append]
                rintro (h7 | h7)
                · exact hd' m hm h7
                · simp at h7; subst h7; exact hn.1 hm) h hs' hfr
              refine ⟨(name, v) :: fs, b ++ b', by simp [h4], ?_, by rw [h3, h6, List.append_assoc]⟩
              simp [writeMembers, hc, h2, h5]
end

end Hwp
