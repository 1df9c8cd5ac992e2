import Verif.Proofs.Escapes
import Verif.Props.Format
/-! C105: the escapes in formats. -/
set_option autoImplicit false
set_option Elab.async false
namespace Hwp.Props
open Hwp Spec

/-- Each escape in a format of ASCII characters is replaced by its character, and everything else is kept. -/
theorem C105_escapes (names : PyStr → Option Nat) (s t : PyStr) (h : Unescaped names s t) : unicodeUnescape names s = .ok t := by
  obtain ⟨b, h1, h2⟩ := utf8_ascii_bytes s (unescaped_ascii names s t h)
  unfold unicodeUnescape
  rw [h1]
  dsimp only
  rw [h2, unescaped_chars names s t h]

/-- `hwp5proc models --format` with any escapes. -/
theorem C105_models_escapes (names : PyStr → Option Nat) (env : FmtEnv) (others : PModel Fields → PyStr → Option FmtVal)
    (whole : PModel Fields → PyStr) (s : PyStr) (parts : List FmtPart) (hs : Unescaped names s (formatText parts))
    (hk : ∀ p ∈ parts, PlainKey p) (g : Gen (PModel Fields)) (shown : PModel Fields → PyStr)
    (h : ∀ m ∈ g.out, formatShown (modelDict others m) parts = some (shown m)) :
    modelsFormat names env others whole s g = ⟨(g.out.map shown).flatten, g.err⟩ := by
  unfold modelsFormat
  rw [C105_escapes names s _ hs]
  dsimp only
  refine writeEach_ok _ shown g.err g.out fun m hm => ?_
  exact C105_format env _ _ parts hk _ (h m hm)

/-- `a\t\101\18\x7e\q`: a tab, `A`, character 1 and an `8`, a tilde, and a backslash that is kept. -/
theorem C105_escapes_example (names : PyStr → Option Nat) :
    Unescaped names (lit "a\\t\\101\\18\\x7e\\q") [0x61, 9, 0x41, 1, 0x38, 0x7e, 0x5c, 0x71] := by
  have e : lit "a\\t\\101\\18\\x7e\\q" =
      0x61 :: 0x5c :: 0x74 :: 0x5c :: ([1, 0, 1].map octChar ++ (0x5c :: ([1].map octChar ++ (0x38 :: 0x5c :: 0x78 :: ([0x37, 0x65] ++ (0x5c :: 0x71 :: [])))))) := by
    decide +kernel
  rw [e]
  refine .plain _ _ _ (by decide) (by decide) (.simple _ _ _ _ (by decide) ?_)
  refine .octal [1, 0, 1] _ _ (by simp) (by simp) (by decide) (by simp) ?_
  refine .octal [1] _ _ (by simp) (by simp) (by decide) (by intro _; decide) ?_
  refine .plain _ _ _ (by decide) (by decide) ?_
  refine .hex 0x78 2 [0x37, 0x65] [7, 14] _ _ (by decide) ?_ rfl (by decide) ?_
  · exact .cons (Or.inl ⟨by decide, rfl⟩) (.cons (Or.inr ⟨by decide, by decide, Or.inr rfl⟩) .nil)
  · exact .other _ _ _ (by decide) (by decide) (by decide) (by intro x; simp [escapeTable]) (by intro x; simp [hexLetters]) (by decide) .nil

example : pyFormat noConv exMembers exState (lit "%(seqno)04d") = .ok (lit "0007") ∧
    pyFormat noConv (fun _ => some (.int (-7))) exState (lit "%(x)05d") = .ok (lit "-0007") := by
  refine ⟨?_, ?_⟩ <;> decide +kernel

end Hwp.Props
