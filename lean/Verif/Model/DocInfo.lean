/-
Model of `DocInfo`, /repo/src/hwp5/binmodel/__init__.py:499-531.

`F` is the type of face name models and `S` the type of character shape models; the lists
are the models of the stream with that type, in order.  The counts are read from unsigned
members (tagid17_id_mappings.py:34-40), the references of a character shape are unsigned
too (tagid21_char_shape.py:37-44), so they are natural numbers.
-/
import Verif.Model.Grouping
namespace Hwp

/-- binmodel/__init__.py:511. -/
def languages : List String := ["ko", "en", "cn", "jp", "other", "symbol", "user"]

/-- `xs[a:b]` for natural numbers. -/
def pySlice {α} (xs : List α) (a b : Nat) : List α := (xs.drop a).take (b - a)

/-- binmodel/__init__.py:514-517: the loop over the languages, from an offset on.
`counts lang` is `self.idmappings['content'][lang + '_fonts']`; without id mappings the
lookup is `None['content']`, a `TypeError`. -/
def splitFaces {F} (counts : Option (String → Nat)) (facenames : List F) :
    Nat → List String → Except PyErr (List (String × List F))
  | _, [] => .ok []
  | offset, lang :: langs =>
    match counts with
    | none => .error .typeError
    | some c => do
      let n := c lang
      let rest ← splitFaces counts facenames (offset + n) langs
      return (lang, pySlice facenames offset (offset + n)) :: rest

/-- binmodel/__init__.py:507-518 `facenames_by_lang`. -/
def facenamesByLang {F} (counts : Option (String → Nat)) (facenames : List F) :
    Except PyErr (List (String × List F)) :=
  splitFaces counts facenames 0 languages

/-- binmodel/__init__.py:525-531 `get_charshape(id)` and `charshape_lang_facename`.
`fontFace shape lang` is `charshape['content']['font_face'][lang]`; without such a
character shape `next` of an empty iterator raises `StopIteration` inside `nth`, which gives
`None`, and `None['content']` is a `TypeError`. -/
def charshapeFacename {F S} (counts : Option (String → Nat)) (facenames : List F) (charshapes : List S)
    (fontFace : S → String → Option Nat) (id : Nat) (lang : String) : Except PyErr F :=
  match charshapes[id]? with
  | none => .error .typeError
  | some shape =>
    match fontFace shape lang with
    | none => .error .keyError
    | some i => do
      let byLang ← facenamesByLang counts facenames
      match byLang.find? (fun p => p.1 = lang) with
      | none => .error .keyError
      | some p =>
        match p.2[i]? with
        | none => .error .indexError
        | some f => .ok f

end Hwp
