/-
Model of the pictures of the conversions to HTML and ODT: the templates of /repo/src/hwp5/xsl/hwp5html.xsl:356-397 and
/repo/src/hwp5/xsl/odt/common.xsl:1453-1499, applied to the tree of the XML file of a document.

Of the output only the sources of the images are modelled: not their sizes and styles, and not the frames around them.
-/
import Verif.Model.Pages
set_option autoImplicit false
namespace Hwp

/-- `name` as a step of a path: the children of this name, each with its attributes and its children. -/
def childrenNamed (name : PyStr) : Forest XNode → List (List (PyStr × PyStr) × Forest XNode)
  | .nil => []
  | .node (.text _) _ sibs => childrenNamed name sibs
  | .node (.elem n as) cs sibs => (if n = name then [(as, cs)] else []) ++ childrenNamed name sibs

/-- The XPath function `number`.  Spaces, signs and fractions are left out: what is not a row of digits is no number. -/
def xpathNumber (s : PyStr) : Option Nat :=
  if s ≠ [] ∧ s.all (fun c => 0x30 ≤ c ∧ c ≤ 0x39) then some (s.foldl (fun n c => 10 * n + (c - 0x30)) 0) else none

/-- hwp5html.xsl:357, odt/common.xsl:1472: `PictureInfo/@bindata-id` of a `ShapePicture`, as a string. -/
def pictureId (picture : Forest XNode) : PyStr :=
  match (childrenNamed (lit "PictureInfo") picture).find? fun p => p.1.any fun a => a.1 == lit "bindata-id" with
  | some p => attrValue p.1 "bindata-id"
  | none => []

/-- `BinData[number($bindataid)]` among the children of an element. -/
def nthData (id : PyStr) (cs : Forest XNode) : List (List (PyStr × PyStr) × Forest XNode) :=
  match xpathNumber id with
  | some (k + 1) => ((childrenNamed (lit "BinData") cs)[k]?).toList
  | _ => []

/-- hwp5html.xsl:358, odt/common.xsl:1473: `/HwpDoc/DocInfo/IdMappings/BinData[number($bindataid)]`. -/
def binDataNodes (doc : Forest XNode) (id : PyStr) : List (List (PyStr × PyStr) × Forest XNode) :=
  forEach (lit "HwpDoc") (forEach (lit "DocInfo") (forEach (lit "IdMappings") (nthData id))) doc

/-- The value of the attribute for an embedded file, hwp5html.xsl:380-388, odt/common.xsl:1491. -/
def externalPath (as : List (PyStr × PyStr)) : PyStr := lit "bindata/" ++ attrValue as "storage-id" ++ lit "." ++ attrValue as "ext"

/-- hwp5html.xsl:369-397, mode `img-src`: the values of the attribute `src`, in the order they are set.  Elements without a
template in this mode are gone through. -/
def imgSrc : Forest XNode → List PyStr
  | .nil => []
  | .node (.text _) _ sibs => imgSrc sibs
  | .node (.elem n as) cs sibs =>
    (if n = lit "BinDataEmbedding" then
      [if attrValue as "inline" = lit "true" then lit "data:;base64," ++ firstText cs else externalPath as]
    else imgSrc cs) ++ imgSrc sibs

/-- hwp5html.xsl:356-367: the source of the image of a `ShapePicture`: the last one that is set. -/
def htmlImage (doc picture : Forest XNode) : Option PyStr :=
  ((binDataNodes doc (pictureId picture)).flatMap fun b => imgSrc b.2).getLast?

/-- What is in a `draw:image`: its link, and the data in it. -/
structure DrawImage where
  href : Option PyStr
  data : List PyStr
  deriving DecidableEq, Repr

/-- odt/common.xsl:1470-1498: the image of a `ShapePicture`. -/
def odtImage (doc picture : Forest XNode) : DrawImage :=
  let bindata := binDataNodes doc (pictureId picture)
  if bindata.any (fun b => attrValue b.1 "storage" = lit "embedding") then
    let es := bindata.flatMap fun b => childrenNamed (lit "BinDataEmbedding") b.2
    ⟨((es.filter fun e => attrValue e.1 "inline" ≠ lit "true").map fun e => externalPath e.1).getLast?,
      (es.filter fun e => attrValue e.1 "inline" = lit "true").map fun e => firstText e.2⟩
  else ⟨none, []⟩

/-- The ways an element leads to. -/
def Act.ways {M : Type} : Act M → List M
  | .run => []
  | .into _ ways => ways

/-- The pictures met in the way `m`: the children of each `ShapePicture` in a way that shows pictures. -/
def walkPictures {M : Type} (s : Sheet M) (shows : M → Bool) : Forest XNode → M → List (Forest XNode)
  | .nil, _ => []
  | .node (.text _) _ sibs, m => walkPictures s shows sibs m
  | .node (.elem n as) cs sibs, m =>
    (if n = lit "ShapePicture" ∧ shows m then [cs] else []) ++
    (s.rule m n as).ways.flatMap (walkPictures s shows cs) ++ walkPictures s shows sibs m

/-- hwp5html.xsl: a `ShapePicture` is met by `apply-templates`. -/
def htmlShows (m : HtmlWay) : Bool := m = .all

/-- odt/common.xsl:1470: a `ShapePicture` is met in a `ShapeComponent` with chid `$pic`. -/
def odtShows (m : OdtWay) : Bool := m = .pictures

/-- hwp5html.xsl:70-102: the pictures of a section, with those of the headers and footers of the document. -/
def htmlSectionPictures (doc kids : Forest XNode) : List (Forest XNode) :=
  descend (lit "Header") (forEach (lit "HeaderParagraphList") fun cs => walkPictures htmlSheet htmlShows cs .paragraphs) doc ++
  walkPictures htmlSheet htmlShows kids .all ++
  descend (lit "Footer") (forEach (lit "FooterParagraphList") fun cs => walkPictures htmlSheet htmlShows cs .paragraphs) doc

/-- The sources of the images of the page. -/
def htmlImages (doc : Forest XNode) : List (Option PyStr) :=
  (forEach (lit "HwpDoc") (forEach (lit "BodyText") (forEach (lit "SectionDef") (htmlSectionPictures doc))) doc).map (htmlImage doc)

/-- The images of `content.xml`. -/
def odtImages (doc : Forest XNode) : List DrawImage :=
  (forEach (lit "HwpDoc") (forEach (lit "BodyText") (forEach (lit "SectionDef") fun cs =>
    walkPictures odtSheet odtShows cs .all)) doc).map (odtImage doc)

/-- plat/_lxml.py:100-111 `XSLT._transform`, with the images of the result. -/
def imagesOf {β : Type} (parse : Bytes → Option (List XEv)) (images : Forest XNode → List β) (xml : Bytes) : Option (List β) :=
  (parse xml).map fun evs => images (xmlTree evs)

end Hwp
