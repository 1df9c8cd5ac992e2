/-
Model of the conversion to text: /repo/src/hwp5/xsl/plaintext.xsl, applied by
/repo/src/hwp5/plat/_lxml.py:66-111 to the XML file of a document (/repo/src/hwp5/transforms/__init__.py:51-69,
/repo/src/hwp5/hwp5txt.py:49-66).

Modelled of XSLT: the templates of this stylesheet and the built-in ones for elements and text.  The XML
parser is a parameter.
-/
import Verif.Model.TreeOp
import Verif.Model.Utf8
set_option autoImplicit false
namespace Hwp

/-- The nodes of the tree of an XML document. -/
inductive XNode where
  | elem (name : PyStr) (attrs : List (PyStr × PyStr))
  | text (t : PyStr)
  deriving DecidableEq, Repr

/-- One event, from the last one on: the siblings that follow, for each element that is open. -/
def treeStep : XEv → List (Forest XNode) → List (Forest XNode)
  | .stop _, st => .nil :: st
  | .start n as, kids :: sibs :: st => .node (.elem n as) kids sibs :: st
  | .text t, sibs :: st => .node (.text t) .nil sibs :: st
  | _, st => st

/-- `etree.parse(input)`, _lxml.py:104, given the events the parser sees. -/
def xmlTree (evs : List XEv) : Forest XNode := ((evs.foldr treeStep [.nil]).head?).getD .nil

/-- `<xsl:value-of select="text()"/>`, plaintext.xsl:50: the first text node. -/
def firstText : Forest XNode → PyStr
  | .nil => []
  | .node (.text t) _ _ => t
  | .node (.elem _ _) _ sibs => firstText sibs

/-- `<xsl:apply-templates/>` with these nodes, plaintext.xsl:44-57, and the built-in templates. -/
def applyTemplates : Forest XNode → PyStr
  | .nil => []
  | .node (.text t) _ sibs => t ++ applyTemplates sibs
  | .node (.elem n _) cs sibs =>
    (if n = lit "Paragraph" then applyTemplates cs ++ [10]
     else if n = lit "Text" then firstText cs
     else if n = lit "ControlChar" then []
     else if n = lit "TableControl" then lit "\n<표>\n"
     else if n = lit "GShapeObjectControl" then lit "\n<그림>\n"
     else applyTemplates cs) ++ applyTemplates sibs

/-- `for-each` over the nodes that are elements of this name, each with its children. -/
def forEach {β : Type} (name : PyStr) (f : Forest XNode → List β) : Forest XNode → List β
  | .nil => []
  | .node (.text _) _ sibs => forEach name f sibs
  | .node (.elem n _) cs sibs => (if n = name then f cs else []) ++ forEach name f sibs

/-- plaintext.xsl:38-42: the template of the root. -/
def plaintextXsl (doc : Forest XNode) : PyStr :=
  forEach (lit "HwpDoc") (forEach (lit "BodyText") applyTemplates) doc

/-- _lxml.py:100-111 `XSLT._transform` with this stylesheet: what is written, and the exception. -/
def textTransform (parse : Bytes → Option (List XEv)) (xml : Bytes) : Bytes × Option PyErr :=
  match parse xml with
  | none => ([], some .exception)
  | some evs =>
    match utf8Encode (plaintextXsl (xmlTree evs)) with
    | .ok bs => (bs, none)
    | .error e => ([], some e)

end Hwp
