/-
Specification: OpenDocument packages (ODF 1.2, part 3): the manifest, and the files of the package.
-/
import Verif.Spec.Utf8
import Verif.Spec.PySource
namespace Hwp.Spec

/-- The entries of a manifest: full path and media type. -/
def entriesIn : List XEv → Option (List (PyStr × PyStr))
  | [.stop n] => if n = lit "manifest:manifest" then some [] else none
  | .start n as :: .stop _ :: r =>
    if n = lit "manifest:file-entry" then
      match as.lookup (lit "manifest:full-path"), as.lookup (lit "manifest:media-type") with
      | some path, some mediaType => (entriesIn r).map ((path, mediaType) :: ·)
      | _, _ => none
    else none
  | _ => none

/-- What a manifest lists, if it is one: the root element is `manifest` of the namespace of
OpenDocument manifests, version 1.2. -/
def manifestEntries : List XEv → Option (List (PyStr × PyStr))
  | .start n as :: r =>
    if n = lit "manifest:manifest" ∧
        as.lookup (lit "xmlns:manifest") = some (lit "urn:oasis:names:tc:opendocument:xmlns:manifest:1.0") ∧
        as.lookup (lit "manifest:version") = some (lit "1.2")
    then entriesIn r else none
  | _ => none

/-- What the file of a manifest lists. -/
def manifestOf (bs : Bytes) : Option (List (PyStr × PyStr)) := (parseFile bs).bind manifestEntries

/-- The media type of a text document. -/
def odtMediaType : PyStr := lit "application/vnd.oasis.opendocument.text"

/-- The files of a converted document, with their media types. -/
def odtParts (styles content : Bytes) (pictures : List (PyStr × Bytes)) : List (PyStr × PyStr × Bytes) :=
  [(lit "styles.xml", lit "text/xml", styles), (lit "content.xml", lit "text/xml", content),
   (lit "manifest.rdf", lit "application/rdf+xml", pyManifestRdf.flatMap fun s => s.toList.map fun c => UInt8.ofNat c.toNat)] ++
  pictures.map fun p => (lit "bindata/" ++ p.1, lit "application/octet-stream", p.2)

/-- A name that can be written in XML. -/
def XmlName (s : PyStr) : Prop := ∀ c ∈ s, xmlChar c = true

end Hwp.Spec
