/-
Model of the ODT package, /repo/src/hwp5/hwp5odt.py:137-151, 180-197, 243-323, 326-370, with the library
functions it uses (`zipfile.ZipFile.writestr`, `xml.sax.saxutils.XMLGenerator`).

An archive is the list of its entries in the order written.  The XSL transformations are parameters.
`BinData` is the list of its items; a stream is the result of opening and reading it.
-/
import Verif.Model.Utf8
namespace Hwp

/-- The library's own entities of `quoteattr`. -/
def saxEntities : List (Nat × PyStr) := [(0x0A, lit "&#10;"), (0x0D, lit "&#13;"), (0x09, lit "&#9;")]

/-- `XMLGenerator.startElementNS`: the attributes. -/
def saxAttrs (attrs : List (PyStr × PyStr)) : PyStr :=
  attrs.flatMap fun nv => lit " " ++ nv.1 ++ lit "=" ++ quoteattr saxEntities nv.2

/-- hwp5odt.py:291-296 `file_entry(full_path, media_type, **kwargs)`. -/
def fileEntry (fullPath mediaType : PyStr) (more : List (PyStr × PyStr)) : PyStr :=
  lit "<manifest:file-entry" ++
    saxAttrs ([(lit "manifest:media-type", mediaType), (lit "manifest:full-path", fullPath)] ++ more) ++ lit ">" ++
    lit "</manifest:file-entry>"

/-- hwp5odt.py:275-308 `manifest_xml(f, files)`: the text.  `startElementNS` writes the declaration of the
prefix, that is pending, with the first element. -/
def manifestText (files : List (PyStr × PyStr)) : PyStr :=
  lit "<?xml version=\"1.0\" encoding=\"utf-8\"?>\n" ++
  lit "<manifest:manifest" ++ lit " xmlns:manifest=\"urn:oasis:names:tc:opendocument:xmlns:manifest:1.0\"" ++
    saxAttrs [(lit "manifest:version", lit "1.2")] ++ lit ">" ++
  fileEntry (lit "/") (lit "application/vnd.oasis.opendocument.text") [(lit "manifest:version", lit "1.2")] ++
  files.flatMap (fun e => fileEntry e.1 e.2 []) ++
  lit "</manifest:manifest>"

/-- `s.encode('utf-8', 'xmlcharrefreplace')`, as `XMLGenerator` writes to a file. -/
def utf8CharRef (s : PyStr) : Bytes :=
  s.flatMap fun c =>
    match utf8Char c with
    | .ok b => b
    | .error _ => ([0x26, 0x23] ++ natStr c ++ [0x3B]).map UInt8.ofNat

/-- hwp5odt.py:243-272 `ODTPackage`: the archive, and the files with their media types. -/
structure OdtPackage where
  zip : List (PyStr × Bytes)
  files : List (PyStr × PyStr)
  deriving DecidableEq, Repr

/-- `ZipFile.writestr(path, data)`: `ZipInfo` cuts the name at a NUL; a name that cannot be encoded
is an exception. -/
def writestr (zip : List (PyStr × Bytes)) (path : PyStr) (data : Bytes) : Except PyErr (List (PyStr × Bytes)) :=
  let name := path.takeWhile (· ≠ 0)
  match utf8Encode name with
  | .ok _ => .ok (zip ++ [(name, data)])
  | .error e => .error e

/-- hwp5odt.py:258-262 `insert_stream(f, path, media_type)`, with the outcome of `f.read()`. -/
def OdtPackage.insert (p : OdtPackage) (data : Except PyErr Bytes) (path mediaType : PyStr) : OdtPackage × Option PyErr :=
  match data with
  | .error e => (p, some e)
  | .ok data =>
    match writestr p.zip path data with
    | .error e => (p, some e)
    | .ok zip => (⟨zip, p.files ++ [(path, mediaType)]⟩, none)

/-- hwp5odt.py:264-272 `close()`: what is in the file afterwards. -/
def OdtPackage.close (p : OdtPackage) : Except PyErr (List (PyStr × Bytes)) := do
  let zip ← writestr p.zip (lit "META-INF/manifest.xml") (utf8CharRef (manifestText p.files))
  writestr zip (lit "mimetype") (asciiBytes "application/vnd.oasis.opendocument.text")

/-- hwp5odt.py:311-323 `manifest_rdf(f)`. -/
def manifestRdf : Bytes := List.flatMap asciiBytes
  ["<?xml version=\"1.0\" encoding=\"utf-8\"?>\n",
   "<rdf:RDF\n",
   "    xmlns:rdf=\"http://www.w3.org/1999/02/22-rdf-syntax-ns#\"\n",
   "    xmlns:pkg=\"http://docs.oasis-open.org/ns/office/1.2/meta/pkg#\"\n",
   "    xmlns:odf=\"http://docs.oasis-open.org/ns/office/1.2/meta/odf#\">\n",
   "    <pkg:Document rdf:about=\"\">\n",
   "        <pkg:hasPart rdf:resource=\"content.xml\"/>\n",
   "        <pkg:hasPart rdf:resource=\"styles.xml\"/>\n",
   "    </pkg:Document>\n",
   "    <odf:ContentFile rdf:about=\"content.xml\"/>\n",
   "    <odf:StylesFile rdf:about=\"styles.xml\"/>\n",
   "</rdf:RDF>"]

/-- An item of the storage `BinData`: a stream with the outcome of `open().read()`, or a storage. -/
inductive BinItem where
  | stream (data : Except PyErr Bytes)
  | storage
  deriving DecidableEq

/-- hwp5odt.py:145-151: the loop over `BinData`; a storage has no method `open`. -/
def insertBinData : List (PyStr × BinItem) → OdtPackage → OdtPackage × Option PyErr
  | [], p => (p, none)
  | (_, .storage) :: _, p => (p, some .attributeError)
  | (name, .stream data) :: rest, p =>
    andThen (p.insert data (lit "bindata/" ++ name) (lit "application/octet-stream")) (insertBinData rest)

/-- The XSL transformations of a document, by their results. -/
structure OdtXsl where
  styles : Bytes → Except PyErr Bytes
  content : Bytes → Except PyErr Bytes

/-- hwp5odt.py:180-197 `transform_xhwp5_into_package`. -/
def intoPackage (xsl : OdtXsl) (xml : Bytes) (p : OdtPackage) : OdtPackage × Option PyErr :=
  andThen (p.insert (xsl.styles xml) (lit "styles.xml") (lit "text/xml")) fun p =>
  andThen (p.insert (xsl.content xml) (lit "content.xml") (lit "text/xml")) fun p =>
  p.insert (.ok manifestRdf) (lit "manifest.rdf") (lit "application/rdf+xml")

/-- hwp5odt.py:137-151 `transform_hwp5_to_package`; `xml` is the temporary file and the exception of
`dump` (transforms/__init__.py:55-59). -/
def toPackage (xsl : OdtXsl) (xml : Bytes × Option PyErr) (bindata : Option (List (PyStr × BinItem)))
    (p : OdtPackage) : OdtPackage × Option PyErr :=
  match xml.2 with
  | some e => (p, some e)
  | none =>
    andThen (intoPackage xsl xml.1 p) fun p =>
      match bindata with
      | none => (p, none)
      | some items => insertBinData items p

/-- A document that has been opened: its XML form and its `BinData`. -/
structure OdtInput where
  xml : Bytes × Option PyErr
  bindata : Option (List (PyStr × BinItem))

/-- The exit status: hwp5odt.py:362-370 (hwp5html.py and hwp5txt.py have the same lines).  Only a
`ParseError` is logged without `sys.exit(1)`; an exception that is not caught ends Python with 1. -/
def exitStatus : Option PyErr → Nat
  | none => 0
  | some .parseError => 0
  | some _ => 1

/-- hwp5odt.py:326-370 `main()` without options: the exit status, and the entries of the destination if it is
written.  `closing` closes the package also after an exception. -/
def odtMain (xsl : OdtXsl) (opened : Except PyErr OdtInput) : Nat × Option (List (PyStr × Bytes)) :=
  match opened with
  | .error e => (exitStatus (some e), none)
  | .ok d =>
    let r := toPackage xsl d.xml d.bindata ⟨[], []⟩
    match r.1.close with
    | .ok zip => (exitStatus r.2, some zip)
    | .error e => (exitStatus (some e), some r.1.zip)

end Hwp
