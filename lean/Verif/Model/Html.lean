import Verif.Model.Package
import Verif.Model.Storage
/-!
The commands that write files: `hwp5html`, `hwp5txt`, `hwp5proc unpack`, and the names of the destinations.
A document is what reading it gives: the bytes written to the temporary XML file, the exception at which
reading ended, and the items of `BinData`.  Temporary files are outside of the file system modelled.
-/
set_option autoImplicit false
namespace Hwp

/-- posixpath.py `basename(p)`: what is behind the last '/'. -/
def basename (p : PyStr) : PyStr := (p.reverse.takeWhile (· ≠ slash)).reverse

/-- genericpath.py `_splitext(p, ...)` for a path without '/': the extension begins at the last dot, unless there
are only dots before it. -/
def splitext (p : PyStr) : PyStr × PyStr :=
  let ext := (p.reverse.takeWhile (· ≠ 0x2e)).reverse
  let n := p.length - ext.length
  if n = 0 then (p, [])
  else if (p.take (n - 1)).any (· ≠ 0x2e) then (p.take (n - 1), p.drop (n - 1))
  else (p, [])

/-- hwp5odt.py:430-433 `replace_ext(path, ext)`. -/
def replaceExt (path ext : PyStr) : PyStr := (splitext (basename path)).1 ++ ext

/-- The segments of a path relative to the current directory.  Empty segments stand for nothing. -/
def pathSegments (cwd : List PyStr) (p : PyStr) : List PyStr :=
  (if p.head? = some slash then [] else cwd) ++ (splitSlash p).filter (· ≠ [])

/-- `shutil.rmtree(path)`: everything below the directory is removed and then the directory itself.  The last is
refused by the system if the last segment is '.' or '..'; a path that is not a directory is refused. -/
def rmtree (fs : FS) (p : List PyStr) : FS × Option PyErr :=
  match resolve fs p with
  | some q =>
    if fs q = some .dir then
      if p.getLast? = some [0x2e] ∨ p.getLast? = some [0x2e, 0x2e] ∨ p = [] then
        (fun r => if q <+: r ∧ r ≠ q then none else fs r, some .ioError)
      else (fun r => if q <+: r then none else fs r, none)
    else (fs, some .ioError)
  | none => (fs, some .ioError)

/-- hwp5html.py:201-206 `open_dir(path)` up to the `yield`. -/
def openDir (fs : FS) (p : List PyStr) : FS × Option PyErr :=
  andThen (if pathExists fs p then rmtree fs p else (fs, none)) fun fs => mkdir fs p

/-- `with io.open(path, 'wb') as f: transform(..., f)`: the file is there, with what was written, also if the
transformation raises. -/
def writeWith (fs : FS) (p : List PyStr) (r : Bytes × Option PyErr) : FS × Option PyErr :=
  andThen (writeFile fs p r.1) fun fs => (fs, r.2)

/-- The two stylesheets of `HTMLTransform` (hwp5html.py:82-96), as functions of the XML file. -/
structure HtmlXsl where
  xhtml : Bytes → Bytes × Option PyErr
  css : Bytes → Bytes × Option PyErr

/-- hwp5html.py:98-108 `transform_xhwp5_to_dir(xhwp5path, outdir)`. -/
def xhwp5ToDir (xsl : HtmlXsl) (xml : Bytes) (fs : FS) (outdir : List PyStr) : FS × Option PyErr :=
  andThen (writeWith fs (outdir ++ [lit "index.xhtml"]) (xsl.xhtml xml)) fun fs =>
    writeWith fs (outdir ++ [lit "styles.css"]) (xsl.css xml)

/-- hwp5html.py:110-118 `extract_bindata_dir(hwp5file, bindata_dir)`. -/
def extractBindata (bindata : Option StgEntries) (fs : FS) (p : List PyStr) : FS × Option PyErr :=
  match bindata with
  | none => (fs, none)
  | some es => andThen (if pathExists fs p then (fs, none) else mkdir fs p) fun fs => unpack fs p es

/-- What is read of a document. -/
structure HtmlInput where
  xml : Bytes × Option PyErr
  bindata : Option StgEntries

/-- hwp5html.py:72-80 `transform_hwp5_to_dir(hwp5file, outdir)`. -/
def hwp5ToDir (xsl : HtmlXsl) (d : HtmlInput) (fs : FS) (outdir : List PyStr) : FS × Option PyErr :=
  andThen (fs, d.xml.2) fun fs =>
  andThen (xhwp5ToDir xsl d.xml.1 fs outdir) fun fs =>
    extractBindata d.bindata fs (outdir ++ [lit "bindata"])

/-- hwp5html.py:134-147: the destination directory (`os.mkdir('')` is refused). -/
def htmlDest (hwp5path : PyStr) (output : Option PyStr) : PyStr :=
  match output with
  | some (c :: cs) => c :: cs
  | _ => (splitext (basename hwp5path)).1

/-- hwp5html.py:121-157 `main()` without `--css` and `--html`: the exit status and the file system after it.
The document was opened before, with the result `opened`; it can be read although its file is deleted. -/
def htmlMain (xsl : HtmlXsl) (cwd : List PyStr) (hwp5path : PyStr) (output : Option PyStr)
    (opened : Except PyErr HtmlInput) (fs : FS) : Nat × FS :=
  match opened with
  | .error e => (exitStatus (some e), fs)
  | .ok d =>
    let dest := htmlDest hwp5path output
    if dest = [] then (1, fs)
    else
      let p := pathSegments cwd dest
      let r := andThen (openDir fs p) fun fs => hwp5ToDir xsl d fs p
      (exitStatus r.2, r.1)

/-- transforms/__init__.py:47-51 `make_transform_hwp5(transform_xhwp5)`: nothing is written before the document was read. -/
def transformHwp5 (xsl : Bytes → Bytes × Option PyErr) (xml : Bytes × Option PyErr) : Bytes × Option PyErr :=
  match xml.2 with
  | some e => ([], some e)
  | none => xsl xml.1

/-- What is written to the standard output or to a file, and the rest of the file system. -/
structure FileResult where
  status : Nat
  stdout : Bytes
  fs : FS

/-- hwp5txt.py:69-89 `main()`; the same lines write the results of `hwp5html --css`, `hwp5html --html` and
`hwp5odt --styles`, `--content`, `--document` (without terminal); utils.py:243-260 `make_open_dest_file(path)`:
the destination is opened before the document is read; a path that ends with '/' is no file. -/
def fileMain (xsl : Bytes → Bytes × Option PyErr) (cwd : List PyStr) (output : Option PyStr)
    (opened : Except PyErr (Bytes × Option PyErr)) (fs : FS) : FileResult :=
  match opened with
  | .error e => ⟨exitStatus (some e), [], fs⟩
  | .ok xml =>
    let r := transformHwp5 xsl xml
    match output with
    | some (c :: cs) =>
      let w := if (c :: cs).getLast? = some slash then (fs, some .ioError) else writeWith fs (pathSegments cwd (c :: cs)) r
      ⟨exitStatus w.2, [], w.1⟩
    | _ => ⟨exitStatus r.2, r.1, fs⟩

/-- proc/unpack.py:28-38 `main(args)`: the exception and the file system after it. -/
def unpackMain (cwd : List PyStr) (filename : PyStr) (outDirectory : Option PyStr) (es : StgEntries) (fs : FS) :
    FS × Option PyErr :=
  let outdir := outDirectory.getD (splitext (basename filename)).1
  if outdir = [] then (fs, some .ioError)
  else
    let p := pathSegments cwd outdir
    andThen (if pathExists fs p then (fs, none) else mkdir fs p) fun fs => unpack fs p es

end Hwp
