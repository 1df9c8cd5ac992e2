/-
Model of the names of record streams on the command line: /repo/src/hwp5/cli.py.
-/
import Verif.Model.Filestructure
import Verif.Model.Commands
namespace Hwp

/-- storage/__init__.py:152-156: the loop of `open_storage_item` on a document. -/
def openObj (o : Obj) : List PyStr → Except PyErr Obj
  | [] => .ok o
  | name :: rest =>
    match o.getitem name with
    | .error e => .error e
    | .ok x => openObj x rest

/-- cli.py:104-107: `hwpfile.bodytext.section(int(text))`; `hwpfile.bodytext` is
`hwpfile['BodyText']` (filestructure.py:589-591). -/
def bodySection (f : Obj) (text : PyStr) : Except PyErr Obj :=
  match pyInt text with
  | none => .error .valueError
  | some idx =>
    match f.getitem (ustr "BodyText") with
    | .error e => .error e
    | .ok body => section_ body idx

/-- cli.py:98-109 `parse_recordstream_name(hwpfile, streamname)` for a `Hwp5File`
(proc/records.py:44-48, proc/models.py:160-164).  `hwpfile.docinfo` is
`hwpfile['DocInfo']` (filestructure.py:581-583).  The classes of the items
(`RecordStream`, `ModelStream`) are not modelled, only which item is taken. -/
def recordStream (f : Obj) (name : PyStr) : Except PyErr Obj :=
  if name = ustr "docinfo" then f.getitem (ustr "DocInfo")
  else
    match splitSlash name with
    | [first, second] =>
      if first = ustr "bodytext" then
        match bodySection f second with
        | .error .valueError => openObj f (splitSlash name)
        | r => r
      else openObj f (splitSlash name)
    | segments => openObj f segments

/-- proc/records.py:44-64: the records that `hwp5proc records` goes through.  Only items of
the class `RecordStream` (`docinfo_class` and `section_class`, recordstream.py:192-204) have
the attribute `records`.  (If the options and the stream are both wrong, the exception of
the options comes first in the code.) -/
def recordsOf (c : Codec) (es : StgEntries) (name : PyStr) (range treegroup : Option PyStr) : Gen Record :=
  match hwp5File c es with
  | .error e => .raise e
  | .ok f =>
    match recordStream f name with
    | .error e => .raise e
    | .ok (.versioned w v) =>
      match (Obj.versioned w v).openRead c with
      | .error e => .raise e
      | .ok s => selectRecords range treegroup s
    | .ok _ => .raise .attributeError

end Hwp
