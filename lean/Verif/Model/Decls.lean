/-
Declarations of the record models and the structs they contain,
/repo/src/hwp5/binmodel/*.py and binmodel/controls/*.py, as data; what they mean for
reading (`DTy.toTy`, types of `Model/Bintype.lean`).

Not transcribed: class members that are not part of `attributes` (enums that no flags
group uses, helper properties), and the list types `ParaCharShapeList` and
`ParaLineSegList`, which nothing uses.
-/
import Verif.Model.Bintype
import Verif.Model.ParaText
import Verif.Model.ModelParse
namespace Hwp

/-! ### Types -/

/-- Primitive types: dataio.py:111-123 (integers and `DOUBLE`), `HexBytes` (131-135),
`BSTR` (160), `CHID` (controlchar.py:38), `COLORREF` and `BinStorageId` (_shared.py:64-90),
`ParaTextChunks` (tagid51_para_text.py:32), `VERSION` (filestructure.py:59). -/
inductive PTy where
  | int (p : Prim)
  | double
  | hexBytes (size : Nat)
  | bstr
  | chid
  | colorref
  | binStorageId
  | chunks
  | version
  deriving DecidableEq, Repr

/-- `Enum(...)`: names and values, in order of definition. -/
abbrev EnumDecl := List (String × Nat)

/-- `Enum('a', 'b', ...)`. -/
def enumOf (names : List String) : EnumDecl := names.mapIdx fun i n => (n, i)

/-- A bit group; `enum` is `none` for the value type `int`. -/
structure BitDecl where
  lsb : Nat
  msb : Nat
  enum : Option EnumDecl
  name : String
  deriving DecidableEq, Repr

/-- `Flags(basetype, ...)`. -/
structure FlagsDecl where
  base : Prim
  bits : List BitDecl
  deriving DecidableEq, Repr

/-- `getattr(flags, name)` of a flags instance, as an integer. -/
def FlagsDecl.get (f : FlagsDecl) (n : Nat) (name : String) : Except PyErr Nat :=
  match f.bits.find? (fun b => b.name = name) with
  | none => .error .attributeError
  | some b => .ok (bitGroup b.lsb b.msb n)

/-- Primitive values.  A `DOUBLE` and the value of `HexBytes` are kept as their bytes, a
`CHID` as the bytes of its characters; `version` is a tuple of integers, `cls` a class
object, `inst` an instance of a class without a representation of its own. -/
inductive PVal where
  | int (n : Int)
  | flags (f : FlagsDecl) (n : Nat)
  | str (s : PyStr)
  | double (b : Bytes)
  | hex (b : Bytes)
  | chid (b : Bytes)
  | chunks (cs : List Chunk)
  | version (ns : List Nat)
  | cls (name : String)
  | inst (name : String)
  deriving DecidableEq, Repr

/-- A dict of values. -/
abbrev Fields := List (String × Value PVal)

/-- The part of a context the declarations look at: `context['version']` and
`context['parent']`.  `parent` is `none` if the key is missing (contexts of model events,
xmlmodel.py:549-553, 630-635); the parent may be the root, which has neither a type nor a
content (binmodel/__init__.py:289), or a model. -/
structure DCtx where
  version : Option Version
  parent : Option (Option (String × Fields))

/-- `values[name]`. -/
def getValue (fs : Fields) (name : String) : Except PyErr (Value PVal) :=
  match fs.lookup name with
  | none => .error .keyError
  | some v => .ok v

/-- `getattr(value, bit)`. -/
def getBit (v : Value PVal) (bit : String) : Except PyErr Nat :=
  match v with
  | .leaf (.flags f n) => f.get n bit
  | _ => .error .attributeError

/-- An integer, as an argument of `range`. -/
def getInt (v : Value PVal) : Except PyErr Int :=
  match v with
  | .leaf (.int n) => .ok n
  | .leaf (.flags _ n) => .ok n
  | _ => .error .typeError

/-- References: `ref_member` (dataio.py:434), `ref_member_flag` (441), `n_entries` of a
flag (columns_def.py:70-74), `ref_parent_member` (_shared.py:260). -/
inductive RefDecl where
  | member (name : String)
  | flag (name bit : String)
  | flagMinusOne (name bit : String)
  | parentMember (name : String)
  deriving DecidableEq, Repr

/-- The value of a reference. -/
def RefDecl.eval (ctx : DCtx) (values : Fields) : RefDecl → Except PyErr Int
  | .member name => do getInt (← getValue values name)
  | .flag name bit => do return ((← getBit (← getValue values name) bit : Nat) : Int)
  | .flagMinusOne name bit => do return ((← getBit (← getValue values name) bit : Nat) : Int) - 1
  | .parentMember name =>
    match ctx.parent with
    | some (some (_, content)) => do getInt (← getValue content name)
    | _ => .error .keyError

/-- Conditions: a flag is set, a flag is not set (columns_def.py:66-68), `chid` is
(tagid60_shape_component.py:82-89, 110-112), both (92-107), and `parent_must_be_gso`
(73-79). -/
inductive CondDecl where
  | flag (name bit : String)
  | notFlag (name bit : String)
  | chidIs (chid : String)
  | chidIsAndFlag (chid name bit : String)
  | parentIsGso
  deriving DecidableEq, Repr

/-- `values['chid'] == chid`. -/
def chidEq (values : Fields) (chid : String) : Except PyErr Bool := do
  match ← getValue values "chid" with
  | .leaf (.chid b) => return b == asciiBytes chid
  | _ => return false

/-- The truth value of a condition. -/
def CondDecl.eval (ctx : DCtx) (values : Fields) : CondDecl → Except PyErr Bool
  | .flag name bit => do return (← getBit (← getValue values name) bit) != 0
  | .notFlag name bit => do return (← getBit (← getValue values name) bit) == 0
  | .chidIs c => chidEq values c
  | .chidIsAndFlag c name bit => do
    if ← chidEq values c then return (← getBit (← getValue values name) bit) != 0
    else return false
  | .parentIsGso =>
    match ctx.parent with
    | none => .ok false
    | some none => .error .keyError
    | some (some (type, _)) => .ok (type == "GShapeObjectControl")

mutual
/-- Types of members. -/
inductive DTy where
  | prim (p : PTy)
  | flags (f : FlagsDecl)
  | struct (name : String) (members : DMembers)
  | array (item : DTy) (size : Nat)
  | nArray (count : Prim) (item : DTy)
  | xArray (item : DTy) (count : RefDecl)
  | selective (selector : RefDecl) (selections : DSels)
/-- Members of one class: name, minimum version, condition, type. -/
inductive DMembers where
  | nil
  | cons (name : String) (version : Option Version) (condition : Option CondDecl) (type : DTy)
      (rest : DMembers)
/-- Selections. -/
inductive DSels where
  | nil
  | cons (key : Nat) (type : DTy) (rest : DSels)
end

/-! ### Reading -/

/-- bintype.py:380-409 `resolve_value_from_stream` (and `struct` format `d`: eight
bytes). -/
def PTy.read : PTy → Bytes → Except PyErr (PVal × Bytes)
  | .int p, s => do let (n, s) ← p.read s; return (.int n, s)
  | .colorref, s => do let (n, s) ← Prim.INT32.read s; return (.int n, s)
  | .binStorageId, s => do let (n, s) ← Prim.UINT16.read s; return (.int n, s)
  | .double, s => do
    let (b, s) ← readn 8 s
    if b.length ≠ 8 then .error .structError else return (.double b, s)
  | .chid, s => do
    let (b, s) ← readn 4 s
    let c ← chidDecode b
    return (.chid c, s)
  | .bstr, s => do let (t, s) ← bstrRead s; return (.str t, s)
  | .chunks, s =>
    match (parseChunks s).toList with
    | .error e => .error e
    | .ok cs => .ok (.chunks cs, [])
  | .hexBytes n, s => do let (b, s) ← readn n s; return (.hex b, s)
  | .version, s => do
    let (b, s) ← readn 4 s
    match b with
    | [b0, b1, b2, b3] => return (.version [b3.toNat, b2.toNat, b1.toNat, b0.toNat], s)
    | _ => .error .indexError

/-- The fields of the enclosing struct. -/
def fieldsOf (v : Value PVal) : Fields :=
  match v with
  | .struct fs => fs
  | _ => []

/-- `flags_type(value)`, bintype.py:286-291. -/
def toFlags (f : FlagsDecl) (v : PVal) : PVal :=
  match v with
  | .int n => .flags f n.toNat
  | v => v

/-- `range(0, count)`: a negative count gives no items. -/
def countOf (ref : RefDecl) (ctx : DCtx) (v : Value PVal) : Except PyErr Nat := do
  let n ← ref.eval ctx (fieldsOf v)
  return n.toNat

mutual
/-- The type as it is read.  A struct class is read with its own members only
(bintype.py:48-51; `members` is set per class, dataio.py:541-551). -/
def DTy.toTy : DTy → Ty PVal DCtx
  | .prim p => .prim p.read
  | .flags f => .flags (PTy.read (.int f.base)) (toFlags f)
  | .struct _ ms => .struct ms.toMembers
  | .array t n => .fixedArray t.toTy n
  | .nArray c t => .varArray (fun s => do let (n, s) ← c.read s; return (n.toNat, s)) t.toTy
  | .xArray t ref => .xArray t.toTy (countOf ref)
  | .selective ref ss => .selective (fun ctx v => ref.eval ctx (fieldsOf v)) ss.toSelections
/-- The members as they are read. -/
def DMembers.toMembers : DMembers → Members PVal DCtx
  | .nil => .nil
  | .cons name version condition t rest =>
    .cons name version (condition.map fun c ctx v => c.eval ctx (fieldsOf v)) t.toTy rest.toMembers
/-- The selections as they are read. -/
def DSels.toSelections : DSels → Selections PVal DCtx
  | .nil => .nil
  | .cons k t rest => .cons (k : Int) t.toTy rest.toSelections
end

/-! ### Notation for declarations -/

namespace Decl

/-- `yield type, name`. -/
def m (name : String) (t : DTy) (rest : DMembers) : DMembers := .cons name none none t rest
/-- `yield dict(type=type, name=name, version=version)`. -/
def mv (version : Version) (name : String) (t : DTy) (rest : DMembers) : DMembers :=
  .cons name (some version) none t rest
/-- `yield dict(type=type, name=name, condition=condition)`. -/
def mc (c : CondDecl) (name : String) (t : DTy) (rest : DMembers) : DMembers :=
  .cons name none (some c) t rest
/-- With version and condition. -/
def mvc (version : Version) (c : CondDecl) (name : String) (t : DTy) (rest : DMembers) : DMembers :=
  .cons name (some version) (some c) t rest
/-- A bit, or bits `lsb` to `msb`, of type `int`. -/
def bits (lsb msb : Nat) (name : String) : BitDecl := ⟨lsb, msb, none, name⟩
/-- One bit of type `int`. -/
def bit (n : Nat) (name : String) : BitDecl := ⟨n, n, none, name⟩
/-- Bits with an enum type. -/
def bitsE (lsb msb : Nat) (e : EnumDecl) (name : String) : BitDecl := ⟨lsb, msb, some e, name⟩

def UINT32 : DTy := .prim (.int .UINT32)
def INT32 : DTy := .prim (.int .INT32)
def UINT16 : DTy := .prim (.int .UINT16)
def INT16 : DTy := .prim (.int .INT16)
def UINT8 : DTy := .prim (.int .UINT8)
def INT8 : DTy := .prim (.int .INT8)
def WORD : DTy := .prim (.int .WORD)
def BYTE : DTy := .prim (.int .BYTE)
def WCHAR : DTy := .prim (.int .WCHAR)
def HWPUNIT : DTy := .prim (.int .HWPUNIT)
def SHWPUNIT : DTy := .prim (.int .SHWPUNIT)
def HWPUNIT16 : DTy := .prim (.int .HWPUNIT16)
def DOUBLE : DTy := .prim .double
def BSTR : DTy := .prim .bstr
def CHID : DTy := .prim .chid
def COLORREF : DTy := .prim .colorref
def BinStorageId : DTy := .prim .binStorageId
def HexBytes (n : Nat) : DTy := .prim (.hexBytes n)

/-! ### binmodel/_shared.py -/

/-- _shared.py:93-99 -/
def Margin : DTy := .struct "Margin" <|
  m "left" HWPUNIT16 <| m "right" HWPUNIT16 <| m "top" HWPUNIT16 <| m "bottom" HWPUNIT16 .nil

/-- _shared.py:102-106 -/
def Coord : DTy := .struct "Coord" <| m "x" SHWPUNIT <| m "y" SHWPUNIT .nil

/-- _shared.py:112-117 `Border.StrokeEnum` -/
def StrokeEnum : EnumDecl :=
  enumOf ["none", "solid", "dashed", "dotted", "dash-dot", "dash-dot-dot", "long-dash",
    "large-dot", "double", "double-2", "double-3", "triple", "wave", "double-wave", "inset",
    "outset", "groove", "ridge"]

/-- _shared.py:118-119 `Border.StrokeType` -/
def StrokeType : FlagsDecl := ⟨.UINT8, [bitsE 0 4 StrokeEnum "stroke_type"]⟩

/-- _shared.py:122-138 `Border.WidthEnum` -/
def WidthEnum : EnumDecl :=
  enumOf ["0.1mm", "0.12mm", "0.15mm", "0.2mm", "0.25mm", "0.3mm", "0.4mm", "0.5mm", "0.6mm",
    "0.7mm", "1.0mm", "1.5mm", "2.0mm", "3.0mm", "4.0mm", "5.0mm"]

/-- _shared.py:139-140 `Border.Width` -/
def BorderWidth : FlagsDecl := ⟨.UINT8, [bitsE 0 4 WidthEnum "width"]⟩

/-- _shared.py:142-146 -/
def Border : DTy := .struct "Border" <|
  m "stroke_flags" (.flags StrokeType) <| m "width_flags" (.flags BorderWidth) <|
  m "color" COLORREF .nil

/-- _shared.py:153-154 -/
def ArrowShape : EnumDecl :=
  enumOf ["none", "arrow", "arrow2", "diamond", "circle", "rect", "diamondfilled", "disc",
    "rectfilled"]
/-- _shared.py:155-156 -/
def ArrowSize : EnumDecl :=
  enumOf ["smallest", "smaller", "small", "abitsmall", "normal", "abitlarge", "large", "larger",
    "largest"]

/-- _shared.py:159-167 `BorderLine.Flags` -/
def BorderLineFlags : FlagsDecl :=
  ⟨.UINT32, [bitsE 0 5 StrokeEnum "stroke", bitsE 6 9 (enumOf ["round", "flat"]) "line_end",
    bitsE 10 15 ArrowShape "arrow_start", bitsE 16 21 ArrowShape "arrow_end",
    bitsE 22 25 ArrowSize "arrow_start_size", bitsE 26 29 ArrowSize "arrow_end_size",
    bit 30 "arrow_start_fill", bit 31 "arrow_end_fill"]⟩

/-- _shared.py:169-173 -/
def BorderLine : DTy := .struct "BorderLine" <|
  m "color" COLORREF <| m "width" INT32 <| m "flags" (.flags BorderLineFlags) .nil

/-- _shared.py:188-191 -/
def PatternTypeFlags : FlagsDecl :=
  ⟨.UINT32, [bitsE 0 7 [("NONE", 255), ("HORIZONTAL", 0), ("VERTICAL", 1), ("BACKSLASH", 2),
    ("SLASH", 3), ("GRID", 4), ("CROSS", 5)] "pattern_type"]⟩

/-- _shared.py:193-197 -/
def FillColorPattern : DTy := .struct "FillColorPattern" <|
  m "background_color" COLORREF <| m "pattern_color" COLORREF <|
  m "pattern_type_flags" (.flags PatternTypeFlags) .nil

/-- _shared.py:201-218 -/
def FillImageFlags : FlagsDecl :=
  ⟨.BYTE, [bitsE 0 16 (enumOf ["TILE_ALL", "TILE_HORIZONTAL_TOP", "TILE_HORIZONTAL_BOTTOM",
    "TILE_VERTICAL_LEFT", "TILE_VERTICAL_RIGHT", "RESIZE", "CENTER", "CENTER_TOP",
    "CENTER_BOTTOM", "LEFT_MIDDLE", "LEFT_TOP", "LEFT_BOTTOM", "RIGHT_MIDDLE", "RIGHT_TOP",
    "RIGHT_BOTTOM", "NONE"]) "fillimage_type"]⟩

/-- _shared.py:220-225 -/
def EffectFlags : FlagsDecl :=
  ⟨.UINT8, [bitsE 0 8 (enumOf ["REAL_PIC", "GRAY_SCALE", "BLACK_WHITE", "PATTERN8x8"])
    "effect_type"]⟩

/-- _shared.py:227-233 -/
def FillImage : DTy := .struct "FillImage" <|
  m "flags" (.flags FillImageFlags) <| m "brightness" INT8 <| m "contrast" INT8 <|
  m "effect" (.flags EffectFlags) <| m "bindata_id" UINT16 .nil

/-- _shared.py:236-240 -/
def Coord32 : DTy := .struct "Coord32" <| m "x" UINT32 <| m "y" UINT32 .nil

/-- _shared.py:243-245 -/
def GradationTypeFlags : FlagsDecl :=
  ⟨.BYTE, [bitsE 0 8 [("LINEAR", 1), ("CIRCULAR", 2), ("CONICAL", 3), ("RECTANGULAR", 4)]
    "gradation_type"]⟩

/-- _shared.py:248-257 -/
def FillGradation : DTy := .struct "FillGradation" <|
  m "type" (.flags GradationTypeFlags) <| m "shear" UINT32 <| m "center" Coord32 <|
  m "blur" UINT32 <| m "colors" (.nArray .UINT32 COLORREF) .nil

/-! ### Document info records -/

/-- tagid16_document_properties.py:34-47 -/
def DocumentProperties : DMembers :=
  m "section_count" UINT16 <| m "page_startnum" UINT16 <| m "footnote_startnum" UINT16 <|
  m "endnote_startnum" UINT16 <| m "picture_startnum" UINT16 <| m "table_startnum" UINT16 <|
  m "math_startnum" UINT16 <| m "list_id" UINT32 <| m "paragraph_id" UINT32 <|
  m "character_unit_loc_in_paragraph" UINT32 .nil

/-- tagid17_id_mappings.py:33-60 -/
def IdMappings : DMembers :=
  m "bindata" UINT32 <| m "ko_fonts" UINT32 <| m "en_fonts" UINT32 <| m "cn_fonts" UINT32 <|
  m "jp_fonts" UINT32 <| m "other_fonts" UINT32 <| m "symbol_fonts" UINT32 <|
  m "user_fonts" UINT32 <| m "borderfills" UINT32 <| m "charshapes" UINT32 <|
  m "tabdefs" UINT32 <| m "numberings" UINT32 <| m "bullets" UINT32 <| m "parashapes" UINT32 <|
  m "styles" UINT32 <| mv [5, 0, 1, 7] "memoshapes" UINT32 .nil

/-- tagid18_bin_data.py:35-39 -/
def BinDataLink : DTy := .struct "BinDataLink" <| m "abspath" BSTR <| m "relpath" BSTR .nil
/-- tagid18_bin_data.py:42-46 -/
def BinDataEmbedding : DTy := .struct "BinDataEmbedding" <|
  m "storage_id" BinStorageId <| m "ext" BSTR .nil
/-- tagid18_bin_data.py:49-52 -/
def BinDataStorage : DTy := .struct "BinDataStorage" <| m "storage_id" BinStorageId .nil

/-- tagid18_bin_data.py:61-67 -/
def BinDataFlags : FlagsDecl :=
  ⟨.UINT16, [bitsE 0 3 [("LINK", 0), ("EMBEDDING", 1), ("STORAGE", 2)] "storage",
    bitsE 4 5 [("STORAGE_DEFAULT", 0), ("YES", 1), ("NO", 2)] "compression",
    bitsE 16 17 [("NEVER", 0), ("OK", 1), ("FAILED", 2), ("FAILED_IGNORED", 3)] "access"]⟩

/-- tagid18_bin_data.py:69-77 -/
def BinData : DMembers :=
  m "flags" (.flags BinDataFlags) <|
  m "bindata" (.selective (.flag "flags" "storage")
    (.cons 0 BinDataLink <| .cons 1 BinDataEmbedding <| .cons 2 BinDataStorage .nil)) .nil

/-- tagid19_face_name.py:32-36 -/
def AlternateFont : DTy := .struct "AlternateFont" <| m "kind" BYTE <| m "name" BSTR .nil

/-- tagid19_face_name.py:86-97 -/
def Panose1 : DTy := .struct "Panose1" <|
  m "family_type" BYTE <| m "serif_style" BYTE <| m "weight" BYTE <| m "proportion" BYTE <|
  m "contrast" BYTE <| m "stroke_variation" BYTE <| m "arm_style" BYTE <| m "letterform" BYTE <|
  m "midline" BYTE <| m "x_height" BYTE .nil

/-- tagid19_face_name.py:106-113 -/
def FaceNameFlags : FlagsDecl :=
  ⟨.BYTE, [bitsE 0 1 [("UNKNOWN", 0), ("TTF", 1), ("HFT", 2)] "font_file_type",
    bit 5 "default", bit 6 "metric", bit 7 "alternate"]⟩

/-- tagid19_face_name.py:115-136 -/
def FaceName : DMembers :=
  m "flags" (.flags FaceNameFlags) <| m "name" BSTR <|
  mc (.flag "flags" "alternate") "alternate_font" AlternateFont <|
  mc (.flag "flags" "metric") "panose1" Panose1 <|
  mc (.flag "flags" "default") "default_font" BSTR .nil

/-- tagid20_border_fill.py:42-46 -/
def BorderFlags : FlagsDecl :=
  ⟨.UINT16, [bit 0 "effect_3d", bit 1 "effect_shadow", bits 2 4 "slash", bits 5 6 "backslash"]⟩
/-- tagid20_border_fill.py:49-52 -/
def BorderFillFillFlags : FlagsDecl :=
  ⟨.UINT32, [bit 0 "colorpattern", bit 1 "image", bit 2 "gradation"]⟩

/-- tagid20_border_fill.py:54-89 -/
def BorderFill : DMembers :=
  m "borderflags" (.flags BorderFlags) <| m "left" Border <| m "right" Border <|
  m "top" Border <| m "bottom" Border <| m "diagonal" Border <|
  m "fillflags" (.flags BorderFillFillFlags) <|
  mc (.flag "fillflags" "colorpattern") "fill_colorpattern" FillColorPattern <|
  mc (.flag "fillflags" "gradation") "fill_gradation" FillGradation <|
  mc (.flag "fillflags" "image") "fill_image" FillImage <|
  mc (.flag "fillflags" "gradation") "shape" UINT32 <|
  mc (.flag "fillflags" "gradation") "blur_center" BYTE .nil

/-- tagid21_char_shape.py:36-44 `LanguageStruct(name, basetype)` -/
def LanguageStruct (name : String) (t : DTy) : DTy := .struct name <|
  m "ko" t <| m "en" t <| m "cn" t <| m "jp" t <| m "other" t <| m "symbol" t <| m "user" t .nil

/-- tagid21_char_shape.py:47-51 -/
def ShadowSpace : DTy := .struct "ShadowSpace" <| m "x" INT8 <| m "y" INT8 .nil

/-- tagid21_char_shape.py:60-71 -/
def CharShapeFlags : FlagsDecl :=
  ⟨.UINT32, [bit 0 "italic", bit 1 "bold",
    bitsE 2 3 (enumOf ["NONE", "UNDERLINE", "LINE_THROUGH", "OVERLINE"]) "underline",
    bitsE 4 7 (enumOf ["SOLID", "DASHED", "DOTTED", "DASH_DOT", "DASH_DOT_DOT", "LONG_DASHED",
      "LARGE_DOTTED", "DOUBLE", "LOWER_WEIGHTED", "UPPER_WEIGHTED", "MIDDLE_WEIGHTED"])
      "underline_style",
    bits 8 10 "outline", bits 11 13 "shadow"]⟩

/-- tagid21_char_shape.py:73-90 -/
def CharShape : DMembers :=
  m "font_face" (LanguageStruct "FontFace" WORD) <|
  m "letter_width_expansion" (LanguageStruct "LetterWidthExpansion" UINT8) <|
  m "letter_spacing" (LanguageStruct "LetterSpacing" INT8) <|
  m "relative_size" (LanguageStruct "RelativeSize" INT8) <|
  m "position" (LanguageStruct "Position" INT8) <| m "basesize" INT32 <|
  m "charshapeflags" (.flags CharShapeFlags) <| m "shadow_space" ShadowSpace <|
  m "text_color" COLORREF <| m "underline_color" COLORREF <| m "shade_color" COLORREF <|
  m "shadow_color" COLORREF .nil

/-- tagid22_tab_def.py:35-39 -/
def TabFlags : FlagsDecl :=
  ⟨.UINT32, [bitsE 0 7 (enumOf ["LEFT", "RIGHT", "CENTER", "FLOAT"]) "kind", bits 8 15 "fill_type"]⟩
/-- tagid22_tab_def.py:41-44 -/
def Tab : DTy := .struct "Tab" <| m "pos" HWPUNIT <| m "flags" (.flags TabFlags) .nil
/-- tagid22_tab_def.py:53-55 -/
def TabDefFlags : FlagsDecl := ⟨.UINT32, [bit 0 "autotab_left", bit 1 "autotab_right"]⟩
/-- tagid22_tab_def.py:57-60 -/
def TabDef : DMembers := m "flags" (.flags TabDefFlags) <| m "tabs" (.nArray .UINT32 Tab) .nil

/-- tagid23_numbering.py:39-45 -/
def NumberingLevelFlags : FlagsDecl :=
  ⟨.UINT32, [bitsE 0 1 (enumOf ["LEFT", "CENTER", "RIGHT", "UNKNOWN"]) "align",
    bit 2 "auto_width", bit 3 "auto_indent", bitsE 4 4 (enumOf ["RATIO", "VALUE"]) "space_type"]⟩
/-- tagid23_numbering.py:47-54 -/
def NumberingLevel : DTy := .struct "NumberingLevel" <|
  m "flags" (.flags NumberingLevelFlags) <| m "width_correction" HWPUNIT16 <| m "space" UINT16 <|
  m "charshape_id" INT32 <| m "numbering_format" BSTR .nil
/-- tagid23_numbering.py:65-72 -/
def Numbering : DMembers :=
  m "levels" (.array NumberingLevel 7) <| m "starting_number" UINT16 <|
  mv [5, 0, 3, 0] "unknown" (.array UINT32 7) .nil

/-- tagid24_bullet.py:34-37 -/
def BulletFlags : FlagsDecl :=
  ⟨.UINT32, [bitsE 0 1 (enumOf ["LEFT", "CENTER", "RIGHT"]) "align", bit 3 "auto_indent"]⟩
/-- tagid24_bullet.py:45-52 -/
def Bullet : DMembers :=
  m "flags" (.flags BulletFlags) <| m "width" HWPUNIT16 <| m "space" UINT16 <|
  m "charshape_id" INT32 <| m "char" WCHAR .nil

/-- tagid25_para_shape.py:39-63 -/
def ParaShapeFlags1 : FlagsDecl :=
  ⟨.UINT32, [bitsE 0 1 (enumOf ["RATIO", "FIXED", "SPACEONLY", "MINIMUM"]) "linespacing_type",
    bitsE 2 4 (enumOf ["BOTH", "LEFT", "RIGHT", "CENTER", "DISTRIBUTE", "DISTRIBUTE_SPACE"]) "align",
    bitsE 5 6 (enumOf ["WORD", "HYPHEN", "CHAR"]) "linebreak_alphabet",
    bitsE 7 7 (enumOf ["WORD", "CHAR"]) "linebreak_hangul",
    bit 8 "use_paper_grid", bits 9 15 "minimum_space", bit 16 "protect_single_line",
    bit 17 "with_next_paragraph", bit 18 "protect", bit 19 "start_new_page",
    bitsE 20 21 (enumOf ["FONT", "TOP", "CENTER", "BOTTOM"]) "valign",
    bit 22 "lineheight_along_fontsize",
    bitsE 23 24 (enumOf ["NONE", "OUTLINE", "NUMBER", "BULLET"]) "head_shape",
    bits 25 27 "level", bit 28 "linked_border", bit 29 "ignore_margin", bit 30 "tail_shape"]⟩
/-- tagid25_para_shape.py:66-70 -/
def ParaShapeFlags2 : FlagsDecl :=
  ⟨.UINT32, [bits 0 1 "in_single_line", bits 2 3 "reserved", bit 4 "autospace_alphabet",
    bit 5 "autospace_number"]⟩
/-- tagid25_para_shape.py:78-97 -/
def ParaShape : DMembers :=
  m "parashapeflags" (.flags ParaShapeFlags1) <| m "doubled_margin_left" INT32 <|
  m "doubled_margin_right" INT32 <| m "indent" SHWPUNIT <| m "doubled_margin_top" INT32 <|
  m "doubled_margin_bottom" INT32 <| m "linespacing" SHWPUNIT <| m "tabdef_id" UINT16 <|
  m "numbering_bullet_id" UINT16 <| m "borderfill_id" UINT16 <| m "border_left" HWPUNIT16 <|
  m "border_right" HWPUNIT16 <| m "border_top" HWPUNIT16 <| m "border_bottom" HWPUNIT16 <|
  mv [5, 0, 1, 7] "flags2" (.flags ParaShapeFlags2) .nil

/-- tagid26_style.py:38-40 -/
def StyleFlags : FlagsDecl := ⟨.BYTE, [bitsE 0 1 (enumOf ["PARAGRAPH", "CHAR"]) "kind"]⟩
/-- tagid26_style.py:42-55 -/
def Style : DMembers :=
  m "local_name" BSTR <| m "name" BSTR <| m "flags" (.flags StyleFlags) <|
  m "next_style_id" BYTE <| m "lang_id" INT16 <| m "parashape_id" UINT16 <|
  m "charshape_id" UINT16 <| m "unknown" UINT16 .nil

/-- tagid30_compatible_document.py:36-37 -/
def CompatibleDocumentFlags : FlagsDecl := ⟨.UINT32, [bits 0 1 "target"]⟩
/-- tagid30_compatible_document.py:39-42 -/
def CompatibleDocument : DMembers := m "flags" (.flags CompatibleDocumentFlags) .nil

/-- tagid31_layout_compatibility.py:32-39 -/
def LayoutCompatibility : DMembers :=
  m "char" UINT32 <| m "paragraph" UINT32 <| m "section" UINT32 <| m "object" UINT32 <|
  m "field" UINT32 .nil

/-! ### Section records -/

/-- tagid50_para_header.py:37-41 `Paragraph.SplitFlags` -/
def ParagraphSplitFlags : FlagsDecl :=
  ⟨.BYTE, [bit 0 "new_section", bit 1 "new_columnsdef", bit 2 "new_page", bit 3 "new_column"]⟩
/-- tagid50_para_header.py:42-45 -/
def ParagraphControlMask : FlagsDecl :=
  ⟨.UINT32, [bit 2 "unknown1", bit 11 "control", bit 21 "new_number"]⟩
/-- tagid50_para_header.py:46-48 -/
def ParagraphFlags : FlagsDecl := ⟨.UINT32, [bit 31 "unknown", bits 0 30 "chars"]⟩
/-- tagid50_para_header.py:50-61 -/
def Paragraph : DMembers :=
  m "text" (.flags ParagraphFlags) <| m "controlmask" (.flags ParagraphControlMask) <|
  m "parashape_id" UINT16 <| m "style_id" BYTE <| m "split" (.flags ParagraphSplitFlags) <|
  m "charshapes" UINT16 <| m "rangetags" UINT16 <| m "linesegs" UINT16 <|
  m "instance_id" UINT32 .nil

/-- tagid51_para_text.py:59-61 -/
def ParaText : DMembers := m "chunks" (.prim .chunks) .nil

/-- tagid52_para_char_shape.py:39-44 -/
def ParaCharShape : DMembers :=
  m "charshapes" (.xArray (.array UINT32 2) (.parentMember "charshapes")) .nil

/-- tagid53_para_line_seg.py:38-46 -/
def LineSegFlags : FlagsDecl :=
  ⟨.UINT32, [bit 17 "line_head", bit 18 "line_tail", bit 20 "indented", bit 21 "bullet"]⟩
/-- tagid53_para_line_seg.py:48-58 -/
def LineSegMembers : DMembers :=
  m "chpos" INT32 <| m "y" SHWPUNIT <| m "height" SHWPUNIT <| m "height_text" SHWPUNIT <|
  m "height_baseline" SHWPUNIT <| m "space_below" SHWPUNIT <| m "x" SHWPUNIT <|
  m "width" SHWPUNIT <| m "lineseg_flags" (.flags LineSegFlags) .nil
/-- tagid53_para_line_seg.py:37 -/
def LineSeg : DTy := .struct "LineSeg" LineSegMembers
/-- tagid53_para_line_seg.py:66-70 -/
def ParaLineSeg : DMembers := m "linesegs" (.xArray LineSeg (.parentMember "linesegs")) .nil

/-- tagid54_para_range_tag.py:35-37 -/
def RangeTagFlags : FlagsDecl := ⟨.UINT32, [bits 0 23 "data", bits 24 31 "kind"]⟩
/-- tagid54_para_range_tag.py:39-43 -/
def RangeTag : DTy := .struct "RangeTag" <|
  m "start" UINT32 <| m "end" UINT32 <| m "tag" (.flags RangeTagFlags) .nil
/-- tagid54_para_range_tag.py:51-54 -/
def ParaRangeTag : DMembers := m "range_tags" (.xArray RangeTag (.parentMember "rangetags")) .nil

/-- controls/_shared.py:50-52 -/
def Control : DMembers := m "chid" CHID .nil

/-- tagid56_list_header.py:65-69 -/
def ListHeaderFlags : FlagsDecl :=
  ⟨.UINT32, [bits 0 2 "textdirection", bits 3 4 "linebreak",
    bitsE 5 6 (enumOf ["TOP", "MIDDLE", "BOTTOM"]) "valign"]⟩
/-- tagid56_list_header.py:71-76 -/
def ListHeader : DMembers :=
  m "paragraphs" UINT16 <| m "unknown1" UINT16 <| m "listflags" (.flags ListHeaderFlags) .nil
/-- tagid56_list_header.py:95-99 -/
def TableCaptionFlags : FlagsDecl :=
  ⟨.UINT32, [bitsE 0 1 (enumOf ["LEFT", "RIGHT", "TOP", "BOTTOM"]) "position",
    bit 2 "expand_to_margin"]⟩
/-- tagid56_list_header.py:101-107 -/
def TableCaption : DMembers :=
  m "flags" (.flags TableCaptionFlags) <| m "width" HWPUNIT <| m "separation" HWPUNIT16 <|
  m "max_width" HWPUNIT .nil
/-- tagid56_list_header.py:115-125 -/
def TableCell : DMembers :=
  m "col" UINT16 <| m "row" UINT16 <| m "colspan" UINT16 <| m "rowspan" UINT16 <|
  m "width" SHWPUNIT <| m "height" SHWPUNIT <| m "padding" Margin <| m "borderfill_id" UINT16 <|
  m "unknown_width" SHWPUNIT .nil
/-- tagid56_list_header.py:136-139 -/
def TextboxParagraphList : DMembers := m "padding" Margin <| m "maxwidth" HWPUNIT .nil
/-- tagid56_list_header.py:144-149 -/
def HeaderFooterParagraphList : DMembers :=
  m "width" HWPUNIT <| m "height" HWPUNIT <| m "textrefsbitmap" BYTE <|
  m "numberrefsbitmap" BYTE .nil

/-- tagid57_page_def.py:33-37 -/
def PageDefFlags : FlagsDecl :=
  ⟨.UINT32, [bitsE 0 0 (enumOf ["PORTRAIT", "LANDSCAPE"]) "orientation",
    bitsE 1 2 (enumOf ["LEFT", "RIGHT", "TOP", "BOTTOM"]) "bookbinding"]⟩
/-- tagid57_page_def.py:39-51 -/
def PageDef : DMembers :=
  m "width" HWPUNIT <| m "height" HWPUNIT <| m "left_offset" HWPUNIT <|
  m "right_offset" HWPUNIT <| m "top_offset" HWPUNIT <| m "bottom_offset" HWPUNIT <|
  m "header_offset" HWPUNIT <| m "footer_offset" HWPUNIT <| m "bookbinding_offset" HWPUNIT <|
  m "attr" (.flags PageDefFlags) .nil

/-- tagid58_footnote_shape.py:36-52 -/
def FootnoteShape : DMembers :=
  m "flags" (.flags ⟨.UINT32, []⟩) <| m "usersymbol" WCHAR <| m "prefix" WCHAR <|
  m "suffix" WCHAR <| m "starting_number" UINT16 <| m "splitter_length" HWPUNIT16 <|
  m "splitter_unknown" HWPUNIT16 <| m "splitter_margin_top" HWPUNIT16 <|
  m "splitter_margin_bottom" HWPUNIT16 <| m "notes_spacing" HWPUNIT16 <|
  m "splitter_stroke_type" (.flags StrokeType) <| m "splitter_width" (.flags BorderWidth) <|
  m "splitter_color" COLORREF .nil

/-- tagid59_page_border_fill.py:34-40 -/
def PageBorderFillFlags : FlagsDecl :=
  ⟨.UINT32, [bitsE 0 0 (enumOf ["BODY", "PAPER"]) "relative_to", bit 1 "include_header",
    bit 2 "include_footer", bitsE 3 4 (enumOf ["PAPER", "PAGE", "BORDER"]) "fill"]⟩
/-- tagid59_page_border_fill.py:42-46 -/
def PageBorderFill : DMembers :=
  m "flags" (.flags PageBorderFillFlags) <| m "margin" Margin <| m "borderfill_id" UINT16 .nil

/-- tagid60_shape_component.py:47-63 -/
def Matrix : DTy := .struct "Matrix" <|
  m "a" DOUBLE <| m "c" DOUBLE <| m "e" DOUBLE <| m "b" DOUBLE <| m "d" DOUBLE <| m "f" DOUBLE .nil
/-- tagid60_shape_component.py:66-70 -/
def ScaleRotationMatrix : DTy := .struct "ScaleRotationMatrix" <|
  m "scaler" Matrix <| m "rotator" Matrix .nil
/-- tagid60_shape_component.py:118-121 -/
def ShapeFillFlags : FlagsDecl :=
  ⟨.UINT16, [bit 8 "fill_colorpattern", bit 9 "fill_image", bit 10 "fill_gradation"]⟩
/-- tagid60_shape_component.py:122-123 -/
def ShapeComponentFlags : FlagsDecl := ⟨.UINT32, [bit 0 "flip"]⟩
/-- tagid60_shape_component.py:125-193 -/
def ShapeComponent : DMembers :=
  mc .parentIsGso "chid0" CHID <| m "chid" CHID <| m "x_in_group" SHWPUNIT <|
  m "y_in_group" SHWPUNIT <| m "level_in_group" WORD <| m "local_version" WORD <|
  m "initial_width" SHWPUNIT <| m "initial_height" SHWPUNIT <| m "width" SHWPUNIT <|
  m "height" SHWPUNIT <| m "flags" (.flags ShapeComponentFlags) <| m "angle" WORD <|
  m "rotation_center" Coord <| m "scalerotations_count" WORD <| m "translation" Matrix <|
  m "scalerotations" (.xArray ScaleRotationMatrix (.member "scalerotations_count")) <|
  mc (.chidIs "$con") "controls" (.nArray .WORD CHID) <|
  mc (.chidIs "$rec") "border" BorderLine <|
  mc (.chidIs "$rec") "fill_flags" (.flags ShapeFillFlags) <|
  mc (.chidIs "$rec") "unknown" UINT16 <| mc (.chidIs "$rec") "unknown1" UINT8 <|
  mc (.chidIsAndFlag "$rec" "fill_flags" "fill_colorpattern") "fill_colorpattern" FillColorPattern <|
  mc (.chidIsAndFlag "$rec" "fill_flags" "fill_gradation") "fill_gradation" FillGradation <|
  mc (.chidIsAndFlag "$rec" "fill_flags" "fill_image") "fill_image" FillImage <|
  mc (.chidIs "$rec") "fill_shape" UINT32 <|
  mc (.chidIsAndFlag "$rec" "fill_flags" "fill_gradation") "fill_blur_center" BYTE <|
  mvc [5, 0, 2, 4] (.chidIs "$rec") "unknown2" (HexBytes 5) <|
  mvc [5, 0, 2, 4] (.chidIs "$rec") "unknown3" (HexBytes 16) <|
  mc (.chidIs "$lin") "line" BorderLine .nil

/-- tagid61_table.py:37-45 -/
def ZoneInfo : DTy := .struct "ZoneInfo" <|
  m "starting_column" UINT16 <| m "starting_row" UINT16 <| m "end_column" UINT16 <|
  m "end_row" UINT16 <| m "borderfill_id" UINT16 .nil
/-- tagid61_table.py:53-56 -/
def TableBodyFlags : FlagsDecl :=
  ⟨.UINT32, [bitsE 0 1 (enumOf ["NONE", "BY_CELL", "SPLIT"]) "split_page", bit 2 "repeat_header"]⟩
/-- tagid61_table.py:58-74 -/
def TableBody : DMembers :=
  m "flags" (.flags TableBodyFlags) <| m "rows" UINT16 <| m "cols" UINT16 <|
  m "cellspacing" HWPUNIT16 <| m "padding" Margin <|
  m "rowcols" (.xArray UINT16 (.member "rows")) <| m "borderfill_id" UINT16 <|
  mv [5, 0, 0, 7] "validZones" (.nArray .UINT16 ZoneInfo) .nil

/-- tagid62_shape_component_line.py:33-38 -/
def ShapeLine : DMembers := m "p0" Coord <| m "p1" Coord <| m "attr" UINT16 .nil
/-- tagid63_shape_component_rectangle.py:33-40 -/
def ShapeRectangle : DMembers :=
  m "round" BYTE <| m "p0" Coord <| m "p1" Coord <| m "p2" Coord <| m "p3" Coord .nil
/-- tagid64_shape_component_ellipse.py:35-38 -/
def ShapeEllipseFlags : FlagsDecl :=
  ⟨.UINT32, [bit 0 "arc_recalc_required", bit 1 "arc", bits 2 9 "arc_kind"]⟩
/-- tagid64_shape_component_ellipse.py:40-50 -/
def ShapeEllipse : DMembers :=
  m "flags" (.flags ShapeEllipseFlags) <| m "center" Coord <| m "axis1" Coord <|
  m "axis2" Coord <| m "start1" Coord <| m "end1" Coord <| m "start2" Coord <|
  m "end2" Coord .nil
/-- tagid65_shape_component_arc.py:32-38 -/
def ShapeArc : DMembers := m "center" Coord <| m "axis1" Coord <| m "axis2" Coord .nil
/-- tagid66_shape_component_polygon.py:34-37 -/
def ShapePolygon : DMembers := m "points" (.nArray .UINT16 Coord) .nil
/-- tagid67_shape_component_curve.py:35-39 -/
def ShapeCurve : DMembers := m "points" (.nArray .UINT16 Coord) .nil
/-- tagid68_shape_component_ole.py:37-44 -/
def ShapeOLEFlags : FlagsDecl :=
  ⟨.UINT32, [bits 0 7 "dvaspect", bit 8 "moniker", bits 9 15 "baseline"]⟩
/-- tagid68_shape_component_ole.py:46-52 -/
def ShapeOLE : DMembers :=
  m "flags" (.flags ShapeOLEFlags) <| m "extent_x" INT32 <| m "extent_y" INT32 <|
  m "storage_id" BinStorageId <| m "border" BorderLine .nil

/-- tagid69_shape_component_picture.py:37-44 -/
def PictureInfo : DTy := .struct "PictureInfo" <|
  m "brightness" INT8 <| m "contrast" INT8 <| m "effect" BYTE <| m "bindata_id" UINT16 .nil
/-- tagid69_shape_component_picture.py:47-54 -/
def PictureEffect : DTy := .struct "PictureEffect" <| m "flags" (.flags ⟨.UINT32, []⟩) .nil
/-- tagid69_shape_component_picture.py:59-67 -/
def ImageRect : DTy := .struct "ImageRect" <|
  m "p0" Coord <| m "p1" Coord <| m "p2" Coord <| m "p3" Coord .nil
/-- tagid69_shape_component_picture.py:71-79 -/
def ImageClip : DTy := .struct "ImageClip" <|
  m "left" SHWPUNIT <| m "top" SHWPUNIT <| m "right" SHWPUNIT <| m "bottom" SHWPUNIT .nil
/-- tagid69_shape_component_picture.py:86-102 -/
def ShapePicture : DMembers :=
  m "border" BorderLine <| m "rect" ImageRect <| m "clip" ImageClip <| m "padding" Margin <|
  m "picture" PictureInfo <| mv [5, 0, 2, 2] "border_transparency" BYTE <|
  mv [5, 0, 2, 5] "instance_id" UINT32 <| mv [5, 0, 3, 4] "picture_effect" PictureEffect .nil

/-! ### Controls -/

/-- controls/bookmark_control.py:45-50 -/
def BookmarkControlData : DMembers :=
  m "unknown1" UINT32 <| m "unknown2" UINT32 <| m "unknown3" UINT16 <| m "name" BSTR .nil

/-- controls/columns_def.py:36-40 -/
def Column0 : DTy := .struct "Column0" <| m "width" WORD .nil
/-- controls/columns_def.py:43-47 -/
def Column : DTy := .struct "Column" <| m "spacing" WORD <| m "width" WORD .nil
/-- controls/columns_def.py:54-60 -/
def ColumnsDefFlags : FlagsDecl :=
  ⟨.UINT16, [bitsE 0 1 (enumOf ["normal", "distribute", "parallel"]) "kind", bits 2 9 "count",
    bitsE 10 11 (enumOf ["l2r", "r2l", "both"]) "direction", bit 12 "same_widths"]⟩
/-- controls/columns_def.py:62-84 -/
def ColumnsDef : DMembers :=
  m "flags" (.flags ColumnsDefFlags) <| m "spacing" HWPUNIT16 <|
  mc (.notFlag "flags" "same_widths") "column0" Column0 <|
  mc (.notFlag "flags" "same_widths") "columns" (.xArray Column (.flagMinusOne "flags" "count")) <|
  m "attr2" UINT16 <| m "splitter" Border .nil

/-- controls/common_controls.py:37-61 -/
def CommonControlFlags : FlagsDecl :=
  ⟨.UINT32, [bit 0 "inline", bit 2 "affect_line_spacing",
    bitsE 3 4 (enumOf ["PAPER", "PAGE", "PARAGRAPH"]) "vrelto",
    bitsE 5 7 (enumOf ["TOP", "MIDDLE", "BOTTOM"]) "valign",
    bitsE 8 9 (enumOf ["PAPER", "PAGE", "COLUMN", "PARAGRAPH"]) "hrelto",
    bitsE 10 12 (enumOf ["LEFT", "CENTER", "RIGHT", "INSIDE", "OUTSIDE"]) "halign",
    bit 13 "restrict_in_page", bit 14 "overlap_others",
    bitsE 15 17 (enumOf ["PAPER", "PAGE", "COLUMN", "PARAGRAPH", "ABSOLUTE"]) "width_relto",
    bitsE 18 19 (enumOf ["PAPER", "PAGE", "ABSOLUTE"]) "height_relto",
    bit 20 "protect_size_when_vrelto_paragraph",
    bitsE 21 23 (enumOf ["FLOAT", "BLOCK", "BACK", "FRONT"]) "flow",
    bitsE 24 25 (enumOf ["BOTH", "LEFT", "RIGHT", "LARGER"]) "text_side",
    bitsE 26 27 (enumOf ["NONE", "FIGURE", "TABLE", "EQUATION"]) "number_category"]⟩
/-- controls/common_controls.py:68-81 -/
def CommonControl : DMembers :=
  m "flags" (.flags CommonControlFlags) <| m "y" SHWPUNIT <| m "x" SHWPUNIT <|
  m "width" HWPUNIT <| m "height" HWPUNIT <| m "z_order" INT16 <| m "unknown1" INT16 <|
  m "margin" Margin <| m "instance_id" UINT32 <| mv [5, 0, 0, 5] "unknown2" INT16 <|
  mv [5, 0, 0, 5] "description" BSTR .nil

/-- controls/dutmal.py:34-48 -/
def Dutmal : DMembers :=
  m "maintext" BSTR <| m "subtext" BSTR <|
  m "position-flags"
    (.flags ⟨.UINT32, [bitsE 0 31 (enumOf ["ABOVE", "BELOW", "CENTER"]) "position"]⟩) <|
  m "fsizeratio" UINT32 <| m "option" UINT32 <| m "stylenumber" UINT32 <|
  m "align-flags" (.flags ⟨.UINT32, [bitsE 0 31
    (enumOf ["BOTH", "LEFT", "RIGHT", "CENTER", "DISTRIBUTE", "DISTRIBUTE_SPACE"]) "align"]⟩) .nil

/-- controls/field.py:35-38 -/
def FieldFlags : FlagsDecl :=
  ⟨.UINT32, [bit 0 "editableInReadOnly", bits 11 14 "visitedType", bit 15 "modified"]⟩
/-- controls/field.py:40-45 -/
def Field : DMembers :=
  m "flags" (.flags FieldFlags) <| m "extra_attr" BYTE <| m "command" BSTR <| m "id" UINT32 .nil

/-- controls/header_footer.py:32-38 -/
def HeaderFooter : DMembers :=
  m "flags" (.flags ⟨.UINT32,
    [bitsE 0 1 (enumOf ["BOTH_PAGES", "EVEN_PAGE", "ODD_PAGE"]) "places"]⟩) .nil

/-- controls/index_marker.py:33-37 -/
def IndexMarker : DMembers := m "keyword1" BSTR <| m "keyword2" BSTR <| m "dummy" UINT16 .nil

/-- controls/note.py:31-37 -/
def Note : DMembers :=
  m "number" UINT32 <| m "unknown0" UINT32 <| m "unknown1" UINT32 <|
  mv [5, 0, 3, 0] "unknown2" UINT16 <| mv [5, 0, 3, 0] "unknown3" UINT16 .nil

/-- controls/numbering.py:33-40 -/
def NumberingControlFlags : FlagsDecl :=
  ⟨.UINT32, [bitsE 0 3 (enumOf ["PAGE", "FOOTNOTE", "ENDNOTE", "PICTURE", "TABLE", "EQUATION",
    "UNKNOWN6"]) "kind", bits 4 11 "footnoteshape", bit 12 "superscript"]⟩
/-- controls/numbering.py:42-45 -/
def NumberingControl : DMembers :=
  m "flags" (.flags NumberingControlFlags) <| m "number" UINT16 .nil
/-- controls/numbering.py:52-56 -/
def AutoNumbering : DMembers := m "usersymbol" WCHAR <| m "prefix" WCHAR <| m "suffix" WCHAR .nil

/-- controls/page_hide.py:32-42 -/
def PageHide : DMembers :=
  m "flags" (.flags ⟨.UINT32, [bit 0 "header", bit 1 "footer", bit 2 "basepage",
    bit 3 "pageborder", bit 4 "pagefill", bit 5 "pagenumber"]⟩) .nil

/-- controls/page_number_position.py:34-49 -/
def PageNumberPosition : DMembers :=
  m "flags" (.flags ⟨.UINT32, [bits 0 7 "shape", bitsE 8 11 (enumOf ["NONE", "TOP_LEFT",
    "TOP_CENTER", "TOP_RIGHT", "BOTTOM_LEFT", "BOTTOM_CENTER", "BOTTOM_RIGHT", "OUTSIDE_TOP",
    "OUTSIDE_BOTTOM", "INSIDE_TOP", "INSIDE_BOTTOM"]) "position"]⟩) <|
  m "usersymbol" WCHAR <| m "prefix" WCHAR <| m "suffix" WCHAR <| m "dash" WCHAR .nil

/-- controls/page_odd_even.py:33-39 -/
def PageOddEven : DMembers :=
  m "flags" (.flags ⟨.UINT32,
    [bitsE 0 1 (enumOf ["BOTH_PAGES", "EVEN_PAGE", "ODD_PAGE"]) "pages"]⟩) .nil

/-- controls/section_def.py:38-50 -/
def SectionDefFlags : FlagsDecl :=
  ⟨.UINT32, [bit 0 "hide_header", bit 1 "hide_footer", bit 2 "hide_page", bit 3 "hide_border",
    bit 4 "hide_background", bit 5 "hide_pagenumber", bit 8 "show_border_on_first_page_only",
    bit 9 "show_background_on_first_page_only", bits 16 18 "text_direction",
    bit 19 "hide_blank_line", bits 20 21 "pagenum_on_split_section",
    bit 22 "squared_manuscript_paper"]⟩
/-- controls/section_def.py:52-65 -/
def SectionDef : DMembers :=
  m "flags" (.flags SectionDefFlags) <| m "columnspacing" HWPUNIT16 <|
  m "grid_vertical" HWPUNIT16 <| m "grid_horizontal" HWPUNIT16 <| m "defaultTabStops" HWPUNIT <|
  m "numbering_shape_id" UINT16 <| m "starting_pagenum" UINT16 <|
  m "starting_picturenum" UINT16 <| m "starting_tablenum" UINT16 <|
  m "starting_equationnum" UINT16 <| mv [5, 0, 1, 7] "unknown1" UINT32 <|
  mv [5, 0, 1, 7] "unknown2" UINT32 .nil
/-- controls/section_def.py:71-73 -/
def SectionDefData : DMembers := m "unknown" (HexBytes 280) .nil

/-- controls/tcps_control.py:32-38 -/
def TCPSControl : DMembers := m "textlength" BSTR .nil

/-- xmlmodel.py:788-792 `HwpDoc` -/
def HwpDoc : DMembers := m "version" (.prim .version) .nil

end Decl

open Decl in
/-- The model classes with `attributes` of their own and their members; `EqEdit`
(tagid72_ctrl_eqedit.py:38-49), `BookmarkControl` (bookmark_control.py:35-38) and
`HiddenComment` (hidden_comment.py:31-34) have empty ones. -/
def classMembers : List (String × DMembers) :=
  [("DocumentProperties", DocumentProperties), ("IdMappings", IdMappings), ("BinData", BinData),
   ("FaceName", FaceName), ("BorderFill", BorderFill), ("CharShape", CharShape),
   ("TabDef", TabDef), ("Numbering", Numbering), ("Bullet", Bullet), ("ParaShape", ParaShape),
   ("Style", Style), ("CompatibleDocument", CompatibleDocument),
   ("LayoutCompatibility", LayoutCompatibility), ("Paragraph", Paragraph), ("ParaText", ParaText),
   ("ParaCharShape", ParaCharShape), ("ParaLineSeg", ParaLineSeg), ("ParaRangeTag", ParaRangeTag),
   ("Control", Control), ("ListHeader", ListHeader), ("TableCaption", TableCaption),
   ("TableCell", TableCell), ("TextboxParagraphList", TextboxParagraphList),
   ("HeaderFooterParagraphList", HeaderFooterParagraphList), ("PageDef", PageDef),
   ("FootnoteShape", FootnoteShape), ("PageBorderFill", PageBorderFill),
   ("ShapeComponent", ShapeComponent), ("TableBody", TableBody), ("ShapeLine", ShapeLine),
   ("ShapeRectangle", ShapeRectangle), ("ShapeEllipse", ShapeEllipse), ("ShapeArc", ShapeArc),
   ("ShapePolygon", ShapePolygon), ("ShapeCurve", ShapeCurve), ("ShapeOLE", ShapeOLE),
   ("ShapePicture", ShapePicture), ("EqEdit", .nil), ("BookmarkControl", .nil),
   ("BookmarkControlData", BookmarkControlData), ("ColumnsDef", ColumnsDef),
   ("CommonControl", CommonControl), ("Dutmal", Dutmal), ("Field", Field),
   ("HeaderFooter", HeaderFooter), ("HiddenComment", .nil), ("IndexMarker", IndexMarker),
   ("Note", Note), ("NumberingControl", NumberingControl), ("AutoNumbering", AutoNumbering),
   ("PageHide", PageHide), ("PageNumberPosition", PageNumberPosition),
   ("PageOddEven", PageOddEven), ("SectionDef", SectionDef), ("SectionDefData", SectionDefData),
   ("TCPSControl", TCPSControl), ("LineSeg", LineSegMembers), ("HwpDoc", HwpDoc)]

/-- The names of the model classes. -/
def modelNames : List String :=
  tagModels.map (·.2) ++ controlModels.map (·.2) ++ listHeaderModels.map (·.2) ++
    controlDataModels.map (·.2) ++ ["UnknownTagModel", "LineSeg", "HwpDoc"]

/-- dataio.py:580-588: the classes of the method resolution order with `attributes`, base
class first, with their members. -/
def classChain (c : String) : List DMembers := (mro 4 c).reverse.filterMap (classMembers.lookup ·)

/-- Members of a list of classes one after the other. -/
def DMembers.append : DMembers → DMembers → DMembers
  | .nil, ys => ys
  | .cons n v c t rest, ys => .cons n v c t (rest.append ys)

/-- Names of the members. -/
def DMembers.names : DMembers → List String
  | .nil => []
  | .cons n _ _ _ rest => n :: rest.names

end Hwp
