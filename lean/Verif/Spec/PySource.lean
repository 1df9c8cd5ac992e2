/-
The declarations of the record types (and of `HwpDoc`) as they are written in the Python source: expressions as
they are parsed, nothing evaluated.  Made by tools/pysource.py from the text of
/repo/src/hwp5/binmodel and /repo/src/hwp5/tagids.py.
-/
namespace Hwp.Spec

/-- Python expressions. -/
inductive PyEx where
  | name (s : String)
  | attr (e : PyEx) (a : String)
  | str (s : String)
  | num (n : Nat)
  | tuple (es : List PyEx)
  | call (f : PyEx) (args : List PyEx) (kwargs : List (String × PyEx))
  | dict (items : List (PyEx × PyEx))
  | index (e i : PyEx)
  | not (e : PyEx)
  | and (a b : PyEx)
  | eq (a b : PyEx)
  | sub (a b : PyEx)
  | add (a b : PyEx)

/-- A member: `yield type, name` or `yield dict(type=..., name=..., version=...,
condition=...)`.  The condition is the expression a local function of that name returns, or the
name of another function. -/
structure PyMember where
  name : String
  type : PyEx
  version : List Nat
  condition : Option PyEx

/-- A class: base classes, assignments in its body, members (if it has `attributes`). -/
structure PyClass where
  name : String
  bases : List String
  attrs : List (String × PyEx)
  members : Option (List PyMember)

namespace PySource

/-- binmodel/controlchar.py:38 -/
def cCHID : PyClass where
  name := "CHID"
  bases := ["str"]
  attrs := [("fixed_size", .num 4),
    ("GSO", .str "gso "),
    ("TBL", .str "tbl "),
    ("LINE", .str "$lin"),
    ("RECT", .str "$rec"),
    ("ELLI", .str "$ell"),
    ("ARC", .str "$arc"),
    ("POLY", .str "$pol"),
    ("CURV", .str "$cur"),
    ("EQED", .str "eqed"),
    ("PICT", .str "$pic"),
    ("OLE", .str "$ole"),
    ("CONTAINER", .str "$con"),
    ("SECD", .str "secd"),
    ("COLD", .str "cold"),
    ("HEADER", .str "head"),
    ("FOOTER", .str "foot"),
    ("FN", .str "fn  "),
    ("EN", .str "en  "),
    ("ATNO", .str "atno"),
    ("NWNO", .str "nwno"),
    ("PGHD", .str "pghd"),
    ("PGCT", .str "pgct"),
    ("PGNP", .str "pgnp"),
    ("IDXM", .str "idxm"),
    ("BOKM", .str "bokm"),
    ("TCPS", .str "tcps"),
    ("TDUT", .str "tdut"),
    ("TCMT", .str "tcmt"),
    ("FIELD_UNK", .str "%unk"),
    ("FIELD_DTE", .str "%dte"),
    ("FIELD_DDT", .str "%ddt"),
    ("FIELD_PAT", .str "%pat"),
    ("FIELD_BMK", .str "%bmk"),
    ("FIELD_MMG", .str "%mmg"),
    ("FIELD_XRF", .str "%xrf"),
    ("FIELD_FMU", .str "%fmu"),
    ("FIELD_CLK", .str "%clk"),
    ("FIELD_SMR", .str "%smr"),
    ("FIELD_USR", .str "%usr"),
    ("FIELD_HLK", .str "%hlk"),
    ("FIELD_REVISION_SIGN", .str "%sig"),
    ("FIELD_REVISION_DELETE", .str "%%*d"),
    ("FIELD_REVISION_ATTACH", .str "%%*a"),
    ("FIELD_REVISION_CLIPPING", .str "%%*C"),
    ("FIELD_REVISION_SAWTOOTH", .str "%%*S"),
    ("FIELD_REVISION_THINKING", .str "%%*T"),
    ("FIELD_REVISION_PRAISE", .str "%%*P"),
    ("FIELD_REVISION_LINE", .str "%%*L"),
    ("FIELD_REVISION_SIMPLECHANGE", .str "%%*c"),
    ("FIELD_REVISION_HYPERLINK", .str "%%*h"),
    ("FIELD_REVISION_LINEATTACH", .str "%%*A"),
    ("FIELD_REVISION_LINELINK", .str "%%*i"),
    ("FIELD_REVISION_LINETRANSFER", .str "%%*t"),
    ("FIELD_REVISION_RIGHTMOVE", .str "%%*r"),
    ("FIELD_REVISION_LEFTMOVE", .str "%%*l"),
    ("FIELD_REVISION_TRANSFER", .str "%%*n"),
    ("FIELD_REVISION_SIMPLEINSERT", .str "%%*e"),
    ("FIELD_REVISION_SPLIT", .str "%spl"),
    ("FIELD_REVISION_CHANGE", .str "%%mr"),
    ("FIELD_MEMO", .str "%%me"),
    ("FIELD_PRIVATE_INFO_SECURITY", .str "%cpr"),
    ("decode", .call (.name "staticmethod") [.name "decode"] [])]
  members := none

/-- binmodel/_shared.py:49 -/
def cRecordModelType : PyClass where
  name := "RecordModelType"
  bases := ["StructType"]
  attrs := []
  members := none

/-- binmodel/_shared.py:60 -/
def cRecordModel : PyClass where
  name := "RecordModel"
  bases := ["object"]
  attrs := []
  members := none

/-- binmodel/_shared.py:64 -/
def cBinStorageId : PyClass where
  name := "BinStorageId"
  bases := ["UINT16"]
  attrs := []
  members := none

/-- binmodel/_shared.py:68 -/
def cCOLORREF : PyClass where
  name := "COLORREF"
  bases := ["int"]
  attrs := [("binfmt", .attr (.name "INT32") "binfmt"),
    ("never_instantiate", .num 0)]
  members := none

/-- binmodel/_shared.py:93 -/
def cMargin : PyClass where
  name := "Margin"
  bases := ["Struct"]
  attrs := []
  members := some [⟨"left", .name "HWPUNIT16", [], none⟩,
    ⟨"right", .name "HWPUNIT16", [], none⟩,
    ⟨"top", .name "HWPUNIT16", [], none⟩,
    ⟨"bottom", .name "HWPUNIT16", [], none⟩]

/-- binmodel/_shared.py:102 -/
def cCoord : PyClass where
  name := "Coord"
  bases := ["Struct"]
  attrs := []
  members := some [⟨"x", .name "SHWPUNIT", [], none⟩,
    ⟨"y", .name "SHWPUNIT", [], none⟩]

/-- binmodel/_shared.py:109 -/
def cBorder : PyClass where
  name := "Border"
  bases := ["Struct"]
  attrs := [("StrokeEnum", .call (.name "Enum") [.str "none", .str "solid", .str "dashed", .str "dotted", .str "dash-dot", .str "dash-dot-dot", .str "long-dash", .str "large-dot", .str "double", .str "double-2", .str "double-3", .str "triple", .str "wave", .str "double-wave", .str "inset", .str "outset", .str "groove", .str "ridge"] []),
    ("StrokeType", .call (.name "Flags") [.name "UINT8", .num 0, .num 4, .name "StrokeEnum", .str "stroke_type"] []),
    ("widths", .dict [(.str "0.1mm", .num 0), (.str "0.12mm", .num 1), (.str "0.15mm", .num 2), (.str "0.2mm", .num 3), (.str "0.25mm", .num 4), (.str "0.3mm", .num 5), (.str "0.4mm", .num 6), (.str "0.5mm", .num 7), (.str "0.6mm", .num 8), (.str "0.7mm", .num 9), (.str "1.0mm", .num 10), (.str "1.5mm", .num 11), (.str "2.0mm", .num 12), (.str "3.0mm", .num 13), (.str "4.0mm", .num 14), (.str "5.0mm", .num 15)]),
    ("WidthEnum", .call (.name "Enum") [] [("**", .name "widths")]),
    ("Width", .call (.name "Flags") [.name "UINT8", .num 0, .num 4, .name "WidthEnum", .str "width"] [])]
  members := some [⟨"stroke_flags", .attr (.name "cls") "StrokeType", [], none⟩,
    ⟨"width_flags", .attr (.name "cls") "Width", [], none⟩,
    ⟨"color", .name "COLORREF", [], none⟩]

/-- binmodel/_shared.py:149 -/
def cBorderLine : PyClass where
  name := "BorderLine"
  bases := ["Struct"]
  attrs := [("LineEnd", .call (.name "Enum") [.str "round", .str "flat"] []),
    ("ArrowShape", .call (.name "Enum") [.str "none", .str "arrow", .str "arrow2", .str "diamond", .str "circle", .str "rect", .str "diamondfilled", .str "disc", .str "rectfilled"] []),
    ("ArrowSize", .call (.name "Enum") [.str "smallest", .str "smaller", .str "small", .str "abitsmall", .str "normal", .str "abitlarge", .str "large", .str "larger", .str "largest"] []),
    ("Flags", .call (.name "Flags") [.name "UINT32", .num 0, .num 5, .attr (.name "Border") "StrokeEnum", .str "stroke", .num 6, .num 9, .name "LineEnd", .str "line_end", .num 10, .num 15, .name "ArrowShape", .str "arrow_start", .num 16, .num 21, .name "ArrowShape", .str "arrow_end", .num 22, .num 25, .name "ArrowSize", .str "arrow_start_size", .num 26, .num 29, .name "ArrowSize", .str "arrow_end_size", .num 30, .str "arrow_start_fill", .num 31, .str "arrow_end_fill"] [])]
  members := some [⟨"color", .name "COLORREF", [], none⟩,
    ⟨"width", .name "INT32", [], none⟩,
    ⟨"flags", .attr (.name "cls") "Flags", [], none⟩]

/-- binmodel/_shared.py:176 -/
def cFill : PyClass where
  name := "Fill"
  bases := ["Struct"]
  attrs := []
  members := none

/-- binmodel/_shared.py:180 -/
def cFillNone : PyClass where
  name := "FillNone"
  bases := ["Fill"]
  attrs := []
  members := some [⟨"size", .name "UINT32", [], none⟩]

/-- binmodel/_shared.py:186 -/
def cFillColorPattern : PyClass where
  name := "FillColorPattern"
  bases := ["Fill"]
  attrs := [("PatternTypeEnum", .call (.name "Enum") [] [("NONE", .num 255), ("HORIZONTAL", .num 0), ("VERTICAL", .num 1), ("BACKSLASH", .num 2), ("SLASH", .num 3), ("GRID", .num 4), ("CROSS", .num 5)]),
    ("PatternTypeFlags", .call (.name "Flags") [.name "UINT32", .num 0, .num 7, .name "PatternTypeEnum", .str "pattern_type"] [])]
  members := some [⟨"background_color", .name "COLORREF", [], none⟩,
    ⟨"pattern_color", .name "COLORREF", [], none⟩,
    ⟨"pattern_type_flags", .attr (.name "cls") "PatternTypeFlags", [], none⟩]

/-- binmodel/_shared.py:200 -/
def cFillImage : PyClass where
  name := "FillImage"
  bases := ["Fill"]
  attrs := [("FillImageEnum", .call (.name "Enum") [] [("TILE_ALL", .num 0), ("TILE_HORIZONTAL_TOP", .num 1), ("TILE_HORIZONTAL_BOTTOM", .num 2), ("TILE_VERTICAL_LEFT", .num 3), ("TILE_VERTICAL_RIGHT", .num 4), ("RESIZE", .num 5), ("CENTER", .num 6), ("CENTER_TOP", .num 7), ("CENTER_BOTTOM", .num 8), ("LEFT_MIDDLE", .num 9), ("LEFT_TOP", .num 10), ("LEFT_BOTTOM", .num 11), ("RIGHT_MIDDLE", .num 12), ("RIGHT_TOP", .num 13), ("RIGHT_BOTTOM", .num 14), ("NONE", .num 15)]),
    ("FillImageFlags", .call (.name "Flags") [.name "BYTE", .num 0, .num 16, .name "FillImageEnum", .str "fillimage_type"] []),
    ("EffectEnum", .call (.name "Enum") [] [("REAL_PIC", .num 0), ("GRAY_SCALE", .num 1), ("BLACK_WHITE", .num 2), ("PATTERN8x8", .num 3)]),
    ("EffectFlags", .call (.name "Flags") [.name "UINT8", .num 0, .num 8, .name "EffectEnum", .str "effect_type"] [])]
  members := some [⟨"flags", .attr (.name "cls") "FillImageFlags", [], none⟩,
    ⟨"brightness", .name "INT8", [], none⟩,
    ⟨"contrast", .name "INT8", [], none⟩,
    ⟨"effect", .attr (.name "cls") "EffectFlags", [], none⟩,
    ⟨"bindata_id", .name "UINT16", [], none⟩]

/-- binmodel/_shared.py:236 -/
def cCoord32 : PyClass where
  name := "Coord32"
  bases := ["Struct"]
  attrs := []
  members := some [⟨"x", .name "UINT32", [], none⟩,
    ⟨"y", .name "UINT32", [], none⟩]

/-- binmodel/_shared.py:248 -/
def cFillGradation : PyClass where
  name := "FillGradation"
  bases := ["Fill"]
  attrs := []
  members := some [⟨"type", .name "GradationTypeFlags", [], none⟩,
    ⟨"shear", .name "UINT32", [], none⟩,
    ⟨"center", .name "Coord32", [], none⟩,
    ⟨"blur", .name "UINT32", [], none⟩,
    ⟨"colors", .call (.name "N_ARRAY") [.name "UINT32", .name "COLORREF"] [], [], none⟩]

/-- binmodel/controls/_shared.py:34 -/
def cControlType : PyClass where
  name := "ControlType"
  bases := ["RecordModelType"]
  attrs := []
  members := none

/-- binmodel/controls/_shared.py:45 -/
def cControl : PyClass where
  name := "Control"
  bases := ["RecordModel"]
  attrs := [("tagid", .name "HWPTAG_CTRL_HEADER"),
    ("extension_types", .name "control_models"),
    ("get_extension_key", .call (.name "classmethod") [.name "get_extension_key"] [])]
  members := some [⟨"chid", .name "CHID", [], none⟩]

/-- binmodel/tagid16_document_properties.py:29 -/
def cDocumentProperties : PyClass where
  name := "DocumentProperties"
  bases := ["RecordModel"]
  attrs := [("tagid", .name "HWPTAG_DOCUMENT_PROPERTIES")]
  members := some [⟨"section_count", .name "UINT16", [], none⟩,
    ⟨"page_startnum", .name "UINT16", [], none⟩,
    ⟨"footnote_startnum", .name "UINT16", [], none⟩,
    ⟨"endnote_startnum", .name "UINT16", [], none⟩,
    ⟨"picture_startnum", .name "UINT16", [], none⟩,
    ⟨"table_startnum", .name "UINT16", [], none⟩,
    ⟨"math_startnum", .name "UINT16", [], none⟩,
    ⟨"list_id", .name "UINT32", [], none⟩,
    ⟨"paragraph_id", .name "UINT32", [], none⟩,
    ⟨"character_unit_loc_in_paragraph", .name "UINT32", [], none⟩]

/-- binmodel/tagid17_id_mappings.py:28 -/
def cIdMappings : PyClass where
  name := "IdMappings"
  bases := ["RecordModel"]
  attrs := [("tagid", .name "HWPTAG_ID_MAPPINGS")]
  members := some [⟨"bindata", .name "UINT32", [], none⟩,
    ⟨"ko_fonts", .name "UINT32", [], none⟩,
    ⟨"en_fonts", .name "UINT32", [], none⟩,
    ⟨"cn_fonts", .name "UINT32", [], none⟩,
    ⟨"jp_fonts", .name "UINT32", [], none⟩,
    ⟨"other_fonts", .name "UINT32", [], none⟩,
    ⟨"symbol_fonts", .name "UINT32", [], none⟩,
    ⟨"user_fonts", .name "UINT32", [], none⟩,
    ⟨"borderfills", .name "UINT32", [], none⟩,
    ⟨"charshapes", .name "UINT32", [], none⟩,
    ⟨"tabdefs", .name "UINT32", [], none⟩,
    ⟨"numberings", .name "UINT32", [], none⟩,
    ⟨"bullets", .name "UINT32", [], none⟩,
    ⟨"parashapes", .name "UINT32", [], none⟩,
    ⟨"styles", .name "UINT32", [], none⟩,
    ⟨"memoshapes", .name "UINT32", [5, 0, 1, 7], none⟩]

/-- binmodel/tagid18_bin_data.py:35 -/
def cBinDataLink : PyClass where
  name := "BinDataLink"
  bases := ["Struct"]
  attrs := []
  members := some [⟨"abspath", .name "BSTR", [], none⟩,
    ⟨"relpath", .name "BSTR", [], none⟩]

/-- binmodel/tagid18_bin_data.py:42 -/
def cBinDataEmbedding : PyClass where
  name := "BinDataEmbedding"
  bases := ["Struct"]
  attrs := []
  members := some [⟨"storage_id", .name "BinStorageId", [], none⟩,
    ⟨"ext", .name "BSTR", [], none⟩]

/-- binmodel/tagid18_bin_data.py:49 -/
def cBinDataStorage : PyClass where
  name := "BinDataStorage"
  bases := ["Struct"]
  attrs := []
  members := some [⟨"storage_id", .name "BinStorageId", [], none⟩]

/-- binmodel/tagid18_bin_data.py:55 -/
def cBinData : PyClass where
  name := "BinData"
  bases := ["RecordModel"]
  attrs := [("tagid", .name "HWPTAG_BIN_DATA"),
    ("StorageType", .call (.name "Enum") [] [("LINK", .num 0), ("EMBEDDING", .num 1), ("STORAGE", .num 2)]),
    ("CompressionType", .call (.name "Enum") [] [("STORAGE_DEFAULT", .num 0), ("YES", .num 1), ("NO", .num 2)]),
    ("AccessState", .call (.name "Enum") [] [("NEVER", .num 0), ("OK", .num 1), ("FAILED", .num 2), ("FAILED_IGNORED", .num 3)]),
    ("Flags", .call (.name "Flags") [.name "UINT16", .num 0, .num 3, .name "StorageType", .str "storage", .num 4, .num 5, .name "CompressionType", .str "compression", .num 16, .num 17, .name "AccessState", .str "access"] [])]
  members := some [⟨"flags", .attr (.name "cls") "Flags", [], none⟩,
    ⟨"bindata", .call (.name "SelectiveType") [.call (.name "ref_member_flag") [.str "flags", .str "storage"] [], .dict [(.attr (.attr (.name "cls") "StorageType") "LINK", .name "BinDataLink"), (.attr (.attr (.name "cls") "StorageType") "EMBEDDING", .name "BinDataEmbedding"), (.attr (.attr (.name "cls") "StorageType") "STORAGE", .name "BinDataStorage")]] [], [], none⟩]

/-- binmodel/tagid19_face_name.py:32 -/
def cAlternateFont : PyClass where
  name := "AlternateFont"
  bases := ["Struct"]
  attrs := []
  members := some [⟨"kind", .name "BYTE", [], none⟩,
    ⟨"name", .name "BSTR", [], none⟩]

/-- binmodel/tagid19_face_name.py:39 -/
def cPanose1 : PyClass where
  name := "Panose1"
  bases := ["Struct"]
  attrs := [("FamilyType", .call (.name "Enum") [.str "any", .str "no_fit", .str "text_display", .str "script", .str "decorative", .str "pictorial"] []),
    ("SerifStyle", .call (.name "Enum") [.str "any", .str "no_fit", .str "cove", .str "obtuse_cove", .str "square_cove", .str "obtuse_square_cove", .str "square", .str "thin", .str "bone", .str "exaggerated", .str "triangle", .str "normal_sans", .str "obtuse_sans", .str "perp_sans", .str "flared", .str "rounded"] []),
    ("Weight", .call (.name "Enum") [.str "any", .str "no_fit", .str "very_light", .str "light", .str "thin", .str "book", .str "medium", .str "demi", .str "bold", .str "heavy", .str "black", .str "nord"] []),
    ("Proportion", .call (.name "Enum") [.str "any", .str "no_fit", .str "old_style", .str "modern", .str "even_width", .str "expanded", .str "condensed", .str "very_expanded", .str "very_condensed", .str "monospaced"] []),
    ("Contrast", .call (.name "Enum") [.str "any", .str "no_fit", .str "none", .str "very_low", .str "low", .str "medium_low", .str "medium", .str "medium_high", .str "high", .str "very_high"] []),
    ("StrokeVariation", .call (.name "Enum") [.str "any", .str "no_fit", .str "gradual_diag", .str "gradual_tran", .str "gradual_vert", .str "gradual_horz", .str "rapid_vert", .str "rapid_horz", .str "instant_vert"] []),
    ("ArmStyle", .call (.name "Enum") [.str "any", .str "no_fit", .str "straight_horz", .str "straight_wedge", .str "straight_vert", .str "straight_single_serif", .str "straight_double_serif", .str "bent_horz", .str "bent_wedge", .str "bent_vert", .str "bent_single_serif", .str "bent_double_serif"] []),
    ("Letterform", .call (.name "Enum") [.str "any", .str "no_fit", .str "normal_contact", .str "normal_weighted", .str "normal_boxed", .str "normal_flattened", .str "normal_rounded", .str "normal_off_center", .str "normal_square", .str "oblique_contact", .str "oblique_weighted", .str "oblique_boxed", .str "oblique_flattened", .str "oblique_rounded", .str "oblique_off_center", .str "oblique_square"] []),
    ("Midline", .call (.name "Enum") [.str "any", .str "no_fit", .str "standard_trimmed", .str "standard_pointed", .str "standard_serifed", .str "high_trimmed", .str "high_pointed", .str "high_serifed", .str "constant_trimmed", .str "constant_pointed", .str "constant_serifed", .str "low_trimmed", .str "low_pointed", .str "low_serifed"] []),
    ("XHeight", .call (.name "Enum") [.str "any", .str "no_fit", .str "constant_small", .str "constant_std", .str "constant_large", .str "ducking_small", .str "ducking_std", .str "ducking_large"] [])]
  members := some [⟨"family_type", .name "BYTE", [], none⟩,
    ⟨"serif_style", .name "BYTE", [], none⟩,
    ⟨"weight", .name "BYTE", [], none⟩,
    ⟨"proportion", .name "BYTE", [], none⟩,
    ⟨"contrast", .name "BYTE", [], none⟩,
    ⟨"stroke_variation", .name "BYTE", [], none⟩,
    ⟨"arm_style", .name "BYTE", [], none⟩,
    ⟨"letterform", .name "BYTE", [], none⟩,
    ⟨"midline", .name "BYTE", [], none⟩,
    ⟨"x_height", .name "BYTE", [], none⟩]

/-- binmodel/tagid19_face_name.py:100 -/
def cFaceName : PyClass where
  name := "FaceName"
  bases := ["RecordModel"]
  attrs := [("tagid", .name "HWPTAG_FACE_NAME"),
    ("FontFileType", .call (.name "Enum") [] [("UNKNOWN", .num 0), ("TTF", .num 1), ("HFT", .num 2)]),
    ("Flags", .call (.name "Flags") [.name "BYTE", .num 0, .num 1, .name "FontFileType", .str "font_file_type", .num 5, .str "default", .num 6, .str "metric", .num 7, .str "alternate"] [])]
  members := some [⟨"flags", .attr (.name "cls") "Flags", [], none⟩,
    ⟨"name", .name "BSTR", [], none⟩,
    ⟨"alternate_font", .name "AlternateFont", [], some (.attr (.index (.name "values") (.str "flags")) "alternate")⟩,
    ⟨"panose1", .name "Panose1", [], some (.attr (.index (.name "values") (.str "flags")) "metric")⟩,
    ⟨"default_font", .name "BSTR", [], some (.attr (.index (.name "values") (.str "flags")) "default")⟩]

/-- binmodel/tagid20_border_fill.py:36 -/
def cBorderFill : PyClass where
  name := "BorderFill"
  bases := ["RecordModel"]
  attrs := [("tagid", .name "HWPTAG_BORDER_FILL"),
    ("BorderFlags", .call (.name "Flags") [.name "UINT16", .num 0, .str "effect_3d", .num 1, .str "effect_shadow", .num 2, .num 4, .str "slash", .num 5, .num 6, .str "backslash"] []),
    ("FillFlags", .call (.name "Flags") [.name "UINT32", .num 0, .str "colorpattern", .num 1, .str "image", .num 2, .str "gradation"] [])]
  members := some [⟨"borderflags", .attr (.name "cls") "BorderFlags", [], none⟩,
    ⟨"left", .name "Border", [], none⟩,
    ⟨"right", .name "Border", [], none⟩,
    ⟨"top", .name "Border", [], none⟩,
    ⟨"bottom", .name "Border", [], none⟩,
    ⟨"diagonal", .name "Border", [], none⟩,
    ⟨"fillflags", .attr (.name "cls") "FillFlags", [], none⟩,
    ⟨"fill_colorpattern", .name "FillColorPattern", [], some (.attr (.index (.name "values") (.str "fillflags")) "colorpattern")⟩,
    ⟨"fill_gradation", .name "FillGradation", [], some (.attr (.index (.name "values") (.str "fillflags")) "gradation")⟩,
    ⟨"fill_image", .name "FillImage", [], some (.attr (.index (.name "values") (.str "fillflags")) "image")⟩,
    ⟨"shape", .name "UINT32", [], some (.attr (.index (.name "values") (.str "fillflags")) "gradation")⟩,
    ⟨"blur_center", .name "BYTE", [], some (.attr (.index (.name "values") (.str "fillflags")) "gradation")⟩]

/-- binmodel/tagid21_char_shape.py:47 -/
def cShadowSpace : PyClass where
  name := "ShadowSpace"
  bases := ["Struct"]
  attrs := []
  members := some [⟨"x", .name "INT8", [], none⟩,
    ⟨"y", .name "INT8", [], none⟩]

/-- binmodel/tagid21_char_shape.py:54 -/
def cCharShape : PyClass where
  name := "CharShape"
  bases := ["RecordModel"]
  attrs := [("tagid", .name "HWPTAG_CHAR_SHAPE"),
    ("Underline", .call (.name "Enum") [] [("NONE", .num 0), ("UNDERLINE", .num 1), ("LINE_THROUGH", .num 2), ("OVERLINE", .num 3)]),
    ("UnderlineStyle", .call (.name "Enum") [] [("SOLID", .num 0), ("DASHED", .num 1), ("DOTTED", .num 2), ("DASH_DOT", .num 3), ("DASH_DOT_DOT", .num 4), ("LONG_DASHED", .num 5), ("LARGE_DOTTED", .num 6), ("DOUBLE", .num 7), ("LOWER_WEIGHTED", .num 8), ("UPPER_WEIGHTED", .num 9), ("MIDDLE_WEIGHTED", .num 10)]),
    ("Flags", .call (.name "Flags") [.name "UINT32", .num 0, .str "italic", .num 1, .str "bold", .num 2, .num 3, .name "Underline", .str "underline", .num 4, .num 7, .name "UnderlineStyle", .str "underline_style", .num 8, .num 10, .str "outline", .num 11, .num 13, .str "shadow"] [])]
  members := some [⟨"font_face", .call (.name "LanguageStruct") [.str "FontFace", .name "WORD"] [], [], none⟩,
    ⟨"letter_width_expansion", .call (.name "LanguageStruct") [.str "LetterWidthExpansion", .name "UINT8"] [], [], none⟩,
    ⟨"letter_spacing", .call (.name "LanguageStruct") [.str "LetterSpacing", .name "INT8"] [], [], none⟩,
    ⟨"relative_size", .call (.name "LanguageStruct") [.str "RelativeSize", .name "INT8"] [], [], none⟩,
    ⟨"position", .call (.name "LanguageStruct") [.str "Position", .name "INT8"] [], [], none⟩,
    ⟨"basesize", .name "INT32", [], none⟩,
    ⟨"charshapeflags", .attr (.name "cls") "Flags", [], none⟩,
    ⟨"shadow_space", .name "ShadowSpace", [], none⟩,
    ⟨"text_color", .name "COLORREF", [], none⟩,
    ⟨"underline_color", .name "COLORREF", [], none⟩,
    ⟨"shade_color", .name "COLORREF", [], none⟩,
    ⟨"shadow_color", .name "COLORREF", [], none⟩]

/-- binmodel/tagid22_tab_def.py:33 -/
def cTab : PyClass where
  name := "Tab"
  bases := ["Struct"]
  attrs := [("Kind", .call (.name "Enum") [] [("LEFT", .num 0), ("RIGHT", .num 1), ("CENTER", .num 2), ("FLOAT", .num 3)]),
    ("Flags", .call (.name "Flags") [.name "UINT32", .num 0, .num 7, .name "Kind", .str "kind", .num 8, .num 15, .str "fill_type"] [])]
  members := some [⟨"pos", .name "HWPUNIT", [], none⟩,
    ⟨"flags", .attr (.name "cls") "Flags", [], none⟩]

/-- binmodel/tagid22_tab_def.py:47 -/
def cTabDef : PyClass where
  name := "TabDef"
  bases := ["RecordModel"]
  attrs := [("tagid", .name "HWPTAG_TAB_DEF"),
    ("Flags", .call (.name "Flags") [.name "UINT32", .num 0, .str "autotab_left", .num 1, .str "autotab_right"] [])]
  members := some [⟨"flags", .attr (.name "cls") "Flags", [], none⟩,
    ⟨"tabs", .call (.name "N_ARRAY") [.name "UINT32", .name "Tab"] [], [], none⟩]

/-- binmodel/tagid23_numbering.py:36 -/
def cNumberingLevel : PyClass where
  name := "NumberingLevel"
  bases := ["Struct"]
  attrs := [("Align", .call (.name "Enum") [] [("LEFT", .num 0), ("CENTER", .num 1), ("RIGHT", .num 2), ("UNKNOWN", .num 3)]),
    ("DistanceType", .call (.name "Enum") [] [("RATIO", .num 0), ("VALUE", .num 1)]),
    ("Flags", .call (.name "Flags") [.name "UINT32", .num 0, .num 1, .name "Align", .str "align", .num 2, .str "auto_width", .num 3, .str "auto_indent", .num 4, .name "DistanceType", .str "space_type"] [])]
  members := some [⟨"flags", .attr (.name "cls") "Flags", [], none⟩,
    ⟨"width_correction", .name "HWPUNIT16", [], none⟩,
    ⟨"space", .name "UINT16", [], none⟩,
    ⟨"charshape_id", .name "INT32", [], none⟩,
    ⟨"numbering_format", .name "BSTR", [], none⟩]

/-- binmodel/tagid23_numbering.py:57 -/
def cNumbering : PyClass where
  name := "Numbering"
  bases := ["RecordModel"]
  attrs := [("tagid", .name "HWPTAG_NUMBERING"),
    ("Align", .attr (.name "NumberingLevel") "Align"),
    ("DistanceType", .attr (.name "NumberingLevel") "DistanceType"),
    ("Flags", .attr (.name "NumberingLevel") "Flags")]
  members := some [⟨"levels", .call (.name "ARRAY") [.name "NumberingLevel", .num 7] [], [], none⟩,
    ⟨"starting_number", .name "UINT16", [], none⟩,
    ⟨"unknown", .call (.name "ARRAY") [.name "UINT32", .num 7] [], [5, 0, 3, 0], none⟩]

/-- binmodel/tagid24_bullet.py:40 -/
def cBullet : PyClass where
  name := "Bullet"
  bases := ["RecordModel"]
  attrs := [("tagid", .name "HWPTAG_BULLET")]
  members := some [⟨"flags", .name "BulletFlags", [], none⟩,
    ⟨"width", .name "HWPUNIT16", [], none⟩,
    ⟨"space", .name "UINT16", [], none⟩,
    ⟨"charshape_id", .name "INT32", [], none⟩,
    ⟨"char", .name "WCHAR", [], none⟩]

/-- binmodel/tagid25_para_shape.py:34 -/
def cParaShape : PyClass where
  name := "ParaShape"
  bases := ["RecordModel"]
  attrs := [("tagid", .name "HWPTAG_PARA_SHAPE"),
    ("LineSpacingType", .call (.name "Enum") [] [("RATIO", .num 0), ("FIXED", .num 1), ("SPACEONLY", .num 2), ("MINIMUM", .num 3)]),
    ("Align", .call (.name "Enum") [] [("BOTH", .num 0), ("LEFT", .num 1), ("RIGHT", .num 2), ("CENTER", .num 3), ("DISTRIBUTE", .num 4), ("DISTRIBUTE_SPACE", .num 5)]),
    ("VAlign", .call (.name "Enum") [] [("FONT", .num 0), ("TOP", .num 1), ("CENTER", .num 2), ("BOTTOM", .num 3)]),
    ("LineBreakAlphabet", .call (.name "Enum") [] [("WORD", .num 0), ("HYPHEN", .num 1), ("CHAR", .num 2)]),
    ("LineBreakHangul", .call (.name "Enum") [] [("WORD", .num 0), ("CHAR", .num 1)]),
    ("HeadShape", .call (.name "Enum") [] [("NONE", .num 0), ("OUTLINE", .num 1), ("NUMBER", .num 2), ("BULLET", .num 3)]),
    ("Flags1", .call (.name "Flags") [.name "UINT32", .num 0, .num 1, .name "LineSpacingType", .str "linespacing_type", .num 2, .num 4, .name "Align", .str "align", .num 5, .num 6, .name "LineBreakAlphabet", .str "linebreak_alphabet", .num 7, .name "LineBreakHangul", .str "linebreak_hangul", .num 8, .str "use_paper_grid", .num 9, .num 15, .str "minimum_space", .num 16, .str "protect_single_line", .num 17, .str "with_next_paragraph", .num 18, .str "protect", .num 19, .str "start_new_page", .num 20, .num 21, .name "VAlign", .str "valign", .num 22, .str "lineheight_along_fontsize", .num 23, .num 24, .name "HeadShape", .str "head_shape", .num 25, .num 27, .str "level", .num 28, .str "linked_border", .num 29, .str "ignore_margin", .num 30, .str "tail_shape"] []),
    ("Flags2", .call (.name "Flags") [.name "UINT32", .num 0, .num 1, .str "in_single_line", .num 2, .num 3, .str "reserved", .num 4, .str "autospace_alphabet", .num 5, .str "autospace_number"] []),
    ("Flags3", .call (.name "Flags") [.name "UINT32", .num 0, .num 4, .name "LineSpacingType", .str "linespacing_type3"] []),
    ("Flags", .name "Flags1")]
  members := some [⟨"parashapeflags", .attr (.name "cls") "Flags", [], none⟩,
    ⟨"doubled_margin_left", .name "INT32", [], none⟩,
    ⟨"doubled_margin_right", .name "INT32", [], none⟩,
    ⟨"indent", .name "SHWPUNIT", [], none⟩,
    ⟨"doubled_margin_top", .name "INT32", [], none⟩,
    ⟨"doubled_margin_bottom", .name "INT32", [], none⟩,
    ⟨"linespacing", .name "SHWPUNIT", [], none⟩,
    ⟨"tabdef_id", .name "UINT16", [], none⟩,
    ⟨"numbering_bullet_id", .name "UINT16", [], none⟩,
    ⟨"borderfill_id", .name "UINT16", [], none⟩,
    ⟨"border_left", .name "HWPUNIT16", [], none⟩,
    ⟨"border_right", .name "HWPUNIT16", [], none⟩,
    ⟨"border_top", .name "HWPUNIT16", [], none⟩,
    ⟨"border_bottom", .name "HWPUNIT16", [], none⟩,
    ⟨"flags2", .attr (.name "cls") "Flags2", [5, 0, 1, 7], none⟩]

/-- binmodel/tagid26_style.py:33 -/
def cStyle : PyClass where
  name := "Style"
  bases := ["RecordModel"]
  attrs := [("tagid", .name "HWPTAG_STYLE"),
    ("Kind", .call (.name "Enum") [] [("PARAGRAPH", .num 0), ("CHAR", .num 1)]),
    ("Flags", .call (.name "Flags") [.name "BYTE", .num 0, .num 1, .name "Kind", .str "kind"] [])]
  members := some [⟨"local_name", .name "BSTR", [], none⟩,
    ⟨"name", .name "BSTR", [], none⟩,
    ⟨"flags", .attr (.name "cls") "Flags", [], none⟩,
    ⟨"next_style_id", .name "BYTE", [], none⟩,
    ⟨"lang_id", .name "INT16", [], none⟩,
    ⟨"parashape_id", .name "UINT16", [], none⟩,
    ⟨"charshape_id", .name "UINT16", [], none⟩,
    ⟨"unknown", .name "UINT16", [], none⟩]

/-- binmodel/tagid27_doc_data.py:27 -/
def cDocData : PyClass where
  name := "DocData"
  bases := ["RecordModel"]
  attrs := [("tagid", .name "HWPTAG_DOC_DATA")]
  members := none

/-- binmodel/tagid28_distribute_doc_data.py:27 -/
def cDistributeDocData : PyClass where
  name := "DistributeDocData"
  bases := ["RecordModel"]
  attrs := [("tagid", .name "HWPTAG_DISTRIBUTE_DOC_DATA")]
  members := none

/-- binmodel/tagid30_compatible_document.py:30 -/
def cCompatibleDocument : PyClass where
  name := "CompatibleDocument"
  bases := ["RecordModel"]
  attrs := [("tagid", .name "HWPTAG_COMPATIBLE_DOCUMENT"),
    ("Target", .call (.name "Enum") [] [("DEFAULT", .num 0), ("HWP2007", .num 1), ("MSWORD", .num 2)]),
    ("Flags", .call (.name "Flags") [.name "UINT32", .num 0, .num 1, .str "target"] [])]
  members := some [⟨"flags", .attr (.name "cls") "Flags", [], none⟩]

/-- binmodel/tagid31_layout_compatibility.py:28 -/
def cLayoutCompatibility : PyClass where
  name := "LayoutCompatibility"
  bases := ["RecordModel"]
  attrs := [("tagid", .name "HWPTAG_LAYOUT_COMPATIBILITY")]
  members := some [⟨"char", .name "UINT32", [], none⟩,
    ⟨"paragraph", .name "UINT32", [], none⟩,
    ⟨"section", .name "UINT32", [], none⟩,
    ⟨"object", .name "UINT32", [], none⟩,
    ⟨"field", .name "UINT32", [], none⟩]

/-- binmodel/tagid32_unknown.py:27 -/
def cTagModel32 : PyClass where
  name := "TagModel32"
  bases := ["RecordModel"]
  attrs := [("tagid", .name "HWPTAG_BEGIN_PLUS_16")]
  members := none

/-- binmodel/tagid50_para_header.py:31 -/
def cParagraph : PyClass where
  name := "Paragraph"
  bases := ["RecordModel"]
  attrs := [("tagid", .name "HWPTAG_PARA_HEADER"),
    ("SplitFlags", .call (.name "Flags") [.name "BYTE", .num 0, .str "new_section", .num 1, .str "new_columnsdef", .num 2, .str "new_page", .num 3, .str "new_column"] []),
    ("ControlMask", .call (.name "Flags") [.name "UINT32", .num 2, .str "unknown1", .num 11, .str "control", .num 21, .str "new_number"] []),
    ("Flags", .call (.name "Flags") [.name "UINT32", .num 31, .str "unknown", .num 0, .num 30, .str "chars"] [])]
  members := some [⟨"text", .attr (.name "cls") "Flags", [], none⟩,
    ⟨"controlmask", .attr (.name "cls") "ControlMask", [], none⟩,
    ⟨"parashape_id", .name "UINT16", [], none⟩,
    ⟨"style_id", .name "BYTE", [], none⟩,
    ⟨"split", .attr (.name "cls") "SplitFlags", [], none⟩,
    ⟨"charshapes", .name "UINT16", [], none⟩,
    ⟨"rangetags", .name "UINT16", [], none⟩,
    ⟨"linesegs", .name "UINT16", [], none⟩,
    ⟨"instance_id", .name "UINT32", [], none⟩]

/-- binmodel/tagid51_para_text.py:32 -/
def cParaTextChunks : PyClass where
  name := "ParaTextChunks"
  bases := ["list"]
  attrs := [("read", .call (.name "classmethod") [.name "read"] []),
    ("parse_chunks", .call (.name "staticmethod") [.name "parse_chunks"] [])]
  members := none

/-- binmodel/tagid51_para_text.py:55 -/
def cParaText : PyClass where
  name := "ParaText"
  bases := ["RecordModel"]
  attrs := [("tagid", .name "HWPTAG_PARA_TEXT")]
  members := some [⟨"chunks", .name "ParaTextChunks", [], none⟩]

/-- binmodel/tagid52_para_char_shape.py:35 -/
def cParaCharShape : PyClass where
  name := "ParaCharShape"
  bases := ["RecordModel"]
  attrs := [("tagid", .name "HWPTAG_PARA_CHAR_SHAPE")]
  members := some [⟨"charshapes", .call (.name "X_ARRAY") [.call (.name "ARRAY") [.name "UINT32", .num 2] [], .call (.name "ref_parent_member") [.str "charshapes"] []] [], [], none⟩]

/-- binmodel/tagid52_para_char_shape.py:47 -/
def cParaCharShapeList : PyClass where
  name := "ParaCharShapeList"
  bases := ["list"]
  attrs := [("itemtype", .call (.name "ARRAY") [.name "UINT16", .num 2] []),
    ("read", .call (.name "classmethod") [.name "read"] []),
    ("decode", .call (.name "staticmethod") [.name "decode"] [])]
  members := none

/-- binmodel/tagid53_para_line_seg.py:37 -/
def cLineSeg : PyClass where
  name := "LineSeg"
  bases := ["Struct"]
  attrs := [("Flags", .call (.name "Flags") [.name "UINT32", .num 17, .str "line_head", .num 18, .str "line_tail", .num 20, .str "indented", .num 21, .str "bullet"] [])]
  members := some [⟨"chpos", .name "INT32", [], none⟩,
    ⟨"y", .name "SHWPUNIT", [], none⟩,
    ⟨"height", .name "SHWPUNIT", [], none⟩,
    ⟨"height_text", .name "SHWPUNIT", [], none⟩,
    ⟨"height_baseline", .name "SHWPUNIT", [], none⟩,
    ⟨"space_below", .name "SHWPUNIT", [], none⟩,
    ⟨"x", .name "SHWPUNIT", [], none⟩,
    ⟨"width", .name "SHWPUNIT", [], none⟩,
    ⟨"lineseg_flags", .attr (.name "cls") "Flags", [], none⟩]

/-- binmodel/tagid53_para_line_seg.py:61 -/
def cParaLineSeg : PyClass where
  name := "ParaLineSeg"
  bases := ["RecordModel"]
  attrs := [("tagid", .name "HWPTAG_PARA_LINE_SEG")]
  members := some [⟨"linesegs", .call (.name "X_ARRAY") [.name "LineSeg", .call (.name "ref_parent_member") [.str "linesegs"] []] [], [], none⟩]

/-- binmodel/tagid53_para_line_seg.py:73 -/
def cParaLineSegList : PyClass where
  name := "ParaLineSegList"
  bases := ["list"]
  attrs := [("itemtype", .name "LineSeg"),
    ("read", .call (.name "classmethod") [.name "read"] []),
    ("decode", .call (.name "classmethod") [.name "decode"] [])]
  members := none

/-- binmodel/tagid54_para_range_tag.py:32 -/
def cRangeTag : PyClass where
  name := "RangeTag"
  bases := ["Struct"]
  attrs := [("Tag", .call (.name "Flags") [.name "UINT32", .num 0, .num 23, .str "data", .num 24, .num 31, .str "kind"] [])]
  members := some [⟨"start", .name "UINT32", [], none⟩,
    ⟨"end", .name "UINT32", [], none⟩,
    ⟨"tag", .attr (.name "cls") "Tag", [], none⟩]

/-- binmodel/tagid54_para_range_tag.py:46 -/
def cParaRangeTag : PyClass where
  name := "ParaRangeTag"
  bases := ["RecordModel"]
  attrs := [("tagid", .name "HWPTAG_PARA_RANGE_TAG")]
  members := some [⟨"range_tags", .call (.name "X_ARRAY") [.name "RangeTag", .call (.name "ref_parent_member") [.str "rangetags"] []] [], [], none⟩]

/-- binmodel/tagid56_list_header.py:47 -/
def cListHeaderType : PyClass where
  name := "ListHeaderType"
  bases := ["RecordModelType"]
  attrs := []
  members := none

/-- binmodel/tagid56_list_header.py:60 -/
def cListHeader : PyClass where
  name := "ListHeader"
  bases := ["RecordModel"]
  attrs := [("tagid", .name "HWPTAG_LIST_HEADER"),
    ("VAlign", .call (.name "Enum") [] [("TOP", .num 0), ("MIDDLE", .num 1), ("BOTTOM", .num 2)]),
    ("Flags", .call (.name "Flags") [.name "UINT32", .num 0, .num 2, .str "textdirection", .num 3, .num 4, .str "linebreak", .num 5, .num 6, .name "VAlign", .str "valign"] []),
    ("extension_types", .name "list_header_models"),
    ("get_extension_key", .call (.name "staticmethod") [.name "get_extension_key"] [])]
  members := some [⟨"paragraphs", .name "UINT16", [], none⟩,
    ⟨"unknown1", .name "UINT16", [], none⟩,
    ⟨"listflags", .attr (.name "cls") "Flags", [], none⟩]

/-- binmodel/tagid56_list_header.py:89 -/
def cTableCaption : PyClass where
  name := "TableCaption"
  bases := ["ListHeader"]
  attrs := [("parent_model_type", .name "TableControl"),
    ("before_tablebody", .num 0),
    ("Position", .call (.name "Enum") [] [("LEFT", .num 0), ("RIGHT", .num 1), ("TOP", .num 2), ("BOTTOM", .num 3)]),
    ("Flags", .call (.name "Flags") [.name "UINT32", .num 0, .num 1, .name "Position", .str "position", .num 2, .str "expand_to_margin"] [])]
  members := some [⟨"flags", .attr (.name "cls") "Flags", [], none⟩,
    ⟨"width", .name "HWPUNIT", [], none⟩,
    ⟨"separation", .name "HWPUNIT16", [], none⟩,
    ⟨"max_width", .name "HWPUNIT", [], none⟩]

/-- binmodel/tagid56_list_header.py:110 -/
def cTableCell : PyClass where
  name := "TableCell"
  bases := ["ListHeader"]
  attrs := [("parent_model_type", .name "TableControl"),
    ("before_tablebody", .num 1)]
  members := some [⟨"col", .name "UINT16", [], none⟩,
    ⟨"row", .name "UINT16", [], none⟩,
    ⟨"colspan", .name "UINT16", [], none⟩,
    ⟨"rowspan", .name "UINT16", [], none⟩,
    ⟨"width", .name "SHWPUNIT", [], none⟩,
    ⟨"height", .name "SHWPUNIT", [], none⟩,
    ⟨"padding", .name "Margin", [], none⟩,
    ⟨"borderfill_id", .name "UINT16", [], none⟩,
    ⟨"unknown_width", .name "SHWPUNIT", [], none⟩]

/-- binmodel/tagid56_list_header.py:128 -/
def cGShapeObjectCaption : PyClass where
  name := "GShapeObjectCaption"
  bases := ["TableCaption"]
  attrs := [("parent_model_type", .name "GShapeObjectControl")]
  members := none

/-- binmodel/tagid56_list_header.py:132 -/
def cTextboxParagraphList : PyClass where
  name := "TextboxParagraphList"
  bases := ["ListHeader"]
  attrs := [("parent_model_type", .name "ShapeComponent")]
  members := some [⟨"padding", .name "Margin", [], none⟩,
    ⟨"maxwidth", .name "HWPUNIT", [], none⟩]

/-- binmodel/tagid56_list_header.py:142 -/
def cHeaderFooterParagraphList : PyClass where
  name := "HeaderFooterParagraphList"
  bases := ["ListHeader"]
  attrs := []
  members := some [⟨"width", .name "HWPUNIT", [], none⟩,
    ⟨"height", .name "HWPUNIT", [], none⟩,
    ⟨"textrefsbitmap", .name "BYTE", [], none⟩,
    ⟨"numberrefsbitmap", .name "BYTE", [], none⟩]

/-- binmodel/tagid56_list_header.py:152 -/
def cHeaderParagraphList : PyClass where
  name := "HeaderParagraphList"
  bases := ["HeaderFooterParagraphList"]
  attrs := [("parent_model_type", .name "Header")]
  members := none

/-- binmodel/tagid56_list_header.py:156 -/
def cFooterParagraphList : PyClass where
  name := "FooterParagraphList"
  bases := ["HeaderFooterParagraphList"]
  attrs := [("parent_model_type", .name "Footer")]
  members := none

/-- binmodel/tagid57_page_def.py:31 -/
def cPageDef : PyClass where
  name := "PageDef"
  bases := ["RecordModel"]
  attrs := [("tagid", .name "HWPTAG_PAGE_DEF"),
    ("Orientation", .call (.name "Enum") [] [("PORTRAIT", .num 0), ("LANDSCAPE", .num 1)]),
    ("BookBinding", .call (.name "Enum") [] [("LEFT", .num 0), ("RIGHT", .num 1), ("TOP", .num 2), ("BOTTOM", .num 3)]),
    ("Flags", .call (.name "Flags") [.name "UINT32", .num 0, .name "Orientation", .str "orientation", .num 1, .num 2, .name "BookBinding", .str "bookbinding"] []),
    ("dimension", .call (.name "property") [.name "getDimension"] []),
    ("height", .call (.name "property") [.name "getHeight"] []),
    ("width", .call (.name "property") [.name "getWidth"] [])]
  members := some [⟨"width", .name "HWPUNIT", [], none⟩,
    ⟨"height", .name "HWPUNIT", [], none⟩,
    ⟨"left_offset", .name "HWPUNIT", [], none⟩,
    ⟨"right_offset", .name "HWPUNIT", [], none⟩,
    ⟨"top_offset", .name "HWPUNIT", [], none⟩,
    ⟨"bottom_offset", .name "HWPUNIT", [], none⟩,
    ⟨"header_offset", .name "HWPUNIT", [], none⟩,
    ⟨"footer_offset", .name "HWPUNIT", [], none⟩,
    ⟨"bookbinding_offset", .name "HWPUNIT", [], none⟩,
    ⟨"attr", .attr (.name "cls") "Flags", [], none⟩]

/-- binmodel/tagid58_footnote_shape.py:34 -/
def cFootnoteShape : PyClass where
  name := "FootnoteShape"
  bases := ["RecordModel"]
  attrs := [("tagid", .name "HWPTAG_FOOTNOTE_SHAPE"),
    ("Flags", .call (.name "Flags") [.name "UINT32"] [])]
  members := some [⟨"flags", .attr (.name "cls") "Flags", [], none⟩,
    ⟨"usersymbol", .name "WCHAR", [], none⟩,
    ⟨"prefix", .name "WCHAR", [], none⟩,
    ⟨"suffix", .name "WCHAR", [], none⟩,
    ⟨"starting_number", .name "UINT16", [], none⟩,
    ⟨"splitter_length", .name "HWPUNIT16", [], none⟩,
    ⟨"splitter_unknown", .name "HWPUNIT16", [], none⟩,
    ⟨"splitter_margin_top", .name "HWPUNIT16", [], none⟩,
    ⟨"splitter_margin_bottom", .name "HWPUNIT16", [], none⟩,
    ⟨"notes_spacing", .name "HWPUNIT16", [], none⟩,
    ⟨"splitter_stroke_type", .attr (.name "Border") "StrokeType", [], none⟩,
    ⟨"splitter_width", .attr (.name "Border") "Width", [], none⟩,
    ⟨"splitter_color", .name "COLORREF", [], none⟩]

/-- binmodel/tagid59_page_border_fill.py:32 -/
def cPageBorderFill : PyClass where
  name := "PageBorderFill"
  bases := ["RecordModel"]
  attrs := [("tagid", .name "HWPTAG_PAGE_BORDER_FILL"),
    ("RelativeTo", .call (.name "Enum") [] [("BODY", .num 0), ("PAPER", .num 1)]),
    ("FillArea", .call (.name "Enum") [] [("PAPER", .num 0), ("PAGE", .num 1), ("BORDER", .num 2)]),
    ("Flags", .call (.name "Flags") [.name "UINT32", .num 0, .name "RelativeTo", .str "relative_to", .num 1, .str "include_header", .num 2, .str "include_footer", .num 3, .num 4, .name "FillArea", .str "fill"] [])]
  members := some [⟨"flags", .attr (.name "cls") "Flags", [], none⟩,
    ⟨"margin", .name "Margin", [], none⟩,
    ⟨"borderfill_id", .name "UINT16", [], none⟩]

/-- binmodel/tagid60_shape_component.py:47 -/
def cMatrix : PyClass where
  name := "Matrix"
  bases := ["Struct"]
  attrs := []
  members := some [⟨"a", .name "DOUBLE", [], none⟩,
    ⟨"c", .name "DOUBLE", [], none⟩,
    ⟨"e", .name "DOUBLE", [], none⟩,
    ⟨"b", .name "DOUBLE", [], none⟩,
    ⟨"d", .name "DOUBLE", [], none⟩,
    ⟨"f", .name "DOUBLE", [], none⟩]

/-- binmodel/tagid60_shape_component.py:66 -/
def cScaleRotationMatrix : PyClass where
  name := "ScaleRotationMatrix"
  bases := ["Struct"]
  attrs := []
  members := some [⟨"scaler", .name "Matrix", [], none⟩,
    ⟨"rotator", .name "Matrix", [], none⟩]

/-- binmodel/tagid60_shape_component.py:115 -/
def cShapeComponent : PyClass where
  name := "ShapeComponent"
  bases := ["RecordModel"]
  attrs := [("tagid", .name "HWPTAG_SHAPE_COMPONENT"),
    ("FillFlags", .call (.name "Flags") [.name "UINT16", .num 8, .str "fill_colorpattern", .num 9, .str "fill_image", .num 10, .str "fill_gradation"] []),
    ("Flags", .call (.name "Flags") [.name "UINT32", .num 0, .str "flip"] [])]
  members := some [⟨"chid0", .name "CHID", [], some (.name "parent_must_be_gso")⟩,
    ⟨"chid", .name "CHID", [], none⟩,
    ⟨"x_in_group", .name "SHWPUNIT", [], none⟩,
    ⟨"y_in_group", .name "SHWPUNIT", [], none⟩,
    ⟨"level_in_group", .name "WORD", [], none⟩,
    ⟨"local_version", .name "WORD", [], none⟩,
    ⟨"initial_width", .name "SHWPUNIT", [], none⟩,
    ⟨"initial_height", .name "SHWPUNIT", [], none⟩,
    ⟨"width", .name "SHWPUNIT", [], none⟩,
    ⟨"height", .name "SHWPUNIT", [], none⟩,
    ⟨"flags", .attr (.name "cls") "Flags", [], none⟩,
    ⟨"angle", .name "WORD", [], none⟩,
    ⟨"rotation_center", .name "Coord", [], none⟩,
    ⟨"scalerotations_count", .name "WORD", [], none⟩,
    ⟨"translation", .name "Matrix", [], none⟩,
    ⟨"scalerotations", .call (.name "X_ARRAY") [.name "ScaleRotationMatrix", .call (.name "ref_member") [.str "scalerotations_count"] []] [], [], none⟩,
    ⟨"controls", .call (.name "N_ARRAY") [.name "WORD", .name "CHID"] [], [], some (.name "chid_is_container")⟩,
    ⟨"border", .name "BorderLine", [], some (.name "chid_is_rect")⟩,
    ⟨"fill_flags", .attr (.name "cls") "FillFlags", [], some (.name "chid_is_rect")⟩,
    ⟨"unknown", .name "UINT16", [], some (.name "chid_is_rect")⟩,
    ⟨"unknown1", .name "UINT8", [], some (.name "chid_is_rect")⟩,
    ⟨"fill_colorpattern", .name "FillColorPattern", [], some (.name "chid_is_rect_and_fill_colorpattern")⟩,
    ⟨"fill_gradation", .name "FillGradation", [], some (.name "chid_is_rect_and_fill_gradation")⟩,
    ⟨"fill_image", .name "FillImage", [], some (.name "chid_is_rect_and_fill_image")⟩,
    ⟨"fill_shape", .name "UINT32", [], some (.name "chid_is_rect")⟩,
    ⟨"fill_blur_center", .name "BYTE", [], some (.name "chid_is_rect_and_fill_gradation")⟩,
    ⟨"unknown2", .call (.name "HexBytes") [.num 5] [], [5, 0, 2, 4], some (.name "chid_is_rect")⟩,
    ⟨"unknown3", .call (.name "HexBytes") [.num 16] [], [5, 0, 2, 4], some (.name "chid_is_rect")⟩,
    ⟨"line", .name "BorderLine", [], some (.name "chid_is_line")⟩]

/-- binmodel/tagid61_table.py:37 -/
def cZoneInfo : PyClass where
  name := "ZoneInfo"
  bases := ["Struct"]
  attrs := []
  members := some [⟨"starting_column", .name "UINT16", [], none⟩,
    ⟨"starting_row", .name "UINT16", [], none⟩,
    ⟨"end_column", .name "UINT16", [], none⟩,
    ⟨"end_row", .name "UINT16", [], none⟩,
    ⟨"borderfill_id", .name "UINT16", [], none⟩]

/-- binmodel/tagid61_table.py:48 -/
def cTableBody : PyClass where
  name := "TableBody"
  bases := ["RecordModel"]
  attrs := [("tagid", .name "HWPTAG_TABLE"),
    ("Split", .call (.name "Enum") [] [("NONE", .num 0), ("BY_CELL", .num 1), ("SPLIT", .num 2)]),
    ("Flags", .call (.name "Flags") [.name "UINT32", .num 0, .num 1, .name "Split", .str "split_page", .num 2, .str "repeat_header"] [])]
  members := some [⟨"flags", .attr (.name "cls") "Flags", [], none⟩,
    ⟨"rows", .name "UINT16", [], none⟩,
    ⟨"cols", .name "UINT16", [], none⟩,
    ⟨"cellspacing", .name "HWPUNIT16", [], none⟩,
    ⟨"padding", .name "Margin", [], none⟩,
    ⟨"rowcols", .call (.name "X_ARRAY") [.name "UINT16", .call (.name "ref_member") [.str "rows"] []] [], [], none⟩,
    ⟨"borderfill_id", .name "UINT16", [], none⟩,
    ⟨"validZones", .call (.name "N_ARRAY") [.name "UINT16", .name "ZoneInfo"] [], [5, 0, 0, 7], none⟩]

/-- binmodel/tagid62_shape_component_line.py:29 -/
def cShapeLine : PyClass where
  name := "ShapeLine"
  bases := ["RecordModel"]
  attrs := [("tagid", .name "HWPTAG_SHAPE_COMPONENT_LINE")]
  members := some [⟨"p0", .name "Coord", [], none⟩,
    ⟨"p1", .name "Coord", [], none⟩,
    ⟨"attr", .name "UINT16", [], none⟩]

/-- binmodel/tagid63_shape_component_rectangle.py:29 -/
def cShapeRectangle : PyClass where
  name := "ShapeRectangle"
  bases := ["RecordModel"]
  attrs := [("tagid", .name "HWPTAG_SHAPE_COMPONENT_RECTANGLE")]
  members := some [⟨"round", .name "BYTE", [], none⟩,
    ⟨"p0", .name "Coord", [], none⟩,
    ⟨"p1", .name "Coord", [], none⟩,
    ⟨"p2", .name "Coord", [], none⟩,
    ⟨"p3", .name "Coord", [], none⟩]

/-- binmodel/tagid64_shape_component_ellipse.py:30 -/
def cShapeEllipse : PyClass where
  name := "ShapeEllipse"
  bases := ["RecordModel"]
  attrs := [("tagid", .name "HWPTAG_SHAPE_COMPONENT_ELLIPSE"),
    ("Flags", .call (.name "Flags") [.name "UINT32", .num 0, .str "arc_recalc_required", .num 1, .str "arc", .num 2, .num 9, .str "arc_kind"] [])]
  members := some [⟨"flags", .attr (.name "cls") "Flags", [], none⟩,
    ⟨"center", .name "Coord", [], none⟩,
    ⟨"axis1", .name "Coord", [], none⟩,
    ⟨"axis2", .name "Coord", [], none⟩,
    ⟨"start1", .name "Coord", [], none⟩,
    ⟨"end1", .name "Coord", [], none⟩,
    ⟨"start2", .name "Coord", [], none⟩,
    ⟨"end2", .name "Coord", [], none⟩]

/-- binmodel/tagid65_shape_component_arc.py:28 -/
def cShapeArc : PyClass where
  name := "ShapeArc"
  bases := ["RecordModel"]
  attrs := [("tagid", .name "HWPTAG_SHAPE_COMPONENT_ARC")]
  members := some [⟨"center", .name "Coord", [], none⟩,
    ⟨"axis1", .name "Coord", [], none⟩,
    ⟨"axis2", .name "Coord", [], none⟩]

/-- binmodel/tagid66_shape_component_polygon.py:30 -/
def cShapePolygon : PyClass where
  name := "ShapePolygon"
  bases := ["RecordModel"]
  attrs := [("tagid", .name "HWPTAG_SHAPE_COMPONENT_POLYGON")]
  members := some [⟨"points", .call (.name "N_ARRAY") [.name "UINT16", .name "Coord"] [], [], none⟩]

/-- binmodel/tagid67_shape_component_curve.py:30 -/
def cShapeCurve : PyClass where
  name := "ShapeCurve"
  bases := ["RecordModel"]
  attrs := [("tagid", .name "HWPTAG_SHAPE_COMPONENT_CURVE")]
  members := some [⟨"points", .call (.name "N_ARRAY") [.name "UINT16", .name "Coord"] [], [], none⟩]

/-- binmodel/tagid68_shape_component_ole.py:32 -/
def cShapeOLE : PyClass where
  name := "ShapeOLE"
  bases := ["RecordModel"]
  attrs := [("tagid", .name "HWPTAG_SHAPE_COMPONENT_OLE"),
    ("Flags", .call (.name "Flags") [.name "UINT32", .num 0, .num 7, .str "dvaspect", .num 8, .str "moniker", .num 9, .num 15, .str "baseline"] [])]
  members := some [⟨"flags", .attr (.name "cls") "Flags", [], none⟩,
    ⟨"extent_x", .name "INT32", [], none⟩,
    ⟨"extent_y", .name "INT32", [], none⟩,
    ⟨"storage_id", .name "BinStorageId", [], none⟩,
    ⟨"border", .name "BorderLine", [], none⟩]

/-- binmodel/tagid69_shape_component_picture.py:37 -/
def cPictureInfo : PyClass where
  name := "PictureInfo"
  bases := ["Struct"]
  attrs := []
  members := some [⟨"brightness", .name "INT8", [], none⟩,
    ⟨"contrast", .name "INT8", [], none⟩,
    ⟨"effect", .name "BYTE", [], none⟩,
    ⟨"bindata_id", .name "UINT16", [], none⟩]

/-- binmodel/tagid69_shape_component_picture.py:47 -/
def cPictureEffect : PyClass where
  name := "PictureEffect"
  bases := ["Struct"]
  attrs := [("Flags", .call (.name "Flags") [.name "UINT32"] [])]
  members := some [⟨"flags", .attr (.name "cls") "Flags", [], none⟩]

/-- binmodel/tagid69_shape_component_picture.py:59 -/
def cImageRect : PyClass where
  name := "ImageRect"
  bases := ["Struct"]
  attrs := []
  members := some [⟨"p0", .name "Coord", [], none⟩,
    ⟨"p1", .name "Coord", [], none⟩,
    ⟨"p2", .name "Coord", [], none⟩,
    ⟨"p3", .name "Coord", [], none⟩]

/-- binmodel/tagid69_shape_component_picture.py:71 -/
def cImageClip : PyClass where
  name := "ImageClip"
  bases := ["Struct"]
  attrs := []
  members := some [⟨"left", .name "SHWPUNIT", [], none⟩,
    ⟨"top", .name "SHWPUNIT", [], none⟩,
    ⟨"right", .name "SHWPUNIT", [], none⟩,
    ⟨"bottom", .name "SHWPUNIT", [], none⟩]

/-- binmodel/tagid69_shape_component_picture.py:82 -/
def cShapePicture : PyClass where
  name := "ShapePicture"
  bases := ["RecordModel"]
  attrs := [("tagid", .name "HWPTAG_SHAPE_COMPONENT_PICTURE")]
  members := some [⟨"border", .name "BorderLine", [], none⟩,
    ⟨"rect", .name "ImageRect", [], none⟩,
    ⟨"clip", .name "ImageClip", [], none⟩,
    ⟨"padding", .name "Margin", [], none⟩,
    ⟨"picture", .name "PictureInfo", [], none⟩,
    ⟨"border_transparency", .name "BYTE", [5, 0, 2, 2], none⟩,
    ⟨"instance_id", .name "UINT32", [5, 0, 2, 5], none⟩,
    ⟨"picture_effect", .name "PictureEffect", [5, 0, 3, 4], none⟩]

/-- binmodel/tagid70_shape_component_container.py:27 -/
def cShapeContainer : PyClass where
  name := "ShapeContainer"
  bases := ["RecordModel"]
  attrs := [("tagid", .name "HWPTAG_SHAPE_COMPONENT_CONTAINER")]
  members := none

/-- binmodel/tagid71_ctrl_data.py:33 -/
def cControlDataType : PyClass where
  name := "ControlDataType"
  bases := ["RecordModelType"]
  attrs := []
  members := none

/-- binmodel/tagid71_ctrl_data.py:44 -/
def cControlData : PyClass where
  name := "ControlData"
  bases := ["RecordModel"]
  attrs := [("tagid", .name "HWPTAG_CTRL_DATA"),
    ("extension_types", .name "control_data_models"),
    ("get_extension_key", .call (.name "classmethod") [.name "get_extension_key"] [])]
  members := none

/-- binmodel/tagid72_ctrl_eqedit.py:30 -/
def cEqEdit : PyClass where
  name := "EqEdit"
  bases := ["RecordModel"]
  attrs := [("tagid", .name "HWPTAG_CTRL_EQEDIT"),
    ("ScriptScope", .call (.name "Enum") [] [("CHAR", .num 0), ("LINE", .num 1)]),
    ("Flags", .call (.name "Flags") [.name "UINT32", .num 0, .name "ScriptScope", .str "script_scope"] [])]
  members := some []

/-- binmodel/tagid74_shape_component_textart.py:27 -/
def cShapeTextArt : PyClass where
  name := "ShapeTextArt"
  bases := ["RecordModel"]
  attrs := [("tagid", .name "HWPTAG_SHAPE_COMPONENT_TEXTART")]
  members := none

/-- binmodel/tagid75_form_object.py:27 -/
def cFormObject : PyClass where
  name := "FormObject"
  bases := ["RecordModel"]
  attrs := [("tagid", .name "HWPTAG_FORM_OBJECT")]
  members := none

/-- binmodel/tagid76_memo_shape.py:27 -/
def cMemoShape : PyClass where
  name := "MemoShape"
  bases := ["RecordModel"]
  attrs := [("tagid", .name "HWPTAG_MEMO_SHAPE")]
  members := none

/-- binmodel/tagid77_memo_list.py:27 -/
def cMemoList : PyClass where
  name := "MemoList"
  bases := ["RecordModel"]
  attrs := [("tagid", .name "HWPTAG_MEMO_LIST")]
  members := none

/-- binmodel/tagid78_forbidden_char.py:27 -/
def cForbiddenChar : PyClass where
  name := "ForbiddenChar"
  bases := ["RecordModel"]
  attrs := [("tagid", .name "HWPTAG_FORBIDDEN_CHAR")]
  members := none

/-- binmodel/tagid79_chart_data.py:27 -/
def cChartData : PyClass where
  name := "ChartData"
  bases := ["RecordModel"]
  attrs := [("tagid", .name "HWPTAG_CHART_DATA")]
  members := none

/-- binmodel/tagid99_shape_component_unknown.py:27 -/
def cShapeUnknown : PyClass where
  name := "ShapeUnknown"
  bases := ["RecordModel"]
  attrs := [("tagid", .name "HWPTAG_SHAPE_COMPONENT_UNKNOWN")]
  members := none

/-- binmodel/controls/bookmark_control.py:31 -/
def cBookmarkControl : PyClass where
  name := "BookmarkControl"
  bases := ["Control"]
  attrs := [("chid", .attr (.name "CHID") "BOKM")]
  members := some []

/-- binmodel/controls/bookmark_control.py:41 -/
def cBookmarkControlData : PyClass where
  name := "BookmarkControlData"
  bases := ["ControlData"]
  attrs := [("parent_model_type", .name "BookmarkControl")]
  members := some [⟨"unknown1", .name "UINT32", [], none⟩,
    ⟨"unknown2", .name "UINT32", [], none⟩,
    ⟨"unknown3", .name "UINT16", [], none⟩,
    ⟨"name", .name "BSTR", [], none⟩]

/-- binmodel/controls/columns_def.py:36 -/
def cColumn0 : PyClass where
  name := "Column0"
  bases := ["Struct"]
  attrs := []
  members := some [⟨"width", .name "WORD", [], none⟩]

/-- binmodel/controls/columns_def.py:43 -/
def cColumn : PyClass where
  name := "Column"
  bases := ["Struct"]
  attrs := []
  members := some [⟨"spacing", .name "WORD", [], none⟩,
    ⟨"width", .name "WORD", [], none⟩]

/-- binmodel/controls/columns_def.py:50 -/
def cColumnsDef : PyClass where
  name := "ColumnsDef"
  bases := ["Control"]
  attrs := [("chid", .attr (.name "CHID") "COLD"),
    ("Kind", .call (.name "Enum") [.str "normal", .str "distribute", .str "parallel"] []),
    ("Direction", .call (.name "Enum") [.str "l2r", .str "r2l", .str "both"] []),
    ("Flags", .call (.name "Flags") [.name "UINT16", .num 0, .num 1, .name "Kind", .str "kind", .num 2, .num 9, .str "count", .num 10, .num 11, .name "Direction", .str "direction", .num 12, .str "same_widths"] [])]
  members := some [⟨"flags", .attr (.name "cls") "Flags", [], none⟩,
    ⟨"spacing", .name "HWPUNIT16", [], none⟩,
    ⟨"column0", .name "Column0", [], some (.not (.attr (.index (.name "values") (.str "flags")) "same_widths"))⟩,
    ⟨"columns", .call (.name "X_ARRAY") [.name "Column", .call (.name "n_entries") [.call (.name "ref_member_flag") [.str "flags", .str "count"] []] []] [], [], some (.not (.attr (.index (.name "values") (.str "flags")) "same_widths"))⟩,
    ⟨"attr2", .name "UINT16", [], none⟩,
    ⟨"splitter", .name "Border", [], none⟩]

/-- binmodel/controls/common_controls.py:34 -/
def cCommonControl : PyClass where
  name := "CommonControl"
  bases := ["Control"]
  attrs := [("Flow", .call (.name "Enum") [] [("FLOAT", .num 0), ("BLOCK", .num 1), ("BACK", .num 2), ("FRONT", .num 3)]),
    ("TextSide", .call (.name "Enum") [] [("BOTH", .num 0), ("LEFT", .num 1), ("RIGHT", .num 2), ("LARGER", .num 3)]),
    ("VRelTo", .call (.name "Enum") [] [("PAPER", .num 0), ("PAGE", .num 1), ("PARAGRAPH", .num 2)]),
    ("HRelTo", .call (.name "Enum") [] [("PAPER", .num 0), ("PAGE", .num 1), ("COLUMN", .num 2), ("PARAGRAPH", .num 3)]),
    ("VAlign", .call (.name "Enum") [] [("TOP", .num 0), ("MIDDLE", .num 1), ("BOTTOM", .num 2)]),
    ("HAlign", .call (.name "Enum") [] [("LEFT", .num 0), ("CENTER", .num 1), ("RIGHT", .num 2), ("INSIDE", .num 3), ("OUTSIDE", .num 4)]),
    ("WidthRelTo", .call (.name "Enum") [] [("PAPER", .num 0), ("PAGE", .num 1), ("COLUMN", .num 2), ("PARAGRAPH", .num 3), ("ABSOLUTE", .num 4)]),
    ("HeightRelTo", .call (.name "Enum") [] [("PAPER", .num 0), ("PAGE", .num 1), ("ABSOLUTE", .num 2)]),
    ("NumberCategory", .call (.name "Enum") [] [("NONE", .num 0), ("FIGURE", .num 1), ("TABLE", .num 2), ("EQUATION", .num 3)]),
    ("CommonControlFlags", .call (.name "Flags") [.name "UINT32", .num 0, .str "inline", .num 2, .str "affect_line_spacing", .num 3, .num 4, .name "VRelTo", .str "vrelto", .num 5, .num 7, .name "VAlign", .str "valign", .num 8, .num 9, .name "HRelTo", .str "hrelto", .num 10, .num 12, .name "HAlign", .str "halign", .num 13, .str "restrict_in_page", .num 14, .str "overlap_others", .num 15, .num 17, .name "WidthRelTo", .str "width_relto", .num 18, .num 19, .name "HeightRelTo", .str "height_relto", .num 20, .str "protect_size_when_vrelto_paragraph", .num 21, .num 23, .name "Flow", .str "flow", .num 24, .num 25, .name "TextSide", .str "text_side", .num 26, .num 27, .name "NumberCategory", .str "number_category"] []),
    ("MARGIN_LEFT", .num 0),
    ("MARGIN_RIGHT", .num 1),
    ("MARGIN_TOP", .num 2),
    ("MARGIN_BOTTOM", .num 3)]
  members := some [⟨"flags", .attr (.name "cls") "CommonControlFlags", [], none⟩,
    ⟨"y", .name "SHWPUNIT", [], none⟩,
    ⟨"x", .name "SHWPUNIT", [], none⟩,
    ⟨"width", .name "HWPUNIT", [], none⟩,
    ⟨"height", .name "HWPUNIT", [], none⟩,
    ⟨"z_order", .name "INT16", [], none⟩,
    ⟨"unknown1", .name "INT16", [], none⟩,
    ⟨"margin", .name "Margin", [], none⟩,
    ⟨"instance_id", .name "UINT32", [], none⟩,
    ⟨"unknown2", .name "INT16", [5, 0, 0, 5], none⟩,
    ⟨"description", .name "BSTR", [5, 0, 0, 5], none⟩]

/-- binmodel/controls/dutmal.py:31 -/
def cDutmal : PyClass where
  name := "Dutmal"
  bases := ["Control"]
  attrs := [("chid", .attr (.name "CHID") "TDUT"),
    ("Position", .call (.name "Enum") [] [("ABOVE", .num 0), ("BELOW", .num 1), ("CENTER", .num 2)]),
    ("Align", .call (.name "Enum") [] [("BOTH", .num 0), ("LEFT", .num 1), ("RIGHT", .num 2), ("CENTER", .num 3), ("DISTRIBUTE", .num 4), ("DISTRIBUTE_SPACE", .num 5)])]
  members := some [⟨"maintext", .name "BSTR", [], none⟩,
    ⟨"subtext", .name "BSTR", [], none⟩,
    ⟨"position-flags", .call (.name "Flags") [.name "UINT32", .num 0, .num 31, .attr (.name "cls") "Position", .str "position"] [], [], none⟩,
    ⟨"fsizeratio", .name "UINT32", [], none⟩,
    ⟨"option", .name "UINT32", [], none⟩,
    ⟨"stylenumber", .name "UINT32", [], none⟩,
    ⟨"align-flags", .call (.name "Flags") [.name "UINT32", .num 0, .num 31, .attr (.name "cls") "Align", .str "align"] [], [], none⟩]

/-- binmodel/controls/field.py:32 -/
def cField : PyClass where
  name := "Field"
  bases := ["Control"]
  attrs := [("Flags", .call (.name "Flags") [.name "UINT32", .num 0, .str "editableInReadOnly", .num 11, .num 14, .str "visitedType", .num 15, .str "modified"] [])]
  members := some [⟨"flags", .attr (.name "cls") "Flags", [], none⟩,
    ⟨"extra_attr", .name "BYTE", [], none⟩,
    ⟨"command", .name "BSTR", [], none⟩,
    ⟨"id", .name "UINT32", [], none⟩]

/-- binmodel/controls/field.py:48 -/
def cFieldUnknown : PyClass where
  name := "FieldUnknown"
  bases := ["Field"]
  attrs := [("chid", .attr (.name "CHID") "FIELD_UNK")]
  members := none

/-- binmodel/controls/field.py:52 -/
def cFieldDate : PyClass where
  name := "FieldDate"
  bases := ["Field"]
  attrs := [("chid", .attr (.name "CHID") "FIELD_DTE")]
  members := none

/-- binmodel/controls/field.py:56 -/
def cFieldDocDate : PyClass where
  name := "FieldDocDate"
  bases := ["Field"]
  attrs := [("chid", .attr (.name "CHID") "FIELD_DDT")]
  members := none

/-- binmodel/controls/field.py:60 -/
def cFieldPath : PyClass where
  name := "FieldPath"
  bases := ["Field"]
  attrs := [("chid", .attr (.name "CHID") "FIELD_PAT")]
  members := none

/-- binmodel/controls/field.py:64 -/
def cFieldBookmark : PyClass where
  name := "FieldBookmark"
  bases := ["Field"]
  attrs := [("chid", .attr (.name "CHID") "FIELD_BMK")]
  members := none

/-- binmodel/controls/field.py:68 -/
def cFieldMailMerge : PyClass where
  name := "FieldMailMerge"
  bases := ["Field"]
  attrs := [("chid", .attr (.name "CHID") "FIELD_MMG")]
  members := none

/-- binmodel/controls/field.py:72 -/
def cFieldCrossRef : PyClass where
  name := "FieldCrossRef"
  bases := ["Field"]
  attrs := [("chid", .attr (.name "CHID") "FIELD_XRF")]
  members := none

/-- binmodel/controls/field.py:76 -/
def cFieldFormula : PyClass where
  name := "FieldFormula"
  bases := ["Field"]
  attrs := [("chid", .attr (.name "CHID") "FIELD_FMU")]
  members := none

/-- binmodel/controls/field.py:80 -/
def cFieldClickHere : PyClass where
  name := "FieldClickHere"
  bases := ["Field"]
  attrs := [("chid", .attr (.name "CHID") "FIELD_CLK")]
  members := none

/-- binmodel/controls/field.py:84 -/
def cFieldClickHereData : PyClass where
  name := "FieldClickHereData"
  bases := ["ControlData"]
  attrs := [("parent_model_type", .name "FieldClickHere")]
  members := none

/-- binmodel/controls/field.py:88 -/
def cFieldSummary : PyClass where
  name := "FieldSummary"
  bases := ["Field"]
  attrs := [("chid", .attr (.name "CHID") "FIELD_SMR")]
  members := none

/-- binmodel/controls/field.py:92 -/
def cFieldUserInfo : PyClass where
  name := "FieldUserInfo"
  bases := ["Field"]
  attrs := [("chid", .attr (.name "CHID") "FIELD_USR")]
  members := none

/-- binmodel/controls/field.py:96 -/
def cFieldHyperLink : PyClass where
  name := "FieldHyperLink"
  bases := ["Field"]
  attrs := [("chid", .attr (.name "CHID") "FIELD_HLK")]
  members := none

/-- binmodel/controls/field.py:104 -/
def cFieldRevisionSign : PyClass where
  name := "FieldRevisionSign"
  bases := ["Field"]
  attrs := [("chid", .attr (.name "CHID") "FIELD_REVISION_SIGN")]
  members := none

/-- binmodel/controls/field.py:108 -/
def cFieldRevisionDelete : PyClass where
  name := "FieldRevisionDelete"
  bases := ["Field"]
  attrs := [("chid", .attr (.name "CHID") "FIELD_REVISION_DELETE")]
  members := none

/-- binmodel/controls/field.py:112 -/
def cFieldRevisionAttach : PyClass where
  name := "FieldRevisionAttach"
  bases := ["Field"]
  attrs := [("chid", .attr (.name "CHID") "FIELD_REVISION_ATTACH")]
  members := none

/-- binmodel/controls/field.py:116 -/
def cFieldRevisionClipping : PyClass where
  name := "FieldRevisionClipping"
  bases := ["Field"]
  attrs := [("chid", .attr (.name "CHID") "FIELD_REVISION_CLIPPING")]
  members := none

/-- binmodel/controls/field.py:120 -/
def cFieldRevisionSawtooth : PyClass where
  name := "FieldRevisionSawtooth"
  bases := ["Field"]
  attrs := [("chid", .attr (.name "CHID") "FIELD_REVISION_SAWTOOTH")]
  members := none

/-- binmodel/controls/field.py:124 -/
def cFieldRevisionThinking : PyClass where
  name := "FieldRevisionThinking"
  bases := ["Field"]
  attrs := [("chid", .attr (.name "CHID") "FIELD_REVISION_THINKING")]
  members := none

/-- binmodel/controls/field.py:128 -/
def cFieldRevisionPraise : PyClass where
  name := "FieldRevisionPraise"
  bases := ["Field"]
  attrs := [("chid", .attr (.name "CHID") "FIELD_REVISION_PRAISE")]
  members := none

/-- binmodel/controls/field.py:132 -/
def cFieldRevisionLine : PyClass where
  name := "FieldRevisionLine"
  bases := ["Field"]
  attrs := [("chid", .attr (.name "CHID") "FIELD_REVISION_LINE")]
  members := none

/-- binmodel/controls/field.py:136 -/
def cFieldRevisionSimpleChange : PyClass where
  name := "FieldRevisionSimpleChange"
  bases := ["Field"]
  attrs := [("chid", .attr (.name "CHID") "FIELD_REVISION_SIMPLECHANGE")]
  members := none

/-- binmodel/controls/field.py:140 -/
def cFieldRevisionHyperlink : PyClass where
  name := "FieldRevisionHyperlink"
  bases := ["Field"]
  attrs := [("chid", .attr (.name "CHID") "FIELD_REVISION_HYPERLINK")]
  members := none

/-- binmodel/controls/field.py:144 -/
def cFieldRevisionLineAttach : PyClass where
  name := "FieldRevisionLineAttach"
  bases := ["Field"]
  attrs := [("chid", .attr (.name "CHID") "FIELD_REVISION_LINEATTACH")]
  members := none

/-- binmodel/controls/field.py:148 -/
def cFieldRevisionLineLink : PyClass where
  name := "FieldRevisionLineLink"
  bases := ["Field"]
  attrs := [("chid", .attr (.name "CHID") "FIELD_REVISION_LINELINK")]
  members := none

/-- binmodel/controls/field.py:152 -/
def cFieldRevisionLineTransfer : PyClass where
  name := "FieldRevisionLineTransfer"
  bases := ["Field"]
  attrs := [("chid", .attr (.name "CHID") "FIELD_REVISION_LINETRANSFER")]
  members := none

/-- binmodel/controls/field.py:156 -/
def cFieldRevisionRightMove : PyClass where
  name := "FieldRevisionRightMove"
  bases := ["Field"]
  attrs := [("chid", .attr (.name "CHID") "FIELD_REVISION_RIGHTMOVE")]
  members := none

/-- binmodel/controls/field.py:160 -/
def cFieldRevisionLeftMove : PyClass where
  name := "FieldRevisionLeftMove"
  bases := ["Field"]
  attrs := [("chid", .attr (.name "CHID") "FIELD_REVISION_LEFTMOVE")]
  members := none

/-- binmodel/controls/field.py:164 -/
def cFieldRevisionTransfer : PyClass where
  name := "FieldRevisionTransfer"
  bases := ["Field"]
  attrs := [("chid", .attr (.name "CHID") "FIELD_REVISION_TRANSFER")]
  members := none

/-- binmodel/controls/field.py:168 -/
def cFieldRevisionSimpleInsert : PyClass where
  name := "FieldRevisionSimpleInsert"
  bases := ["Field"]
  attrs := [("chid", .attr (.name "CHID") "FIELD_REVISION_SIMPLEINSERT")]
  members := none

/-- binmodel/controls/field.py:172 -/
def cFieldRevisionSplit : PyClass where
  name := "FieldRevisionSplit"
  bases := ["Field"]
  attrs := [("chid", .attr (.name "CHID") "FIELD_REVISION_SPLIT")]
  members := none

/-- binmodel/controls/field.py:176 -/
def cFieldRevisionChange : PyClass where
  name := "FieldRevisionChange"
  bases := ["Field"]
  attrs := [("chid", .attr (.name "CHID") "FIELD_REVISION_CHANGE")]
  members := none

/-- binmodel/controls/field.py:180 -/
def cFieldMemo : PyClass where
  name := "FieldMemo"
  bases := ["Field"]
  attrs := [("chid", .attr (.name "CHID") "FIELD_MEMO")]
  members := none

/-- binmodel/controls/field.py:184 -/
def cFieldPrivateInfoSecurity : PyClass where
  name := "FieldPrivateInfoSecurity"
  bases := ["Field"]
  attrs := [("chid", .attr (.name "CHID") "FIELD_PRIVATE_INFO_SECURITY")]
  members := none

/-- binmodel/controls/gshape_object_control.py:27 -/
def cGShapeObjectControl : PyClass where
  name := "GShapeObjectControl"
  bases := ["CommonControl"]
  attrs := [("chid", .attr (.name "CHID") "GSO")]
  members := none

/-- binmodel/controls/header_footer.py:30 -/
def cHeaderFooter : PyClass where
  name := "HeaderFooter"
  bases := ["Control"]
  attrs := [("Places", .call (.name "Enum") [] [("BOTH_PAGES", .num 0), ("EVEN_PAGE", .num 1), ("ODD_PAGE", .num 2)]),
    ("Flags", .call (.name "Flags") [.name "UINT32", .num 0, .num 1, .name "Places", .str "places"] [])]
  members := some [⟨"flags", .attr (.name "cls") "Flags", [], none⟩]

/-- binmodel/controls/header_footer.py:41 -/
def cHeader : PyClass where
  name := "Header"
  bases := ["HeaderFooter"]
  attrs := [("chid", .attr (.name "CHID") "HEADER")]
  members := none

/-- binmodel/controls/header_footer.py:46 -/
def cFooter : PyClass where
  name := "Footer"
  bases := ["HeaderFooter"]
  attrs := [("chid", .attr (.name "CHID") "FOOTER")]
  members := none

/-- binmodel/controls/hidden_comment.py:27 -/
def cHiddenComment : PyClass where
  name := "HiddenComment"
  bases := ["Control"]
  attrs := [("chid", .attr (.name "CHID") "TCMT")]
  members := some []

/-- binmodel/controls/index_marker.py:29 -/
def cIndexMarker : PyClass where
  name := "IndexMarker"
  bases := ["Control"]
  attrs := [("chid", .attr (.name "CHID") "IDXM")]
  members := some [⟨"keyword1", .name "BSTR", [], none⟩,
    ⟨"keyword2", .name "BSTR", [], none⟩,
    ⟨"dummy", .name "UINT16", [], none⟩]

/-- binmodel/controls/note.py:29 -/
def cNote : PyClass where
  name := "Note"
  bases := ["Control"]
  attrs := []
  members := some [⟨"number", .name "UINT32", [], none⟩,
    ⟨"unknown0", .name "UINT32", [], none⟩,
    ⟨"unknown1", .name "UINT32", [], none⟩,
    ⟨"unknown2", .name "UINT16", [5, 0, 3, 0], none⟩,
    ⟨"unknown3", .name "UINT16", [5, 0, 3, 0], none⟩]

/-- binmodel/controls/note.py:40 -/
def cFootNote : PyClass where
  name := "FootNote"
  bases := ["Note"]
  attrs := [("chid", .attr (.name "CHID") "FN")]
  members := none

/-- binmodel/controls/note.py:45 -/
def cEndNote : PyClass where
  name := "EndNote"
  bases := ["Note"]
  attrs := [("chid", .attr (.name "CHID") "EN")]
  members := none

/-- binmodel/controls/numbering.py:32 -/
def cNumberingControl : PyClass where
  name := "NumberingControl"
  bases := ["Control"]
  attrs := [("Kind", .call (.name "Enum") [] [("PAGE", .num 0), ("FOOTNOTE", .num 1), ("ENDNOTE", .num 2), ("PICTURE", .num 3), ("TABLE", .num 4), ("EQUATION", .num 5), ("UNKNOWN6", .num 6)]),
    ("Flags", .call (.name "Flags") [.name "UINT32", .num 0, .num 3, .name "Kind", .str "kind", .num 4, .num 11, .str "footnoteshape", .num 12, .str "superscript"] [])]
  members := some [⟨"flags", .attr (.name "cls") "Flags", [], none⟩,
    ⟨"number", .name "UINT16", [], none⟩]

/-- binmodel/controls/numbering.py:48 -/
def cAutoNumbering : PyClass where
  name := "AutoNumbering"
  bases := ["NumberingControl"]
  attrs := [("chid", .attr (.name "CHID") "ATNO")]
  members := some [⟨"usersymbol", .name "WCHAR", [], none⟩,
    ⟨"prefix", .name "WCHAR", [], none⟩,
    ⟨"suffix", .name "WCHAR", [], none⟩]

/-- binmodel/controls/numbering.py:67 -/
def cNewNumbering : PyClass where
  name := "NewNumbering"
  bases := ["NumberingControl"]
  attrs := [("chid", .attr (.name "CHID") "NWNO")]
  members := none

/-- binmodel/controls/page_hide.py:29 -/
def cPageHide : PyClass where
  name := "PageHide"
  bases := ["Control"]
  attrs := [("chid", .attr (.name "CHID") "PGHD"),
    ("Flags", .call (.name "Flags") [.name "UINT32", .num 0, .str "header", .num 1, .str "footer", .num 2, .str "basepage", .num 3, .str "pageborder", .num 4, .str "pagefill", .num 5, .str "pagenumber"] [])]
  members := some [⟨"flags", .attr (.name "cls") "Flags", [], none⟩]

/-- binmodel/controls/page_number_position.py:31 -/
def cPageNumberPosition : PyClass where
  name := "PageNumberPosition"
  bases := ["Control"]
  attrs := [("chid", .attr (.name "CHID") "PGNP"),
    ("Position", .call (.name "Enum") [] [("NONE", .num 0), ("TOP_LEFT", .num 1), ("TOP_CENTER", .num 2), ("TOP_RIGHT", .num 3), ("BOTTOM_LEFT", .num 4), ("BOTTOM_CENTER", .num 5), ("BOTTOM_RIGHT", .num 6), ("OUTSIDE_TOP", .num 7), ("OUTSIDE_BOTTOM", .num 8), ("INSIDE_TOP", .num 9), ("INSIDE_BOTTOM", .num 10)]),
    ("Flags", .call (.name "Flags") [.name "UINT32", .num 0, .num 7, .str "shape", .num 8, .num 11, .name "Position", .str "position"] [])]
  members := some [⟨"flags", .attr (.name "cls") "Flags", [], none⟩,
    ⟨"usersymbol", .name "WCHAR", [], none⟩,
    ⟨"prefix", .name "WCHAR", [], none⟩,
    ⟨"suffix", .name "WCHAR", [], none⟩,
    ⟨"dash", .name "WCHAR", [], none⟩]

/-- binmodel/controls/page_odd_even.py:30 -/
def cPageOddEven : PyClass where
  name := "PageOddEven"
  bases := ["Control"]
  attrs := [("chid", .attr (.name "CHID") "PGCT"),
    ("OddEven", .call (.name "Enum") [] [("BOTH_PAGES", .num 0), ("EVEN_PAGE", .num 1), ("ODD_PAGE", .num 2)]),
    ("Flags", .call (.name "Flags") [.name "UINT32", .num 0, .num 1, .name "OddEven", .str "pages"] [])]
  members := some [⟨"flags", .attr (.name "cls") "Flags", [], none⟩]

/-- binmodel/controls/section_def.py:34 -/
def cSectionDef : PyClass where
  name := "SectionDef"
  bases := ["Control"]
  attrs := [("chid", .attr (.name "CHID") "SECD"),
    ("Flags", .call (.name "Flags") [.name "UINT32", .num 0, .str "hide_header", .num 1, .str "hide_footer", .num 2, .str "hide_page", .num 3, .str "hide_border", .num 4, .str "hide_background", .num 5, .str "hide_pagenumber", .num 8, .str "show_border_on_first_page_only", .num 9, .str "show_background_on_first_page_only", .num 16, .num 18, .str "text_direction", .num 19, .str "hide_blank_line", .num 20, .num 21, .str "pagenum_on_split_section", .num 22, .str "squared_manuscript_paper"] [])]
  members := some [⟨"flags", .attr (.name "cls") "Flags", [], none⟩,
    ⟨"columnspacing", .name "HWPUNIT16", [], none⟩,
    ⟨"grid_vertical", .name "HWPUNIT16", [], none⟩,
    ⟨"grid_horizontal", .name "HWPUNIT16", [], none⟩,
    ⟨"defaultTabStops", .name "HWPUNIT", [], none⟩,
    ⟨"numbering_shape_id", .name "UINT16", [], none⟩,
    ⟨"starting_pagenum", .name "UINT16", [], none⟩,
    ⟨"starting_picturenum", .name "UINT16", [], none⟩,
    ⟨"starting_tablenum", .name "UINT16", [], none⟩,
    ⟨"starting_equationnum", .name "UINT16", [], none⟩,
    ⟨"unknown1", .name "UINT32", [5, 0, 1, 7], none⟩,
    ⟨"unknown2", .name "UINT32", [5, 0, 1, 7], none⟩]

/-- binmodel/controls/section_def.py:68 -/
def cSectionDefData : PyClass where
  name := "SectionDefData"
  bases := ["ControlData"]
  attrs := [("parent_model_type", .name "SectionDef")]
  members := some [⟨"unknown", .call (.name "HexBytes") [.num 280] [], [], none⟩]

/-- binmodel/controls/table_control.py:28 -/
def cTableControl : PyClass where
  name := "TableControl"
  bases := ["CommonControl"]
  attrs := [("chid", .attr (.name "CHID") "TBL"),
    ("on_child", .call (.name "classmethod") [.name "on_child"] [])]
  members := none

/-- binmodel/controls/tcps_control.py:28 -/
def cTCPSControl : PyClass where
  name := "TCPSControl"
  bases := ["Control"]
  attrs := [("chid", .attr (.name "CHID") "TCPS")]
  members := some [⟨"textlength", .name "BSTR", [], none⟩]

/-- xmlmodel.py:787 -/
def cHwpDoc : PyClass where
  name := "HwpDoc"
  bases := ["Struct"]
  attrs := []
  members := some [⟨"version", .name "VERSION", [], none⟩]

end PySource

open PySource in
/-- All classes. -/
def pyClasses : List PyClass :=
  [cCHID,
   cRecordModelType,
   cRecordModel,
   cBinStorageId,
   cCOLORREF,
   cMargin,
   cCoord,
   cBorder,
   cBorderLine,
   cFill,
   cFillNone,
   cFillColorPattern,
   cFillImage,
   cCoord32,
   cFillGradation,
   cControlType,
   cControl,
   cDocumentProperties,
   cIdMappings,
   cBinDataLink,
   cBinDataEmbedding,
   cBinDataStorage,
   cBinData,
   cAlternateFont,
   cPanose1,
   cFaceName,
   cBorderFill,
   cShadowSpace,
   cCharShape,
   cTab,
   cTabDef,
   cNumberingLevel,
   cNumbering,
   cBullet,
   cParaShape,
   cStyle,
   cDocData,
   cDistributeDocData,
   cCompatibleDocument,
   cLayoutCompatibility,
   cTagModel32,
   cParagraph,
   cParaTextChunks,
   cParaText,
   cParaCharShape,
   cParaCharShapeList,
   cLineSeg,
   cParaLineSeg,
   cParaLineSegList,
   cRangeTag,
   cParaRangeTag,
   cListHeaderType,
   cListHeader,
   cTableCaption,
   cTableCell,
   cGShapeObjectCaption,
   cTextboxParagraphList,
   cHeaderFooterParagraphList,
   cHeaderParagraphList,
   cFooterParagraphList,
   cPageDef,
   cFootnoteShape,
   cPageBorderFill,
   cMatrix,
   cScaleRotationMatrix,
   cShapeComponent,
   cZoneInfo,
   cTableBody,
   cShapeLine,
   cShapeRectangle,
   cShapeEllipse,
   cShapeArc,
   cShapePolygon,
   cShapeCurve,
   cShapeOLE,
   cPictureInfo,
   cPictureEffect,
   cImageRect,
   cImageClip,
   cShapePicture,
   cShapeContainer,
   cControlDataType,
   cControlData,
   cEqEdit,
   cShapeTextArt,
   cFormObject,
   cMemoShape,
   cMemoList,
   cForbiddenChar,
   cChartData,
   cShapeUnknown,
   cBookmarkControl,
   cBookmarkControlData,
   cColumn0,
   cColumn,
   cColumnsDef,
   cCommonControl,
   cDutmal,
   cField,
   cFieldUnknown,
   cFieldDate,
   cFieldDocDate,
   cFieldPath,
   cFieldBookmark,
   cFieldMailMerge,
   cFieldCrossRef,
   cFieldFormula,
   cFieldClickHere,
   cFieldClickHereData,
   cFieldSummary,
   cFieldUserInfo,
   cFieldHyperLink,
   cFieldRevisionSign,
   cFieldRevisionDelete,
   cFieldRevisionAttach,
   cFieldRevisionClipping,
   cFieldRevisionSawtooth,
   cFieldRevisionThinking,
   cFieldRevisionPraise,
   cFieldRevisionLine,
   cFieldRevisionSimpleChange,
   cFieldRevisionHyperlink,
   cFieldRevisionLineAttach,
   cFieldRevisionLineLink,
   cFieldRevisionLineTransfer,
   cFieldRevisionRightMove,
   cFieldRevisionLeftMove,
   cFieldRevisionTransfer,
   cFieldRevisionSimpleInsert,
   cFieldRevisionSplit,
   cFieldRevisionChange,
   cFieldMemo,
   cFieldPrivateInfoSecurity,
   cGShapeObjectControl,
   cHeaderFooter,
   cHeader,
   cFooter,
   cHiddenComment,
   cIndexMarker,
   cNote,
   cFootNote,
   cEndNote,
   cNumberingControl,
   cAutoNumbering,
   cNewNumbering,
   cPageHide,
   cPageNumberPosition,
   cPageOddEven,
   cSectionDef,
   cSectionDefData,
   cTableControl,
   cTCPSControl,
   cHwpDoc]

/-- Module level definitions and functions that only return an expression. -/
def pyDefs : List (String × PyEx) :=
  [("logger", .call (.attr (.name "logging") "getLogger") [.name "__name__"] []),
   ("tag_models", .call (.name "dict") [] []),
   ("GradationTypeEnum", .call (.name "Enum") [] [("LINEAR", .num 1), ("CIRCULAR", .num 2), ("CONICAL", .num 3), ("RECTANGULAR", .num 4)]),
   ("GradationTypeFlags", .call (.name "Flags") [.name "BYTE", .num 0, .num 8, .name "GradationTypeEnum", .str "gradation_type"] []),
   ("control_models", .call (.name "dict") [] []),
   ("BulletAlignEnum", .call (.name "Enum") [] [("LEFT", .num 0), ("CENTER", .num 1), ("RIGHT", .num 2)]),
   ("BulletFlags", .call (.name "Flags") [.name "UINT32", .num 0, .num 1, .name "BulletAlignEnum", .str "align", .num 3, .str "auto_indent"] []),
   ("list_header_models", .call (.name "dict") [] []),
   ("chid_is_container", .eq (.index (.name "values") (.str "chid")) (.attr (.name "CHID") "CONTAINER")),
   ("chid_is_rect", .eq (.index (.name "values") (.str "chid")) (.attr (.name "CHID") "RECT")),
   ("chid_is_rect_and_fill_colorpattern", .and (.eq (.index (.name "values") (.str "chid")) (.attr (.name "CHID") "RECT")) (.attr (.index (.name "values") (.str "fill_flags")) "fill_colorpattern")),
   ("chid_is_rect_and_fill_image", .and (.eq (.index (.name "values") (.str "chid")) (.attr (.name "CHID") "RECT")) (.attr (.index (.name "values") (.str "fill_flags")) "fill_image")),
   ("chid_is_rect_and_fill_gradation", .and (.eq (.index (.name "values") (.str "chid")) (.attr (.name "CHID") "RECT")) (.attr (.index (.name "values") (.str "fill_flags")) "fill_gradation")),
   ("chid_is_line", .eq (.index (.name "values") (.str "chid")) (.attr (.name "CHID") "LINE")),
   ("control_data_models", .call (.name "dict") [] [])]

/-- tagids.py -/
def pyTags : List (String × PyEx) :=
  [("HWPTAG_BEGIN", .num 16),
   ("tagnames", .dict [(.add (.name "HWPTAG_BEGIN") (.num 0), .str "HWPTAG_DOCUMENT_PROPERTIES"), (.add (.name "HWPTAG_BEGIN") (.num 1), .str "HWPTAG_ID_MAPPINGS"), (.add (.name "HWPTAG_BEGIN") (.num 2), .str "HWPTAG_BIN_DATA"), (.add (.name "HWPTAG_BEGIN") (.num 3), .str "HWPTAG_FACE_NAME"), (.add (.name "HWPTAG_BEGIN") (.num 4), .str "HWPTAG_BORDER_FILL"), (.add (.name "HWPTAG_BEGIN") (.num 5), .str "HWPTAG_CHAR_SHAPE"), (.add (.name "HWPTAG_BEGIN") (.num 6), .str "HWPTAG_TAB_DEF"), (.add (.name "HWPTAG_BEGIN") (.num 7), .str "HWPTAG_NUMBERING"), (.add (.name "HWPTAG_BEGIN") (.num 8), .str "HWPTAG_BULLET"), (.add (.name "HWPTAG_BEGIN") (.num 9), .str "HWPTAG_PARA_SHAPE"), (.add (.name "HWPTAG_BEGIN") (.num 10), .str "HWPTAG_STYLE"), (.add (.name "HWPTAG_BEGIN") (.num 11), .str "HWPTAG_DOC_DATA"), (.add (.name "HWPTAG_BEGIN") (.num 12), .str "HWPTAG_DISTRIBUTE_DOC_DATA"), (.add (.name "HWPTAG_BEGIN") (.num 14), .str "HWPTAG_COMPATIBLE_DOCUMENT"), (.add (.name "HWPTAG_BEGIN") (.num 15), .str "HWPTAG_LAYOUT_COMPATIBILITY"), (.add (.name "HWPTAG_BEGIN") (.num 16), .str "HWPTAG_BEGIN_PLUS_16"), (.add (.name "HWPTAG_BEGIN") (.num 50), .str "HWPTAG_PARA_HEADER"), (.add (.name "HWPTAG_BEGIN") (.num 51), .str "HWPTAG_PARA_TEXT"), (.add (.name "HWPTAG_BEGIN") (.num 52), .str "HWPTAG_PARA_CHAR_SHAPE"), (.add (.name "HWPTAG_BEGIN") (.num 53), .str "HWPTAG_PARA_LINE_SEG"), (.add (.name "HWPTAG_BEGIN") (.num 54), .str "HWPTAG_PARA_RANGE_TAG"), (.add (.name "HWPTAG_BEGIN") (.num 55), .str "HWPTAG_CTRL_HEADER"), (.add (.name "HWPTAG_BEGIN") (.num 56), .str "HWPTAG_LIST_HEADER"), (.add (.name "HWPTAG_BEGIN") (.num 57), .str "HWPTAG_PAGE_DEF"), (.add (.name "HWPTAG_BEGIN") (.num 58), .str "HWPTAG_FOOTNOTE_SHAPE"), (.add (.name "HWPTAG_BEGIN") (.num 59), .str "HWPTAG_PAGE_BORDER_FILL"), (.add (.name "HWPTAG_BEGIN") (.num 60), .str "HWPTAG_SHAPE_COMPONENT"), (.add (.name "HWPTAG_BEGIN") (.num 61), .str "HWPTAG_TABLE"), (.add (.name "HWPTAG_BEGIN") (.num 62), .str "HWPTAG_SHAPE_COMPONENT_LINE"), (.add (.name "HWPTAG_BEGIN") (.num 63), .str "HWPTAG_SHAPE_COMPONENT_RECTANGLE"), (.add (.name "HWPTAG_BEGIN") (.num 64), .str "HWPTAG_SHAPE_COMPONENT_ELLIPSE"), (.add (.name "HWPTAG_BEGIN") (.num 65), .str "HWPTAG_SHAPE_COMPONENT_ARC"), (.add (.name "HWPTAG_BEGIN") (.num 66), .str "HWPTAG_SHAPE_COMPONENT_POLYGON"), (.add (.name "HWPTAG_BEGIN") (.num 67), .str "HWPTAG_SHAPE_COMPONENT_CURVE"), (.add (.name "HWPTAG_BEGIN") (.num 68), .str "HWPTAG_SHAPE_COMPONENT_OLE"), (.add (.name "HWPTAG_BEGIN") (.num 69), .str "HWPTAG_SHAPE_COMPONENT_PICTURE"), (.add (.name "HWPTAG_BEGIN") (.num 70), .str "HWPTAG_SHAPE_COMPONENT_CONTAINER"), (.add (.name "HWPTAG_BEGIN") (.num 71), .str "HWPTAG_CTRL_DATA"), (.add (.name "HWPTAG_BEGIN") (.num 72), .str "HWPTAG_CTRL_EQEDIT"), (.add (.name "HWPTAG_BEGIN") (.num 74), .str "HWPTAG_SHAPE_COMPONENT_TEXTART"), (.add (.name "HWPTAG_BEGIN") (.num 75), .str "HWPTAG_FORM_OBJECT"), (.add (.name "HWPTAG_BEGIN") (.num 76), .str "HWPTAG_MEMO_SHAPE"), (.add (.name "HWPTAG_BEGIN") (.num 77), .str "HWPTAG_MEMO_LIST"), (.add (.name "HWPTAG_BEGIN") (.num 78), .str "HWPTAG_FORBIDDEN_CHAR"), (.add (.name "HWPTAG_BEGIN") (.num 79), .str "HWPTAG_CHART_DATA"), (.add (.name "HWPTAG_BEGIN") (.num 99), .str "HWPTAG_SHAPE_COMPONENT_UNKNOWN")])]

/-- controlchar.py:131-157 `ControlChar.chars`. -/
def pyControlChars : PyEx :=
  .dict [(.num 0, .tuple [.str "NULL", .name "CHAR"]), (.num 1, .tuple [.str "CTLCHR01", .name "EXTENDED"]), (.num 2, .tuple [.str "SECTION_COLUMN_DEF", .name "EXTENDED"]), (.num 3, .tuple [.str "FIELD_START", .name "EXTENDED"]), (.num 4, .tuple [.str "FIELD_END", .name "INLINE"]), (.num 5, .tuple [.str "CTLCHR05", .name "INLINE"]), (.num 6, .tuple [.str "CTLCHR06", .name "INLINE"]), (.num 7, .tuple [.str "CTLCHR07", .name "INLINE"]), (.num 8, .tuple [.str "TITLE_MARK", .name "INLINE"]), (.num 9, .tuple [.str "TAB", .name "INLINE"]), (.num 10, .tuple [.str "LINE_BREAK", .name "CHAR"]), (.num 11, .tuple [.str "DRAWING_TABLE_OBJECT", .name "EXTENDED"]), (.num 12, .tuple [.str "CTLCHR0C", .name "EXTENDED"]), (.num 13, .tuple [.str "PARAGRAPH_BREAK", .name "CHAR"]), (.num 14, .tuple [.str "CTLCHR0E", .name "EXTENDED"]), (.num 15, .tuple [.str "HIDDEN_EXPLANATION", .name "EXTENDED"]), (.num 16, .tuple [.str "HEADER_FOOTER", .name "EXTENDED"]), (.num 17, .tuple [.str "FOOT_END_NOTE", .name "EXTENDED"]), (.num 18, .tuple [.str "AUTO_NUMBER", .name "EXTENDED"]), (.num 19, .tuple [.str "CTLCHR13", .name "INLINE"]), (.num 20, .tuple [.str "CTLCHR14", .name "INLINE"]), (.num 21, .tuple [.str "PAGE_CTLCHR", .name "EXTENDED"]), (.num 22, .tuple [.str "BOOKMARK", .name "EXTENDED"]), (.num 23, .tuple [.str "CTLCHR17", .name "EXTENDED"]), (.num 24, .tuple [.str "HYPHEN", .name "CHAR"]), (.num 30, .tuple [.str "NONBREAK_SPACE", .name "CHAR"]), (.num 31, .tuple [.str "FIXWIDTH_SPACE", .name "CHAR"])]

/-- controlchar.py:123-130: the sizes of the kinds. -/
def pyControlSizes : List (String × PyEx) :=
  [("CHAR", .num 1), ("INLINE", .num 8), ("EXTENDED", .num 8)]

/-- xmlmodel.py:213-214: the line segment that is made if there is none. -/
def pyDummyLineSeg : PyEx :=
  .call (.name "dict") [] [("chpos", .num 0), ("y", .num 0), ("height", .num 0), ("height2", .num 0), ("height85", .num 0), ("space_below", .num 0), ("x", .num 0), ("width", .num 0), ("a8", .num 0), ("flags", .num 0)]

/-- hwp5odt.py:311-323: what `manifest_rdf` writes, in lines. -/
def pyManifestRdf : List String :=
  ["<?xml version=\"1.0\" encoding=\"utf-8\"?>\n",
   "<rdf:RDF\n",
   "    xmlns:rdf=\"http://www.w3.org/1999/02/22-rdf-syntax-ns#\"\n",
   "    xmlns:pkg=\"http://docs.oasis-open.org/ns/office/1.2/meta/pkg#\"\n",
   "    xmlns:odf=\"http://docs.oasis-open.org/ns/office/1.2/meta/odf#\">\n",
   "    <pkg:Document rdf:about=\"\">\n",
   "        <pkg:hasPart rdf:resource=\"content.xml\"/>\n",
   "        <pkg:hasPart rdf:resource=\"styles.xml\"/>\n",
   "    </pkg:Document>\n",
   "    <odf:ContentFile rdf:about=\"content.xml\"/>\n",
   "    <odf:StylesFile rdf:about=\"styles.xml\"/>\n",
   "</rdf:RDF>"]

end Hwp.Spec
