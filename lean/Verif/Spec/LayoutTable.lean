/-
Specification of the layout of records: the table of the fields of each record, with the number
of bytes before them, and the sizes of the records.  Fields after one of variable size are not in
the table.
-/
import Verif.Spec.Layout
namespace Hwp.Spec

/-- A number. -/
private def u (path : List String) (off size : Nat) : Slot := ⟨path, off, size, .unsigned⟩
/-- A signed number. -/
private def s (path : List String) (off size : Nat) : Slot := ⟨path, off, size, .signed⟩
/-- Bits of a number. -/
private def b (path : List String) (off size lsb msb : Nat) : Slot := ⟨path, off, size, .bits lsb msb []⟩
/-- Bits of a number with names for the values. -/
private def e (path : List String) (off size lsb msb : Nat) (names : List (String × Nat)) : Slot :=
  ⟨path, off, size, .bits lsb msb names⟩
/-- A control id. -/
private def c (path : List String) (off : Nat) : Slot := ⟨path, off, 4, .chid⟩
/-- Bytes. -/
private def r (path : List String) (off size : Nat) : Slot := ⟨path, off, size, .raw⟩
/-- Fields of documents of a version or later. -/
private def since (v : Version) (slots : List Slot) : List (Version × Slot) := slots.map fun x => (v, x)

/-- The fields of the records of a type: the version from which they are there, and the place. -/
def layoutTable : List (String × List (Version × Slot)) := [
  ("DocumentProperties",
    since [] [
      u ["section_count"] 0 2,
      u ["page_startnum"] 2 2,
      u ["footnote_startnum"] 4 2,
      u ["endnote_startnum"] 6 2,
      u ["picture_startnum"] 8 2,
      u ["table_startnum"] 10 2,
      u ["math_startnum"] 12 2,
      u ["list_id"] 14 4,
      u ["paragraph_id"] 18 4,
      u ["character_unit_loc_in_paragraph"] 22 4]),
  ("IdMappings",
    since [] [
      u ["bindata"] 0 4,
      u ["ko_fonts"] 4 4,
      u ["en_fonts"] 8 4,
      u ["cn_fonts"] 12 4,
      u ["jp_fonts"] 16 4,
      u ["other_fonts"] 20 4,
      u ["symbol_fonts"] 24 4,
      u ["user_fonts"] 28 4,
      u ["borderfills"] 32 4,
      u ["charshapes"] 36 4,
      u ["tabdefs"] 40 4,
      u ["numberings"] 44 4,
      u ["bullets"] 48 4,
      u ["parashapes"] 52 4,
      u ["styles"] 56 4] ++
    since [5, 0, 1, 7] [
      u ["memoshapes"] 60 4]),
  ("BinData",
    since [] [
      u ["flags"] 0 2,
      e ["flags", "storage"] 0 2 0 3 [("LINK", 0), ("EMBEDDING", 1), ("STORAGE", 2)],
      e ["flags", "compression"] 0 2 4 5 [("STORAGE_DEFAULT", 0), ("YES", 1), ("NO", 2)],
      e ["flags", "access"] 0 2 16 17 [("NEVER", 0), ("OK", 1), ("FAILED", 2), ("FAILED_IGNORED", 3)]]),
  ("FaceName",
    since [] [
      u ["flags"] 0 1,
      e ["flags", "font_file_type"] 0 1 0 1 [("UNKNOWN", 0), ("TTF", 1), ("HFT", 2)],
      b ["flags", "default"] 0 1 5 5,
      b ["flags", "metric"] 0 1 6 6,
      b ["flags", "alternate"] 0 1 7 7]),
  ("BorderFill",
    since [] [
      u ["borderflags"] 0 2,
      b ["borderflags", "effect_3d"] 0 2 0 0,
      b ["borderflags", "effect_shadow"] 0 2 1 1,
      b ["borderflags", "slash"] 0 2 2 4,
      b ["borderflags", "backslash"] 0 2 5 6,
      u ["left", "stroke_flags"] 2 1,
      e ["left", "stroke_flags", "stroke_type"] 2 1 0 4 [("none", 0), ("solid", 1), ("dashed", 2), ("dotted", 3), ("dash-dot", 4), ("dash-dot-dot", 5), ("long-dash", 6), ("large-dot", 7), ("double", 8), ("double-2", 9), ("double-3", 10), ("triple", 11), ("wave", 12), ("double-wave", 13), ("inset", 14), ("outset", 15), ("groove", 16), ("ridge", 17)],
      u ["left", "width_flags"] 3 1,
      e ["left", "width_flags", "width"] 3 1 0 4 [("0.1mm", 0), ("0.12mm", 1), ("0.15mm", 2), ("0.2mm", 3), ("0.25mm", 4), ("0.3mm", 5), ("0.4mm", 6), ("0.5mm", 7), ("0.6mm", 8), ("0.7mm", 9), ("1.0mm", 10), ("1.5mm", 11), ("2.0mm", 12), ("3.0mm", 13), ("4.0mm", 14), ("5.0mm", 15)],
      s ["left", "color"] 4 4,
      u ["right", "stroke_flags"] 8 1,
      e ["right", "stroke_flags", "stroke_type"] 8 1 0 4 [("none", 0), ("solid", 1), ("dashed", 2), ("dotted", 3), ("dash-dot", 4), ("dash-dot-dot", 5), ("long-dash", 6), ("large-dot", 7), ("double", 8), ("double-2", 9), ("double-3", 10), ("triple", 11), ("wave", 12), ("double-wave", 13), ("inset", 14), ("outset", 15), ("groove", 16), ("ridge", 17)],
      u ["right", "width_flags"] 9 1,
      e ["right", "width_flags", "width"] 9 1 0 4 [("0.1mm", 0), ("0.12mm", 1), ("0.15mm", 2), ("0.2mm", 3), ("0.25mm", 4), ("0.3mm", 5), ("0.4mm", 6), ("0.5mm", 7), ("0.6mm", 8), ("0.7mm", 9), ("1.0mm", 10), ("1.5mm", 11), ("2.0mm", 12), ("3.0mm", 13), ("4.0mm", 14), ("5.0mm", 15)],
      s ["right", "color"] 10 4,
      u ["top", "stroke_flags"] 14 1,
      e ["top", "stroke_flags", "stroke_type"] 14 1 0 4 [("none", 0), ("solid", 1), ("dashed", 2), ("dotted", 3), ("dash-dot", 4), ("dash-dot-dot", 5), ("long-dash", 6), ("large-dot", 7), ("double", 8), ("double-2", 9), ("double-3", 10), ("triple", 11), ("wave", 12), ("double-wave", 13), ("inset", 14), ("outset", 15), ("groove", 16), ("ridge", 17)],
      u ["top", "width_flags"] 15 1,
      e ["top", "width_flags", "width"] 15 1 0 4 [("0.1mm", 0), ("0.12mm", 1), ("0.15mm", 2), ("0.2mm", 3), ("0.25mm", 4), ("0.3mm", 5), ("0.4mm", 6), ("0.5mm", 7), ("0.6mm", 8), ("0.7mm", 9), ("1.0mm", 10), ("1.5mm", 11), ("2.0mm", 12), ("3.0mm", 13), ("4.0mm", 14), ("5.0mm", 15)],
      s ["top", "color"] 16 4,
      u ["bottom", "stroke_flags"] 20 1,
      e ["bottom", "stroke_flags", "stroke_type"] 20 1 0 4 [("none", 0), ("solid", 1), ("dashed", 2), ("dotted", 3), ("dash-dot", 4), ("dash-dot-dot", 5), ("long-dash", 6), ("large-dot", 7), ("double", 8), ("double-2", 9), ("double-3", 10), ("triple", 11), ("wave", 12), ("double-wave", 13), ("inset", 14), ("outset", 15), ("groove", 16), ("ridge", 17)],
      u ["bottom", "width_flags"] 21 1,
      e ["bottom", "width_flags", "width"] 21 1 0 4 [("0.1mm", 0), ("0.12mm", 1), ("0.15mm", 2), ("0.2mm", 3), ("0.25mm", 4), ("0.3mm", 5), ("0.4mm", 6), ("0.5mm", 7), ("0.6mm", 8), ("0.7mm", 9), ("1.0mm", 10), ("1.5mm", 11), ("2.0mm", 12), ("3.0mm", 13), ("4.0mm", 14), ("5.0mm", 15)],
      s ["bottom", "color"] 22 4,
      u ["diagonal", "stroke_flags"] 26 1,
      e ["diagonal", "stroke_flags", "stroke_type"] 26 1 0 4 [("none", 0), ("solid", 1), ("dashed", 2), ("dotted", 3), ("dash-dot", 4), ("dash-dot-dot", 5), ("long-dash", 6), ("large-dot", 7), ("double", 8), ("double-2", 9), ("double-3", 10), ("triple", 11), ("wave", 12), ("double-wave", 13), ("inset", 14), ("outset", 15), ("groove", 16), ("ridge", 17)],
      u ["diagonal", "width_flags"] 27 1,
      e ["diagonal", "width_flags", "width"] 27 1 0 4 [("0.1mm", 0), ("0.12mm", 1), ("0.15mm", 2), ("0.2mm", 3), ("0.25mm", 4), ("0.3mm", 5), ("0.4mm", 6), ("0.5mm", 7), ("0.6mm", 8), ("0.7mm", 9), ("1.0mm", 10), ("1.5mm", 11), ("2.0mm", 12), ("3.0mm", 13), ("4.0mm", 14), ("5.0mm", 15)],
      s ["diagonal", "color"] 28 4,
      u ["fillflags"] 32 4,
      b ["fillflags", "colorpattern"] 32 4 0 0,
      b ["fillflags", "image"] 32 4 1 1,
      b ["fillflags", "gradation"] 32 4 2 2]),
  ("CharShape",
    since [] [
      u ["font_face", "ko"] 0 2,
      u ["font_face", "en"] 2 2,
      u ["font_face", "cn"] 4 2,
      u ["font_face", "jp"] 6 2,
      u ["font_face", "other"] 8 2,
      u ["font_face", "symbol"] 10 2,
      u ["font_face", "user"] 12 2,
      u ["letter_width_expansion", "ko"] 14 1,
      u ["letter_width_expansion", "en"] 15 1,
      u ["letter_width_expansion", "cn"] 16 1,
      u ["letter_width_expansion", "jp"] 17 1,
      u ["letter_width_expansion", "other"] 18 1,
      u ["letter_width_expansion", "symbol"] 19 1,
      u ["letter_width_expansion", "user"] 20 1,
      s ["letter_spacing", "ko"] 21 1,
      s ["letter_spacing", "en"] 22 1,
      s ["letter_spacing", "cn"] 23 1,
      s ["letter_spacing", "jp"] 24 1,
      s ["letter_spacing", "other"] 25 1,
      s ["letter_spacing", "symbol"] 26 1,
      s ["letter_spacing", "user"] 27 1,
      s ["relative_size", "ko"] 28 1,
      s ["relative_size", "en"] 29 1,
      s ["relative_size", "cn"] 30 1,
      s ["relative_size", "jp"] 31 1,
      s ["relative_size", "other"] 32 1,
      s ["relative_size", "symbol"] 33 1,
      s ["relative_size", "user"] 34 1,
      s ["position", "ko"] 35 1,
      s ["position", "en"] 36 1,
      s ["position", "cn"] 37 1,
      s ["position", "jp"] 38 1,
      s ["position", "other"] 39 1,
      s ["position", "symbol"] 40 1,
      s ["position", "user"] 41 1,
      s ["basesize"] 42 4,
      u ["charshapeflags"] 46 4,
      b ["charshapeflags", "italic"] 46 4 0 0,
      b ["charshapeflags", "bold"] 46 4 1 1,
      e ["charshapeflags", "underline"] 46 4 2 3 [("NONE", 0), ("UNDERLINE", 1), ("LINE_THROUGH", 2), ("OVERLINE", 3)],
      e ["charshapeflags", "underline_style"] 46 4 4 7 [("SOLID", 0), ("DASHED", 1), ("DOTTED", 2), ("DASH_DOT", 3), ("DASH_DOT_DOT", 4), ("LONG_DASHED", 5), ("LARGE_DOTTED", 6), ("DOUBLE", 7), ("LOWER_WEIGHTED", 8), ("UPPER_WEIGHTED", 9), ("MIDDLE_WEIGHTED", 10)],
      b ["charshapeflags", "outline"] 46 4 8 10,
      b ["charshapeflags", "shadow"] 46 4 11 13,
      s ["shadow_space", "x"] 50 1,
      s ["shadow_space", "y"] 51 1,
      s ["text_color"] 52 4,
      s ["underline_color"] 56 4,
      s ["shade_color"] 60 4,
      s ["shadow_color"] 64 4]),
  ("TabDef",
    since [] [
      u ["flags"] 0 4,
      b ["flags", "autotab_left"] 0 4 0 0,
      b ["flags", "autotab_right"] 0 4 1 1]),
  ("Bullet",
    since [] [
      u ["flags"] 0 4,
      e ["flags", "align"] 0 4 0 1 [("LEFT", 0), ("CENTER", 1), ("RIGHT", 2)],
      b ["flags", "auto_indent"] 0 4 3 3,
      s ["width"] 4 2,
      u ["space"] 6 2,
      s ["charshape_id"] 8 4,
      u ["char"] 12 2]),
  ("ParaShape",
    since [] [
      u ["parashapeflags"] 0 4,
      e ["parashapeflags", "linespacing_type"] 0 4 0 1 [("RATIO", 0), ("FIXED", 1), ("SPACEONLY", 2), ("MINIMUM", 3)],
      e ["parashapeflags", "align"] 0 4 2 4 [("BOTH", 0), ("LEFT", 1), ("RIGHT", 2), ("CENTER", 3), ("DISTRIBUTE", 4), ("DISTRIBUTE_SPACE", 5)],
      e ["parashapeflags", "linebreak_alphabet"] 0 4 5 6 [("WORD", 0), ("HYPHEN", 1), ("CHAR", 2)],
      e ["parashapeflags", "linebreak_hangul"] 0 4 7 7 [("WORD", 0), ("CHAR", 1)],
      b ["parashapeflags", "use_paper_grid"] 0 4 8 8,
      b ["parashapeflags", "minimum_space"] 0 4 9 15,
      b ["parashapeflags", "protect_single_line"] 0 4 16 16,
      b ["parashapeflags", "with_next_paragraph"] 0 4 17 17,
      b ["parashapeflags", "protect"] 0 4 18 18,
      b ["parashapeflags", "start_new_page"] 0 4 19 19,
      e ["parashapeflags", "valign"] 0 4 20 21 [("FONT", 0), ("TOP", 1), ("CENTER", 2), ("BOTTOM", 3)],
      b ["parashapeflags", "lineheight_along_fontsize"] 0 4 22 22,
      e ["parashapeflags", "head_shape"] 0 4 23 24 [("NONE", 0), ("OUTLINE", 1), ("NUMBER", 2), ("BULLET", 3)],
      b ["parashapeflags", "level"] 0 4 25 27,
      b ["parashapeflags", "linked_border"] 0 4 28 28,
      b ["parashapeflags", "ignore_margin"] 0 4 29 29,
      b ["parashapeflags", "tail_shape"] 0 4 30 30,
      s ["doubled_margin_left"] 4 4,
      s ["doubled_margin_right"] 8 4,
      s ["indent"] 12 4,
      s ["doubled_margin_top"] 16 4,
      s ["doubled_margin_bottom"] 20 4,
      s ["linespacing"] 24 4,
      u ["tabdef_id"] 28 2,
      u ["numbering_bullet_id"] 30 2,
      u ["borderfill_id"] 32 2,
      s ["border_left"] 34 2,
      s ["border_right"] 36 2,
      s ["border_top"] 38 2,
      s ["border_bottom"] 40 2] ++
    since [5, 0, 1, 7] [
      u ["flags2"] 42 4,
      b ["flags2", "in_single_line"] 42 4 0 1,
      b ["flags2", "reserved"] 42 4 2 3,
      b ["flags2", "autospace_alphabet"] 42 4 4 4,
      b ["flags2", "autospace_number"] 42 4 5 5]),
  ("CompatibleDocument",
    since [] [
      u ["flags"] 0 4,
      b ["flags", "target"] 0 4 0 1]),
  ("LayoutCompatibility",
    since [] [
      u ["char"] 0 4,
      u ["paragraph"] 4 4,
      u ["section"] 8 4,
      u ["object"] 12 4,
      u ["field"] 16 4]),
  ("Paragraph",
    since [] [
      u ["text"] 0 4,
      b ["text", "unknown"] 0 4 31 31,
      b ["text", "chars"] 0 4 0 30,
      u ["controlmask"] 4 4,
      b ["controlmask", "unknown1"] 4 4 2 2,
      b ["controlmask", "control"] 4 4 11 11,
      b ["controlmask", "new_number"] 4 4 21 21,
      u ["parashape_id"] 8 2,
      u ["style_id"] 10 1,
      u ["split"] 11 1,
      b ["split", "new_section"] 11 1 0 0,
      b ["split", "new_columnsdef"] 11 1 1 1,
      b ["split", "new_page"] 11 1 2 2,
      b ["split", "new_column"] 11 1 3 3,
      u ["charshapes"] 12 2,
      u ["rangetags"] 14 2,
      u ["linesegs"] 16 2,
      u ["instance_id"] 18 4]),
  ("Control",
    since [] [
      c ["chid"] 0]),
  ("ListHeader",
    since [] [
      u ["paragraphs"] 0 2,
      u ["unknown1"] 2 2,
      u ["listflags"] 4 4,
      b ["listflags", "textdirection"] 4 4 0 2,
      b ["listflags", "linebreak"] 4 4 3 4,
      e ["listflags", "valign"] 4 4 5 6 [("TOP", 0), ("MIDDLE", 1), ("BOTTOM", 2)]]),
  ("PageDef",
    since [] [
      u ["width"] 0 4,
      u ["height"] 4 4,
      u ["left_offset"] 8 4,
      u ["right_offset"] 12 4,
      u ["top_offset"] 16 4,
      u ["bottom_offset"] 20 4,
      u ["header_offset"] 24 4,
      u ["footer_offset"] 28 4,
      u ["bookbinding_offset"] 32 4,
      u ["attr"] 36 4,
      e ["attr", "orientation"] 36 4 0 0 [("PORTRAIT", 0), ("LANDSCAPE", 1)],
      e ["attr", "bookbinding"] 36 4 1 2 [("LEFT", 0), ("RIGHT", 1), ("TOP", 2), ("BOTTOM", 3)]]),
  ("FootnoteShape",
    since [] [
      u ["flags"] 0 4,
      u ["usersymbol"] 4 2,
      u ["prefix"] 6 2,
      u ["suffix"] 8 2,
      u ["starting_number"] 10 2,
      s ["splitter_length"] 12 2,
      s ["splitter_unknown"] 14 2,
      s ["splitter_margin_top"] 16 2,
      s ["splitter_margin_bottom"] 18 2,
      s ["notes_spacing"] 20 2,
      u ["splitter_stroke_type"] 22 1,
      e ["splitter_stroke_type", "stroke_type"] 22 1 0 4 [("none", 0), ("solid", 1), ("dashed", 2), ("dotted", 3), ("dash-dot", 4), ("dash-dot-dot", 5), ("long-dash", 6), ("large-dot", 7), ("double", 8), ("double-2", 9), ("double-3", 10), ("triple", 11), ("wave", 12), ("double-wave", 13), ("inset", 14), ("outset", 15), ("groove", 16), ("ridge", 17)],
      u ["splitter_width"] 23 1,
      e ["splitter_width", "width"] 23 1 0 4 [("0.1mm", 0), ("0.12mm", 1), ("0.15mm", 2), ("0.2mm", 3), ("0.25mm", 4), ("0.3mm", 5), ("0.4mm", 6), ("0.5mm", 7), ("0.6mm", 8), ("0.7mm", 9), ("1.0mm", 10), ("1.5mm", 11), ("2.0mm", 12), ("3.0mm", 13), ("4.0mm", 14), ("5.0mm", 15)],
      s ["splitter_color"] 24 4]),
  ("PageBorderFill",
    since [] [
      u ["flags"] 0 4,
      e ["flags", "relative_to"] 0 4 0 0 [("BODY", 0), ("PAPER", 1)],
      b ["flags", "include_header"] 0 4 1 1,
      b ["flags", "include_footer"] 0 4 2 2,
      e ["flags", "fill"] 0 4 3 4 [("PAPER", 0), ("PAGE", 1), ("BORDER", 2)],
      s ["margin", "left"] 4 2,
      s ["margin", "right"] 6 2,
      s ["margin", "top"] 8 2,
      s ["margin", "bottom"] 10 2,
      u ["borderfill_id"] 12 2]),
  ("TableBody",
    since [] [
      u ["flags"] 0 4,
      e ["flags", "split_page"] 0 4 0 1 [("NONE", 0), ("BY_CELL", 1), ("SPLIT", 2)],
      b ["flags", "repeat_header"] 0 4 2 2,
      u ["rows"] 4 2,
      u ["cols"] 6 2,
      s ["cellspacing"] 8 2,
      s ["padding", "left"] 10 2,
      s ["padding", "right"] 12 2,
      s ["padding", "top"] 14 2,
      s ["padding", "bottom"] 16 2]),
  ("ShapeLine",
    since [] [
      s ["p0", "x"] 0 4,
      s ["p0", "y"] 4 4,
      s ["p1", "x"] 8 4,
      s ["p1", "y"] 12 4,
      u ["attr"] 16 2]),
  ("ShapeRectangle",
    since [] [
      u ["round"] 0 1,
      s ["p0", "x"] 1 4,
      s ["p0", "y"] 5 4,
      s ["p1", "x"] 9 4,
      s ["p1", "y"] 13 4,
      s ["p2", "x"] 17 4,
      s ["p2", "y"] 21 4,
      s ["p3", "x"] 25 4,
      s ["p3", "y"] 29 4]),
  ("ShapeEllipse",
    since [] [
      u ["flags"] 0 4,
      b ["flags", "arc_recalc_required"] 0 4 0 0,
      b ["flags", "arc"] 0 4 1 1,
      b ["flags", "arc_kind"] 0 4 2 9,
      s ["center", "x"] 4 4,
      s ["center", "y"] 8 4,
      s ["axis1", "x"] 12 4,
      s ["axis1", "y"] 16 4,
      s ["axis2", "x"] 20 4,
      s ["axis2", "y"] 24 4,
      s ["start1", "x"] 28 4,
      s ["start1", "y"] 32 4,
      s ["end1", "x"] 36 4,
      s ["end1", "y"] 40 4,
      s ["start2", "x"] 44 4,
      s ["start2", "y"] 48 4,
      s ["end2", "x"] 52 4,
      s ["end2", "y"] 56 4]),
  ("ShapeArc",
    since [] [
      s ["center", "x"] 0 4,
      s ["center", "y"] 4 4,
      s ["axis1", "x"] 8 4,
      s ["axis1", "y"] 12 4,
      s ["axis2", "x"] 16 4,
      s ["axis2", "y"] 20 4]),
  ("ShapeOLE",
    since [] [
      u ["flags"] 0 4,
      b ["flags", "dvaspect"] 0 4 0 7,
      b ["flags", "moniker"] 0 4 8 8,
      b ["flags", "baseline"] 0 4 9 15,
      s ["extent_x"] 4 4,
      s ["extent_y"] 8 4,
      u ["storage_id"] 12 2,
      s ["border", "color"] 14 4,
      s ["border", "width"] 18 4,
      u ["border", "flags"] 22 4,
      e ["border", "flags", "stroke"] 22 4 0 5 [("none", 0), ("solid", 1), ("dashed", 2), ("dotted", 3), ("dash-dot", 4), ("dash-dot-dot", 5), ("long-dash", 6), ("large-dot", 7), ("double", 8), ("double-2", 9), ("double-3", 10), ("triple", 11), ("wave", 12), ("double-wave", 13), ("inset", 14), ("outset", 15), ("groove", 16), ("ridge", 17)],
      e ["border", "flags", "line_end"] 22 4 6 9 [("round", 0), ("flat", 1)],
      e ["border", "flags", "arrow_start"] 22 4 10 15 [("none", 0), ("arrow", 1), ("arrow2", 2), ("diamond", 3), ("circle", 4), ("rect", 5), ("diamondfilled", 6), ("disc", 7), ("rectfilled", 8)],
      e ["border", "flags", "arrow_end"] 22 4 16 21 [("none", 0), ("arrow", 1), ("arrow2", 2), ("diamond", 3), ("circle", 4), ("rect", 5), ("diamondfilled", 6), ("disc", 7), ("rectfilled", 8)],
      e ["border", "flags", "arrow_start_size"] 22 4 22 25 [("smallest", 0), ("smaller", 1), ("small", 2), ("abitsmall", 3), ("normal", 4), ("abitlarge", 5), ("large", 6), ("larger", 7), ("largest", 8)],
      e ["border", "flags", "arrow_end_size"] 22 4 26 29 [("smallest", 0), ("smaller", 1), ("small", 2), ("abitsmall", 3), ("normal", 4), ("abitlarge", 5), ("large", 6), ("larger", 7), ("largest", 8)],
      b ["border", "flags", "arrow_start_fill"] 22 4 30 30,
      b ["border", "flags", "arrow_end_fill"] 22 4 31 31]),
  ("ShapePicture",
    since [] [
      s ["border", "color"] 0 4,
      s ["border", "width"] 4 4,
      u ["border", "flags"] 8 4,
      e ["border", "flags", "stroke"] 8 4 0 5 [("none", 0), ("solid", 1), ("dashed", 2), ("dotted", 3), ("dash-dot", 4), ("dash-dot-dot", 5), ("long-dash", 6), ("large-dot", 7), ("double", 8), ("double-2", 9), ("double-3", 10), ("triple", 11), ("wave", 12), ("double-wave", 13), ("inset", 14), ("outset", 15), ("groove", 16), ("ridge", 17)],
      e ["border", "flags", "line_end"] 8 4 6 9 [("round", 0), ("flat", 1)],
      e ["border", "flags", "arrow_start"] 8 4 10 15 [("none", 0), ("arrow", 1), ("arrow2", 2), ("diamond", 3), ("circle", 4), ("rect", 5), ("diamondfilled", 6), ("disc", 7), ("rectfilled", 8)],
      e ["border", "flags", "arrow_end"] 8 4 16 21 [("none", 0), ("arrow", 1), ("arrow2", 2), ("diamond", 3), ("circle", 4), ("rect", 5), ("diamondfilled", 6), ("disc", 7), ("rectfilled", 8)],
      e ["border", "flags", "arrow_start_size"] 8 4 22 25 [("smallest", 0), ("smaller", 1), ("small", 2), ("abitsmall", 3), ("normal", 4), ("abitlarge", 5), ("large", 6), ("larger", 7), ("largest", 8)],
      e ["border", "flags", "arrow_end_size"] 8 4 26 29 [("smallest", 0), ("smaller", 1), ("small", 2), ("abitsmall", 3), ("normal", 4), ("abitlarge", 5), ("large", 6), ("larger", 7), ("largest", 8)],
      b ["border", "flags", "arrow_start_fill"] 8 4 30 30,
      b ["border", "flags", "arrow_end_fill"] 8 4 31 31,
      s ["rect", "p0", "x"] 12 4,
      s ["rect", "p0", "y"] 16 4,
      s ["rect", "p1", "x"] 20 4,
      s ["rect", "p1", "y"] 24 4,
      s ["rect", "p2", "x"] 28 4,
      s ["rect", "p2", "y"] 32 4,
      s ["rect", "p3", "x"] 36 4,
      s ["rect", "p3", "y"] 40 4,
      s ["clip", "left"] 44 4,
      s ["clip", "top"] 48 4,
      s ["clip", "right"] 52 4,
      s ["clip", "bottom"] 56 4,
      s ["padding", "left"] 60 2,
      s ["padding", "right"] 62 2,
      s ["padding", "top"] 64 2,
      s ["padding", "bottom"] 66 2,
      s ["picture", "brightness"] 68 1,
      s ["picture", "contrast"] 69 1,
      u ["picture", "effect"] 70 1,
      u ["picture", "bindata_id"] 71 2] ++
    since [5, 0, 2, 2] [
      u ["border_transparency"] 73 1] ++
    since [5, 0, 2, 5] [
      u ["instance_id"] 74 4] ++
    since [5, 0, 3, 4] [
      u ["picture_effect", "flags"] 78 4]),
  ("GShapeObjectControl",
    since [] [
      c ["chid"] 0,
      u ["flags"] 4 4,
      b ["flags", "inline"] 4 4 0 0,
      b ["flags", "affect_line_spacing"] 4 4 2 2,
      e ["flags", "vrelto"] 4 4 3 4 [("PAPER", 0), ("PAGE", 1), ("PARAGRAPH", 2)],
      e ["flags", "valign"] 4 4 5 7 [("TOP", 0), ("MIDDLE", 1), ("BOTTOM", 2)],
      e ["flags", "hrelto"] 4 4 8 9 [("PAPER", 0), ("PAGE", 1), ("COLUMN", 2), ("PARAGRAPH", 3)],
      e ["flags", "halign"] 4 4 10 12 [("LEFT", 0), ("CENTER", 1), ("RIGHT", 2), ("INSIDE", 3), ("OUTSIDE", 4)],
      b ["flags", "restrict_in_page"] 4 4 13 13,
      b ["flags", "overlap_others"] 4 4 14 14,
      e ["flags", "width_relto"] 4 4 15 17 [("PAPER", 0), ("PAGE", 1), ("COLUMN", 2), ("PARAGRAPH", 3), ("ABSOLUTE", 4)],
      e ["flags", "height_relto"] 4 4 18 19 [("PAPER", 0), ("PAGE", 1), ("ABSOLUTE", 2)],
      b ["flags", "protect_size_when_vrelto_paragraph"] 4 4 20 20,
      e ["flags", "flow"] 4 4 21 23 [("FLOAT", 0), ("BLOCK", 1), ("BACK", 2), ("FRONT", 3)],
      e ["flags", "text_side"] 4 4 24 25 [("BOTH", 0), ("LEFT", 1), ("RIGHT", 2), ("LARGER", 3)],
      e ["flags", "number_category"] 4 4 26 27 [("NONE", 0), ("FIGURE", 1), ("TABLE", 2), ("EQUATION", 3)],
      s ["y"] 8 4,
      s ["x"] 12 4,
      u ["width"] 16 4,
      u ["height"] 20 4,
      s ["z_order"] 24 2,
      s ["unknown1"] 26 2,
      s ["margin", "left"] 28 2,
      s ["margin", "right"] 30 2,
      s ["margin", "top"] 32 2,
      s ["margin", "bottom"] 34 2,
      u ["instance_id"] 36 4] ++
    since [5, 0, 0, 5] [
      s ["unknown2"] 40 2]),
  ("TableControl",
    since [] [
      c ["chid"] 0,
      u ["flags"] 4 4,
      b ["flags", "inline"] 4 4 0 0,
      b ["flags", "affect_line_spacing"] 4 4 2 2,
      e ["flags", "vrelto"] 4 4 3 4 [("PAPER", 0), ("PAGE", 1), ("PARAGRAPH", 2)],
      e ["flags", "valign"] 4 4 5 7 [("TOP", 0), ("MIDDLE", 1), ("BOTTOM", 2)],
      e ["flags", "hrelto"] 4 4 8 9 [("PAPER", 0), ("PAGE", 1), ("COLUMN", 2), ("PARAGRAPH", 3)],
      e ["flags", "halign"] 4 4 10 12 [("LEFT", 0), ("CENTER", 1), ("RIGHT", 2), ("INSIDE", 3), ("OUTSIDE", 4)],
      b ["flags", "restrict_in_page"] 4 4 13 13,
      b ["flags", "overlap_others"] 4 4 14 14,
      e ["flags", "width_relto"] 4 4 15 17 [("PAPER", 0), ("PAGE", 1), ("COLUMN", 2), ("PARAGRAPH", 3), ("ABSOLUTE", 4)],
      e ["flags", "height_relto"] 4 4 18 19 [("PAPER", 0), ("PAGE", 1), ("ABSOLUTE", 2)],
      b ["flags", "protect_size_when_vrelto_paragraph"] 4 4 20 20,
      e ["flags", "flow"] 4 4 21 23 [("FLOAT", 0), ("BLOCK", 1), ("BACK", 2), ("FRONT", 3)],
      e ["flags", "text_side"] 4 4 24 25 [("BOTH", 0), ("LEFT", 1), ("RIGHT", 2), ("LARGER", 3)],
      e ["flags", "number_category"] 4 4 26 27 [("NONE", 0), ("FIGURE", 1), ("TABLE", 2), ("EQUATION", 3)],
      s ["y"] 8 4,
      s ["x"] 12 4,
      u ["width"] 16 4,
      u ["height"] 20 4,
      s ["z_order"] 24 2,
      s ["unknown1"] 26 2,
      s ["margin", "left"] 28 2,
      s ["margin", "right"] 30 2,
      s ["margin", "top"] 32 2,
      s ["margin", "bottom"] 34 2,
      u ["instance_id"] 36 4] ++
    since [5, 0, 0, 5] [
      s ["unknown2"] 40 2]),
  ("SectionDef",
    since [] [
      c ["chid"] 0,
      u ["flags"] 4 4,
      b ["flags", "hide_header"] 4 4 0 0,
      b ["flags", "hide_footer"] 4 4 1 1,
      b ["flags", "hide_page"] 4 4 2 2,
      b ["flags", "hide_border"] 4 4 3 3,
      b ["flags", "hide_background"] 4 4 4 4,
      b ["flags", "hide_pagenumber"] 4 4 5 5,
      b ["flags", "show_border_on_first_page_only"] 4 4 8 8,
      b ["flags", "show_background_on_first_page_only"] 4 4 9 9,
      b ["flags", "text_direction"] 4 4 16 18,
      b ["flags", "hide_blank_line"] 4 4 19 19,
      b ["flags", "pagenum_on_split_section"] 4 4 20 21,
      b ["flags", "squared_manuscript_paper"] 4 4 22 22,
      s ["columnspacing"] 8 2,
      s ["grid_vertical"] 10 2,
      s ["grid_horizontal"] 12 2,
      u ["defaultTabStops"] 14 4,
      u ["numbering_shape_id"] 18 2,
      u ["starting_pagenum"] 20 2,
      u ["starting_picturenum"] 22 2,
      u ["starting_tablenum"] 24 2,
      u ["starting_equationnum"] 26 2] ++
    since [5, 0, 1, 7] [
      u ["unknown1"] 28 4,
      u ["unknown2"] 32 4]),
  ("ColumnsDef",
    since [] [
      c ["chid"] 0,
      u ["flags"] 4 2,
      e ["flags", "kind"] 4 2 0 1 [("normal", 0), ("distribute", 1), ("parallel", 2)],
      b ["flags", "count"] 4 2 2 9,
      e ["flags", "direction"] 4 2 10 11 [("l2r", 0), ("r2l", 1), ("both", 2)],
      b ["flags", "same_widths"] 4 2 12 12,
      s ["spacing"] 6 2]),
  ("Header",
    since [] [
      c ["chid"] 0,
      u ["flags"] 4 4,
      e ["flags", "places"] 4 4 0 1 [("BOTH_PAGES", 0), ("EVEN_PAGE", 1), ("ODD_PAGE", 2)]]),
  ("Footer",
    since [] [
      c ["chid"] 0,
      u ["flags"] 4 4,
      e ["flags", "places"] 4 4 0 1 [("BOTH_PAGES", 0), ("EVEN_PAGE", 1), ("ODD_PAGE", 2)]]),
  ("FootNote",
    since [] [
      c ["chid"] 0,
      u ["number"] 4 4,
      u ["unknown0"] 8 4,
      u ["unknown1"] 12 4] ++
    since [5, 0, 3, 0] [
      u ["unknown2"] 16 2,
      u ["unknown3"] 18 2]),
  ("EndNote",
    since [] [
      c ["chid"] 0,
      u ["number"] 4 4,
      u ["unknown0"] 8 4,
      u ["unknown1"] 12 4] ++
    since [5, 0, 3, 0] [
      u ["unknown2"] 16 2,
      u ["unknown3"] 18 2]),
  ("AutoNumbering",
    since [] [
      c ["chid"] 0,
      u ["flags"] 4 4,
      e ["flags", "kind"] 4 4 0 3 [("PAGE", 0), ("FOOTNOTE", 1), ("ENDNOTE", 2), ("PICTURE", 3), ("TABLE", 4), ("EQUATION", 5), ("UNKNOWN6", 6)],
      b ["flags", "footnoteshape"] 4 4 4 11,
      b ["flags", "superscript"] 4 4 12 12,
      u ["number"] 8 2,
      u ["usersymbol"] 10 2,
      u ["prefix"] 12 2,
      u ["suffix"] 14 2]),
  ("NewNumbering",
    since [] [
      c ["chid"] 0,
      u ["flags"] 4 4,
      e ["flags", "kind"] 4 4 0 3 [("PAGE", 0), ("FOOTNOTE", 1), ("ENDNOTE", 2), ("PICTURE", 3), ("TABLE", 4), ("EQUATION", 5), ("UNKNOWN6", 6)],
      b ["flags", "footnoteshape"] 4 4 4 11,
      b ["flags", "superscript"] 4 4 12 12,
      u ["number"] 8 2]),
  ("PageHide",
    since [] [
      c ["chid"] 0,
      u ["flags"] 4 4,
      b ["flags", "header"] 4 4 0 0,
      b ["flags", "footer"] 4 4 1 1,
      b ["flags", "basepage"] 4 4 2 2,
      b ["flags", "pageborder"] 4 4 3 3,
      b ["flags", "pagefill"] 4 4 4 4,
      b ["flags", "pagenumber"] 4 4 5 5]),
  ("PageOddEven",
    since [] [
      c ["chid"] 0,
      u ["flags"] 4 4,
      e ["flags", "pages"] 4 4 0 1 [("BOTH_PAGES", 0), ("EVEN_PAGE", 1), ("ODD_PAGE", 2)]]),
  ("PageNumberPosition",
    since [] [
      c ["chid"] 0,
      u ["flags"] 4 4,
      b ["flags", "shape"] 4 4 0 7,
      e ["flags", "position"] 4 4 8 11 [("NONE", 0), ("TOP_LEFT", 1), ("TOP_CENTER", 2), ("TOP_RIGHT", 3), ("BOTTOM_LEFT", 4), ("BOTTOM_CENTER", 5), ("BOTTOM_RIGHT", 6), ("OUTSIDE_TOP", 7), ("OUTSIDE_BOTTOM", 8), ("INSIDE_TOP", 9), ("INSIDE_BOTTOM", 10)],
      u ["usersymbol"] 8 2,
      u ["prefix"] 10 2,
      u ["suffix"] 12 2,
      u ["dash"] 14 2]),
  ("IndexMarker",
    since [] [
      c ["chid"] 0]),
  ("BookmarkControl",
    since [] [
      c ["chid"] 0]),
  ("TCPSControl",
    since [] [
      c ["chid"] 0]),
  ("Dutmal",
    since [] [
      c ["chid"] 0]),
  ("HiddenComment",
    since [] [
      c ["chid"] 0]),
  ("FieldUnknown",
    since [] [
      c ["chid"] 0,
      u ["flags"] 4 4,
      b ["flags", "editableInReadOnly"] 4 4 0 0,
      b ["flags", "visitedType"] 4 4 11 14,
      b ["flags", "modified"] 4 4 15 15,
      u ["extra_attr"] 8 1]),
  ("FieldDate",
    since [] [
      c ["chid"] 0,
      u ["flags"] 4 4,
      b ["flags", "editableInReadOnly"] 4 4 0 0,
      b ["flags", "visitedType"] 4 4 11 14,
      b ["flags", "modified"] 4 4 15 15,
      u ["extra_attr"] 8 1]),
  ("FieldDocDate",
    since [] [
      c ["chid"] 0,
      u ["flags"] 4 4,
      b ["flags", "editableInReadOnly"] 4 4 0 0,
      b ["flags", "visitedType"] 4 4 11 14,
      b ["flags", "modified"] 4 4 15 15,
      u ["extra_attr"] 8 1]),
  ("FieldPath",
    since [] [
      c ["chid"] 0,
      u ["flags"] 4 4,
      b ["flags", "editableInReadOnly"] 4 4 0 0,
      b ["flags", "visitedType"] 4 4 11 14,
      b ["flags", "modified"] 4 4 15 15,
      u ["extra_attr"] 8 1]),
  ("FieldBookmark",
    since [] [
      c ["chid"] 0,
      u ["flags"] 4 4,
      b ["flags", "editableInReadOnly"] 4 4 0 0,
      b ["flags", "visitedType"] 4 4 11 14,
      b ["flags", "modified"] 4 4 15 15,
      u ["extra_attr"] 8 1]),
  ("FieldMailMerge",
    since [] [
      c ["chid"] 0,
      u ["flags"] 4 4,
      b ["flags", "editableInReadOnly"] 4 4 0 0,
      b ["flags", "visitedType"] 4 4 11 14,
      b ["flags", "modified"] 4 4 15 15,
      u ["extra_attr"] 8 1]),
  ("FieldCrossRef",
    since [] [
      c ["chid"] 0,
      u ["flags"] 4 4,
      b ["flags", "editableInReadOnly"] 4 4 0 0,
      b ["flags", "visitedType"] 4 4 11 14,
      b ["flags", "modified"] 4 4 15 15,
      u ["extra_attr"] 8 1]),
  ("FieldFormula",
    since [] [
      c ["chid"] 0,
      u ["flags"] 4 4,
      b ["flags", "editableInReadOnly"] 4 4 0 0,
      b ["flags", "visitedType"] 4 4 11 14,
      b ["flags", "modified"] 4 4 15 15,
      u ["extra_attr"] 8 1]),
  ("FieldClickHere",
    since [] [
      c ["chid"] 0,
      u ["flags"] 4 4,
      b ["flags", "editableInReadOnly"] 4 4 0 0,
      b ["flags", "visitedType"] 4 4 11 14,
      b ["flags", "modified"] 4 4 15 15,
      u ["extra_attr"] 8 1]),
  ("FieldSummary",
    since [] [
      c ["chid"] 0,
      u ["flags"] 4 4,
      b ["flags", "editableInReadOnly"] 4 4 0 0,
      b ["flags", "visitedType"] 4 4 11 14,
      b ["flags", "modified"] 4 4 15 15,
      u ["extra_attr"] 8 1]),
  ("FieldUserInfo",
    since [] [
      c ["chid"] 0,
      u ["flags"] 4 4,
      b ["flags", "editableInReadOnly"] 4 4 0 0,
      b ["flags", "visitedType"] 4 4 11 14,
      b ["flags", "modified"] 4 4 15 15,
      u ["extra_attr"] 8 1]),
  ("FieldHyperLink",
    since [] [
      c ["chid"] 0,
      u ["flags"] 4 4,
      b ["flags", "editableInReadOnly"] 4 4 0 0,
      b ["flags", "visitedType"] 4 4 11 14,
      b ["flags", "modified"] 4 4 15 15,
      u ["extra_attr"] 8 1]),
  ("FieldRevisionSign",
    since [] [
      c ["chid"] 0,
      u ["flags"] 4 4,
      b ["flags", "editableInReadOnly"] 4 4 0 0,
      b ["flags", "visitedType"] 4 4 11 14,
      b ["flags", "modified"] 4 4 15 15,
      u ["extra_attr"] 8 1]),
  ("FieldRevisionDelete",
    since [] [
      c ["chid"] 0,
      u ["flags"] 4 4,
      b ["flags", "editableInReadOnly"] 4 4 0 0,
      b ["flags", "visitedType"] 4 4 11 14,
      b ["flags", "modified"] 4 4 15 15,
      u ["extra_attr"] 8 1]),
  ("FieldRevisionAttach",
    since [] [
      c ["chid"] 0,
      u ["flags"] 4 4,
      b ["flags", "editableInReadOnly"] 4 4 0 0,
      b ["flags", "visitedType"] 4 4 11 14,
      b ["flags", "modified"] 4 4 15 15,
      u ["extra_attr"] 8 1]),
  ("FieldRevisionClipping",
    since [] [
      c ["chid"] 0,
      u ["flags"] 4 4,
      b ["flags", "editableInReadOnly"] 4 4 0 0,
      b ["flags", "visitedType"] 4 4 11 14,
      b ["flags", "modified"] 4 4 15 15,
      u ["extra_attr"] 8 1]),
  ("FieldRevisionSawtooth",
    since [] [
      c ["chid"] 0,
      u ["flags"] 4 4,
      b ["flags", "editableInReadOnly"] 4 4 0 0,
      b ["flags", "visitedType"] 4 4 11 14,
      b ["flags", "modified"] 4 4 15 15,
      u ["extra_attr"] 8 1]),
  ("FieldRevisionThinking",
    since [] [
      c ["chid"] 0,
      u ["flags"] 4 4,
      b ["flags", "editableInReadOnly"] 4 4 0 0,
      b ["flags", "visitedType"] 4 4 11 14,
      b ["flags", "modified"] 4 4 15 15,
      u ["extra_attr"] 8 1]),
  ("FieldRevisionPraise",
    since [] [
      c ["chid"] 0,
      u ["flags"] 4 4,
      b ["flags", "editableInReadOnly"] 4 4 0 0,
      b ["flags", "visitedType"] 4 4 11 14,
      b ["flags", "modified"] 4 4 15 15,
      u ["extra_attr"] 8 1]),
  ("FieldRevisionLine",
    since [] [
      c ["chid"] 0,
      u ["flags"] 4 4,
      b ["flags", "editableInReadOnly"] 4 4 0 0,
      b ["flags", "visitedType"] 4 4 11 14,
      b ["flags", "modified"] 4 4 15 15,
      u ["extra_attr"] 8 1]),
  ("FieldRevisionSimpleChange",
    since [] [
      c ["chid"] 0,
      u ["flags"] 4 4,
      b ["flags", "editableInReadOnly"] 4 4 0 0,
      b ["flags", "visitedType"] 4 4 11 14,
      b ["flags", "modified"] 4 4 15 15,
      u ["extra_attr"] 8 1]),
  ("FieldRevisionHyperlink",
    since [] [
      c ["chid"] 0,
      u ["flags"] 4 4,
      b ["flags", "editableInReadOnly"] 4 4 0 0,
      b ["flags", "visitedType"] 4 4 11 14,
      b ["flags", "modified"] 4 4 15 15,
      u ["extra_attr"] 8 1]),
  ("FieldRevisionLineAttach",
    since [] [
      c ["chid"] 0,
      u ["flags"] 4 4,
      b ["flags", "editableInReadOnly"] 4 4 0 0,
      b ["flags", "visitedType"] 4 4 11 14,
      b ["flags", "modified"] 4 4 15 15,
      u ["extra_attr"] 8 1]),
  ("FieldRevisionLineLink",
    since [] [
      c ["chid"] 0,
      u ["flags"] 4 4,
      b ["flags", "editableInReadOnly"] 4 4 0 0,
      b ["flags", "visitedType"] 4 4 11 14,
      b ["flags", "modified"] 4 4 15 15,
      u ["extra_attr"] 8 1]),
  ("FieldRevisionLineTransfer",
    since [] [
      c ["chid"] 0,
      u ["flags"] 4 4,
      b ["flags", "editableInReadOnly"] 4 4 0 0,
      b ["flags", "visitedType"] 4 4 11 14,
      b ["flags", "modified"] 4 4 15 15,
      u ["extra_attr"] 8 1]),
  ("FieldRevisionRightMove",
    since [] [
      c ["chid"] 0,
      u ["flags"] 4 4,
      b ["flags", "editableInReadOnly"] 4 4 0 0,
      b ["flags", "visitedType"] 4 4 11 14,
      b ["flags", "modified"] 4 4 15 15,
      u ["extra_attr"] 8 1]),
  ("FieldRevisionLeftMove",
    since [] [
      c ["chid"] 0,
      u ["flags"] 4 4,
      b ["flags", "editableInReadOnly"] 4 4 0 0,
      b ["flags", "visitedType"] 4 4 11 14,
      b ["flags", "modified"] 4 4 15 15,
      u ["extra_attr"] 8 1]),
  ("FieldRevisionTransfer",
    since [] [
      c ["chid"] 0,
      u ["flags"] 4 4,
      b ["flags", "editableInReadOnly"] 4 4 0 0,
      b ["flags", "visitedType"] 4 4 11 14,
      b ["flags", "modified"] 4 4 15 15,
      u ["extra_attr"] 8 1]),
  ("FieldRevisionSimpleInsert",
    since [] [
      c ["chid"] 0,
      u ["flags"] 4 4,
      b ["flags", "editableInReadOnly"] 4 4 0 0,
      b ["flags", "visitedType"] 4 4 11 14,
      b ["flags", "modified"] 4 4 15 15,
      u ["extra_attr"] 8 1]),
  ("FieldRevisionSplit",
    since [] [
      c ["chid"] 0,
      u ["flags"] 4 4,
      b ["flags", "editableInReadOnly"] 4 4 0 0,
      b ["flags", "visitedType"] 4 4 11 14,
      b ["flags", "modified"] 4 4 15 15,
      u ["extra_attr"] 8 1]),
  ("FieldRevisionChange",
    since [] [
      c ["chid"] 0,
      u ["flags"] 4 4,
      b ["flags", "editableInReadOnly"] 4 4 0 0,
      b ["flags", "visitedType"] 4 4 11 14,
      b ["flags", "modified"] 4 4 15 15,
      u ["extra_attr"] 8 1]),
  ("FieldMemo",
    since [] [
      c ["chid"] 0,
      u ["flags"] 4 4,
      b ["flags", "editableInReadOnly"] 4 4 0 0,
      b ["flags", "visitedType"] 4 4 11 14,
      b ["flags", "modified"] 4 4 15 15,
      u ["extra_attr"] 8 1]),
  ("FieldPrivateInfoSecurity",
    since [] [
      c ["chid"] 0,
      u ["flags"] 4 4,
      b ["flags", "editableInReadOnly"] 4 4 0 0,
      b ["flags", "visitedType"] 4 4 11 14,
      b ["flags", "modified"] 4 4 15 15,
      u ["extra_attr"] 8 1]),
  ("TableCaption",
    since [] [
      u ["paragraphs"] 0 2,
      u ["unknown1"] 2 2,
      u ["listflags"] 4 4,
      b ["listflags", "textdirection"] 4 4 0 2,
      b ["listflags", "linebreak"] 4 4 3 4,
      e ["listflags", "valign"] 4 4 5 6 [("TOP", 0), ("MIDDLE", 1), ("BOTTOM", 2)],
      u ["flags"] 8 4,
      e ["flags", "position"] 8 4 0 1 [("LEFT", 0), ("RIGHT", 1), ("TOP", 2), ("BOTTOM", 3)],
      b ["flags", "expand_to_margin"] 8 4 2 2,
      u ["width"] 12 4,
      s ["separation"] 16 2,
      u ["max_width"] 18 4]),
  ("TableCell",
    since [] [
      u ["paragraphs"] 0 2,
      u ["unknown1"] 2 2,
      u ["listflags"] 4 4,
      b ["listflags", "textdirection"] 4 4 0 2,
      b ["listflags", "linebreak"] 4 4 3 4,
      e ["listflags", "valign"] 4 4 5 6 [("TOP", 0), ("MIDDLE", 1), ("BOTTOM", 2)],
      u ["col"] 8 2,
      u ["row"] 10 2,
      u ["colspan"] 12 2,
      u ["rowspan"] 14 2,
      s ["width"] 16 4,
      s ["height"] 20 4,
      s ["padding", "left"] 24 2,
      s ["padding", "right"] 26 2,
      s ["padding", "top"] 28 2,
      s ["padding", "bottom"] 30 2,
      u ["borderfill_id"] 32 2,
      s ["unknown_width"] 34 4]),
  ("GShapeObjectCaption",
    since [] [
      u ["paragraphs"] 0 2,
      u ["unknown1"] 2 2,
      u ["listflags"] 4 4,
      b ["listflags", "textdirection"] 4 4 0 2,
      b ["listflags", "linebreak"] 4 4 3 4,
      e ["listflags", "valign"] 4 4 5 6 [("TOP", 0), ("MIDDLE", 1), ("BOTTOM", 2)],
      u ["flags"] 8 4,
      e ["flags", "position"] 8 4 0 1 [("LEFT", 0), ("RIGHT", 1), ("TOP", 2), ("BOTTOM", 3)],
      b ["flags", "expand_to_margin"] 8 4 2 2,
      u ["width"] 12 4,
      s ["separation"] 16 2,
      u ["max_width"] 18 4]),
  ("TextboxParagraphList",
    since [] [
      u ["paragraphs"] 0 2,
      u ["unknown1"] 2 2,
      u ["listflags"] 4 4,
      b ["listflags", "textdirection"] 4 4 0 2,
      b ["listflags", "linebreak"] 4 4 3 4,
      e ["listflags", "valign"] 4 4 5 6 [("TOP", 0), ("MIDDLE", 1), ("BOTTOM", 2)],
      s ["padding", "left"] 8 2,
      s ["padding", "right"] 10 2,
      s ["padding", "top"] 12 2,
      s ["padding", "bottom"] 14 2,
      u ["maxwidth"] 16 4]),
  ("HeaderParagraphList",
    since [] [
      u ["paragraphs"] 0 2,
      u ["unknown1"] 2 2,
      u ["listflags"] 4 4,
      b ["listflags", "textdirection"] 4 4 0 2,
      b ["listflags", "linebreak"] 4 4 3 4,
      e ["listflags", "valign"] 4 4 5 6 [("TOP", 0), ("MIDDLE", 1), ("BOTTOM", 2)],
      u ["width"] 8 4,
      u ["height"] 12 4,
      u ["textrefsbitmap"] 16 1,
      u ["numberrefsbitmap"] 17 1]),
  ("FooterParagraphList",
    since [] [
      u ["paragraphs"] 0 2,
      u ["unknown1"] 2 2,
      u ["listflags"] 4 4,
      b ["listflags", "textdirection"] 4 4 0 2,
      b ["listflags", "linebreak"] 4 4 3 4,
      e ["listflags", "valign"] 4 4 5 6 [("TOP", 0), ("MIDDLE", 1), ("BOTTOM", 2)],
      u ["width"] 8 4,
      u ["height"] 12 4,
      u ["textrefsbitmap"] 16 1,
      u ["numberrefsbitmap"] 17 1]),
  ("BookmarkControlData",
    since [] [
      u ["unknown1"] 0 4,
      u ["unknown2"] 4 4,
      u ["unknown3"] 8 2]),
  ("LineSeg",
    since [] [
      s ["chpos"] 0 4,
      s ["y"] 4 4,
      s ["height"] 8 4,
      s ["height_text"] 12 4,
      s ["height_baseline"] 16 4,
      s ["space_below"] 20 4,
      s ["x"] 24 4,
      s ["width"] 28 4,
      u ["lineseg_flags"] 32 4,
      b ["lineseg_flags", "line_head"] 32 4 17 17,
      b ["lineseg_flags", "line_tail"] 32 4 18 18,
      b ["lineseg_flags", "indented"] 32 4 20 20,
      b ["lineseg_flags", "bullet"] 32 4 21 21])]

/-- The sizes of the records of a type that have a fixed size, and what is added in documents of
later versions. -/
def sizeTable : List (String × Nat × List (Version × Nat)) := [
  ("DocumentProperties", 26, []),
  ("IdMappings", 60, [([5, 0, 1, 7], 4)]),
  ("CharShape", 68, []),
  ("Bullet", 14, []),
  ("ParaShape", 42, [([5, 0, 1, 7], 4)]),
  ("DocData", 0, []),
  ("DistributeDocData", 0, []),
  ("CompatibleDocument", 4, []),
  ("LayoutCompatibility", 20, []),
  ("TagModel32", 0, []),
  ("Paragraph", 22, []),
  ("Control", 4, []),
  ("ListHeader", 8, []),
  ("PageDef", 40, []),
  ("FootnoteShape", 28, []),
  ("PageBorderFill", 14, []),
  ("ShapeLine", 18, []),
  ("ShapeRectangle", 33, []),
  ("ShapeEllipse", 60, []),
  ("ShapeArc", 24, []),
  ("ShapeOLE", 26, []),
  ("ShapePicture", 73, [([5, 0, 2, 2], 1), ([5, 0, 2, 5], 4), ([5, 0, 3, 4], 4)]),
  ("ShapeContainer", 0, []),
  ("ControlData", 0, []),
  ("EqEdit", 0, []),
  ("ShapeTextArt", 0, []),
  ("FormObject", 0, []),
  ("MemoShape", 0, []),
  ("MemoList", 0, []),
  ("ForbiddenChar", 0, []),
  ("ChartData", 0, []),
  ("ShapeUnknown", 0, []),
  ("SectionDef", 28, [([5, 0, 1, 7], 8)]),
  ("Header", 8, []),
  ("Footer", 8, []),
  ("FootNote", 16, [([5, 0, 3, 0], 4)]),
  ("EndNote", 16, [([5, 0, 3, 0], 4)]),
  ("AutoNumbering", 16, []),
  ("NewNumbering", 10, []),
  ("PageHide", 8, []),
  ("PageOddEven", 8, []),
  ("PageNumberPosition", 16, []),
  ("BookmarkControl", 4, []),
  ("HiddenComment", 4, []),
  ("TableCaption", 22, []),
  ("TableCell", 38, []),
  ("GShapeObjectCaption", 22, []),
  ("TextboxParagraphList", 20, []),
  ("HeaderParagraphList", 18, []),
  ("FooterParagraphList", 18, []),
  ("FieldClickHereData", 0, []),
  ("UnknownTagModel", 0, []),
  ("LineSeg", 36, [])]

/-- The size in documents of version `ver`. -/
def sizeFor (ver : Version) (size : Nat) (added : List (Version × Nat)) : Nat :=
  size + ((added.filter fun x => !ver.lt x.1).map (·.2)).sum

end Hwp.Spec
