{
 "claims": [
  {
   "property": "C01",
   "status": "proved",
   "theorems": [
    "Verif.Props.C01_normal_form"
   ],
   "note": ""
  },
  {
   "property": "C02",
   "status": "proved",
   "theorems": [
    "Verif.Props.C02_exact",
    "Verif.Props.C02_keeps_nonblank",
    "Verif.Props.C02_idempotent"
   ],
   "note": ""
  },
  {
   "property": "C03",
   "status": "proved",
   "theorems": [
    "Verif.Props.C03_no_twin_left",
    "Verif.Props.C03_only_collapses",
    "Verif.Props.C03_not_longer",
    "Verif.Props.C03_unchanged",
    "Verif.Props.C03_idempotent"
   ],
   "note": "Termination is the well-founded recursion of the model."
  },
  {
   "property": "C04",
   "status": "proved",
   "theorems": [
    "Verif.Props.C04_no_panic"
   ],
   "note": ""
  },
  {
   "property": "C05",
   "status": "partial",
   "theorems": [
    "Verif.Props.C05_lossless_partial",
    "Verif.Props.C05_false",
    "Verif.Props.C05_lost_iff",
    "Verif.Props.C05_multibyte"
   ],
   "note": "False of the code: the last byte can be lost (en-us 'text' -> ['tex']). Proved: nothing but the last byte can be lost; it is lost exactly if there is a Liang cut before it (C05_lost_iff), never of a word with a character of several bytes (C05_multibyte)."
  },
  {
   "property": "C06",
   "status": "proved",
   "theorems": [
    "Verif.Props.C06_opt_out",
    "Verif.Props.C06_parts"
   ],
   "note": ""
  },
  {
   "property": "C07",
   "status": "proved",
   "theorems": [
    "Verif.Props.C07_liang",
    "Verif.Props.C07_all",
    "Verif.Props.C07_unique"
   ],
   "note": "C07_all: for all words, not only ASCII ones: the bytes are cut at the Liang positions of the letters."
  },
  {
   "property": "C08",
   "status": "partial",
   "theorems": [
    "Verif.Props.C08_ascii_partial",
    "Verif.Props.C08_false",
    "Verif.Props.C08_iff"
   ],
   "note": "False of the code: Latin 'naïve' is cut inside 'ï'. Proved for ASCII words; C08_iff says for which words it holds."
  },
  {
   "property": "C09",
   "status": "proved",
   "theorems": [
    "Verif.Props.C09_syntax",
    "Verif.Props.C09_fails_iff",
    "Verif.Props.C09_shape",
    "Verif.Props.C09_roundtrip"
   ],
   "note": ""
  },
  {
   "property": "C10",
   "status": "proved",
   "theorems": [
    "Verif.Props.C10_enUs",
    "Verif.Props.C10_latin",
    "Verif.Props.C10_sizes"
   ],
   "note": "Kernel evaluation over the whole finite tables."
  },
  {
   "property": "C11",
   "status": "proved",
   "theorems": [
    "Verif.Props.C11_load_iff",
    "Verif.Props.C11_last_wins",
    "Verif.Props.C11_long_line"
   ],
   "note": ""
  },
  {
   "property": "C12",
   "status": "proved",
   "theorems": [
    "Verif.Props.C12_accepts_iff",
    "Verif.Props.C12_rejects_iff",
    "Verif.Props.C12_unique",
    "Verif.Props.C12_last_wins",
    "Verif.Props.C12_lastValue_spec"
   ],
   "note": "Grammar as relations over texts (Decls, Piece, Strips); acceptance and rejection characterised exactly."
  },
  {
   "property": "C13",
   "status": "proved",
   "theorems": [
    "Verif.Props.C13_order_irrelevant"
   ],
   "note": "The map order is an arbitrary permutation chosen per call."
  },
  {
   "property": "C14",
   "status": "proved",
   "theorems": [
    "Verif.Props.C14_effect",
    "Verif.Props.C14_properties_complete",
    "Verif.Props.C14_no_panic",
    "Verif.Props.C14_idempotent",
    "Verif.Props.C14_unknown_ignored"
   ],
   "note": "Styles is covered by 20 named properties; float parsing is a parameter."
  },
  {
   "property": "C15",
   "status": "proved",
   "theorems": [
    "Verif.Props.C15_error_iff",
    "Verif.Props.C15_overridden_unreported"
   ],
   "note": "Exact error condition. Only the value that counts (the last one) is checked: a bad value overridden later is not reported."
  },
  {
   "property": "C16",
   "status": "proved",
   "theorems": [
    "Verif.Props.C16_accept_iff",
    "Verif.Props.C16_range",
    "Verif.Props.C16_roundtrip"
   ],
   "note": ""
  },
  {
   "property": "C17",
   "status": "proved",
   "theorems": [
    "Verif.Props.C17_border_iff",
    "Verif.Props.C17_int_has_text",
    "Verif.Props.C17_border_roundtrip",
    "Verif.Props.C17_floats_accepted",
    "Verif.Props.C17_floats_only",
    "Verif.Props.C17_too_few"
   ],
   "note": "Border: exact characterisation. Floats: the conversion of one token is a parameter; text after the fourth number is ignored by the code."
  },
  {
   "property": "C18",
   "status": "proved",
   "theorems": [
    "Verif.Props.C18_forms",
    "Verif.Props.C18_closed",
    "Verif.Props.C18_meaning_unique",
    "Verif.Props.C18_unclosed",
    "Verif.Props.C18_bad_block",
    "Verif.Props.C18_no_panic"
   ],
   "note": "Termination is the well-founded recursion of decodeClassesLoop. Blanks (CR, LF, TAB) become spaces first."
  },
  {
   "property": "C19",
   "status": "proved",
   "theorems": [
    "Verif.Props.C19_cascade",
    "Verif.Props.C19_lastSetter_spec",
    "Verif.Props.C19_attrs",
    "Verif.Props.C19_attrs_error",
    "Verif.Props.C19_words",
    "Verif.Props.C19_end_to_end"
   ],
   "note": "Fields: only ASCII white space is modelled."
  },
  {
   "property": "C20",
   "status": "proved",
   "theorems": [
    "Verif.Props.C20_selector",
    "Verif.Props.C20_fallback"
   ],
   "note": ""
  },
  {
   "property": "C21",
   "status": "proved",
   "theorems": [
    "Verif.Props.C21_no_panic",
    "Verif.Props.C21_shape",
    "Verif.Props.C21_allocated"
   ],
   "note": "for every table, all span values"
  },
  {
   "property": "C22",
   "status": "proved",
   "theorems": [
    "Verif.Props.C22_authored",
    "Verif.Props.C22_rows"
   ],
   "note": ""
  },
  {
   "property": "C23",
   "status": "proved",
   "theorems": [
    "Verif.Props.C23_owns",
    "Verif.Props.C23_owned"
   ],
   "note": ""
  },
  {
   "property": "C24",
   "status": "proved",
   "theorems": [
    "Verif.Props.C24_height"
   ],
   "note": ""
  },
  {
   "property": "C25",
   "status": "partial",
   "theorems": [
    "Verif.Props.C25_partial",
    "Verif.Props.C25_file",
    "Verif.Props.C25_file_partial",
    "Verif.Props.C25_colspans",
    "Verif.Props.C25_block_overlap",
    "Verif.Props.C25_rows_overlap"
   ],
   "note": "The full claim is false of the code (C25_block_overlap: a cell over two rows and two columns; C25_rows_overlap: two cells over several rows). C25_partial proves it if no cell spans both ways, no row reached from above has a wide cell, and high cells sharing a row below are placed from left to right. C25_file decides the claim for every table from the spans in the file alone (with the places of C122); C25_file_partial states the conditions of C25_partial on the file."
  },
  {
   "property": "C26",
   "status": "proved",
   "theorems": [
    "Verif.Props.C26_widths",
    "Verif.Props.C26_span",
    "Verif.Props.C26_wide"
   ],
   "note": "C26_span, C26_wide: the width of a cell over several columns, as used for drawing, is the sum of the widths of its columns."
  },
  {
   "property": "C27",
   "status": "proved",
   "theorems": [
    "Verif.Props.C27_rows",
    "Verif.Props.C27_holds"
   ],
   "note": ""
  },
  {
   "property": "C28",
   "status": "proved",
   "theorems": [
    "Verif.Props.C28_rows",
    "Verif.Props.C28_cells"
   ],
   "note": "over arbitrary operations for AddPage and renderCell"
  },
  {
   "property": "C29",
   "status": "proved",
   "theorems": [
    "Verif.Props.C29_fits",
    "Verif.Props.C29_body",
    "Verif.Props.C29_allowed"
   ],
   "note": "C29_fits for all operations a table can be rendered with; C29_body and C29_allowed: the body of a document meets its hypothesis, with any engine."
  },
  {
   "property": "C30",
   "status": "proved",
   "theorems": [
    "Verif.Props.C30_headers",
    "Verif.Props.C30_prevented",
    "Verif.Props.C30_header"
   ],
   "note": "C30_header: header and footer meet the hypothesis of C30_prevented."
  },
  {
   "property": "C31",
   "status": "proved",
   "theorems": [
    "Verif.Props.C31_table",
    "Verif.Props.C31_cell",
    "Verif.Props.C31_span_one"
   ],
   "note": ""
  },
  {
   "property": "C32",
   "status": "proved",
   "theorems": [
    "Verif.Props.C32_accepts",
    "Verif.Props.C32_corners",
    "Verif.Props.C32_no_panic"
   ],
   "note": "For grids with rows of any lengths and every iteration order of the map."
  },
  {
   "property": "C33",
   "status": "proved",
   "theorems": [
    "Verif.Props.C33"
   ],
   "note": ""
  },
  {
   "property": "C34",
   "status": "proved",
   "theorems": [
    "Verif.Props.C34_fits",
    "Verif.Props.C34_aspect",
    "Verif.Props.C34_style_aspect",
    "Verif.Props.C34_largest",
    "Verif.Props.C34_exact",
    "Verif.Props.C34_natural"
   ],
   "note": "Size and position put by renderImage, exact arithmetic. The size fits the area; the position is not checked against it by the code."
  },
  {
   "property": "C35",
   "status": "proved",
   "theorems": [
    "Verif.Props.C35_words"
   ],
   "note": "for every engine that measures by the given metrics; words are those of the normalised text with {cp} replaced"
  },
  {
   "property": "C36",
   "status": "partial",
   "theorems": [
    "Verif.Props.C36_narrow_partial",
    "Verif.Props.C36_block_partial",
    "Verif.Props.C36_exact_fit"
   ],
   "note": "proved as stated for left, center and right aligned text (spaces of non-negative width); in block text a line that ends in a hyphenated word can be exactly as wide as the available width (C36_exact_fit), so there only 'not wider' holds, and 'narrower' for the other lines"
  },
  {
   "property": "C37",
   "status": "partial",
   "theorems": [
    "Verif.Props.C37_greedy_partial",
    "Verif.Props.C37_blank"
   ],
   "note": "greedy breaking proved; the part about blank lines is false of the code (C37_blank); C60 states where blank lines come from"
  },
  {
   "property": "C38",
   "status": "proved",
   "theorems": [
    "Verif.Props.C38_spells",
    "Verif.Props.C38_any"
   ],
   "note": "C38_any: without assumption on the hyphenator, every word is there or what its parts join to"
  },
  {
   "property": "C39",
   "status": "proved",
   "theorems": [
    "Verif.Props.C39_justified",
    "Verif.Props.typesets_fpdf"
   ],
   "note": "exact arithmetic, spaces at least 0.1 wide, texts ending left of the right margin are written in place (proved for the engine model in typesets_fpdf)"
  },
  {
   "property": "C40",
   "status": "partial",
   "theorems": [
    "Verif.Props.C40_last_partial",
    "Verif.Props.C40_break_stretched"
   ],
   "note": "proved for the last line of a text not ended by a line break instruction; false of the code for lines ended by one (C40_break_stretched); C59 is the exact statement"
  },
  {
   "property": "C41",
   "status": "proved",
   "theorems": [
    "Verif.Props.C41_height",
    "Verif.Props.feeds_fpdf"
   ],
   "note": "the number of lines written is the number of line feeds; both for block text and other text; fonts may differ as long as their heights do not"
  },
  {
   "property": "C42",
   "status": "proved",
   "theorems": [
    "Verif.Props.C42_newpage"
   ],
   "note": "Engine model after gofpdf; margins must not be negative (gofpdf takes negative positions for distances from the far edge; example)."
  },
  {
   "property": "C43",
   "status": "proved",
   "theorems": [
    "Verif.Props.C43_returns",
    "Verif.Props.C43_header",
    "Verif.Props.C43_cause",
    "Verif.Props.C43_footer",
    "Verif.Props.C43_iff"
   ],
   "note": "C43_returns and C43_header for every engine that meets the stated laws; C43_footer and C43_iff for the gofpdf engine model."
  },
  {
   "property": "C44",
   "status": "partial",
   "theorems": [
    "Verif.Props.C44_only_font_partial",
    "Verif.Props.C44_process_partial",
    "Verif.Props.C44_font_outlives",
    "Verif.Props.C44_header_font"
   ],
   "note": "The first sentence is proved for every engine. The second (the font of an element does not affect later elements) is false of the code: C44_font_outlives, C44_header_font are witnesses."
  },
  {
   "property": "C45",
   "status": "proved",
   "theorems": [
    "Verif.Props.C45_kept",
    "Verif.Props.C45_clamped",
    "Verif.Props.C45_at_most",
    "Verif.Props.C45_inverted"
   ],
   "note": ""
  },
  {
   "property": "C46",
   "status": "proved",
   "theorems": [
    "Verif.Props.C46_ink",
    "Verif.Props.C46_count",
    "Verif.Props.C46_compose"
   ],
   "note": ""
  },
  {
   "property": "C47",
   "status": "proved",
   "theorems": [
    "Verif.Props.C47_written",
    "Verif.Props.C47_error_lasts"
   ],
   "note": "C47_written for every engine; C47_error_lasts: an error of the gofpdf engine is never forgotten."
  },
  {
   "property": "C48",
   "status": "partial",
   "theorems": [
    "Verif.Props.C48_no_error",
    "Verif.Props.C48_partial",
    "Verif.Props.C48_empty_partial",
    "Verif.Props.C48_invalid_utf8",
    "Verif.Props.styleLeaves_nodup",
    "Verif.Props.C48_exact",
    "Verif.Props.C48_empty_iff"
   ],
   "note": "False for strings that are no UTF-8 (C48_invalid_utf8). C48_exact: for all strings, the diff lists exactly the leaf properties whose texts differ, where a byte that is no UTF-8 counts as U+FFFD; C48_empty_iff: it is empty iff all texts and numbers are the same. C48_partial and C48_empty_partial: as stated, for styles whose strings are valid UTF-8. In all of them the ints survive the conversion to float64."
  },
  {
   "property": "C49",
   "status": "partial",
   "theorems": [
    "Verif.Props.C49_left_wrong",
    "Verif.Props.C49_partial"
   ],
   "note": "False of the code: describeMargins reports the right margin as the left one."
  },
  {
   "property": "C50",
   "status": "proved",
   "theorems": [
    "Verif.Props.C50_all",
    "Verif.Props.C50_first_error",
    "Verif.Props.C50_register",
    "Verif.Props.C50_load"
   ],
   "note": "TOML decoding and path resolution are parameters."
  },
  {
   "property": "C51",
   "status": "partial",
   "theorems": [
    "Verif.Props.C51_kept_partial",
    "Verif.Props.C51_part_text"
   ],
   "note": "proved for every instruction tree without text directly in a grid part, with white space, comments and unknown wrapper elements in between; false of the code for such text, which is lost (C51_part_text)"
  },
  {
   "property": "C52",
   "status": "proved",
   "theorems": [
    "Verif.Props.C52_fails",
    "Verif.Props.C52_unwrapped"
   ],
   "note": ""
  },
  {
   "property": "C53",
   "status": "proved",
   "theorems": [
    "Verif.Props.C53_pieces",
    "Verif.Props.C53_replaced",
    "Verif.Props.C53_decimal",
    "Verif.Props.C53_never_written",
    "Verif.Props.C53_no_placeholder",
    "Verif.Props.hyphenator_cuts"
   ],
   "note": "The hyphenator must not add bytes (true of the one in the repository: hyphenator_cuts)."
  },
  {
   "property": "C54",
   "status": "proved",
   "theorems": [
    "Verif.Props.C54_in_order",
    "Verif.Props.C54_only_acting"
   ],
   "note": ""
  },
  {
   "property": "C55",
   "status": "proved",
   "theorems": [
    "Verif.Props.C55_aligned",
    "Verif.Props.C55_start"
   ],
   "note": "The measured height is that without hyphenation, also for block text. Positions that would be negative are not reached (gofpdf counts them from the far edge)."
  },
  {
   "property": "C56",
   "status": "partial",
   "theorems": [
    "Verif.Props.C56_geometry_partial",
    "Verif.Props.C56_padding"
   ],
   "note": "False in one point: whether a new page is started depends on the height of the contents only, not on offset and padding (C56_padding). All else is proved."
  },
  {
   "property": "C57",
   "status": "proved",
   "theorems": [
    "Verif.Props.C57_exact",
    "Verif.Props.C57_keeps",
    "Verif.Props.C57_normal_form",
    "Verif.Props.C57_glues"
   ],
   "note": "clearStr equals a one-pass specification; the gluing of words separated by two spaces is a consequence."
  },
  {
   "property": "C58",
   "status": "proved",
   "theorems": [
    "Verif.Props.C58_contents",
    "Verif.Props.C58_one_item",
    "Verif.Props.C58_append"
   ],
   "note": ""
  },
  {
   "property": "C59",
   "status": "proved",
   "theorems": [
    "Verif.Props.C59_unstretched",
    "Verif.Props.C40_last_partial"
   ],
   "note": ""
  },
  {
   "property": "C60",
   "status": "proved",
   "theorems": [
    "Verif.Props.C60_greedy"
   ],
   "note": ""
  },
  {
   "property": "C61",
   "status": "proved",
   "theorems": [
    "Verif.Props.C61_exact",
    "Verif.Props.C61_wellformed"
   ],
   "note": ""
  },
  {
   "property": "C62",
   "status": "proved",
   "theorems": [
    "Verif.Props.C62_box",
    "Verif.Props.C62_dropped"
   ],
   "note": ""
  },
  {
   "property": "C63",
   "status": "proved",
   "theorems": [
    "Verif.Props.C63_styles"
   ],
   "note": "Also shows that the cells come in the order written and keep their instructions."
  },
  {
   "property": "C64",
   "status": "proved",
   "theorems": [
    "Verif.Props.C64_placed"
   ],
   "note": "For every engine that writes texts at the current position (Writes); the modelled FPDF engine does (writes_fpdf)."
  },
  {
   "property": "C65",
   "status": "partial",
   "theorems": [
    "Verif.Props.C65_edges_partial",
    "Verif.Props.C65_never",
    "Verif.Props.C65_right",
    "Verif.Props.C65_center"
   ],
   "note": "False of the code for right aligned and centered text: the space before the first word of a line is counted in its width but not written, so that right aligned lines end one space too early and centered lines are half a space too far left. C65_edges_partial gives the exact offsets and the left aligned case, C65_never shows that it is wrong for every line if spaces have a width, C65_right and C65_center are witnesses."
  },
  {
   "property": "C66",
   "status": "proved",
   "theorems": [
    "Verif.Props.C66_placed"
   ],
   "note": "Assumes, as C39, that a space is at least a tenth wide."
  },
  {
   "property": "C67",
   "status": "proved",
   "theorems": [
    "Verif.Props.C67_image"
   ],
   "note": "Offsets must leave some room; images have at least one pixel in each direction."
  },
  {
   "property": "C68",
   "status": "partial",
   "theorems": [
    "Verif.Props.C68_images_partial",
    "Verif.Props.C68_cell_partial",
    "Verif.Props.C68_margin",
    "Verif.Props.C68_after_box"
   ],
   "note": "Proved for cells without boxes. False of the code otherwise: writing a text moves to the left margin of the page. C68_margin: after a box with a word, all images up to the next box are put at the left margin of the page, at the height of the upper padding edge; C68_after_box is a witness."
  },
  {
   "property": "C69",
   "status": "partial",
   "theorems": [
    "Verif.Props.C69_top_partial",
    "Verif.Props.C69_start",
    "Verif.Props.C69_aligned_iff",
    "Verif.Props.C69_bottom"
   ],
   "note": "Proved for the first box and alignment top. False of the code for middle and bottom: C69_start says where the first box starts, namely its own height (or half of it) below the top padding edge; this is right only if the room happens to be twice the height of the box (C69_aligned_iff), witness C69_bottom."
  },
  {
   "property": "C70",
   "status": "partial",
   "theorems": [
    "Verif.Props.C70_inside_partial",
    "Verif.Props.C70_beyond",
    "Verif.Props.C70_overflow"
   ],
   "note": "Proved for images at the top left corner of the area and for those that have room at their natural size. False of the code elsewhere: the size is limited by the whole area, not by what is left of it. C70_beyond bounds how far an image reaches beyond the area, and says exactly when one does that fits into the empty area; C70_overflow is a witness."
  },
  {
   "property": "C71",
   "status": "proved",
   "theorems": [
    "Verif.Props.C71_elements",
    "Verif.Props.C71_document",
    "Verif.Props.C71_determined",
    "Verif.Props.C48_same"
   ],
   "note": "The page margins shown are the subject of C49."
  },
  {
   "property": "C72",
   "status": "proved",
   "theorems": [
    "Verif.Props.C72_process",
    "Verif.Props.C72_load",
    "Verif.Props.C72_deterministic",
    "Verif.Props.C72_describe"
   ],
   "note": "One order for all attribute styles and one for all blocks of the style sheet, each depending on the position of the attribute or block."
  },
  {
   "property": "C73",
   "status": "proved",
   "theorems": [
    "Verif.Props.C73_part",
    "Verif.Props.C73_document",
    "Verif.Props.C73_hyphenator",
    "Verif.Props.C73_unbroken"
   ],
   "note": "C73_part: for every engine, every part of a document puts what the relation PartPuts (Spec/Content.lean) says. C73_document: the sequence of texts, images and pages of the finished document, for the model of the repository's engine. C73_hyphenator: the assumptions on the hyphenator hold for the repository's. C73_unbroken: how to read the relation on words. Library line breaking within one text is outside the model."
  },
  {
   "property": "C74",
   "status": "partial",
   "theorems": [
    "Verif.Props.C74_unjustified_partial",
    "Verif.Props.C74_document_partial",
    "Verif.Props.C74_broken",
    "Verif.Props.C74_false"
   ],
   "note": "False of the code: the US English table has the line n1p4, so Hyphenate breaks {np} (C74_broken), and block text with {np} at the end of a line is written without any {np} (C74_false). Proved: texts that are not block aligned are written with exactly their placeholders, whatever the hyphenator does; a document whose hyphenator leaves words with {np} in one piece has at least the placeholders of header and body on its pages."
  },
  {
   "property": "C75",
   "status": "proved",
   "theorems": [
    "Verif.Props.C75_page",
    "Verif.Props.C75_area"
   ],
   "note": "The page sizes of the library are part of the trusted base (Model/NewFpdf.lean). Names are case sensitive: \"A3\" gives A4."
  },
  {
   "property": "C76",
   "status": "proved",
   "theorems": [
    "Verif.Props.C76_loads",
    "Verif.Props.C76_found"
   ],
   "note": "Names without #: the library writes a space as #20, so that a family spelled with #20 is the same as one with a space."
  },
  {
   "property": "C77",
   "status": "proved",
   "theorems": [
    "Verif.Props.C77_late"
   ],
   "note": "Each word counts with a space before it, even the first of a line, as in the code. A blank line can come before the first word of a stretch, as in C60."
  },
  {
   "property": "C78",
   "status": "partial",
   "theorems": [
    "Verif.Props.C78_box_partial",
    "Verif.Props.C78_mixed",
    "Verif.Props.frames_fpdf",
    "Verif.Props.metrics_example"
   ],
   "note": "Proved for boxes without a set height whose text has no word higher than the last one (bold, italic and smaller words included), no word wider than the box, one of the four horizontal alignments, and is measured and written on the same page. False otherwise: the height is measured in the font of the last word, so higher words before it leave the box (C78_mixed)."
  },
  {
   "property": "C79",
   "status": "partial",
   "theorems": [
    "Verif.Props.C79_cell_partial",
    "Verif.Props.C79_tall",
    "Verif.Props.C79_block",
    "Verif.Props.C79_above"
   ],
   "note": "Proved for text without words higher than the last one or wider than the cell, in cells without a set height, measured and written on the same page; block text in the middle or at the bottom only if the cell is tall enough for it without hyphenation and it is not higher with it. False for other block text: renderCell measures it without hyphenation, so it can start above the cell (C79_block); C79_above says exactly when it does."
  },
  {
   "property": "C80",
   "status": "proved",
   "theorems": [
    "Verif.Props.C80_absolute",
    "Verif.Props.C80_relative",
    "Verif.Props.C80_unknown",
    "Verif.Props.C80_fonts"
   ],
   "note": "Paths are walked without symbolic links. filepath is modelled for Unix from its documentation."
  },
  {
   "property": "C81",
   "status": "proved",
   "theorems": [
    "Verif.Props.C81_given",
    "Verif.Props.C81_default",
    "Verif.Props.C81_plain",
    "Verif.Props.C81_none"
   ],
   "note": ""
  },
  {
   "property": "C82",
   "status": "proved",
   "theorems": [
    "Verif.Props.C82_others",
    "Verif.Props.C82_nothing",
    "Verif.Props.C82_success",
    "Verif.Props.C82_no_error",
    "Verif.Props.C82_failure",
    "Verif.Props.C82_deterministic"
   ],
   "note": "No links between files; messages on the terminal are not modelled; writes to the file do not fail except as reported by the engine."
  },
  {
   "property": "C83",
   "status": "partial",
   "theorems": [
    "Verif.Props.C83_kept_partial",
    "Verif.Props.C83_lost",
    "Verif.Props.C83_input",
    "Verif.Props.C83_iff"
   ],
   "note": "Both parts are false of the code: the output is created, and so emptied, before the fonts are loaded (C83_lost), and an input doc.pdf is its own default output (C83_input). Proved: nothing changes if the input can not be loaded or the output not created, and an input other than the output is kept; C83_iff says exactly when a run that fails keeps an earlier output."
  },
  {
   "property": "C84",
   "status": "proved",
   "theorems": [
    "Verif.Props.C84_origin",
    "Verif.Props.C84_default",
    "Verif.Props.C84_text"
   ],
   "note": "Engine modelled as in Model/Fpdf.lean. That a text has the font of its own element is C64, C66, C44; here only where values can come from at all."
  },
  {
   "property": "C85",
   "status": "proved",
   "theorems": [
    "Verif.Props.C85_available"
   ],
   "note": "In the model the only operation of gofpdf that fails is SetFont with an unknown font (see Model/Fpdf.lean)."
  },
  {
   "property": "C86",
   "status": "proved",
   "theorems": [
    "Verif.Props.C86_process",
    "Verif.Props.C86_refl",
    "Verif.Props.C86_texts",
    "Verif.Props.C86_exact"
   ],
   "note": "That a paragraph's color and alignment, and every margin, are ignored is a finding about the code; see C86_exact for the witnesses of the properties that do have an effect."
  },
  {
   "property": "C87",
   "status": "proved",
   "theorems": [
    "Verif.Props.C87_number",
    "Verif.Props.C87_part"
   ],
   "note": "Decoding of float64 attributes by encoding/xml is modelled (floatValue); ParseFloat is a parameter. White space is that of Unicode."
  },
  {
   "property": "C88",
   "status": "proved",
   "theorems": [
    "Verif.Props.C88_part",
    "Verif.Props.C88_document",
    "Verif.Props.C88_bare",
    "Verif.Props.C88_unbroken",
    "Verif.Props.C88_borderless"
   ],
   "note": "That the font of a header, of a paragraph or of a measured cell stays the current one for what follows is a finding about the code (compare C44). The library gofpdf is modelled from its documentation."
  },
  {
   "property": "C89",
   "status": "partial",
   "theorems": [
    "Verif.Props.C89_between_partial",
    "Verif.Props.C89_after",
    "Verif.Props.C89_keeps",
    "Verif.Props.C89_since",
    "Verif.Props.C89_reached",
    "Verif.Props.C89_feed",
    "Verif.Props.C89_empty_box",
    "Verif.Props.C89_header"
   ],
   "note": "C89_between_partial: for all documents whose header and footer set no part of the font. Missing: any header and footer, which is false (C89_header); C89_after, C89_keeps and C89_since hold for all of them."
  },
  {
   "property": "C90",
   "status": "proved",
   "theorems": [
    "Verif.Props.C90_above",
    "Verif.Props.C90_body"
   ],
   "note": "About the engine of the repository (model Fpdf). C90_body: documents without header and footer."
  },
  {
   "property": "C91",
   "status": "partial",
   "theorems": [
    "Verif.Props.C91_words_partial",
    "Verif.Props.C91_whole",
    "Verif.Props.C91_order",
    "Verif.Props.C91_lost",
    "Verif.Props.C91_moved"
   ],
   "note": "Full claim false of the code. Proved for words that stand where they can be seen (Visible in Spec/Words.lean): in texts and boxes of the body, in cells of tables before their boxes, and in these boxes; without backslashes and page numbers. C91_lost: twelve places where words disappear without an error. C91_moved: in a cell the texts come before the boxes."
  },
  {
   "property": "C92",
   "status": "proved",
   "theorems": [
    "Verif.Props.C92_table",
    "Verif.Props.C92_document",
    "Verif.Props.C92_same_page",
    "Verif.Props.C92_torn",
    "Verif.Props.C30_steps"
   ],
   "note": "End-to-end version of C28-C30: over the marks of the modelled library instead of the operations of renderTable. The condition of C92_same_page is needed: C92_torn is a table whose row is torn over two pages (and which leaves a blank page)."
  },
  {
   "property": "C93",
   "status": "proved",
   "theorems": [
    "Verif.Props.C93_table",
    "Verif.Props.C93_document",
    "Verif.Props.C93_cells"
   ],
   "note": "Combines C27, C64, C79 and C92. The conditions are those under which C79 holds; where they fail, texts can leave their cells (C78, C79, C25, C92_torn)."
  },
  {
   "property": "C94",
   "status": "proved",
   "theorems": [
    "Verif.Props.C94_read",
    "Verif.Props.C94_text",
    "Verif.Props.C94_program"
   ],
   "note": "The XML reader of the statement (Spec/Dump.lean) knows elements without attributes, character data and entities. encoding/xml's printing is modelled from knowledge of the standard library (Go/XmlOut.lean). The JSON format, which no program uses, is a parameter."
  },
  {
   "property": "C95",
   "status": "partial",
   "theorems": [
    "Verif.Props.C95_images_partial",
    "Verif.Props.C95_only",
    "Verif.Props.C95_lost"
   ],
   "note": "That there are no other images is proved for all documents (C95_only). That none is lost is proved for images directly in the body and in the cells of its tables (C95_images_partial); C95_lost lists the places where the code drops a readable image without an error."
  },
  {
   "property": "C96",
   "status": "proved",
   "theorems": [
    "Verif.Props.C96_piece",
    "Verif.Props.C96_same",
    "Verif.Props.C96_broken"
   ],
   "note": "C96_broken shows that the condition is needed and that the processor does not ensure it: it leaves 2 mm where the library wants 2.00025 mm, and a block text is then broken by the library."
  },
  {
   "property": "C97",
   "status": "proved",
   "theorems": [
    "Verif.Props.C97_between",
    "Verif.Props.C97_library",
    "Verif.Props.C97_footer"
   ],
   "note": "C97_footer shows that the condition on footers is needed: a footer starts where the page break came, in a right-aligned text for example, and runs over the right edge. The condition on tables is about the column widths only, which do not depend on heights (transform_widths); cells may hold texts and boxes."
  },
  {
   "property": "C98",
   "status": "proved",
   "theorems": [
    "Verif.Props.C98_follows",
    "Verif.Props.C98_nothing",
    "Verif.Props.C98_apart",
    "Verif.Props.C98_sizes",
    "Verif.Props.C98_low",
    "Verif.Props.C98_blank"
   ],
   "note": "C98_follows is for documents with header and footer, whose own texts are left out; C98_apart for documents without, where all texts are apart (C98_nothing: then header and footer put nothing). C98_sizes, C98_low and C98_blank show that the conditions are needed: the line feed is as high as the last word of the line, what comes after a box of a set height begins below this height, and a box with nothing but blanks in it has a negative height, if the line spacing is more than 1."
  },
  {
   "property": "C99",
   "status": "proved",
   "theorems": [
    "Verif.Props.C99_apart",
    "Verif.Props.C99_inside",
    "Verif.Props.C99_between",
    "Verif.Props.C99_width",
    "Verif.Props.C99_document",
    "Verif.Props.C99_header"
   ],
   "note": "C99_apart, C99_inside and C99_between are about the steps of any table (C92), C99_document adds the texts (C93). C99_header shows that the condition on header cells is needed: a header cell over two rows of which only the first one is repeated runs into the row below it."
  },
  {
   "property": "C100",
   "status": "proved",
   "theorems": [
    "Verif.Props.C100_pages",
    "Verif.Props.C100_number",
    "Verif.Props.C100_body_number"
   ],
   "note": "C100_number is about what C100_pages calls HeadOrFoot (Spec/Looks.lean). In the body the number can be wrong: C100_body_number is a text that starts on page 1 and shows 1 on page 2."
  },
  {
   "property": "C101",
   "status": "proved",
   "theorems": [
    "Verif.Props.C101_follows",
    "Verif.Props.C101_apart"
   ],
   "note": "On top of C98 (texts and boxes) and C99 (within one table). The conditions are in Spec/Overlap.lean (Tidy); that they are needed is shown for texts and boxes by C98_sizes, C98_low and C98_blank, for tables by C25_block_overlap, C25_rows_overlap and C99_header. transformTable_plain (Proofs/PlainTable.lean): tables without page numbers are laid out the same in every state, which makes the conditions on tables checkable."
  },
  {
   "property": "C102",
   "status": "proved",
   "theorems": [
    "Verif.Props.C102_text",
    "Verif.Props.C102_process",
    "Verif.Props.C102_load",
    "Verif.Props.C102_same"
   ],
   "note": "C102_text is about the normalisation of one text, C102_process about documents, C102_load about files, C102_same puts them together. A piece of text that is only white space must not be left out where text counts: in block text it gives an empty word (C37, C60). Describe shows white space (C15)."
  },
  {
   "property": "C103",
   "status": "proved",
   "theorems": [
    "Verif.Props.C103_common",
    "Verif.Props.C103_earlier",
    "Verif.Props.C103_edit",
    "Verif.Props.C103_goes_on"
   ],
   "note": "About the engine of the repository as modelled (Model/Fpdf.lean). The total number of pages, that the library puts in place of {np} when it writes the file, is not on the pages yet in the model: it is the same text {np} in both documents."
  },
  {
   "property": "C104",
   "status": "proved",
   "theorems": [
    "Verif.Props.C104_fewest",
    "Verif.Props.C104_attained",
    "Verif.Props.C104_wider",
    "Verif.Props.C104_height"
   ],
   "note": "Greedy lines stay ahead of all others. C104_attained: without such wide first words, the lines of the code are one of the ways that C104_fewest compares with, so the number is the minimum. Not about block text, where words are broken."
  },
  {
   "property": "C105",
   "status": "proved",
   "theorems": [
    "Verif.Props.C105_program",
    "Verif.Props.C105_lines",
    "Verif.Props.C105_plain"
   ],
   "note": "image.DecodeConfig and strconv.IsPrint are parameters; C105_lines and C105_plain assume that the printable ASCII characters are those from space to tilde."
  },
  {
   "property": "C106",
   "status": "proved",
   "theorems": [
    "Verif.Props.C106_load",
    "Verif.Props.C106_same",
    "Verif.Props.C106_attrs",
    "Verif.Props.C106_rename",
    "Verif.Props.C106_inline",
    "Verif.Props.C106_spelling"
   ],
   "note": "What a sheet and a style text mean is stated in Spec/Style.lean (C12, C14, C18-C20); `DocRestyled` and `SameStyling` in Spec/Restyled.lean. The relation of the style text to the declarations is that of C12."
  },
  {
   "property": "C107",
   "status": "partial",
   "theorems": [
    "Verif.Props.C107_iff",
    "Verif.Props.C107_steps_partial",
    "Verif.Props.C107_pages_partial",
    "Verif.Props.C107_false"
   ],
   "note": "False of the code: if the first row does not fit on an empty page, then the check for the whole table (table.go:376) and the one for the first row (table.go:383) both start a page; `C107_false` is a document whose first two pages are blank. `C107_iff` says exactly when it happens. Proved without it: if header rows and the row below fit on an empty page, then no page is left blank, a table at the top of a page starts there (`C107_steps_partial`, for all tables of a document as in C92), and something is to be seen on every page started (`C107_pages_partial`, if each row has a cell of its own and no text in a cell is too low for its page)."
  },
  {
   "property": "C108",
   "status": "proved",
   "theorems": [
    "Verif.Props.C108_first",
    "Verif.Props.C108_joined",
    "Verif.Props.C108_plain",
    "Verif.Props.C108_chapters"
   ],
   "note": "For the engine of Model/Fpdf.lean. The second part is processed by an engine that numbers pages from k + 1 on (`numberedFrom`); `C108_plain` is without this, for texts without {cp}. The condition on the font is needed, as fonts outlive the elements that set them (C44): example `C108_font`."
  },
  {
   "property": "C109",
   "status": "proved",
   "theorems": [
    "Verif.Props.C109_layout",
    "Verif.Props.C109_texts",
    "Verif.Props.C109_exact"
   ],
   "note": "For the engine of Model/Fpdf.lean. A box counts as the rectangle it was asked for: that of the filled area with the half line around it. That the layout leaves no room for thick lines is a finding: a border is drawn half over what is next to it."
  },
  {
   "property": "C110",
   "status": "proved",
   "theorems": [
    "Verif.Props.C110_words",
    "Verif.Props.C110_same",
    "Verif.Props.C110_files",
    "Verif.Props.C110_engine"
   ],
   "note": "Both conditions on the texts are needed (examples in Props/Wordwise.lean): block text writes an empty piece of text as a word, and white space next to a backslash is dropped. C110_engine: the engine of the project meets the condition on engines."
  },
  {
   "property": "C111",
   "status": "proved",
   "theorems": [
    "Verif.Props.C111_body",
    "Verif.Props.C111_same",
    "Verif.Props.C111_adding",
    "Verif.Props.C111_apart",
    "Verif.Props.C111_above"
   ],
   "note": "The condition on the font is needed: an example in Props/Leaflets.lean shows a size in the header that changes the body (C89). C111_body is for documents that come out without an error; a page break in header or footer never does (C43)."
  },
  {
   "property": "C112",
   "status": "proved",
   "theorems": [
    "Verif.Props.C112_sections",
    "Verif.Props.C112_swap",
    "Verif.Props.C112_unknown",
    "Verif.Props.C112_attrs",
    "Verif.Props.C112_same"
   ],
   "note": "C112_sections gives equal documents, C112_attrs documents that look the same (C72). Sections with one name and values of one attribute cannot change places; examples in Props/Order.lean show it."
  },
  {
   "property": "C113",
   "status": "proved",
   "theorems": [
    "Verif.Props.C113_process",
    "Verif.Props.C113_no_block",
    "Verif.Props.C113_no_image",
    "Verif.Props.C113_files"
   ],
   "note": "Contents of image files reach the PDF through the library; in the model only their sizes are seen, and C113_files asks for equal contents."
  },
  {
   "property": "C114",
   "status": "proved",
   "theorems": [
    "Verif.Props.C114_rules",
    "Verif.Props.C114_meaning",
    "Verif.Props.C114_mixed",
    "Verif.Props.C114_replaced",
    "Verif.Props.C114_written",
    "Verif.Props.C114_text",
    "Verif.Props.C114_wrong",
    "Verif.Props.C114_same"
   ],
   "note": "That a rule can be dropped is shown in the direction from the longer sheet to the shorter one: the longer one may be wrong where the shorter one is correct (a selector in front of its class)."
  },
  {
   "property": "C115",
   "status": "proved",
   "theorems": [
    "Verif.Props.C115_flow",
    "Verif.Props.C115_even",
    "Verif.Props.C115_document",
    "Verif.Props.C115_holds",
    "Verif.Props.C115_sizes",
    "Verif.Props.C115_high"
   ],
   "note": "The lines themselves are those of C121. Exact: pages, heights and texts are those of a function of the document; the font of the last word of a text stays for what comes after it. C115_sizes and C115_high show that the conditions are needed."
  },
  {
   "property": "C116",
   "status": "proved",
   "theorems": [
    "Verif.Props.C116_typeset",
    "Verif.Props.C116_returns",
    "Verif.Props.C116_bare",
    "Verif.Props.C116_document",
    "Verif.Props.C116_heights",
    "Verif.Props.C116_boxes"
   ],
   "note": "The lines of a text are those of C121, the size of an image that of C34, the frame that of C46; the typist has no callbacks, no color, no flags and no engine, only a place, two fonts (of the current styles and the one last used) and what is set so far. The layout of a table is `layTable` (C122, C123) with the measure of the typist. A page break in header or footer never ends (C43)."
  },
  {
   "property": "C117",
   "status": "proved",
   "theorems": [
    "Verif.Props.C117_program",
    "Verif.Props.C117_fonts",
    "Verif.Props.C117_success"
   ],
   "note": "What the PDF library makes of the pages is an arbitrary function `print` of what is on them; it writes nothing after an error. What XML, TOML, font and image libraries make of files are parameters (`Libraries`). Loading is the subject of C51, C61, C72; the fonts that can be asked for those of C84, and when one is found says C76."
  },
  {
   "property": "C118",
   "status": "partial",
   "theorems": [
    "Verif.Props.C118_spelled_partial",
    "Verif.Props.C118_places",
    "Verif.Props.C118_kept",
    "Verif.Props.C118_false"
   ],
   "note": "False of the code: the text 'a document', broken in a narrow block text, becomes 'a doc-' 'umen', without an error (C118_false). Proved: the rest of the claim, for words that stand where they can be seen (Visible, see C91); only the last byte of a broken word can be lost, just if the patterns allow a break before it, and never of a word with a character of several bytes (C118_kept). The places are those of exactly one list (C118_places). The table and its syntax are stated apart from the model (EnglishPattern, PatternSyntax, LiangCuts)."
  },
  {
   "property": "C119",
   "status": "proved",
   "theorems": [
    "Verif.Props.C119_document",
    "Verif.Props.C119_program"
   ],
   "note": "C119_document is about every hyphenator that adds nothing to words (C73_hyphenator); C119_program about the program with the built-in one. The number of the page, which can be part of a word ({cp}), is left open here; see C53."
  },
  {
   "property": "C120",
   "status": "partial",
   "theorems": [
    "Verif.Props.C120_document",
    "Verif.Props.C120_program_partial",
    "Verif.Props.C120_ascii",
    "Verif.Props.C120_false"
   ],
   "note": "False of the code: of the text 'a résumé' in a narrow block text the program prints the two bytes of the letter é on two lines, with a hyphen between them, without an error (C120_false). Proved: apart from the two parts of such words, which always have a character of several bytes (C120_ascii), all texts are valid UTF-8 (C120_program_partial); with a hyphenator that does not cut characters all of them are (C120_document)."
  },
  {
   "property": "C121",
   "status": "proved",
   "theorems": [
    "Verif.Props.C121_plain",
    "Verif.Props.C121_block",
    "Verif.Props.C121_only",
    "Verif.Props.C121_some"
   ],
   "note": "The rule also gives the width and the mark of each line; which lines are stretched is as in C59, not as C40 wants it. C121_only needs that no text has a negative width. C116 and C117 set texts by this rule."
  },
  {
   "property": "C122",
   "status": "proved",
   "theorems": [
    "Verif.Props.C122_places",
    "Verif.Props.C122_columns",
    "Verif.Props.C122_cells",
    "Verif.Props.C122_no_rowspans"
   ],
   "note": "Below a cell of several rows and columns only its first column is covered, see C25."
  },
  {
   "property": "C123",
   "status": "proved",
   "theorems": [
    "Verif.Props.C123_widths",
    "Verif.Props.C123_heights",
    "Verif.Props.C123_cell",
    "Verif.Props.C123_laid",
    "Verif.Props.C123_always"
   ],
   "note": "Numbers are exact, as everywhere (DESIGN.md)."
  },
  {
   "property": "C124",
   "status": "proved",
   "theorems": [
    "Verif.Props.C124_widths",
    "Verif.Props.C124_higher",
    "Verif.Props.C124_local",
    "Verif.Props.C124_paper",
    "Verif.Props.C124_edit"
   ],
   "note": "Numbers are exact, as everywhere (DESIGN.md). Boxes and images in cells are not measured by the code (C68, C69)."
  },
  {
   "property": "C125",
   "status": "proved",
   "theorems": [
    "Verif.Props.C125_table",
    "Verif.Props.C125_document",
    "Verif.Props.C125_spans",
    "Verif.Props.C125_moved"
   ],
   "note": "For documents that are processed without an error of the engine (C85 says when). The number of rows includes those that cells reaching below the last row add. Numbers are exact, as everywhere (DESIGN.md)."
  }
 ]
}
