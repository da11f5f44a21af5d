# DESIGN: a Lean 4 model of mazzegi/xpdf

Rows of the per-property table whose id is not yet in MANIFEST.json are plans; the others describe what is done.

## Layout

* `lean/Verif/Go/*`     models of the Go standard library functions the code calls (strings, strconv, fmt scanning, UTF-8, xml decoder).
* `lean/Verif/Model/*`  the code of /repo, function by function; every definition cites file and lines.
* `lean/Verif/Spec/*`   small specifications that do not mention the model.
* `lean/Verif/Proofs/*` helper lemmas.
* `lean/Verif/Props/*`  one theorem (or a few) per property of `properties.jsonl`, with non-vacuity examples.

## Modelling decisions

* Go `string` = `List UInt8` (bytes). Runes are `Nat` code points. Out-of-range indexing/slicing is an explicit `none` (panic).
* `float64` = `ℚ` (exact arithmetic; rounding, NaN and infinities are not modelled). `strconv.ParseFloat` is a parameter
  (any partial function from strings to rationals). `int` = `Int` with explicit 64-bit range checks where the code parses them.
* maps: association by key; where Go iterates over a map the model takes the iteration order as an argument (any permutation).
* pointers (`*tableCell`): cells live in a heap and are named by ids.
* reflection (`style.makeMutateFnc`): a field table of `Styles` (a tree of tags and kinds) is walked by the same recursion as the code.
* The PDF engine: the processor is modelled for an arbitrary engine (`Engine E`: operations on a state type `E`; queries do not
  change the state). AddPage, WriteText and WritePDF can call the header and footer functions any number of times at any
  point: they are interaction trees (`Prog`). Theorems state what they need of the engine as hypotheses (`Measures`,
  `Typesets`, `CountsFeeds`, ...). `Model/Fpdf.lean` is the engine of the program (engine/fpdf.go) on a simplified model of the library gofpdf,
  written from its documentation; it is proved to meet the hypotheses, so they are satisfiable.
* Recursion through header and footer is open recursion with a depth bound (`callsAt`), so that non-termination shows as
  exhausting every bound. A panic or a call that does not return is `none`.
* The hyphenator (in C118, C119_program and C120_program_partial the built-in one, `newEnUs`), resolveFile and DescribeImage are parameters of the processor (`Ctx`). MonoFont and PageWidth are not
  modelled (their results are not used). renderGrid draws nothing, so in the processor only its panic is visible.
* The program (cmd/xpdf, `Model/Main.lean`): files are contents by absolute path, without links or directories; the working directory is known.
  What the libraries make of contents (XML tokens, TOML, fonts, images) are parameters (`Libraries`). What it prints is not modelled.
* encoding/xml: token stream plus the decoder's element stack including its EOF markers.

## Per property: what is modelled, how it is proved

| id | model | proof |
|---|---|---|
| C01-C03 | text/text.go on byte lists | list induction; fixed-point loop by well-founded recursion on length; equality with a one-pass automaton spec |
| C04-C08 | hyphenation.Hyphenate with checked slices | loop invariants on (parts, last); max-fold lemma; C05 and C08 are false of the code: negation by concrete word + partial theorem |
| C09-C11 | parsePattern, parsePatterns, built-in tables | state-machine invariant; fold over lines; kernel evaluation of the whole built-in tables |
| C12-C15 | parseRaw, DecodeMutator, makeMutateFnc | fold/permutation lemmas; finite field table; C15 was reworded, see below |
| C16-C17 | UnmarshalStyle of RGB, Border, Padding, Margin | digit arithmetic; scanner lemmas |
| C18-C20 | DecodeClasses, cascade | induction over blocks; fold lemmas |
| C21-C25 | span processing on a heap of cells (Model/Table.lean) | invariants of the nested loops (`Inv`, `Spanned`, `Laid` in Proofs/Table*); C25 false in general: two negations by witness, and a partial theorem for tables without cells that span both ways, without wide cells in rows reached from above, and with high cells placed from left to right; by C122, whether cells overlap and these conditions can be told from the file (`C25_file`, `C25_file_partial` in Props/TableClear.lean) |
| C26-C27 | widths and heights over ℚ | sums and maxima over lists |
| C28-C30 | renderTable over any operations (`TableOps`: cells may do anything) | the run is a sequence of items (page, header row, row); induction over rows (`Run` in Proofs/RenderTable.lean) |
| C63 | transformTable | cell creation loop tracked over the heap; C19, C20 for table, row and cell; layout keeps styles (`Inv.authored`) |
| C31 | DecodeAttrs, span processing | parseInt model; invariance of layout under spans of 1 or less |
| C32-C33 | grid.go, xdoc/grid.go | invariant over row-major insertion, iff with rectangle spec |
| C34, C45, C46, C55, C56 | image.go, dim.go, draw.go, renderCell, renderTextBox | ordered field arithmetic, `C34_exact` gives the size in one formula; the state before the text is written is given explicitly; C56 is false of the code in one point: offset and padding are ignored when the box is checked against the bottom margin (`C56_padding`) |
| C35-C41, C59, C60 | text.go, text-hyph.go for any engine that measures by a metric | the wrapping loop equals a fold over words (pieces for block text); invariants of that fold; C36 (block text), C37 (blank lines), C40 (line breaks) are false of the code: witnesses, partial theorems and the exact statements C59, C60 |
| C64-C66 | writeText, writeTextHyphenated on an engine with a position, font and color (`Writes`) | the output of the loops equals a list of placed texts (`stack`, `runFrom`) by induction over lines and items; C65 is false of the code by the width of a space |
| C67-C70 | renderImage, the items of renderCell | ordered field arithmetic (C34) and induction over the items; C68-C70 are false of the code in general: witnesses, and what is true instead: C68_margin (images after a box are at the left margin of the page), C69_start and C69_aligned_iff (where a box is, and when it is aligned), C70_beyond (how far and exactly when an image reaches beyond the area). `ImageSize` (Spec/Cells.lean) determines the size of an image (`imageSize_unique`) |
| C42-C44, C47, C53, C54 | process.go with engine model | a relation between two runs with an invariant (`Le`, `Rel` in Proofs/Process.lean), shown once for every render function and instantiated per property; open recursion by induction on depth; C44 is false of the code (a font outlives its element: `C44_font_outlives`), the part about everything but the font is proved |
| C48-C49 | xdoc/diff.go, describe.go | joining permuted per-key results; C48 false for invalid UTF-8 (counterexample) and proved otherwise; `C48_exact` says what the diff is for all strings; C49 false: negation for all documents with different left and right margins |
| C58 | xdoc/describe.go | mutual structural induction over documents |
| C71 | xdoc/describe.go | mutual induction over the elements against an outline of the document (`ShowsElem`); the outline can be read back from the items |
| C72 | loading, processing and describing | a relation between documents (`Alike`: same shape, styles with the same effect), shown to be kept by loading under two map orders and to be invisible to every render function; a map order is any function from lists to permutations of them, so attributes with different content can be taken in unrelated orders |
| C73 | everything that is rendered | a run of the processor is a sequence of engine calls (`Did`: silent ones, texts, images, pages); each render function is shown to make the calls that the relation on its source instructions (`PartPuts`) allows. On top of it, for the engine of the repository, an induction on the depth of nested header and footer calls gives the sequence of texts, images and pages of the finished document (`Filled`) |
| C74 | placeholder, texts, hyphenator | counting placeholders with a four state search automaton, shown equal to the plain count; replacing page numbers, rectification and splitting into words keep the count; then through the relations of C73. The witness for the failure uses the pattern line of the built-in table |
| C75 | Page of the declared format, orientation, margins: `C75_page`, `C75_area` (Props/Paper.lean). Sizes to within half a millimeter, since the library rounds to points; format names are case sensitive and fall back to A4 |
| C76 | Which fonts are found: `C76_loads`, `C76_found` (Props/Paper.lean), names without `#` |
| C77 | Block text is broken as late as possible: `C77_late` (Props/Late.lean); chain invariant over the words of a stretch |
| C78 | Texts stay within their boxes: `C78_box_partial`, false for words higher than the last one: `C78_mixed` (Props/Inside.lean); measured lines = written lines, each line narrower than the box, stack of lines = measured height |
| C79 | Texts stay within their cells: `C79_cell_partial`, `C79_tall`, false for block text not aligned at the top: `C79_block`; exactly when it starts too high: `C79_above` (Props/Inside.lean) |
| C80 | Where images and fonts are looked for: `C80_absolute`, `C80_relative`, `C80_unknown`, `C80_fonts` (Props/Path.lean; where a path leads is `Spec.walk`) |
| C81 | Default name of the output: `C81_given`, `C81_default`, `C81_plain`, `C81_none` (Props/Path.lean) |
| C82 | Exit codes and files of the program: `C82_others`, `C82_nothing`, `C82_success`, `C82_no_error`, `C82_failure`, `C82_deterministic` (Props/Main.lean) |
| C83 | A failing run changes no file: false (`C83_lost`, `C83_input`); `C83_kept_partial`, exactly when: `C83_iff` (Props/Main.lean) |
| C84 | Every font, color and line width on the pages is the default or comes from a style of the document, for the same property: `C84_origin`, `C84_default`, `C84_text` (Props/Origin.lean) |
| C85 | If all fonts are available that the styles can combine to, the run ends without an error: `C85_available` (Props/Origin.lean) |
| C86 | Styles that agree in the properties that matter for their element give the same calls of the engine; each property listed as mattering does: `C86_process`, `C86_refl`, `C86_texts`, `C86_exact` (Spec/Matters.lean, Proofs/Matters.lean, Props/Matters.lean) |
| C87 | Values of `lines`, `x`, `y` and `area`: which are accepted and which counts: `C87_number`, `C87_part` (Props/Numbers.lean) |
| C88 | Fonts, colors and pages of all words of a document, and all boxes and cells drawn: `C88_part`, `C88_document`; how to read them: `C88_bare`, `C88_unbroken`, `C88_borderless` (Spec/Looks.lean, Proofs/Looks.lean, Props/Looks.lean) |
| C89 | Font and color of the engine between two instructions: `C89_between_partial`, `C89_after`, `C89_keeps`, `C89_since`, `C89_reached`; heights that follow: `C89_feed`, `C89_empty_box`. False if header or footer have a font of their own: `C89_header` (Spec/InStep.lean) |
| C90 | Texts of the body end above the bottom margin: `C90_above`, `C90_body` (Spec/Bottom.lean, Props/Bottom.lean) |
| C91 | All words of the body are on the pages, in order, if they stand in texts, boxes and cells: `C91_words_partial` (`C91_whole`, `C91_order`: how to read it); elsewhere words are lost or moved: `C91_lost`, `C91_moved` (Spec/Words.lean, Proofs/Words.lean, Props/Words.lean) |
| C92 | Rows, repeated header rows and page breaks of every table of the body are on the pages, one below the other, above the bottom margin or at the top of a page; position afterwards (`C92_table`, `C92_document`, `C92_same_page`, witness `C92_torn`; `Spec/Laid.lean`) |
| C93 | Text-only tables: all marks of a cell on one page, texts inside the padding edges of its background, no page breaks but those of the table (`C93_table`, `C93_document`, `C93_cells`; `Spec/Neat.lean`) |
| C94 | The XML printed for a document reads back as its description; exit codes of `describe` (`C94_read`, `C94_text`, `C94_program`; `Model/Dump.lean`, `Spec/Dump.lean`) |
| C95 | Images of the body on the pages, in order (`C95_images_partial`; places where they are dropped: `C95_lost`), and no others (`C95_only`); `Spec/Pictures.lean` |
| C96 | Texts that fit are not broken again by the library: one text (`C96_piece`), whole documents (`C96_same`); a block text that is (`C96_broken`). The library's method Write is in `Model/Write.lean` |
| C97 | Texts are between the margins in documents with texts, boxes and tables whose words have room (`C97_between`), and the library breaks no line again (`C97_library`, from C96); a footer that runs over the right edge (`C97_footer`) |
| C98 | Texts of the body come one below the other, without overlapping, in documents without tables (`C98_follows`, `C98_apart`); overlaps if sizes are mixed (`C98_sizes`), boxes too low (`C98_low`) or blank (`C98_blank`) |
| C99 | The cells of tables of text lie in the printable area, side by side or one below the other, their texts inside; texts of different cells do not overlap (`C99_apart`, `C99_inside`, `C99_between`, `C99_width`, `C99_document`; `Spec/Tiles.lean`); header cells that extend over more rows than are repeated do overlap (`C99_header`) |
| C100 | A document is pages of header, body part and footer (`C100_pages`), header and footer show the number of their page (`C100_number`; `Spec/Sheets.lean`, on top of C88); texts of the body that go on on the next page show the number of the first (`C100_body_number`) |
| C101 | In documents of texts, boxes and tables no text of the body is put over another one (`C101_follows`, `C101_apart`; `Spec/Overlap.lean`, on top of C98 and C99) |
| C102 | Files that differ in white space and comments only give the same result (`C102_text`, `C102_process`, `C102_load`, `C102_same`; `Spec/Spacing.lean`; `Alike` of C72 is now about texts as well) |
| C103 | The pages before an edit do not change (`C103_common`, `C103_earlier`, `C103_edit`, `C103_goes_on`; `Lasting` of C47 and C53 now also about pages; the engine calls do not depend on the body: `Proofs/Locality.lean`) |
| C104 | Fewest lines (`C104_fewest`, `C104_attained`; `Breaking` in `Spec/Fewest.lean`), and with more width not more lines and not more height (`C104_wider`, `C104_height`) |
| C105 | What cmd/image prints reads as name, format and size (`C105_program`; `readImageText` in `Spec/Quote.lean`), is three lines (`C105_lines`), and is plain for plain names (`C105_plain`) |
| C106 | Files whose elements are styled the same way load to documents that look the same (`C106_load`) and give the same result with every engine (`C106_same`; `DocRestyled`, `SameStyling` in `Spec/Restyled.lean`); ways to get there: `C106_attrs`, `C106_rename`, `C106_inline`, `C106_spelling` |
| C107 | False of the code (`C107_false`: blank pages before a row taller than the page); `C107_iff`: exactly when a page is left blank; `C107_steps_partial`, `C107_pages_partial`: none is, if header rows and the row below fit on an empty page (`LeavesBlank`, `BlankPage` in `Spec/Blank.lean`) |
| C108 | `C108_first`, `C108_joined`, `C108_plain`, `C108_chapters`: what comes out of documents put together at page breaks (`ComesOut`, `numberedFrom`, `later`, `boundTogether` in `Spec/Joined.lean`; simulation of two runs with related engines in `Proofs/Sim.lean`) |
| C109 | `C109_layout`, `C109_texts`, `C109_exact`: what colors, borders and line widths leave as it is (`places`, `placed` in `Spec/Matters.lean`; the engine that sees only places in `Proofs/Placing.lean`) |
| C110 | `C110_words`, `C110_same`, `C110_files`, `C110_engine`: the document with a paragraph for each word (`docwise` in `Spec/Wordwise.lean`) |
| C111 | `C111_body`, `C111_same`, `C111_adding`, `C111_apart`, `C111_above`: pages as header, body and footer (`Leaflet` in `Spec/Leaflets.lean`) |
| C112 | The same document for sections in another order (`C112_sections`, `C112_swap`, `C112_unknown`), one that looks the same for attributes in another order (`C112_attrs`), the same result for both (`C112_same`; `SameSections`, `SameGiven` in `Spec/Order.lean`) |
| C113 | Two processors for one document that agree on the words of block texts and the shown images do the same (`C113_process`, `C113_no_block`, `C113_no_image`), and so does the program in two worlds that agree on the files it reads (`C113_files`; `AsksBlock`, `BlockText`, `ShowsImage`, `SameOutside` in `Spec/Outside.lean`, `Reads` in `Props/Outside.lean`) |
| C114 | The meaning of a sheet is that of its rules class by class (`C114_meaning`: the last rule without selector and behind it the last of each selector), so rules of different classes can be mixed and replaced ones dropped (`C114_mixed`, `C114_replaced`, `C114_written`, `C114_text`), and files with such sheets give the same result, wrong sheets included (`C114_wrong`, `C114_same`; `SheetRule`, `IsRule`, `ClassMeans`, `SameButSheet` in `Spec/Rules.lean`) |
| C115 | Where the lines stand, page after page: the texts of the document are those of `flowing` (`C115_flow`, with header and footer `C115_document`), a text without empty lines has the same number of lines on each page (`C115_even`), the number that fits (`C115_holds`); a text with words of two sizes, or with lines higher than the page, comes apart (`C115_sizes`, `C115_high`; `Flow`, `flowsOf`, `flowing`, `PageHolds` in `Spec/Filling.lean`) |
| C116 | Every mark on the pages of a document is that of `typeset`, a function that goes through the document once (`C116_typeset`, always `C116_returns`, without header and footer `C116_bare`, what the body is between a header and a footer that change no font `C116_document`); the height of the paper moves no text to the left or right (`C116_heights`), except in boxes (`C116_boxes`; `Typist`, `typeset`, `columns` in `Spec/Typeset.lean`) |
| C117 | With the engine of the repository, `xpdfMain` writes `print` of the typeset pages (C116) or ends with exit code 4 (`C117_program`), the first if all fonts are there (`C117_fonts`), and exit code 0 means just this (`C117_success`; `printing`, `Prints`, `pagesOf` in `Spec/Printing.lean`) |
| C118 | False of the code (`C118_false`: 'document' becomes 'doc-' 'umen'); `C118_spelled_partial`: words in the PDF of the program are whole or broken at the places of the English patterns (`C118_places`), and what is lost is the last byte, in the cases that `EnglishBreak` says (`C118_kept`; `Spec/Spelled.lean`, model of NewEnUs in `Model/EnUs.lean`) |
| C119 | `C119_document`, `C119_program`: every text on the pages is blank or a word, or a part of a broken word, of a text of the file that stands where texts are printed (`PrintedIn`, `WordPiece`; `Spec/Sources.lean`, `Proofs/Sources.lean`) |
| C120 | False of the code (`C120_false`: 'résumé' is broken inside the 'é'); `C120_program_partial`: all texts in the PDF of the program are valid UTF-8, but for the parts of words broken inside a character, which are not ASCII (`C120_ascii`); `C120_document`: all texts, if the hyphenator keeps characters (`Proofs/Intact.lean`: replacing, rectifying and splitting keep UTF-8) |
| C121 | `C121_plain`, `C121_block`: the lines are those of `linesSet` and `blockLinesSet` (`Spec/Fill.lean`, with `fillLines`, `fillBlock`, `mostSyllables`, `unstretched`); `C121_only`: any lines that are `Broken` are those of the code, and there are some (`C121_some`) |
| C122 | `C122_places`: the places are those of `tablePlaces` (`Spec/Places.lean`: `placesIn`, `putPlace`, `coverRows`); `C122_columns`: the number of columns; `C122_cells`: the cell with a number is that of the file; `C122_no_rowspans`: without row spans only fillings are added |
| C123 | `C123_widths`: the widths are `columnWidths` (`Spec/Sizes.lean`); `C123_heights`: the heights are `rowHeights`, with `shareOf` for each cell in turn, and the state of the measuring function is the last one; `C123_cell`: the size of a cell as it is drawn; `C123_laid`, `C123_always`: the whole table is `layTable` (`Spec/Laying.lean`), a function of the file, the styles and the width alone |
| C124 | `C124_widths`, `C124_local`, `C124_higher` from C122 and C123 for tables with the same frame (`SameFrame`, `Spec/Frame.lean`); `C124_paper`: measuring a text is such a function (`heightOn`); `C124_edit`: both together |
| C125 | `C125_table`: by C123 the layout depends on the spans only through the number of places they stand for, and on styles only through those of the cells; `C125_document`: by C116 both documents are set by the same steps (`Spec/Plainly.lean`: `SameCells`, `SameHeaders`, `SameSetting`); `C125_spans`, `C125_moved`: tables that meet the condition; `C125_class`: why cells with classes are excluded |
| C50 | font/registry.go | list induction |
| C57 | xdoc/describe.go clearStr | equality with a one-pass automaton spec by list induction |
| C51, C52, C61, C62 | xdoc/doc.go Load and all UnmarshalXML, on a model of the token stream of encoding/xml with its element stack (Go/Xml.lean, Model/Load.lean) | the loops on the tokens of a tree equal a recursive function on the tree (`node_exact`); a stream that loads is shown to be the tokens of a tree by following the stack (`walk`, `root_some`); C51 is false of the code for text directly in a grid part (`C51_part_text`) |

## Statements that were changed after they were first written

* C15 was first stated as "if a known property is given a value that does not parse, decoding fails". That is false of the
  code: parseRaw keeps only the last declaration of a property, so `border:x; border:1,2,3,4` decodes without error
  (theorem `C15_overridden_unreported`). The statement in properties.jsonl now speaks of the value that counts, i.e. the
  last one, and `C15_error_iff` proves it.

## What is not modelled in the parts done so far

* strconv.ParseInt/ParseUint, fmt.Fscanf with `%d,%d,%d,%d` and `%f,%f,%f,%f`, strings.* and the scanner of bufio are
  models written from the documentation of Go; strconv.ParseFloat and the final conversion of a scanned float are
  arbitrary partial functions (structure `Floats`), so no theorem depends on them.
* Infinities and NaN are outside the model: a float is a rational number.
* `strings.Fields` and `strings.TrimSpace` (of encoding/xml, for numbers) are modelled with Unicode white space (`Go/Space.lean`).
* `mutate` (style/decode.go:52) is made total: where reflection would panic it leaves the style unchanged. `C14_no_panic`
  shows this case does not occur for decoded mutators.
* `setAt` knows only the paths that a style key can lead to; paths inside Border, Padding, Margin and RGB do not occur.
* The message printed by style/class.go:97 and the texts of error messages are not modelled; an error is `none`.
* In table layout, the height of a text is a parameter (`Measure`, with a state of its own, called in the order of the code); the
  theorems hold for every such function. Cells are heap ids, so that `spannedBy` pointers keep their identity.
* The XML printed for a description is modelled (Go/XmlOut.lean, Model/Dump.lean, C94) with the texts of numbers as a parameter; the JSON format,
  which no program uses, is a parameter. `%q` in cmd/image (strconv.Quote,
  Go/Quote.lean) is modelled from its documentation, with strconv.IsPrint and image.DecodeConfig as parameters.
* gofpdf is modelled from its documentation: SetX and SetY with negative values count from the right and bottom edge, MoveTo and LineTo
  also move the text position, AddPage runs footer and header functions and restores font and color, writing a text breaks the page if
  it would reach below the bottom margin, except in header and footer. Simplified: a text is written in one piece, only SetFont can
  fail, `Ln` with a negative height is plain arithmetic, a font size of 0 is a size (the library keeps the last one), images of size 0 are
  scaled with exact rationals (no infinities). `Model/Write.lean` adds the line breaks of the library's method Write, from what is known of its
  source; C96 says when they make no difference. Theorems about pages and marks (C42, C43_footer, C43_iff, C47_error_lasts,
  C53_no_placeholder, C78, C79, C84, C85, C88-C93, C95, C97-C101, C103, C104, C107-C111, C113, C115-C120) are about this engine; the other theorems are about every engine that meets their hypotheses.
* Making the engine (Model/NewFpdf.lean, C75, C76) uses these facts about gofpdf: its page sizes in points, that a point is 127/360 mm, how
  fonts are named (family in lower case with spaces as `#20`, then B, I or BI), that a font known already is not read again, the core
  fonts, that a negative right margin stands for the left one. Whether bytes are a font, are ignored or are refused is a parameter.
* encoding/xml: the input is the token stream that the library's scanner delivers (names without name space, character data with entities
  replaced); scanning bytes, name spaces, encodings and the library's own depth limit are not modelled. Decoding into structs by reflection is
  written out for the structs of xdoc/doc.go. Attribute decoding of box and text happens twice in the code; this is modelled.
* The page number in a text is that of the page on which laying out the text starts, even if parts of it end up on the next page.
* In hyphenation, unicode.ToLower and unicode.IsDigit beyond ASCII are parameters.
* Functions that only build or read a structure have no definition of their own: log.go:5 (Logf), dim.go:13 (String), xdoc/style.go:52-62 (NoStyles:
  nothing is decoded, styles stay), xdoc/registry.go:39-66 (the registry is the list of names in `decodeInstruction`, Model/Load.lean), xdoc/doc.go:85,
  hyphenation.go:11-36, pattern.go:23-32, en-us.go:5, latin.go:5 (loading is `parsePatterns`; opening the file is not modelled), font/registry.go:31,
  style/color.go:15-29, style/decode.go:40, 46 (Append is `++` and has no caller), 163.

## Tests of the model

Props/RepoTests.lean runs those tests of the repository that state an expected result (text/text_test.go, style/style_test.go,
style/class_test.go) on the model; they all give the expected results. The other tests only print.

## Mutation log

seeded/LOG.jsonl has one line per wrong program. `failed` lists the declarations whose proofs broke in that build.
When a helper lemma breaks, the modules above it are not built; `not_built` lists the property theorems whose proofs use
one of the broken lemmas (computed from the proof terms of the unmodified development). A broken proof alone does not
show that a theorem became false; `witness` is a concrete instance of the claim which evaluates to true for the model and
to false for the wrong program, as checked by evaluation.

## Trusted base

Lean's kernel; axioms at most `propext`, `Classical.choice`, `Quot.sound`; the reading of the Go sources cited at each definition; the
models of the Go standard library in `Verif/Go`, written from its documentation (the sources are not available here).
