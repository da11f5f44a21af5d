{"id": "C01", "title": "Whitespace rectification reaches its normal form", "statement": "text.WhitespaceRectified(s) never contains CR, LF or TAB, never contains two adjacent spaces, never starts or ends with a space, and never has a space directly before or after a backslash.", "quantifier": "every byte string s", "why_tests_cant": "the normal form must hold for every interleaving of blanks, line ends and backslashes of any length; three sequential replace passes could re-create what an earlier pass removed", "anchors": ["text/text.go:WhitespaceRectified", "text/text.go:RemoveTwins"]}
{"id": "C02", "title": "Whitespace rectification only touches whitespace and is idempotent", "statement": "WhitespaceRectified(s) keeps every non-blank byte of s in order; between two consecutive kept bytes there is exactly one space if s had at least one blank between them and neither is a backslash, and no space otherwise. Applying it twice equals applying it once.", "quantifier": "every byte string s", "why_tests_cant": "it is an exact functional equation over all strings; tests sample six strings", "anchors": ["text/text.go:WhitespaceRectified"]}
{"id": "C03", "title": "RemoveTwins terminates with no doubled twin left", "statement": "text.RemoveTwins(s, twin) returns for every s and twin; for a non-empty twin the result contains no two adjacent copies of twin, the result is never longer than s, a string with no doubled twin is returned unchanged, and applying it twice equals applying it once.", "quantifier": "every string s and every twin, of any length, including self-overlapping twins", "why_tests_cant": "the loop runs until a fixed point: termination and the fixed point's shape are universally quantified", "anchors": ["text/text.go:RemoveTwins"]}
{"id": "C04", "title": "Hyphenate never panics", "statement": "Hyphenator.Hyphenate(s) returns normally for every string s, including invalid UTF-8 and multi-byte words, and for every pattern file that Load accepted: no index or slice expression is out of range.", "quantifier": "every word and every loadable pattern set", "why_tests_cant": "Hyphenate mixes rune indices (weights) with byte indices (slices); safety needs an inequality between the two for all inputs", "anchors": ["hyphenation/hyphenation.go:Hyphenate", "hyphenation/pattern.go:parsePattern"]}
{"id": "C05", "title": "Hyphenate loses no text", "statement": "Concatenating the parts returned by Hyphenate(s) gives back s.", "quantifier": "every word and every pattern set", "why_tests_cant": "quantifies over all words and pattern sets; the loss only shows for words whose last break falls before the last byte", "anchors": ["hyphenation/hyphenation.go:Hyphenate"]}
{"id": "C06", "title": "Hyphenate part sizes and opt-outs", "statement": "A word shorter than 3 bytes, longer than 100 bytes or containing a space is returned as the single part s; otherwise every returned part has at least two bytes, there is at least one part, and every part is a contiguous piece of s.", "quantifier": "every word and every pattern set", "why_tests_cant": "bounds hold at all positions of all words, not only at sampled ones", "anchors": ["hyphenation/hyphenation.go:Hyphenate"]}
{"id": "C07", "title": "Hyphenation breaks exactly at Liang positions", "statement": "For an ASCII word of 3..100 bytes without a space, Hyphenate cuts before letter k (2 <= k <= n) exactly when the maximum, over all patterns that match the dotted lower-cased word at any offset, of the weight the pattern assigns to that position is odd and the piece since the previous cut has at least two letters.", "quantifier": "every ASCII word, every pattern set", "why_tests_cant": "the maximum ranges over all substrings and patterns; the claim ties an index-juggling double loop to the declarative rule", "anchors": ["hyphenation/hyphenation.go:Hyphenate", "hyphenation/pattern.go:find"]}
{"id": "C08", "title": "Hyphenation keeps characters intact", "statement": "If s is valid UTF-8 then every part of Hyphenate(s) is valid UTF-8, i.e. no character is cut in half.", "quantifier": "every valid UTF-8 word, every pattern set", "why_tests_cant": "depends on the byte/rune relation at every position of every word", "anchors": ["hyphenation/hyphenation.go:Hyphenate"]}
{"id": "C09", "title": "Pattern syntax is total up to non-ASCII digits and round-trips", "statement": "Parsing a pattern line yields one weight before each letter plus one at the end, every weight in 0..9; it fails only if a decimal digit outside ASCII occurs where a weight may stand; printing a parsed pattern and parsing it again gives the same pattern.", "quantifier": "every pattern line", "why_tests_cant": "state machine over lines of any length; the length check at the end of the parser is claimed to be unreachable", "anchors": ["hyphenation/pattern.go:parsePattern", "hyphenation/pattern.go:String"]}
{"id": "C10", "title": "Built-in hyphenators load completely", "statement": "NewEnUs and NewLatin, which ignore the load error, always get a usable table: every line of the built-in pattern tables parses, so Hyphenate never dereferences a nil table, and every table line is found under its letters.", "quantifier": "every one of the 4938 + 336 built-in pattern lines", "why_tests_cant": "a single bad line would make the constructor return a hyphenator that panics on first use; the shipped tests check two lines", "anchors": ["hyphenation/en-us.go:NewEnUs", "hyphenation/latin.go:NewLatin", "hyphenation/pattern.go:parsePatterns"]}
{"id": "C11", "title": "Pattern files: last definition wins, any bad line rejects the file", "statement": "Load succeeds iff every non-blank line parses, and then looking up a letter sequence gives the weights of the last line with those letters, and nothing for letter sequences of no line. (Lines of 64 KiB or more stop the scan silently.)", "quantifier": "every pattern file, of any number of lines", "why_tests_cant": "map semantics over arbitrarily long files with duplicates", "anchors": ["hyphenation/pattern.go:parsePatterns", "hyphenation/hyphenation.go:Load"]}
{"id": "C12", "title": "Style declarations: syntax and last-wins", "statement": "A style text is a ';'-separated list of 'key:value' pairs with blanks around keys and values ignored and empty pieces skipped; it is rejected iff some non-blank piece does not contain exactly one ':'; if a key occurs several times, the last value counts.", "quantifier": "every style text", "why_tests_cant": "unbounded text; the shape of all rejected texts is a universal claim", "anchors": ["style/decode.go:parseRaw", "style/decode.go:DecodeMutator"]}
{"id": "C13", "title": "Style decoding does not depend on map iteration order", "statement": "Decoding the same style text any number of times gives mutators with the same effect on every style, and either always or never an error, although the pairs are visited in an unspecified order.", "quantifier": "every style text, every visiting order, every start style", "why_tests_cant": "Go randomises map iteration; a test run samples one order", "anchors": ["style/decode.go:DecodeMutator", "style/decode.go:makeMutateFnc"]}
{"id": "C14", "title": "Applying a style changes exactly the named properties", "statement": "Applying a decoded style text to styles gives each named known property the decoded value of its last occurrence and leaves every other property unchanged; unknown property names are ignored; applying it twice equals applying it once.", "quantifier": "every style text, every start style, every property", "why_tests_cant": "frame condition over all properties and all texts; implemented with reflection over field index paths", "anchors": ["style/decode.go:DecodeMutator", "style/decode.go:makeMutateFnc", "style/decode.go:makeSetValueFnc", "style/style.go:Styles"]}
{"id": "C15", "title": "Bad style values are always reported", "statement": "If the value that counts for a known property (its last one) does not parse (number, quadruple, color), decoding the whole style text fails and no style is changed; an empty property name is rejected too; nothing else is rejected (apart from wrong syntax).", "quantifier": "every style text", "why_tests_cant": "must hold whatever other pairs the text has and whatever order they are visited in", "anchors": ["style/decode.go:DecodeMutator", "style/decode.go:makeSetValueFnc"]}
{"id": "C16", "title": "Colors: exact syntax, range and round-trip", "statement": "A color value is accepted iff it is six hex digits with an optional leading '#'; the three components are then the values of the three digit pairs, so each lies in 0..255; writing (r,g,b) as '#rrggbb' and decoding gives (r,g,b).", "quantifier": "every string, and every r,g,b in 0..255", "why_tests_cant": "2^24 colors times case variants, and all malformed strings", "anchors": ["style/color.go:UnmarshalStyle"]}
{"id": "C17", "title": "Border, padding and margin quadruples", "statement": "'l,t,r,b' decodes to left, top, right, bottom in that order; fewer than four numbers, a missing comma or a non-number is an error.", "quantifier": "every quadruple of integers (border) or floats (padding, margin) and every string", "why_tests_cant": "unbounded values and all malformed strings", "anchors": ["style/box.go:UnmarshalStyle"]}
{"id": "C18", "title": "Class sheets decode to the declared classes", "statement": "DecodeClasses terminates on every text; a sheet written as name{body} blocks yields exactly those classes with their decoded bodies, 'base:sel{...}' adds a selector to an earlier class, a later block with the same name replaces the earlier one; a missing name, a missing '}', a bad body or a selector without an earlier base class is an error.", "quantifier": "every sheet text and every list of blocks", "why_tests_cant": "unbounded number of blocks and selectors, history dependent (redefinition)", "anchors": ["style/class.go:DecodeClasses"]}
{"id": "C19", "title": "Style cascade: classes in order, then inline styles, later wins", "statement": "MutatedStyles applies the classes named in the class attribute in order and then the style attributes; for each property the value is the one of the last source that sets it, otherwise the inherited value; unknown class names change nothing; the inherited styles are not modified.", "quantifier": "every class sheet, class list, inline style list, inherited style and property", "why_tests_cant": "all sequences of overlapping sources", "anchors": ["xdoc/style.go:MutatedStyles", "style/class.go:Mutate"]}
{"id": "C20", "title": "Selectors override their class, with the class as fallback", "statement": "MutatedStylesWithSelector(sel) uses for each class its selector block named sel if there is one and otherwise the class block itself, never both.", "quantifier": "every class sheet, selector and class list", "why_tests_cant": "all combinations of classes with and without the selector", "anchors": ["style/class.go:MutateWithSelector", "xdoc/style.go:MutatedStylesWithSelector", "table.go:transformTable"]}
{"id": "C21", "title": "Spanned tables are rectangular and correctly indexed", "statement": "After span processing all rows of a table have the same number of cells, that number is the table's column count, and every cell knows its own row and column; no index is out of range for any colspan/rowspan values, including zero, negative and overlapping ones.", "quantifier": "every table: any rows, any cell counts, any integer spans", "why_tests_cant": "spans insert cells into and append rows to the table being traversed; shape must hold for all span combinations", "anchors": ["table.go:processSpans", "table.go:processColumnSpans", "table.go:processRowSpans", "table.go:normalize"]}
{"id": "C22", "title": "Span processing keeps every authored cell once, in its row, in order", "statement": "Span processing never drops, duplicates, moves to another row or reorders an authored cell.", "quantifier": "every table with any integer spans", "why_tests_cant": "insertions happen while rows are being copied and re-sliced", "anchors": ["table.go:processColumnSpans", "table.go:processRowSpans", "table.go:normalize"]}
{"id": "C23", "title": "A spanning cell owns exactly its span", "statement": "A cell with colspan c >= 1 and rowspan r >= 1 gets exactly c-1 placeholder cells in its own row, and exactly one placeholder in each of the r-1 following rows, creating rows when the table ends earlier; each placeholder belongs to exactly one authored cell.", "quantifier": "every table with any integer spans", "why_tests_cant": "ownership must be unique across all overlapping spans", "anchors": ["table.go:processColumnSpans", "table.go:processRowSpans"]}
{"id": "C24", "title": "A row-spanning cell is exactly as tall as the rows it spans", "statement": "In a laid-out table the height of a cell with rowspan r equals the sum of the heights of its row and the r-1 rows below it.", "quantifier": "every table, every cell", "why_tests_cant": "depends on where each placeholder ends up, for all span combinations", "anchors": ["table.go:dim", "table.go:assignHeights"]}
{"id": "C25", "title": "Table cells do not overlap", "statement": "No two authored cells of a laid-out table cover the same (row, column) position, counting a cell with colspan c and rowspan r at its final position (i, j) as covering rows i..i+r-1 and columns j..j+c-1.", "quantifier": "every table with any spans", "why_tests_cant": "interaction of arbitrary row and column spans", "anchors": ["table.go:processSpans", "table.go:renderTable"]}
{"id": "C26", "title": "Column widths fill the table width", "statement": "In a laid-out table all cells of a column have the same width; a column with at least one positive explicit column-width gets the largest of them; the remaining columns share the remaining width equally, so that, if there is at least one such column, the column widths sum up to the effective table width.", "quantifier": "every table and width (exact arithmetic)", "why_tests_cant": "sums over arbitrarily many rows and columns", "anchors": ["table.go:assignColumnWidths", "dim.go:EffectiveWidth"]}
{"id": "C27", "title": "Row heights hold their content", "statement": "Every row is at least as tall as the minimal height of each of its cells, all cells of a row get the row's height, and each authored cell's total height is at least its explicit height, or if none its text height plus vertical padding.", "quantifier": "every table, every cell, every text measure", "why_tests_cant": "max/sum over arbitrary spans: the per-row share of a spanning cell must add up", "anchors": ["table.go:assignHeights", "table.go:assignCellMinHeight", "table.go:dim"]}
{"id": "C28", "title": "Every table row is rendered, in order", "statement": "Rendering a table renders each row exactly once and in order apart from repeated header rows, for every page height, every row height and every start position.", "quantifier": "every table, page geometry and start position", "why_tests_cant": "page breaks can fall anywhere", "anchors": ["table.go:renderTable"]}
{"id": "C29", "title": "A table row never crosses the page bottom unless it cannot fit", "statement": "Outside header and footer, when a row is rendered, either its cells end at or above the bottom of the printable area, or it is rendered directly below the repeated header at the top of a fresh page (i.e. header plus row do not fit on one page).", "quantifier": "every table, page geometry and start position", "why_tests_cant": "page breaks can fall anywhere; needs an invariant on the running y", "anchors": ["table.go:renderTable", "table.go:maxCellHeight"]}
{"id": "C30", "title": "Header rows are repeated exactly after page breaks inside the table", "statement": "With repeatheader = h > 0, each page break taken before a row other than the first is followed by exactly the first h rows (as far as they exist) and then that row; without page break, with h = 0, or inside header/footer nothing is repeated.", "quantifier": "every table, h, page geometry", "why_tests_cant": "number and position of page breaks are unbounded", "anchors": ["table.go:renderTable"]}
{"id": "C31", "title": "Table attributes: bounds and defaults", "statement": "repeatheader is accepted iff it is a decimal integer in 0..10; colspan/rowspan are accepted iff they are decimal 64-bit integers; missing attributes give 0, and span values of 1 or less all mean a normal cell.", "quantifier": "every attribute list", "why_tests_cant": "all strings, including overflow and signs", "anchors": ["xdoc/table.go:DecodeAttrs", "table.go:processColumnSpans"]}
{"id": "C32", "title": "Grid areas are accepted iff they are rectangles", "statement": "Rendering a grid gets past area checking iff for every area name the set of cells carrying that name is a full rectangle of consecutive rows and columns, and then the computed left/top/right/bottom are the corners of that rectangle.", "quantifier": "every grid of names, any size", "why_tests_cant": "soundness and completeness over all layouts", "anchors": ["grid.go:add", "grid.go:validate", "grid.go:renderGrid"]}
{"id": "C33", "title": "Grid documents are validated", "statement": "A grid is accepted on load iff it has at least one row, all rows have the same number of areas, and every part refers to an area occurring in some row.", "quantifier": "every grid", "why_tests_cant": "iff over all grids", "anchors": ["xdoc/grid.go:Validate"]}
{"id": "C34", "title": "Images are scaled into the printable area with their aspect ratio", "statement": "For an image of positive pixel size and a printable area that remains positive after the offset, the image is put with width and height not exceeding the area; unless both width and height are set by style, width:height equals the pixel aspect ratio; an image that already fits and has no size style keeps its natural size.", "quantifier": "every image size, style and area (exact arithmetic)", "why_tests_cant": "all numeric combinations of two clamps in sequence", "anchors": ["image.go:renderImage"]}
{"id": "C35", "title": "Line wrapping loses no words", "statement": "Wrapping left, center and right aligned text: the words on all produced lines, read in order, are exactly the words of all text blocks and paragraphs, in order, each in its block's font.", "quantifier": "every instruction list, width and font metric", "why_tests_cant": "all texts and widths", "anchors": ["text.go:textLines"]}
{"id": "C36", "title": "Lines are not wider than the available width", "statement": "A produced line that holds more than one word is narrower than the available width; a wider line holds a single word. The same holds for block text with hyphenated pieces.", "quantifier": "every instruction list, width and font metric", "why_tests_cant": "invariant over the wrapping loop", "anchors": ["text.go:textLines", "text-hyph.go:textLinesHyphenated"]}
{"id": "C37", "title": "Lines are broken only when necessary", "statement": "Wrapping is greedy: a line ends only at a line break instruction, at the end of the text, or because the next word would reach the available width; and no line is left blank unless a line break instruction asks for it.", "quantifier": "every instruction list, width and font metric", "why_tests_cant": "greedy optimality is universal over texts; blank lines appear only for over-long words", "anchors": ["text.go:textLines"]}
{"id": "C38", "title": "Block text loses no letters beyond the hyphenator", "statement": "In block-aligned text the pieces on all lines, with the trailing hyphens of broken words removed and broken words re-joined, are exactly the words of the text, provided the hyphenator's parts re-join to the word.", "quantifier": "every instruction list, width, font metric and hyphenator", "why_tests_cant": "all texts, widths and hyphenators", "anchors": ["text-hyph.go:textLinesHyphenated"]}
{"id": "C39", "title": "Justified lines end exactly at the right edge", "statement": "A justified line of block text starts at the left edge and its last word ends exactly 0.1 before the available width, whatever the fonts of its words.", "quantifier": "every justified line (exact arithmetic, engine advancing by the measured width)", "why_tests_cant": "sum over arbitrarily many words", "anchors": ["text-hyph.go:writeTextHyphenated"]}
{"id": "C40", "title": "Final lines of a paragraph are not stretched", "statement": "In block text, the last line of the text and every line ended by a line break instruction are written with natural spacing.", "quantifier": "every instruction list", "why_tests_cant": "depends on all positions of line breaks", "anchors": ["text-hyph.go:textLinesHyphenated", "text-hyph.go:writeTextHyphenated"]}
{"id": "C41", "title": "Measured text height matches the written lines", "statement": "The height measured for a text corresponds to the number of lines that writing it produces: (lines-1) * font height * line spacing + font height, if all fonts of the text have the same height and the page does not change in between.", "quantifier": "every instruction list and width", "why_tests_cant": "measuring and writing are two runs over mutable engine state", "anchors": ["text.go:textHeight", "text.go:writeText", "text-hyph.go:textHeightHyphenated"]}
{"id": "C42", "title": "Header and footer do not move the body", "statement": "After a new page was added, whatever the header and footer contain, the write position is the top left corner of the printable area and the page number grew by exactly one.", "quantifier": "every header/footer content without page breaks, every state", "why_tests_cant": "header and footer run arbitrary instruction lists in a callback", "anchors": ["process.go:Process", "engine/fpdf.go:AddPage"]}
{"id": "C43", "title": "Processing terminates iff header and footer hold no page break", "statement": "Process terminates for every document whose header and footer contain no newpage instruction; with a newpage in the header, adding a page recurses without end.", "quantifier": "every document", "why_tests_cant": "termination of callback recursion", "anchors": ["process.go:Process", "process.go:processInstructions"]}
{"id": "C44", "title": "Only the font outlives an element", "statement": "At any point of processing, the processor's current styles differ from the default styles at most in the font; so no size, padding, alignment or color set on an element affects later elements. The font of an element does not affect later elements either.", "quantifier": "every document, every point of processing", "why_tests_cant": "invariant over all instruction sequences and callbacks", "anchors": ["process.go:changeFont", "process.go:resetStyles", "text.go:textLines"]}
{"id": "C45", "title": "Effective width is clamped to the area", "statement": "The effective width for a requested width w is w if 0 <= w <= area width, and the area width otherwise; in particular it never exceeds the area width.", "quantifier": "every area and width", "why_tests_cant": "all numeric values", "anchors": ["dim.go:EffectiveWidth"]}
{"id": "C46", "title": "Boxes draw exactly the requested borders", "statement": "Drawing a box fills its interior once and strokes exactly those of the four edges whose border value is positive, each between the corners of the box (the top edge starting half a line width early).", "quantifier": "every rectangle and style", "why_tests_cant": "16 border combinations times all coordinates, path state carried by the engine", "anchors": ["draw.go:drawBox"]}
{"id": "C47", "title": "No PDF is written after an engine error", "statement": "Process returns an error and writes nothing if the engine is in error after processing the body, and otherwise returns exactly the result of writing the PDF.", "quantifier": "every document and engine behaviour", "why_tests_cant": "error gating over all histories", "anchors": ["process.go:Process"]}
{"id": "C48", "title": "Style diffs are complete and sound", "statement": "The style diff between two styles lists exactly the leaf properties whose values differ, each once with both values and its path, independent of map iteration order; it is empty iff the styles are equal.", "quantifier": "every pair of styles", "why_tests_cant": "all value combinations and iteration orders", "anchors": ["xdoc/diff.go:interfaceDiff", "xdoc/diff.go:stylesDiff"]}
{"id": "C49", "title": "Describe reports the page margins", "statement": "Describe(doc) lists left, top, right and bottom with the document's left, top, right and bottom margins.", "quantifier": "every document", "why_tests_cant": "must hold for all margin values; equal left and right margins hide a mix-up", "anchors": ["xdoc/describe.go:describeMargins"]}
{"id": "C50", "title": "Font registry visits fonts in order until the first error", "statement": "Each calls the function on the registered fonts in registration order, stops at the first error and returns it, and returns nil iff no call failed; every style definition of a definition file is registered, in order, under its font's name.", "quantifier": "every registry and callback", "why_tests_cant": "all sequences and failing positions", "anchors": ["font/registry.go:Each", "font/definition.go:LoadRegistryFromFile"]}
{"id": "C51", "title": "Loading keeps the instruction tree", "statement": "Decoding the XML of an instruction tree yields that tree: all elements, texts, attributes and nesting, in order.", "quantifier": "every instruction tree of any depth and width", "why_tests_cant": "recursive decoder with hand-written token loops", "anchors": ["xdoc/instructions.go:UnmarshalXML", "xdoc/table.go:UnmarshalXML", "xdoc/grid.go:UnmarshalXML", "xdoc/registry.go:DecodeInstruction"]}
{"id": "C52", "title": "Unknown elements", "statement": "An unknown element in body, header, footer, box, text, table or table row makes loading fail; in a table cell or grid part its start and end tags are skipped and its content is read as if it stood directly there.", "quantifier": "every token stream", "why_tests_cant": "all positions in all trees", "anchors": ["xdoc/instructions.go:UnmarshalXML", "xdoc/table.go:UnmarshalXML", "xdoc/grid.go:UnmarshalXML"]}
{"id": "C53", "title": "Page number placeholders are always replaced", "statement": "No written text contains '{cp}': every occurrence is replaced by the decimal current page number, and nothing else changes.", "quantifier": "every text and page number", "why_tests_cant": "replacement must not re-create the placeholder", "anchors": ["process.go:tr", "text.go:textLines"]}
{"id": "C54", "title": "Which instructions are rendered where", "statement": "Top-level instructions other than font, lf, setx, sety, box, text, table, image, grid and newpage - in particular bare text, p and br - have no effect; instructions are processed in document order.", "quantifier": "every document", "why_tests_cant": "all instruction lists", "anchors": ["process.go:processInstructions"]}
{"id": "C55", "title": "Vertical alignment in table cells", "statement": "For a cell with text, the text block starts at the top padding edge (top), is centered between the padding edges (middle), or ends at the bottom padding edge (bottom), according to the measured text height.", "quantifier": "every cell rectangle, padding and text (exact arithmetic)", "why_tests_cant": "all numeric values", "anchors": ["table.go:renderCell"]}
{"id": "C56", "title": "Box geometry", "statement": "Rendering a box draws it at the current position plus its offset, as wide as its effective width and as tall as its height plus vertical padding, starts its text at the padding corner, and leaves the write position at the box's bottom; a new page is started first iff page breaks are allowed and the box would reach the bottom margin.", "quantifier": "every box, style and state (exact arithmetic)", "why_tests_cant": "all states and styles", "anchors": ["process.go:renderTextBox"]}
{"id": "C57", "title": "The text values shown by Describe", "statement": "In a paragraph or text block value shown by Describe, newlines are gone, no two spaces are adjacent, no space is at either end, every other byte is kept in order, and between two kept bytes one space remains iff an odd number of spaces (newlines not counted) stood between them; in particular two words separated by exactly two spaces are glued together.", "quantifier": "every byte string", "why_tests_cant": "The parity of arbitrarily long runs of spaces interrupted by newlines decides the result; tests fix a few runs.", "anchors": ["xdoc/describe.go:clearStr"]}
{"id": "C58", "title": "Describe shows every text and image once, in order", "statement": "The description of a document shows the (cleared) texts of all text blocks and paragraphs and the sources of all images of header, footer and body, in document order, each exactly once, at any nesting of boxes, texts, tables and grids; an instruction yields one item, except rows, cells and parts outside of their table or grid, which yield none.", "quantifier": "every document", "why_tests_cant": "unbounded nesting and sequences of instructions", "anchors": ["xdoc/describe.go:describeInstructions", "xdoc/describe.go:describeTable", "xdoc/describe.go:describeGrid"]}
{"id": "C59", "title": "Which lines of block text are stretched", "statement": "In block text a line of more than one word is kept from being stretched iff it is the last line of the text (and no line break instruction ends the text) or the line after it is the one that a line break instruction ends. So a line ended by a line break instruction is stretched unless the line after it is also ended by one, and the line before it is not.", "quantifier": "every instruction list, width, font metric and hyphenator", "why_tests_cant": "depends on all positions of line breaks and on where the wrapping loop happens to be at each of them", "anchors": ["text-hyph.go:textLinesHyphenated", "text-hyph.go:writeTextHyphenated"]}
{"id": "C60", "title": "Where blank lines come from", "statement": "Left, center and right aligned text: the lines come in groups, one for each stretch of text between line break instructions, in order; within a group a line ends only if the next word would reach the available width. A blank line is either the only line of an empty stretch, or the first line of a stretch whose first word alone reaches the available width; there are no others, and none at the end of the text.", "quantifier": "every instruction list, width and font metric", "why_tests_cant": "all texts and widths", "anchors": ["text.go:textLines"]}
{"id": "C61", "title": "What a token stream loads as", "statement": "Loading a document succeeds only for a token stream that consists of white space, comments and the like, then the element document, properly nested, then anything; and then the result is what the element tree says: the texts of meta, page and style are the direct text of the last such element, margins the numbers in them; header, footer and body are the instructions of all such elements, joined. An unreadable margin, style sheet or section makes loading fail.", "quantifier": "every token stream", "why_tests_cant": "the decoder's mutable element stack, popped by hand-written loops, is shared by all nesting levels", "anchors": ["xdoc/doc.go:Load", "xdoc/instructions.go:UnmarshalXML", "xdoc/table.go:UnmarshalXML", "xdoc/grid.go:UnmarshalXML"]}
{"id": "C62", "title": "Instructions that are not valid", "statement": "A box or text with a style attribute that cannot be decoded makes loading fail wherever it stands. In a table cell, grid or grid part at any depth, a font, paragraph or image with such an attribute and a grid that is not valid are dropped without a message: the document loads as if they were not there.", "quantifier": "every document, any position and depth", "why_tests_cant": "all positions in all trees", "anchors": ["xdoc/instructions.go:UnmarshalXML", "xdoc/table.go:UnmarshalXML", "xdoc/grid.go:UnmarshalXML", "xdoc/registry.go:DecodeInstruction"]}
{"id": "C63", "title": "Where the styles of a table cell come from", "statement": "After layout, each style property of an authored cell has the value of the last of these that sets it: the classes and inline style of the table, those of its row, those of the cell; each class of a row contributes its first-row block in the first row and its last-row block in the last row if the class has one (first wins in a one-row table) and its own block otherwise, likewise first-cell and last-cell for cells; and if none sets it, the style current before the table. Span processing and sizing leave it unchanged.", "quantifier": "every class sheet, table, cell and style property", "why_tests_cant": "the cascade is a product of table, row, cell, classes, selectors and twenty properties", "anchors": ["table.go:transformTable", "xdoc/style.go:MutatedStylesWithSelector"]}
{"id": "C64", "title": "Where the words of a text are written", "statement": "If all words fit above the bottom margin and left of the right edge, writing a left aligned, centered or right aligned text puts exactly its words on the page, in order, each in the font of its block and all in the text color of the text: line by line, the first line at the current height, every further line below by the line spacing times the height of the font at the end of the line before; the words of a line without gaps, each but the first with a space before it, from the left edge plus the indent of the line; the indent is none, half or all of what the width leaves if every word counts with a space before it. Font, color and height afterwards are those after the last line.", "quantifier": "every text, style, width, position and font metric", "why_tests_cant": "positions depend on the metric and on the wrapping of arbitrary text", "anchors": ["text.go:writeText", "text.go:textLines"]}
{"id": "C65", "title": "Aligned lines touch their edges", "statement": "Lines of left aligned text start at the left edge, lines of right aligned text end at the right edge, and lines of centered text have the same distance from both edges.", "quantifier": "every text, width and metric", "why_tests_cant": "an off-by-one-space error depends on the metric", "anchors": ["text.go:writeText", "text.go:textLines"]}
{"id": "C66", "title": "Where the words of block text are written", "statement": "If all fits, writing block text puts exactly the items of its lines on the page: a line that is not kept from being stretched and has more than one item starts at the left edge, has equal gaps between its trimmed items and ends a tenth before the right edge; other lines are written as they are from the left edge on; lines are stacked as in C64.", "quantifier": "every text, style, width, position, metric and hyphenator", "why_tests_cant": "gaps depend on the metric and on hyphenation", "anchors": ["text-hyph.go:writeTextHyphenated"]}
{"id": "C67", "title": "What an image instruction does", "statement": "An image instruction puts the image, once, under its resolved name, at the current position plus the offset of its style, in a size that fits the printable area less the offset, keeps the ratio of its pixels (or that of its style if that sets both width and height) and is not smaller than needed; an image that cannot be read is left out; nothing else changes.", "quantifier": "every state, style, image size and area (exact arithmetic)", "why_tests_cant": "all sizes, styles and areas", "anchors": ["image.go:renderImage", "process.go:processInstructions"]}
{"id": "C68", "title": "Images in table cells", "statement": "The images of a table cell are put at the corner of its padding and in a size that fits between its padding edges.", "quantifier": "every cell and list of contents", "why_tests_cant": "depends on what comes before the image in the cell", "anchors": ["table.go:renderCell", "image.go:renderImage"]}
{"id": "C69", "title": "Boxes in table cells", "statement": "A box in a table cell starts at the left padding edge and is aligned between the top and bottom padding edges as the cell's vertical alignment says.", "quantifier": "every cell, alignment and box", "why_tests_cant": "all heights and alignments", "anchors": ["table.go:renderCell", "process.go:textBoxHeight"]}
{"id": "C70", "title": "Images stay within the printable area", "statement": "An image is put within the printable area of the page.", "quantifier": "every position, style and image", "why_tests_cant": "all positions", "anchors": ["image.go:renderImage"]}
{"id": "C71", "title": "Describe shows the outline of the document", "statement": "The description of a document has the items meta (author, creator, subject), page (orientation, format, margins), header, footer and body; the items of the last three show, one by one, the elements of the document in order and nested as they are: each names its element, shows its number, source, area, text (cleared) or spans in decimal, and lists the differences that the element's own style makes to the zero style. Two documents with the same description have the same outline.", "quantifier": "every document, every classes, every iteration order of the diff", "why_tests_cant": "unbounded nesting, all span values, all styles", "anchors": ["xdoc/describe.go:Describe", "xdoc/describe.go:describeInstructions", "xdoc/describe.go:describeTableCell", "xdoc/describe.go:describeMutator"]}
{"id": "C72", "title": "The output does not depend on map iteration order", "statement": "Loading the same file with different map iteration orders fails in all of them or gives documents that differ only in the order of settings inside a style; processing such documents makes the same engine calls with the same result, for every engine, hyphenator and file system, and describing them gives the same description.", "quantifier": "every token sequence, every pair of map orders for attributes and style sheet, every engine and start state", "why_tests_cant": "Go's map order is random per run; a test sees one order", "anchors": ["style/decode.go:DecodeMutator", "style/class.go:DecodeClasses", "xdoc/doc.go:Load", "process.go:Process", "xdoc/describe.go:Describe"]}
{"id": "C73", "title": "All content reaches the pages, in order", "statement": "Processing body, header or footer puts exactly its content into the document, in the order of the document: for each text, box and cell its words (spaces aside, in one piece or broken with a hyphen between two syllables), for each readable image the image, for each page break a new page, for a table all its cells row by row, with the repeated rows behind each new page but the first. The pages of the finished document hold the header of the first page, then the body, with the footer of the last and the header of the next page around each new page, and the last footer; nothing is lost, doubled or added.", "quantifier": "every document, engine, hyphenator, image directory and start state", "why_tests_cant": "all documents; a lost word shows only for particular widths and page positions", "anchors": ["process.go:processInstructions", "process.go:Process", "process.go:writeText", "process.go:writeTextHyphenated", "process.go:textLines", "process.go:textLinesHyphenated", "process.go:renderTextBox", "table.go:renderTable", "table.go:renderCell", "image.go:renderImage"]}
{"id": "C74", "title": "The page count placeholder stays whole", "statement": "Every '{np}' in a rendered text of the document is written as part of one text, so that the library replaces it by the number of pages.", "quantifier": "every document, engine and hyphenator", "why_tests_cant": "all widths: the placeholder has to stand at the end of a line", "anchors": ["process.go:Process", "process.go:tr", "process.go:writeTextHyphenated", "hyphenation/en-us.go:NewEnUs"]}
{"id": "C75", "title": "The page has the declared format, orientation and margins", "statement": "Whenever the engine can be made, its page is as large as the declared format (A3, A4, A5, letter, legal; A4 for any other name) to within half a millimeter, turned on its side exactly when the orientation is \"landscape\", with the declared margins (the right one not negative); texts are laid out in what the margins leave free, less two millimeters on the right.", "quantifier": "for all page declarations (any byte strings as format and orientation, any margins), font registries, font files", "why_tests_cant": "format and orientation are free strings and the margins arbitrary numbers", "anchors": ["engine/fpdf.go:14-39", "engine/fpdf.go:73-115"]}
{"id": "C76", "title": "A font is found exactly if a registered file supplies it", "statement": "Making the engine fails exactly if the file of a registered font cannot be read, or is refused by the library and no font of the same name and face was loaded before. Otherwise a font is found exactly if a registered file that is a font supplies it (same family up to case, same weight and slope, whatever the size and decoration) or its family is one of the standard ones.", "quantifier": "for all font registries, file systems, fonts (names without #)", "why_tests_cant": "registry, file contents and fonts are unbounded; the answer depends on all registered fonts together", "anchors": ["engine/fpdf.go:41-71", "engine/fpdf.go:73-115", "font/registry.go:1-43"]}
{"id": "C77", "title": "Block text is broken as late as possible", "statement": "In block text a line ends only at a line break instruction, at the end of the text, or because the next word would reach the available width; and of the syllables of that word the line has as many as fit together with a hyphen: one more (short of the whole word) would exceed the width.", "quantifier": "for all engines, hyphenators, texts, widths, styles", "why_tests_cant": "the lines depend on all widths and all words before; the longest prefix is a statement about all longer ones", "anchors": ["text-hyph.go:9-108"]}
{"id": "C78", "title": "The text of a box stays within the box", "statement": "Every word a text box writes lies within the padding edges of the rectangle drawn for the box: right of its left padding edge, left of its right one, below the upper and above the lower one.", "quantifier": "for all engines, documents, styles, texts and positions", "why_tests_cant": "a box is as tall as measured; that the measured text and the written text agree concerns every way of breaking lines", "anchors": ["process.go:175-211", "text.go:9-111", "text-hyph.go:9-141"]}
{"id": "C79", "title": "The text of a cell stays within the cell", "statement": "Every word of the text of a table cell lies within the padding edges of the cell, whatever the alignments.", "quantifier": "for all engines, tables, styles, texts and positions", "why_tests_cant": "a cell is as tall as measured before the table is drawn; that the text still fits when drawn, at any alignment, concerns every way of breaking lines", "anchors": ["table.go:399-438", "table.go:240-290", "text.go:9-111", "text-hyph.go:9-141"]}
{"id": "C80", "title": "Where images and fonts are looked for", "statement": "A name of an image that is not absolute leads to the file one comes to from the root along the working directory and then the name, with '.', '..', and repeated slashes treated as by the file system, and the engine gets the plain path of that file; absolute names are used as they are. Paths of fonts are resolved in the same way from the directory of the definition file.", "quantifier": "every working directory, every name, every list of font definitions", "why_tests_cant": "all combinations of '..', '.', and slashes in both parts", "anchors": ["process.go:resolveFile", "font/definition.go:LoadRegistryFromFile"]}
{"id": "C81", "title": "The default name of the output", "statement": "Without a second argument the output is written to the working directory, under the name of the input with its extension (what follows the last dot) replaced by pdf; with a second argument, to that.", "quantifier": "every list of arguments", "why_tests_cant": "all names with several dots and directories with dots", "anchors": ["cmd/xpdf/main.go:18-39"]}
{"id": "C82", "title": "Exit codes and files of the program", "statement": "The program changes no file but the output. It ends with exit code 0 iff the input was loaded, the output created, the fonts loaded, the engine made, and the document processed and written without error, and then the output is what the engine wrote; otherwise the exit code is 2, 3, or 4, or the program crashes, with nothing changed, an empty output, or what was written before the error. All this does not depend on the order in which maps are iterated.", "quantifier": "every state of the file system, every arguments, every behaviour of the libraries", "why_tests_cant": "all combinations of missing, malformed and unwritable files and map orders", "anchors": ["cmd/xpdf/main.go:main", "xdoc/doc.go:LoadFromFile", "process.go:NewProcessor"]}
{"id": "C83", "title": "A run that fails changes no file", "statement": "If the program ends with an exit code other than 0, all files are as before; and the input is never changed.", "quantifier": "every state of the file system, every arguments", "why_tests_cant": "the failure has to come after the output was created", "anchors": ["cmd/xpdf/main.go:46-57"]}
{"id": "C84", "title": "Fonts, colors and line widths have an origin in the document", "statement": "Everything put on the pages looks as the document asks: for every text written, the family, size, style, weight and decoration of its font and its color are each either the default value or a value that a style in the header, footer or body (inline, by class or by class selector) gives to that very property; and the same holds of line width, line color and fill color of every box and cell drawn. A style read from a text gives a property a value only if the last declaration of the property in the text says so. A document without styles is written in the default font and color throughout.", "quantifier": "for all documents, style classes, hyphenators, image sizes, papers and font metrics, and all runs of the processor that end; for everything on all pages", "why_tests_cant": "Values flow through class lookups, selector fallbacks, resets after elements, headers and footers that run in the middle of other elements, and the font that outlives its element; a test looks at single documents and cannot exclude that some combination lets a value of one property, a stale value or a zero value through.", "anchors": ["process.go:43-145", "process.go:147-230", "draw.go:5-39", "table.go:285-330", "xdoc/style.go:32-48", "style/class.go:26-53", "default.go:1-42"]}
{"id": "C85", "title": "Documents that only ask for available fonts do not fail", "statement": "If every font that can be put together from the default font and the values that styles of the document give to family, size, style, weight and decoration is available to the engine, processing the document ends without an error of the engine.", "quantifier": "for all documents, style classes, papers, sets of available fonts, and all runs of the processor that end", "why_tests_cant": "The fonts a document needs are combinations: family from one class, weight inherited from an earlier element, style from a selector of a table. A test checks the combinations of one document.", "anchors": ["process.go:43-98", "process.go:115-230", "engine/fpdf.go:117-119", "engine/fpdf.go:163-165"]}
{"id": "C86", "title": "Which style properties have an effect on which element", "statement": "A style property that does not matter for an element has no effect: two documents that differ only in styles, and in these only in properties that do not matter for the element that has them, are processed by the same calls of the engine with the same arguments. What matters: of a font instruction and of a paragraph the font alone (not the color, width, line spacing or alignment of a paragraph); of a text the font, color, width, line spacing and horizontal alignment; of a box everything but margin, column width and vertical alignment; of an image width, height and offset; of a table everything but margin and offset; of rows and cells everything but these and the width; of a grid nothing; so the margin matters nowhere. The list is exact: for each element and property listed as mattering there are documents that differ in just that and come out differently.", "quantifier": "for all pairs of documents with any instructions, classes and styles, all engines, hyphenators, image files and states of the processor; exactness for each pair of element and property", "why_tests_cant": "That a property has no effect is a statement about all documents that contain it, in any nesting and combination with classes and selectors, and about all values; a test can compare two documents.", "anchors": ["process.go:43-98", "process.go:115-230", "text.go", "text-hyph.go", "table.go:13-330", "image.go", "draw.go", "style/style.go", "xdoc/style.go:32-48"]}
{"id": "C87", "title": "Numbers and areas given as attributes", "statement": "The attribute lines of a line feed and x, y of a position are accepted exactly if every value given is empty or a number with optional white space around it; the last value given counts, empty counts as 0, and 0 if none is given. The attributes of a grid part are accepted exactly if every style attribute is correct; the area of the part is the last area given, empty if none is.", "quantifier": "for all lists of attributes, in any order, repeated or foreign, and all values", "why_tests_cant": "Repeated and foreign attributes, order and white space combine without bound.", "anchors": ["xdoc/instructions.go:58-75", "xdoc/grid.go:22-30", "xdoc/grid.go:97-107"]}
{"id": "C88", "title": "In which font and color each word is written, on which page, and what is drawn", "statement": "Every word on the pages of a document is written in the font and color its place in the document says, and nothing else: at each point there is a current font, at first the default one; a font instruction changes just the properties it sets, starting from the current font; a text or box is written in the styles its classes and inline styles make of the current font (everything else from the default styles), in its text color, a paragraph in the font its own styles make of the font of the whole; a cell of a table in the styles that table, row and cell with their selectors make of the font that is current where the table starts. The font of the last word measured or written is the current one from then on. A word is on the page where the one before was, or on the next one; a new page runs footer and header, which start from the current font and leave theirs behind. Each box, and each cell of a table except those covered by spans, is drawn exactly once, on its page, in its own styles - background, borders, line width - before its text is written, the box with the width and height it is given if there is room; nothing else is drawn.", "quantifier": "for all documents, style classes, texts, tables with any spans, hyphenators that cut words into parts, image files, page sizes and font metrics, any number of pages, for the engine of the repository", "why_tests_cant": "The current font is carried through the whole document, through measuring, page turns, headers and footers at places that depend on the metrics; the claim relates every word of every document to all instructions before it.", "anchors": ["process.go:15-31", "process.go:66-98", "process.go:111-230", "text.go:23-111", "text-hyph.go:11-141", "table.go:240-265", "table.go:291-336", "table.go:338-438", "engine/fpdf.go:141-165", "draw.go:5-39"]}
{"id": "C89", "title": "Between instructions the engine has the current font and color", "statement": "Before and after each instruction of the body, the font and the text color set in the engine are the current font and text color of the processor: every text, box and table sets them back when it is done. Hence a line feed is as high as a line in the current font, and so is a box without contents. (The full claim is false: a header or footer with a font of its own changes the current font at a page turn, while the engine goes back to the font of before; so line feeds after a page break, and before the first text of the document, are in another font than the text that follows.)", "quantifier": "for all documents, all papers, and all positions in the body", "why_tests_cant": "Which font the engine is left with depends on all instructions before, on page turns within them and on header and footer; a test looks at a few sequences, and the wrong font only shows in the height of an empty line.", "anchors": ["process.go:95-98", "process.go:115-118", "process.go:122-143", "process.go:147-211", "table.go:338-397", "engine/fpdf.go:158-165"]}
{"id": "C90", "title": "The text of the body stays above the bottom margin", "statement": "In every processed document, each text on a page has room for its line above the bottom margin, or is at the very top of the page (when a single line is taller than the page), or was put there by the header or the footer. This holds for texts in boxes, table cells, block text and repeated table heads alike.", "quantifier": "for all documents, all papers with a top margin that is not negative, and everything on the pages", "why_tests_cant": "Where a text ends up is the sum of everything before it: line feeds, boxes, tables, page turns and the positions header and footer leave behind. A test checks a few pages of a few documents.", "anchors": ["engine/fpdf.go:75-85", "engine/fpdf.go:141-143", "engine/fpdf.go:208-211", "process.go:51-72", "process.go:74-89"]}
{"id": "C91", "title": "Every word of the body of the XML file is on the pages, in order", "statement": "From the XML file to the pages: if a document is loaded and processed, every word of its body (at any depth of the XML tree, cut at white space) stands in the PDF, whole or broken by a hyphen, as often as in the file and in the same order; header, footer and repeated table heads only come in between.", "quantifier": "for all documents that can be loaded, all papers, hyphenators that only cut words, files and image readers, and all nestings of headers and footers", "why_tests_cant": "Words can get lost in the XML decoding (elements that are skipped, characters that are ignored), in the layout (cells, boxes, spans, page turns), or at the engine. A test compares the words of a few documents.", "anchors": ["xdoc/doc.go:Load", "xdoc/instructions.go:UnmarshalXML", "xdoc/table.go:UnmarshalXML", "xdoc/grid.go:UnmarshalXML", "process.go:Process", "process.go:processInstructions", "process.go:writeText", "process.go:writeTextHyphenated", "table.go:renderTable", "table.go:renderCell"]}
{"id": "C92", "title": "The tables of the body on the pages", "statement": "For every processed document and every table of its body: what the library holds after the table is what it held before plus new marks. A table without columns adds nothing and leaves the position. Otherwise the backgrounds of its cells and its page breaks are among the new marks in the order of the rows: every row (header rows repeated) starts at the left edge where the position was, right below the row before; cells lie side by side and are as wide and high as the columns and rows they span; new pages start at the top margin; each row ends above the bottom margin or is the first one on its page, below the repeated header rows; header rows and the row below them start on a new page if they do not fit together, other pages are started only for a row that does not fit; and afterwards the position is below the last row, at the left edge of the table. If no text of the table makes the library start a page of its own, all cells of a row are on one page; without that condition they can be torn apart (witness).", "quantifier": "all documents that can be processed, all tables in their bodies, all page sizes, margins (left and top not negative), fonts, images, hyphenations, headers and footers, all nesting depths", "why_tests_cant": "A test looks at a few tables on a few page sizes; where a row ends up depends on everything before the table, on the measured height of all cells, on header and footer, and on page breaks the library makes inside of texts.", "anchors": ["table.go:338-438", "process.go:120-145", "draw.go:5-39", "engine/fpdf.go:141-171", "engine/fpdf.go:208-240"]}
{"id": "C93", "title": "Texts of table cells on the pages", "statement": "For every processed document and every table of its body whose cells hold text only (text blocks, paragraphs and line breaks in one font per cell, without the page number, block text only at the top of the cell; no explicit heights; padding not negative; every word, with a space before it, fits between the padding edges), whose columns are not of negative width and whose rows each fit on a page below the header rows: the marks added by the table are, one after the other, the page breaks and the cells of its steps as in C92. All marks of a cell are on one page, the one that the page breaks before it lead to; its background comes first, and every text of it lies inside the padding edges of the background, horizontally and vertically. The texts of a cell come one below the other or one behind the other, unless its lines are closer than the font is high. The parts with the page breaks hold nothing else but marks of the header and the footer. No page is started but by the table, so all cells of a row are on the same page.", "quantifier": "all documents that can be processed, all tables of this kind in their bodies wherever they start (at a position that is not negative), all page sizes, margins, headers and footers, hyphenations, and all font metrics in which widths are not negative and a space is wider than a tenth", "why_tests_cant": "A test renders a few tables and compares the output with a stored one; that no text can leave its cell or its page needs that measuring and writing wrap the texts the same way in every font, at every width and on every page, and that rows are broken exactly where they would cross the margin.", "anchors": ["table.go:246-438", "text.go:11-111", "process.go:120-145", "engine/fpdf.go:125-171"]}
{"id": "C94", "title": "What describe prints can be read back", "statement": "The XML printed by the program describe (and by Dump) for a document is well-formed, and reading it with any XML reader gives back the whole description: every item with its name, its value (or none), its style differences with path, old and new value, and its inner items, in order; no text, whatever characters it holds, is taken for markup. Characters that XML cannot hold are shown as U+FFFD, all others unchanged. The program ends with exit code 0 exactly if its input can be loaded, otherwise with exit code 2.", "quantifier": "all documents, all texts (bytes), all formats of numbers, all iteration orders of maps, all files and arguments", "why_tests_cant": "Whether text can break the output depends on all characters at all nesting depths; tests compare a few stored outputs.", "anchors": ["xdoc/describe.go:37-48", "xdoc/describe.go:18-28", "xdoc/diff.go:10-14", "cmd/describe/main.go:10-26"]}
{"id": "C95", "title": "The images of the body of the XML file are on the pages, in order, and no others", "statement": "From the XML file to the pages: if a document is loaded and processed, every image element of its body whose file can be read is put on the pages, as often as in the file and in the same order; and every image on the pages is that of an image element of the body, the header or the footer.", "quantifier": "for all documents that can be loaded, all papers, hyphenators that only cut words, directories and image readers, and all nestings of headers and footers", "why_tests_cant": "Images can get lost in the XML decoding, in the layout of tables, or because their paths are resolved wrongly; files that cannot be read are silently skipped, so a missing image causes no error. A test looks at the images of a few documents.", "anchors": ["xdoc/doc.go:Load", "xdoc/instructions.go:UnmarshalXML", "xdoc/table.go:UnmarshalXML", "xdoc/grid.go:UnmarshalXML", "process.go:processInstructions", "image.go:renderImage", "table.go:renderCell", "engine/fpdf.go:PutImage"]}
{"id": "C96", "title": "A text that fits on its line is not broken again by the PDF library", "statement": "The library breaks lines on its own when a text reaches its right margin. If a text at its position leaves room for the margins the library keeps in cells, it is written in one piece; and if that holds for all texts of a document processed with line breaks only where the processor puts them, then with the line breaking of the library the pages and the result are the same.", "quantifier": "for all papers, fonts whose character widths add up, texts, engine states and documents with headers and footers nested to any depth", "why_tests_cant": "Whether the library breaks a line again depends on widths that differ by a fraction of a micrometer from those the processor computes with. Tests with a few texts never get near the limit.", "anchors": ["engine/fpdf.go:WriteText", "engine/fpdf.go:PrintableArea", "text.go:writeText", "text-hyph.go:writeTextHyphenated", "process.go:Process"]}
{"id": "C97", "title": "Texts stay between the left and the right margin", "statement": "In a document whose words, on the pages it has, have room on the lines of texts, boxes and cells of tables (in block text also the parts the hyphenator leaves of them), and whose texts, boxes and tables begin at the left margin (at the beginning of the header and the body, after a line feed, a page break, a text, a box, a table, or a position set there; in footers never at the beginning), every text written in the header, the footer and the body starts behind the left margin and ends before the right edge of the printable area. If there is no block text the library breaks none of the lines itself.", "quantifier": "for all papers, widths of texts, hyphenators, style classes, documents and nesting depths of headers and footers", "why_tests_cant": "Overruns depend on the widths of words and on where a page break falls in the middle of an aligned line; the space of such documents cannot be sampled.", "anchors": ["text.go:writeText", "process.go:writeTextFnc", "text-hyph.go:writeTextHyphenated", "process.go:renderTextBox", "process.go:processInstructions", "engine/fpdf.go:WriteText", "table.go:renderTable", "table.go:renderCell", "table.go:assignColumnWidths"]}
{"id": "C98", "title": "Texts come one below the other", "statement": "In a document without tables whose body only moves down (positions set at the beginning of a page only), whose lines have a spacing of 1 or more, whose texts are of one size each, and whose boxes are as high as the words in them, every text of the body that is written after another one is on a later page, below it, or behind it on the same line; so no two of them overlap.", "quantifier": "for all papers, widths of texts, hyphenators, style classes, documents and nesting depths of headers and footers", "why_tests_cant": "Whether texts overlap depends on where lines, boxes and pages break, on the fonts of all elements before, and on what headers and footers do in between; the space of such documents cannot be sampled.", "anchors": ["text.go:writeText", "text.go:textHeight", "text-hyph.go:writeTextHyphenated", "process.go:renderTextBox", "process.go:processInstructions", "engine/fpdf.go:WriteText", "engine/fpdf.go:LineFeed"]}
{"id": "C99", "title": "Cells of tables tile the page", "statement": "For every processed document and every table of its body with text in its cells only (as in C93) that starts in the printable area, is not too wide, whose cells do not share positions (as in C25), and whose header cells do not extend over rows below the header rows: everything the table puts on the pages is its cells, each in the printable area, and page breaks in between, with nothing but marks of the header and the footer. Cells on the same page lie side by side or one below the other; the texts of a cell lie inside of it, on the same page; and texts of different cells do not overlap, repeated header rows and page breaks included. On its first page the table is below the position where it starts, on its last one above the position where it leaves off. A table that starts at the left margin is not too wide if one of its columns has no width set.", "quantifier": "all documents that can be processed, all tables of this kind in their bodies, all page sizes, margins, header rows, spans, headers and footers, hyphenations, and font metrics as in C93", "why_tests_cant": "Where cells are depends on the widths and heights of all columns and rows, on spans, on where pages break and on how many header rows are repeated; these cannot be enumerated.", "anchors": ["table.go:transformTable", "table.go:processSpans", "table.go:assignColumnWidths", "table.go:renderTable", "table.go:renderCell", "engine/fpdf.go:PrintableArea"]}
{"id": "C100", "title": "Every page has its header and its footer, with its number", "statement": "A processed document is its pages, one after the other, as many as the engine counts. On each page there is first what the header shows, once, then a part of the body, then what the footer shows, once (the last footer is missing if there was an error, in which case nothing is written); all of it is on that page, header and footer never start a page of their own, and the parts of the body on the pages make up the body, in order. The texts of header and footer are their words - of texts, boxes and table cells, whole or broken by the hyphenator - with the number of that very page in place of {cp}.", "quantifier": "for all documents, header and footer contents, page sizes, font metrics, hyphenators that cut words into parts, and nesting depths for which processing ends", "why_tests_cant": "New pages are started by page breaks, boxes, tables and by the library when a line does not fit; where that happens depends on all the contents, so that no set of documents covers the combinations of body, header and footer.", "anchors": ["process.go:Process", "process.go:processInstructions", "process.go:tr", "engine/fpdf.go:AddPage", "engine/fpdf.go:OnHeader", "engine/fpdf.go:OnFooter"]}
{"id": "C101", "title": "Nothing is put over something else, in tables or not", "statement": "In a document of texts, boxes and tables of text whose body only moves down (positions set at the beginning of a page only), whose lines have a spacing of 1 or more, whose texts are of one size each, whose boxes are as high as the words in them, and whose tables meet the conditions of C25 (cells do not share positions), have header rows from which no cell extends into the rows below, and no negative padding, no text of the body is put over another one: not within a cell, not in two cells, not before, in or after a table, on none of the pages over which a table goes, repeated headers included. Texts written later are never on an earlier page. Without header and footer that holds for all texts of the document.", "quantifier": "for all papers, widths of texts, hyphenators, style classes, documents of that kind and nesting depths of headers and footers", "why_tests_cant": "Where a table breaks depends on all that comes before it and on the heights of all its rows, which depend on how the text of each cell is broken into lines; where the text after it goes depends on all of that. The space of such documents cannot be sampled.", "anchors": ["process.go:processInstructions", "table.go:transformTable", "table.go:renderTable", "process.go:renderTextBox", "text.go:writeText", "text-hyph.go:writeTextHyphenated"]}
{"id": "C102", "title": "White space and comments in the file make no difference to the PDF", "statement": "How a document file is broken into lines and indented makes no difference to the PDF. If two files differ only in this: the pieces of text in boxes, texts, cells, headers, footers and bodies, and the text of each p, have the same words (the longest pieces without space, tab, CR, LF; a piece is not made empty); text is added or left out where text does not count (between the rows and cells of tables, in grids and between the elements of the document); comments are added or left out anywhere but within a piece of text; the attributes of the document element and what is before and after it differ - then both cannot be loaded, or both lead to the same calls of the engine and the same result, for every engine, every start state and every hyphenator. The contents of style, meta, page, gr and image stay.", "quantifier": "for all trees of XML elements, pairs of files of that kind, float parsers, map orders, engines, hyphenators, image files and nesting depths", "why_tests_cant": "The two files can be of any size and differ at any number of places, alone or together; the page number is put into the text between reading and cutting into words, so the words on the page are not those in the file; text is measured in cells several times before it is drawn. Tests compare a few files with one renderer.", "anchors": ["text.go:textLines", "text-hyph.go:textLinesHyphenated", "process.go:tr", "text/text.go:WhitespaceRectified", "xdoc/instructions.go:UnmarshalXML"]}
{"id": "C103", "title": "Editing the document from some point on leaves the pages before it unchanged", "statement": "What is put on the pages does not depend on what comes later in the body. Take a document that is processed to its end, and one that goes on after the same body: it has at least as many pages; on every page but the last one of the shorter document, exactly the same texts, images, drawings and line feeds are put in the same order at the same places, headers and footers included. Hence two documents whose bodies begin alike are the same on all pages before the page on which they come apart. Without footer, all that is put on the pages for the shorter document is, in the same order, the beginning of what is put for the longer one.", "quantifier": "for all bodies, continuations, headers, footers, style classes, hyphenators, papers, start states and nesting depths", "why_tests_cant": "The page on which the documents come apart depends on everything before it; texts, tables, headers and footers may each write, change the position or turn the page; an instruction that went back to an earlier page, or a table that looked ahead, would show only for some continuations. Tests compare a few pairs.", "anchors": ["process.go:Process", "process.go:processInstructions", "engine/fpdf.go:AddPage", "engine/fpdf.go:WritePDF"]}
{"id": "C104", "title": "Text is broken into as few lines as possible", "statement": "Left, center and right aligned text: take any other way to break it into lines, where the words stay in order, line break instructions are kept and a line of several words is narrower than the available width (counting a space before each word, as the code does). It has at least as many lines as the code makes, not counting the blank line that the code puts before a stretch whose first word alone reaches the width. So, with the same text, a larger width never leads to more lines, nor to a greater height measured for boxes and cells.", "quantifier": "for all engines that measure texts by font metrics without negative widths, all texts, fonts, widths and all other ways to break the text", "why_tests_cant": "The number of ways to break a text is exponential in its words, and the words have arbitrary widths in mixed fonts; that a larger width never makes a text higher is a statement about all pairs of widths. Tests look at a few texts and widths.", "anchors": ["text.go:textLines", "text.go:textHeight"]}
{"id": "C105", "title": "The program image prints name, format and size of an image so that they can be read back", "statement": "The program image ends with exit code 0 exactly if a file is named, can be read and is an image. Then what it prints, read with the rules of Go for string literals and numbers, is the name of the file, the format of the image, its width and its height; it is three lines without control characters, and a name of usual characters is printed as it is. Without a name the exit code is 1, otherwise it is 2.", "quantifier": "for all arguments, working directories, files, file names (arbitrary bytes) and results of decoding the image", "why_tests_cant": "File names are arbitrary bytes: quotes, backslashes, line ends, bytes that are no UTF-8, characters outside the first plane. Quoting has to be undone by reading for each of them.", "anchors": ["cmd/image/main.go:main"]}
{"id": "C106", "title": "Of styles only the effect counts: classes can be renamed, merged and replaced by style texts without any change of the PDF", "statement": "Two files that are the same but for the style sheet, the attributes style and class, the order of attributes and attributes the program does not know give the same result, if every element is styled the same way: its properties get the same values, without selector and with any. That is so if the known classes of the elements mean the same in the same order and the style texts set the same: class names are arbitrary, classes that are not used or not known do not matter. A class without selectors in front of the style texts can be replaced by a style text that sets the same, and of a style text only the last declaration of each key counts.", "quantifier": "for all files, sheets, attributes, renamings, engines, hyphenators, map iteration orders of both runs", "why_tests_cant": "It relates the runs for two files over all files, sheets and ways to rewrite them; the styles go through every renderer, and through the cascade with selectors of tables.", "anchors": ["xdoc/style.go:Styled.DecodeAttrs", "xdoc/style.go:Styled.MutatedStyles", "style/class.go:DecodeClasses", "style/class.go:Classes.MutateWithSelector", "xdoc/instructions.go", "process.go:Processor.Process"]}
{"id": "C107", "title": "A table leaves no page blank", "statement": "Each page that a table of the body starts has a row of the table on it that comes in its turn (not only repeated header rows). A table that starts at the top of a page starts no other page before its first row.", "quantifier": "for all tables, header row counts, page sizes, margins and positions of the table; all documents", "why_tests_cant": "Whether a page is left without a row depends on two separate checks for a new page, one for the header rows with the row below and one for each row, on the heights of all cells and the position of the table.", "anchors": ["table.go:renderTable"]}
{"id": "C108", "title": "A page break joins documents", "statement": "A document that consists of two parts with a page break in between comes out as the two parts would as documents of their own, one after the other: the pages of the first part, then those of the second one, with header and footer and with the page numbers going on. It is so if header and footer do not touch the font and the first part ends with the default font. In any document the first part comes out as it would on its own.", "quantifier": "for all parts (texts, boxes, tables, images, further page breaks), headers, footers, style classes, page sizes and fonts, and any number of parts", "why_tests_cant": "All state that outlives a page break could make a difference - position, fonts and colors in the engine and in the processor, the mark that prevents page breaks, page numbers -, in any of the instructions, however they are nested.", "anchors": ["process.go:Process", "process.go:processInstructions", "engine/fpdf.go:AddPage", "engine/fpdf.go:OnHeader", "engine/fpdf.go:OnFooter"]}
{"id": "C109", "title": "Colors, borders and line widths do not change the layout", "statement": "Two documents that differ only in styles, and in these only in the colors (of text, lines and background), the border and the line width, have the same layout: both are processed or none is, with the same result, and there are the same pages with the same texts in the same fonts, the same images and the same boxes, all at the same places. Each other property that matters for an element (C86) can change the layout.", "quantifier": "for all pairs of documents with any instructions (header and footer included), classes and styles, all page sizes, fonts, hyphenators, image files and states the processor starts in; exactness for each pair of element and property", "why_tests_cant": "Drawing a border moves the pen, which is the position for texts as well, and a line width is subtracted from the box that is filled; whether this shifts anything after it depends on every element, table and page break that follows. Two documents have to be compared, not the output of one with an expected value.", "anchors": ["draw.go:drawBox", "process.go:renderTextBox", "table.go:renderCell", "text.go:writeText", "text-hyph.go:writeTextHyphenated"]}
{"id": "C110", "title": "How a text is divided into paragraphs makes no difference", "statement": "Only the words of a text and their styles count, not how they are divided into pieces of text and paragraphs: if every word of the texts, boxes and cells of a document is put into a paragraph of its own, in the style of the piece of text it is from (no style if it was outside of a paragraph), the document is processed the same way, call for call; so two documents that have the same words in styles with the same effect give the same result. Needed: each piece of text has a word, and there are no backslashes in it.", "quantifier": "for all documents with texts in header, footer and body, boxes and cells, all classes and styles, engines for which choosing a font twice is the same as once, hyphenators, image files, and states the processor starts in", "why_tests_cant": "Fonts are chosen and the page number is put in for each piece of text while lines are broken across the pieces; that no space, line break, hyphenation or measured height depends on where a piece ends is a statement about pairs of documents with any number of pieces.", "anchors": ["text.go:textLines", "text.go:textHeight", "text-hyph.go:textLinesHyphenated", "text-hyph.go:textHeightHyphenated", "process.go:changeFont", "text/text.go:WhitespaceRectified"]}
{"id": "C111", "title": "Header and footer leave the body where it is", "statement": "If no style in header and footer sets a part of the font, they have no influence on the body: a document that comes out with header and footer comes out without them on the same number of pages, and each page with them consists of what the header put there, exactly what is on the page without them (same places, fonts and colors), and what the footer put there. With another header and footer of that kind every page has the same body; and header and footer without page breaks can be added to any document that comes out. So what is known of documents without header and footer (no text over another one, texts above the bottom margin) holds for the bodies of documents with them.", "quantifier": "for all documents, headers and footers without settings of the font, papers, widths of texts, hyphenators, style classes and nesting depths", "why_tests_cant": "A statement about pairs of documents: header and footer run in the middle of the body, whenever a page is full, with the processor and the engine in any state, and what they leave behind (position, styles, font, color, the permission to break pages) can show much later.", "anchors": ["process.go:Process", "process.go:processInstructions", "engine/fpdf.go:OnHeader", "engine/fpdf.go:OnFooter", "engine/fpdf.go:AddPage", "engine/fpdf.go:WriteText"]}
{"id": "C112", "title": "The order of sections and attributes makes no difference, nor do unknown ones", "statement": "Two files give the same result if their sections are the same but for order: sections with different names (meta, page, style, header, footer, body, and the entries of meta, page and margins) can change places, and sections the program does not know, texts and comments between the sections can be added and removed. Likewise the attributes of the elements in header, footer and body can stand in any order, and attributes the program does not know can be added and removed, as long as each known attribute is given the same values in the same order.", "quantifier": "for all files, ways to reorder them, engines, hyphenators, map iteration orders of both runs", "why_tests_cant": "It relates the runs for two files over all files and reorderings; the attributes are read one by one and the reading stops at the first wrong one, and the positions of the attributes select the map orders.", "anchors": ["xdoc/doc.go:Load", "xdoc/style.go:Styled.DecodeAttrs", "xdoc/table.go:Table.DecodeAttrs", "xdoc/table.go:TableCell.DecodeAttrs", "xdoc/grid.go:GridPart.DecodeAttrs", "xdoc/instructions.go", "process.go:Processor.Process"]}
{"id": "C113", "title": "Which hyphenations, images and files the PDF depends on", "statement": "Of all that hyphenator and file system say, only this matters: how the words of texts are hyphenated for which the text, its box, or its table, row or cell asks for block alignment, and the files of the images that are shown. Without such texts the hyphenator makes no difference, and without images the image files make none. The program ends the same way and writes the same PDF in two worlds in which the input, fonts/fontdef.toml, the font files named there and the shown images are the same, whatever the other files are.", "quantifier": "for all documents, engines, pairs of hyphenators and of worlds, nesting depths of header and footer", "why_tests_cant": "It relates two runs over all pairs of hyphenators and file systems: that something is never asked for cannot be seen in any number of runs.", "anchors": ["text-hyph.go:textLinesHyphenated", "process.go:Processor.writeTextFnc", "process.go:Processor.textHeightFnc", "process.go:Processor.resolveFile", "image.go:Processor.renderImage", "table.go:Processor.renderCell", "engine/fpdf.go:FPDF.initFonts", "font/definition.go:LoadRegistryFromFile", "cmd/xpdf/main.go:main"]}
{"id": "C114", "title": "How a style sheet is written makes no difference", "statement": "Of a style sheet only the rules of each class count, in their order: rules of different classes can be mixed in any way. For each class the last rule without selector counts and, of the rules behind it, the last one of each selector; rules in front of it can be dropped. Of a rule only the class, the selector and what it sets count, not white space or the way its declarations are written, and text behind the last block counts for nothing. A sheet is correct exactly if each block has a name and a correct body and the first rule of every class has no selector. Two files that are the same but for sheets that mean the same, or are wrong both, give the same result.", "quantifier": "for all sheets, mixtures of rules, files, engines, hyphenators, map iteration orders of both runs", "why_tests_cant": "It relates all ways to write a sheet to each other: there are infinitely many sheets with the same rules, and tests compare a few.", "anchors": ["style/class.go:DecodeClasses", "style/decode.go:DecodeMutator", "style/decode.go:parseRaw", "xdoc/doc.go:Load"]}
{"id": "C115", "title": "How lines fill the pages", "statement": "In a document without boxes and tables, in which all words of a text have the same size and a line fits on an empty page, the texts stand line by line below each other, each line as far below the last one as the font size times the line spacing says. A line that does not end above the bottom margin stands at the top of the next page, with all its words; only a line feed, SetY, a page break or an empty line changes the position otherwise. So a text without empty lines fills each page but its last one with the same number k of lines, the largest that fits: line i is the one with number i mod k on page 1 + i / k, and n lines take 1 + (n - 1) / k pages. With a header and a footer that leave the fonts alone the body comes out in the same way.", "quantifier": "for all such documents, papers and margins, fonts and metrics, line spacings, hyphenators, headers and footers without fonts", "why_tests_cant": "It fixes page and height of every line of texts of any length on any paper; a test knows the positions in a few documents on one paper.", "anchors": ["process.go:renderText", "text.go:writeText", "text-hyph.go:writeTextHyphenated", "process.go:processInstructions", "engine/fpdf.go:WriteText", "engine/fpdf.go:LineFeed", "engine/fpdf.go:AddPage"]}
{"id": "C116", "title": "Setting a document word by word", "statement": "What is on the pages of a document is what a typist sets who goes through the document once, word by word: they put each word behind the last one, with the font and the color that the styles say, or at the top of the next page, equally far from the left, if it does not end above the bottom margin; they start each line where the alignment says, stretch the lines of block text, go down by the line spacing after each line, measure a box, turn the page if it does not fit, and draw its frame before its text, and put an image where they are; they lay out a table (C122, C123), put its cells one after the other, frame first, the text where the alignment says, then boxes and images, go to the next page with a row that does not fit, and repeat the header rows there. The font of the last word of a text stays for what follows. Whenever they go to the next page they set the footer of the page, without going to another page there, and the header of the next one, from its upper left corner on, and go back to that corner; a font that header or footer leave behind stays for the texts that start later. The footer of the last page comes last. Nothing else is on the pages, and nothing is missing, even after an error (except this last footer). If header and footer leave the fonts alone the body comes out as without them. Without header and footer the height of the paper, and its upper and lower margin, never move a text to the left or right (boxes excepted: one that goes to the next page starts at the left margin).", "quantifier": "for all documents (whose header and footer have no page breaks), all papers (with margins not below 0), fonts and metrics, hyphenators, images", "why_tests_cant": "It fixes every mark on every page for all documents at once; a test compares the pages of a few documents.", "anchors": ["process.go:Process", "process.go:processInstructions", "process.go:renderText", "process.go:renderTextBox", "text.go:writeText", "text-hyph.go:writeTextHyphenated", "image.go:renderImage", "draw.go:drawBox", "engine/fpdf.go:WriteText", "engine/fpdf.go:LineFeed", "engine/fpdf.go:AddPage", "table.go:renderTable", "table.go:renderCell"]}
{"id": "C117", "title": "From the files to the file", "statement": "If the program finds its input and the input can be loaded, the output can be created, and the font definitions and fonts can be loaded, then it does not crash: it writes to the output what the PDF library makes of the pages that are set by hand, word by word, as C116 says, from the document that was loaded, on the paper that was asked for, with the images found in the directory, and ends with exit code 0; or it writes nothing, and ends with exit code 4. It ends with exit code 0 if all fonts are there that the document can ask for. And if it ends with exit code 0, all this is so, and neither header nor footer has a page break.", "quantifier": "for all arguments, file systems, XML documents (with margins not below 0, no page breaks in header and footer), fonts and metrics, hyphenators, and whatever the PDF library makes of the pages", "why_tests_cant": "It connects the whole way from the files the program finds to the file it writes for all file systems and documents; a test runs the program on a few files.", "anchors": ["cmd/xpdf/main.go:main", "xdoc/doc.go:LoadFromFile", "font/registry.go:LoadRegistryFile", "engine/fpdf.go:NewFPDF", "process.go:NewProcessor", "process.go:Process", "engine/fpdf.go:WritePDF"]}
{"id": "C118", "title": "Words of the file broken as English, and whole", "statement": "If the program, which hyphenates with the built-in US English table, ends with exit code 0, then every word that stands in the body of the XML file where it can be seen (C91) stands in the PDF, in the order of the file, in one piece or broken in two with a hyphen, at a place where the patterns of the table allow it (the largest weight of all patterns that match there is odd, and the last such place is at least two letters back); the two parts together are the word.", "quantifier": "for all arguments, file systems, XML documents, fonts and metrics, and whatever the PDF library makes of the pages", "why_tests_cant": "It is about all words in all documents, on the whole way from the XML file through the hyphenator and its 4938 patterns to the PDF. A test looks at the words it thought of.", "anchors": ["cmd/xpdf/main.go:main", "hyphenation/en-us.go:NewEnUs", "hyphenation/hyphenation.go:Hyphenate", "text-hyph.go:textLinesHyphenated", "text-hyph.go:writeTextHyphenated", "process.go:Process"]}
{"id": "C119", "title": "Nothing in the PDF that is not in the file", "statement": "If the program ends with exit code 0, then every text in the PDF is blank, or it is a word of a text of the body, the header or the footer of the XML file, or a part of such a word that is broken in two at a place where the patterns of the built-in table allow it (perhaps with a space before, and with a hyphen behind the first part). The texts are those in text and box elements, in their paragraphs, and in the cells of tables and the boxes in them. Nothing is printed of names of image files, of texts between the elements of the body, in fonts or grids, in boxes inside of boxes, or between the rows and cells of a table.", "quantifier": "for all arguments, file systems, XML documents, fonts and metrics, every text on every page, and whatever the PDF library makes of the pages", "why_tests_cant": "That something is nowhere on any page can only be tested for single texts and single documents; here all places where the processor writes are followed back to the file, including headers, footers, repeated rows and page breaks inside of texts.", "anchors": ["cmd/xpdf/main.go:main", "process.go:Process", "process.go:renderText", "process.go:renderTextBox", "table.go:renderTable", "text.go:writeText", "text-hyph.go:writeTextHyphenated", "xdoc/instructions.go:UnmarshalXML"]}
{"id": "C120", "title": "No character of the file is cut in half in the PDF", "statement": "If the texts of the XML file are valid UTF-8 (the XML decoder takes no others) and the program ends with exit code 0, then every text in the PDF is valid UTF-8: no character is cut in half.", "quantifier": "for all arguments, file systems, XML documents, fonts and metrics, every text on every page, and whatever the PDF library makes of the pages", "why_tests_cant": "Characters of several bytes have to survive the replacement of {cp}, the removal of white space and the cutting into words, which all work on bytes, and the hyphenator, which counts characters but cuts bytes. A test would have to meet a word with such a character that is broken at just the wrong place.", "anchors": ["cmd/xpdf/main.go:main", "process.go:tr", "text/text.go:WhitespaceRectified", "text.go:writeText", "text-hyph.go:writeTextHyphenated", "hyphenation/hyphenation.go:Hyphenate"]}
{"id": "C121", "title": "The lines of a text, exactly", "statement": "The lines of a text are those of a simple rule: each stretch between line breaks is filled by itself, a word that does not end left of the available width (with a space before it) starts the next line, in block text as many of its syllables as fit stay behind with a hyphen, and there is no blank line at the end. There is no other way to break a stretch into lines so that no line ends too early and neither the first line nor lines of several words are too long.", "quantifier": "for all texts, styles, classes, widths, hyphenators, engines that measure texts by font, and all processor states", "why_tests_cant": "C35-C38, C60 and C77 say what the lines are like; a test compares some lines. Only a rule for all texts, widths and fonts shows that nothing about the lines is left open.", "anchors": ["text.go:textLines", "text-hyph.go:textLinesHyphenated", "text-hyph.go:tryHyphenate"]}
{"id": "C122", "title": "The places of a table, exactly", "statement": "Which cell, which covered place or which filling is at each place of a laid-out table follows one rule: each row starts as in the file, with every cell followed by the places it covers to its right; then, row by row and from left to right, each cell of several rows puts a covered place into each row below it, at its own column, moving what is there to the right, filling short rows up first and adding rows at the end if needed; finally all rows are filled up to the longest one. The cell at a place is the cell of the file with that number.", "quantifier": "for all tables (all row, cell and span attributes), styles, classes, pages and measuring functions", "why_tests_cant": "C21-C23 say what the places are like (rectangular, all cells once and in order, so many placeholders) and C25 when they clash; tests look at a few tables. Only an exact rule for all spans shows that nothing about the places is left open.", "anchors": ["table.go:processColumnSpans", "table.go:processRowSpans", "table.go:normalize", "table.go:transformTable"]}
{"id": "C123", "title": "The sizes of a table, exactly", "statement": "The widths of the columns and the heights of the rows of a laid-out table follow from what is at its places (C122) and from the styles of its cells (C63). A column is as wide as the largest column-width of a cell at one of its places; columns without one share the rest of the width of the table equally. A row is as high as the largest height asked for at one of its places, and at least 0 high: a cell with a given height asks for it in its first row only, any other cell asks in each of its rows for an equal share of the height of its text and padding, the text being measured in the width of the cell inside its padding; other places ask for nothing. The cells are measured once, in the order of the file. A cell is drawn as wide as the columns it covers in its row and as high as the rows it extends over. So the whole layout is a function of the file, the styles and the width.", "quantifier": "for all tables, styles, classes, pages, measuring functions (with any state) and states of them", "why_tests_cant": "C24, C26 and C27 say what the sizes are like; tests compare some numbers. Only an exact rule for all tables shows that nothing about the sizes is left open, for example that no placeholder makes a row higher.", "anchors": ["table.go:assignColumnWidths", "table.go:assignCellMinHeight", "table.go:assignHeights", "table.go:transformTable"]}
{"id": "C124", "title": "What is written in a cell and the layout of its table", "statement": "If two tables differ only in what is written in their cells, then they have the same cells, covered places and fillings at the same places, with the same widths, however texts are measured. A row is as high in both unless a cell that is in the row or reaches it from above has other contents, and it is not lower in the second table if no text in such a cell is lower there. The height of a text depends on the number of the page, the style, the width and the text only, not on what was measured before.", "quantifier": "for all pairs of tables with the same rows, cells, spans and styles, all classes, pages and measuring functions whose results do not depend on their state; for all papers and documents, this is so for the heights of texts", "why_tests_cant": "Pairs of tables: the effect of a change of one cell on all others, through spans in both directions and through the order in which the cells are measured.", "anchors": ["table.go:transformTable", "table.go:processSpans", "table.go:assignColumnWidths", "table.go:assignHeights", "text.go:textHeight", "text-hyph.go:textHeightHyphenated"]}
{"id": "C125", "title": "Attributes of tables that make no difference", "statement": "A document comes out the same, with everything on the same page and at the same place, if in its tables, in body, header or footer, colspan and rowspan values of 1 or less are replaced by others of 1 or less, repeatheader values that are not smaller than the number of rows by others that are not either, and styles of rows and cells by others with which every cell looks the same. So the style text of a row without classes can be moved to its cells, in front of theirs, if they have no classes. The code lays out such tables in the same way and measures the same texts for that.", "quantifier": "for all pairs of documents that differ in this way only, all papers with margins that are not negative, all fonts, hyphenators and image files; header and footer without page breaks", "why_tests_cant": "Pairs of documents, and all 64-bit values of attributes: a test compares a few values in a few tables.", "anchors": ["table.go:transformTable", "table.go:processSpans", "table.go:assignHeights", "table.go:renderTable", "xdoc/table.go:UnmarshalXML"]}
