# Formal model of ppt-rs: design

## What this is

A Lean 4 model of the parts of `/repo` (yingkitw/ppt-rs) that decide what ends up in a
`.pptx` file, together with machine-checked proofs of the properties in
`properties.jsonl`. `MANIFEST.json` maps each property to its theorems.

## Layout

* `lean/Verif/Model/*.lean`: executable, total transcriptions of Rust functions. Each
  definition cites the file and lines it models and says what was simplified.
* `lean/Verif/Spec/*.lean`: small specifications written without the model's helpers
  (an XML entity reader, a JSON reader, list editing, grid tilings, ...).
* `lean/Verif/Lemmas/*.lean`: helper lemmas.
* `lean/Verif/Props/*.lean`: the property theorems only, each with an `example` beside it
  that shows a non-trivial input meeting its hypotheses.

## Conventions

* `String` is modelled as `List Char` (a sequence of Unicode scalar values). Byte-level
  behaviour (slicing at byte offsets, UTF-8 lengths) is modelled explicitly where the code
  depends on it, through `utf8Len`.
* `usize`/`u32`/`u64` values are `Nat`. Where the code can overflow or underflow for
  reachable inputs, the model has an explicit error value; elsewhere the definition's
  comment states the no-overflow assumption.
* `&mut self` methods return the new state. `Result` is `Except`/`Option`. A panic is an
  explicit error value.
* `HashMap` is an association with distinct keys. Anything that depends on its iteration
  order is proved for every permutation.
* When the code does *not* satisfy a property, the negation is proved on a concrete
  witness (`..._violated`) and the strongest true part is proved as `..._partial`; the
  disagreement is listed under "Findings".

## Trusted base

* Lean 4.33.0 kernel; Mathlib lemmas (checked by the same kernel).
* Axioms: only `propext`, `Classical.choice`, `Quot.sound`. No `sorry`, no `native_decide`,
  no `bv_decide`, no new axioms.
* The transcription from Rust to Lean was done by hand. It is not checked by any tool: the
  citations in the comments are there so that a reader can compare.
* Not modelled: the zip crate (an archive is a list of named entries), the xml-rs crate (its
  event stream is the input of the modelled tree builder), pulldown-cmark and scraper (their
  event/DOM output is the input of the modelled code), syntect, floating-point arithmetic,
  the file system except where a property is about it, LibreOffice, network access.
* Closed computations are proved with `rfl`, `decide` or `decide +kernel` (evaluation by the kernel,
  no compiler). The macro `krfl` is `rfl` checked by the kernel only.
* The library clap reads command lines by the declarations in src/cli/parser.rs; C174 describes what it does with them (options in
  their spellings, values, `--`, what is refused) in `Model/CliArgs`, read off its documentation.
* Readers used as specifications are part of what has to be read: `Spec/XmlQuery` (an XML reader
  for the subset of XML that the code writes), `Spec/Json`, the YAML, Markdown and table readers.
* Parameters instead of models: the text of the theme and of the master's text styles, numbers of
  charts as printed by the standard library, `uni`/`low`/`load`/`diagramTitle` (Unicode case mapping,
  file loading and diagram titles), `desc` and `texts` in `packageArchive` (attributes of embedded
  fonts, texts of parts whose wording the validator theorem does not depend on; the theorem states
  what it needs of them in `TextsOk`).
* Simplifications: `String::from_utf8_lossy` is applied to valid UTF-8 only; sizes and positions of
  flowcharts are natural numbers without 32-bit overflow; case mapping of identifiers is the ASCII
  one; a web page is the list of blocks the scraper returns; a Markdown document is a tree whose
  events pulldown-cmark emits in document order; the archive the validator sees has distinct names;
  a file system is a map from names to bytes with atomic single operations.

## Plan per property

| Id | Model | Proof |
|----|-------|-------|
| C01 | `escape_xml`, fast path and slow path | induction; entity reader as spec |
| C02 | the chained `replace` escapers | `replaceAll` of one character as `flatMap`; fusion |
| C03 | `XmlWriter` calls as output-building functions | independent XML reader parses the output of any tree back (structural induction) |
| C04 | `Package` as association list | induction over histories against a functional map |
| C05 | `open_reader`/`save_writer` over entry lists | for every permutation of the parts |
| C06 | `resolve_rel_target` | against a recursive folder walk |
| C07 | `parse_relationships` scanner and the rels writers | scanner lemmas over concatenated elements |
| C08, C09 | id arithmetic and emitted lists of (id, type, target) | arithmetic over all counts |
| C10 | `Relationships` | invariant over histories |
| C11 | URI table and substring classification | decision over the finite type; counterexample |
| C12, C13 | `TableMergeMap` | invariant over histories; counting argument |
| C14 | `SectionManager` with stable sort | invariant over histories |
| C15 | `CommentAuthorList` | invariant over histories |
| C16, C17 | `PresentationEditor` slide parts as numbered store | refinement to list operations |
| C18, C19 | editor's relationship updates | counterexample plus partial theorem |
| C20 | `base64_encode`, `base64_decode` | induction on 3-byte groups |
| C21, C22 | hex colours with byte-accurate slicing | arithmetic; panic as error value, counterexample |
| C23, C24 | `minimize_xml` state machine | simulation invariants; counterexample |
| C25, C26 | `remove_unused_media`, `analyze_pptx` | list lemmas; counterexample |
| C27 | `MediaRegistry` | invariant over histories |
| C28-C34 | builder: part lists, relationship lists, ids | arithmetic and list induction; counterexamples for byte-less images and unusual extensions |
| C35 | two-column split | list lemmas |
| C36-C38 | repair driver, ampersand repair, id scan | induction; counterexamples |
| C39, C40 | validator report and relationship rule | list lemmas |
| C41-C43 | JSON and Markdown escaping, GFM tables | independent readers; counterexample |
| C44-C46 | HTML importer event machine, entity decoder | invariants; counterexample for void tags |
| C47-C49 | web2ppt grouping, limits, truncation | induction |
| C50 | layout helpers | arithmetic |
| C51 | event-stack tree builder | structural induction |
| C52 | reader's slide ordering | stable sort by numeric id |
| C53, C54 | timestamps, core/app properties | arithmetic; counterexamples |
| C55, C56 | temp-file and save protocols as step systems | all schedules / crash points |
| C57, C58 | table helpers, image type detection | error value for panics |
| C59 | Markdown event machine | counterexample and partial |
| C60 | `PresentationPart` | invariant, counterexample after loading |
| C61, C90 | flowchart source reader, element generation, placing | for every node order and every chart; counterexamples for subgraphs and for wide charts |
| C62 | section list written to presentation.xml | invariant of C14 carried through the writer |
| C63 | hyperlinks of shapes | builder relationships; counterexamples |
| C64, C91 | the whole package validator over the texts the builder writes; its XML check | text search lemmas (`noStart`), C28-C33 for the references; counterexamples for each condition |
| C65-C68, C85 | slide XML: bullets, texts, tables, alignment, formats | the XML text is read back by the reader of `Spec/XmlQuery` |
| C69-C71 | the editor's effect on content types, links, numbering | text-level model of the edits; counterexamples |
| C72 | compression options | package maps; counterexamples |
| C73-C76 | repair tool: validation and line-based relationship repair | line lemmas; counterexamples |
| C77, C78 | YAML front matter, Markdown and HTML export | independent readers; counterexamples |
| C79, C84 | web2ppt texts, HTML articles | block lists; state machine invariants |
| C80, C81, C82 | layouts asked for, header and footer, notes text | XML text read back |
| C83 | chart parts of all types | XML text read back; counterexamples |
| C86-C88 | readers of slides, document properties, relationship and presentation parts | write, then read |
| C89, C59 | Markdown import | event traversal of a document tree |
| C92-C97 | drawings: shapes, pictures, connectors, code blocks, charts; schema order of whole slides | XML text read back; content models as data; counterexamples |
| C98, C99, C101-C104 | slide show and print settings, theme, embedded fonts, ink, signature | XML text read back with the schema's defaults; counterexamples |
| C100 | presentation, properties, layouts, masters, theme, notes | content models as data (`Spec/Settings`); whole parts |
| C105 | the parts and relationships of `buildPackage` | induction along relationships (`Spec/Reachable`) |
| C106-C108 | export to PDF | a reader of content streams (`Spec/Pdf`); induction over bullets, lines and pages |
| C109, C110 | temporary files of exports, import of PDF pages | a machine of interleaved calls with failing steps; sorting by page number |
| C111-C113 | loading presentations, commands and tools, JSON report | the readers of C86; the file system as a parameter; a JSON reader (`Spec/Json`) |
| C114-C118 | Mermaid diagrams other than flowcharts | diagrams as lists of statements with their own meaning; positions of figures compared by their edges |
| C119-C120 | HTML export and its navigation | a tokenizer for web pages after the HTML standard, written as a state machine; pages as trees; sequences of events |
| C121 | templates | the slides of each template against an outline, by the reader of slide documents |
| C122 | table parts | the table read back, cell by cell, against the fields of the table |
| C123 | content types part | lookup of part names in the document after any sequence of calls |
| C124 | other parts | fields read back from the documents; colours of a theme as a fold over the calls |
| C125 | kinds, paths and targets | targets walked from the folder of the source, formats by cases |
| C126 | emphasis in text | parser simulated sign by sign by induction on the number of signs; nested text translated to signs |
| C127 | gradient fills | read back from the tree; stable sorting; presets by evaluation |
| C128 | video and audio | read back from the tree; extensions by cases |
| C129 | text frames | read back from the tree, order of the schema; induction over calls |
| C130 | image builder | induction over calls; read back from the tree |
| C131-C132 | lengths and colours | binary floating point numbers as rationals with rounding to nearest even (`Model/Float`), error bounds for every operation |
| C133 | size and colour of text in shapes | the same, by induction over the lines |
| C134 | the quick functions | case analysis of the functions; induction over the calls |
| C135 | second writer of slides | slide as a list of blocks, read back from the tree |
| C136 | titles and text areas | read back from the tree of the slide |
| C137 | comments and their authors | read back from both parts, by induction over the sequence of comments |
| C138 | section lists | read back; the hash is shown to lose nothing |
| C139 | slide and chart parts over time | induction over the sequence of contents |
| C140 | document properties over time | induction over the sequence of changes, then C87 |
| C141 | chains of calls | two general rules (last setting, appended lists) by induction over the chain, one case per method |
| C142 | styles of web pages | the styled import refines the plain one (erasure); induction over declarations and over the page, then C85 |
| C143 | reading web pages | mutual induction over the tree of the page; words of a text by induction over the text |
| C144 | from input to the opened file | composition of C05, C31, C111, C89, C142, C143, C79 over one archive |
| C145 | editing sessions on a written file | invariant of files (slides, list, document properties) kept by every session, any order of parts; composition of C05, C16, C31, C52, C86 |
| C146 | loading of drawings | element trees of the written nodes, shape by shape; the lists of nodes by induction; stability of what is kept |
| C147 | compressing a file | the minifier and the XML reader run in step (simulation over all characters), so the minified text reads as the squeezed tree; places of quotes through all templates; then C72 and C144 |
| C148 | repairing a generated file | the checks of the repair one by one on the parts of C31: relationship lines (C74), slide list, content types; then C36 and C145 |
| C149 | pictures of slides | the drawing program as a parameter; file names with numbers are read back by the search for the slide's picture, sorting by number gives the order |
| C150 | report of a compression | the float model: ratio and percentage within `1/2^40`; division by powers of two is exact, so sizes are rounded once; chains of settings as in C141 |
| C151 | sequences of commands on files | refinement of the files by a store of presentations: `HoldAll` is kept by every step (C144 for saving, C145 for sessions, C72 for compression, C112 for merging), then induction over the run |
| C152 | edited files need no repair | invariant `InOrder` of packages (slides, their relationships, lists, names and texts of all parts), kept by every call of the editor, by saving, compressing and repairing, and enough for `validate` to find nothing; induction over the steps |
| C153 | repairing compressed files | relationships on one line (`flatText`), what minifying makes of `renderRels`, invariant of the repair over its list of issues; reading the doubled list |
| C154 | templates | the archive split before and after the parts of the template; the last entry of a name wins; names apart from the parts of a template as without one |
| C155 | shared variables | an invariant over all interleavings: values are the initial ones, a thread that computes is at the item that needs it; a measure that every step lowers by one |
| C156 | slide sources | the archive of a source is the archive of the list with empty slides at its gaps, filtered by part name |
| C157 | information about a file | the printed JSON is read back by an independent reader, by induction on the value |
| C158 | every part is well-formed | each text is followed by the XML reader, piece by piece; the parts are enumerated by the shape of the package |
| C159 | the validator accepts every file | what the validator cuts out of each text is computed piece by piece; escaped text has no quotes and no tags |
| C160 | files that lost a required part | each check of the validator is compared between the written, the damaged and the repaired package, which agree on all parts but one |
| C161 | saved files are exported as the presentation | the opened slides are the written ones; the exporters are functions of what the reader restores |
| C162 | exported Markdown is imported | the exported lines are read one by one into blocks, and the importer runs over the blocks of one slide after the other |
| C163 | placeholders of slides, layouts and the master | the parts are read by the XML reader, and placeholders are collected from the trees |
| C164 | the validation command | the output, the error output and the exit code are functions of the report; the text is read line by line |
| C165 | an HTML page exported and imported again | the text of the page, with the real script, is given to the model of the importer |
| C166 | files named by imported documents | two runs on two disks compared step by step; an invariant of the images on slides; the disk is a parameter |
| C167 | diagrams of every kind placed on the slide | bounds of the bounding box; the largest index of every generator, by linear arithmetic |
| C168 | PDF by way of Markdown | engine as a parameter; C78 for its input; independence of what is switched off |
| C169 | measures of generated files | sums by induction over the slides, checked additions |
| C170 | how charts are built | folds over sequences of calls, deep search in the chart part |
| C171 | named colours and palettes | lists of names compared by evaluation in the kernel |
| C172 | runs of the converting commands | the file system with its failures is a parameter; case analysis of every step |
| C173 | options of the web converter | two lists of slides that differ in the bullets of the first stay so through the loops; induction over pages |
| C174 | arguments of the command line tool | the argument parser as a state machine; induction over pieces of command lines, invariant for all lines |
| C175 | sessions of command lines | frame and outcome of every command, induction over sequences of runs, composition with C172 and C174 |
| C176 | methods of settings, ink, fonts, signatures, media and links | one lemma about folds over calls, used for each field |
| C177 | methods of presentations and their settings | induction over calls, generalised over the presentation before them |
| C178 | methods of cells, tables and themes | one lemma on folds of setters, applied to each field |
| C179 | methods of runs, paragraphs and text frames | the lemma on folds of setters; induction over calls that may panic |
| C180 | checks of values and required parts | case analysis; numbers in messages are read back |
| C181 | last slides of sections and messages on overlaps | linear arithmetic; from the lookup theorem of C14 |

## Findings

Where the code does not have a property. Every entry below is a theorem: either about one input, or
about every input of the kind it names.

**C05, Saving and reopening a package loses nothing**

* `C05_roundtrip_violated`: A part whose path ends in a slash is written but skipped as a directory when the archive is opened.

**C06, Relationship targets resolve as a folder walk**

* `C06_resolve_violated`: For targets that start with a slash: their `..` segments are kept, so the "resolved" path names a place above the package root.

**C08, Presentation relationship ids are unique and resolve**

* `C08_font_ids_violated`: An id chosen by the caller for a font is not checked against the others.

**C11, Relationship type survives a URI round trip**

* `C11_roundtrip_violated`: Extended properties come back as the office document, and a custom type can come back as a standard one.

**C18, Adding a slide keeps presentation relationship ids unique**

* `C18_added_id_violated`: Adding a slide to any deck as generated, with any number of slides, with or without notes and handouts, leaves two relationships with the same id.

**C19, Structural edits keep the notes and handout masters reachable**

* `C19_masters_after_edit_violated`: With any other number of slides the masters cannot be reached.

**C22, Colour parsing never crashes**

* `C22_crash_violated`: Every text of six bytes whose first character takes three or more bytes crashes both parsers, for example the text of two euro signs.
* `C22_html_violated`: A colour written with eight bytes after `#` that cannot be cut after six stops the import.

**C24, XML minification keeps slide text**

* `C24_inner_spaces_violated`: Runs of spaces in a text are shortened.
* `C24_quote_in_text_violated`: A single quotation mark in a text makes the scanner take markup for quoted text and the other way round; attribute values are then changed.
* `C24_trailing_space_violated`: The text `t` and the same text with a space at its end become the same document, for every `t` without markup that does not itself end with a space. The space is lost, so words of adjacent text runs are joined.

**C25, Removing unused media keeps used media**

* `C25_not_on_slide_violated`: Pictures of layouts, masters, notes and charts are always dropped unless a slide mentions their name, however they are related.
* `C25_used_picture_violated`: A picture that a slide shows is dropped whenever the slide's own XML does not happen to contain the name of the media file. The slide refers to its picture by relationship id only, the file name stands in the relationship part, which is not searched.

**C28, Slide relationship ids are unique and referenced ids exist**

* `C28_images_violated`: An image without data takes a relationship id in the slide part but not in its relationship part, so the chart reference does not resolve.
* `C28_link_ids_violated`: An id chosen by the caller is not checked.

**C29, Generated packages have no dangling relationship**

* `C29_links_violated`: Links such as "first slide" are written as internal relationships to a part that does not exist, and so are links to slides beyond the end.

**C30, Every generated part has a content type**

* `C30_images_violated`: Images with extension `jpeg`, `bmp`, `svg` and so on have no content type.
* `C30_template_violated`: Only layouts 1 to 7 are listed, whatever the template has, and a listed layout need not be there.

**C31, Generated packages have no duplicate part name**

* `C31_fonts_violated`: Two fonts whose names differ by a space only are written to the same part.
* `C31_template_violated`: A template's table styles are written next to the generated ones.

**C33, Shape ids on a slide are unique**

* `C33_user_ids_violated`: With ids chosen by the caller there can be collisions.

**C34, Streaming generation equals in-memory generation**

* `C34_content_types_violated`: A lazily written deck with a signature, embedded fonts or ink lacks their content types.
* `C34_content_violated`: With an image whose data cannot be read, the two writers number the chart of the slide differently.

**C37, XML repair leaves no bare ampersand and keeps valid text**

* `C37_bad_number_violated`: An entity that XML does not define is escaped, but its semicolon is lost; a numeric reference that is not a number is kept; and a numeric reference with leading zeros is escaped.

**C38, Repair assigns fresh relationship and slide ids**

* `C38_slide_id_legal_violated`: In a presentation without slides, such as the one that the repair itself creates, the new slide gets the id 1, although slide ids below 256 are not allowed.

**C43, Exported Markdown tables keep their shape**

* `C43_newline_violated`: A line break in a cell breaks the row.
* `C43_pipes_violated`: `|` is not escaped, so a cell that contains it becomes two cells.

**C44, HTML import ignores skipped elements only**

* `C44_lost_violated`: After a hidden element that contains an element without closing tag (an image in a navigation bar, say) the rest of the page is lost.
* `C44_page_violated`: A hidden element with an element without closing tag in it hides everything that follows.
* `C44_script_violated`: A comparison in a script is read as a tag that swallows the end of the script; the rest of the page is lost.

**C45, HTML import respects its limits**

* `C45_headings_violated`: Sub-headings are bullets whatever the limit is: `n` of them give `n` bullets.
* `C45_zero_violated`: A paragraph before any heading is a bullet even if no bullets are asked for.

**C47, Web page grouping loses no block after the first heading**

* `C47_order_violated`: Order: whenever something stands before the first heading, it is put behind it.

**C48, Web conversion respects slide and bullet limits**

* `C48_zero_violated`: For the limit zero, in both modes: slides with one bullet are made.

**C50, Grid and stack layouts do not overlap and stay on the slide**

* `C50_empty_violated`: An empty stack crashes; an empty grid and an empty distribution do not.
* `C50_too_large_violated`: Shapes that do not fit crash the helpers instead of being placed.

**C51, XML tree building follows the event stream**

* `C51_blank_text_violated`: For white space: the text of an element that has only white space is lost.
* `C51_mixed_text_violated`: For mixed content: text after a child element is read before the text of the child.

**C52, Reading a deck returns slides in presentation order**

* `C52_new_editor_violated`: Without relationships (as for slides added to a new editor) the slides are read in the order of their names: the tenth slide is the second.

**C53, Document timestamps are valid dates**

* `C53_date_violated`: For every clock value from the end of 1976 on: the timestamp is not a date of the calendar, or denotes another instant.
* `C53_month_violated`: There is a thirteenth month.

**C54, Document properties are well-formed for every title**

* `C54_core_violated`: For every title with an ampersand: either the part cannot be read, or the title read from it is another one. (Titles with `<` are not covered by this theorem.)
* `C54_markup_violated`: A title with an element is read as another document.
* `C54_unreadable_violated`: A title with an ampersand makes the part unreadable.

**C55, Concurrent in-memory compressions do not interfere**

* `C55_leak_violated`: A call that fails leaves its input behind.
* `C55_mixed_up_violated`: For any two inputs there is a schedule of two calls in which the first call returns the compression of the second call's input.
* `C55_spurious_error_violated`: For any two inputs there is a schedule in which the first call reports an error although both inputs are packages.

**C56, A crash while saving does not destroy the previous file**

* `C56_empty_file_violated`: Whatever is saved over whatever deck, there is a moment at which the file is empty, both when a presentation is saved and when a package is saved.

**C57, Table helpers accept every size**

* `C57_data_empty_violated`: The test for empty data in `table_from_data` leads straight to the division by zero.
* `C57_data_first_violated`: A first row without cells is a division by zero too.
* `C57_data_ragged_violated`: Rows are written as they are given: a row of another length than the first does not match the columns.
* `C57_header_violated`: A table with a header and no header cells stops with a division by zero.
* `C57_quick_violated`: A quick table without columns stops with a division by zero.
* `C57_simple_violated`: A table of no columns is a division by zero.
* `C57_string_rows_violated`: Rows that are all empty are a division by zero.
* `C57_wide_violated`: The number of columns is cut to 32 bits before the division: a table of 4294967296 columns stops with a division by zero.

**C58, Image type detection never crashes**

* `C58_bitmap_violated`: A bitmap whose lines are stored from top to bottom has a negative height (32-bit two's complement) and crashes the program.
* `C58_extended_violated`: Images of the other sequential kinds (marker C1, for example), which are legal as well, are not recognised.
* `C58_short_violated`: Every file of four or five bytes that is neither PNG nor JPEG crashes the detection, and no other file does.

**C59, Markdown list import keeps every item**

* `C59_earlier_items_violated`: So are the items before it.
* `C59_nested_violated`: Whatever the list, an item with a list inside it is lost.
* `C59_paragraphs_violated`: The paragraphs of an item are written without anything between them.
* `C59_quoted_violated`: A list inside a quote becomes notes.
* `C59_tasks_violated`: Whether a task is done is lost.

**C60, Slide ids in the low-level presentation part are unique**

* `C60_generated_violated`: A generated presentation that is loaded into the low-level part does not keep distinct relationship ids: the theme gets the id of the first slide.
* `C60_loaded_violated`: On a loaded part whose ids are not `257, 258, …` the next id may be taken, and without explicit ids the master's relationship id may collide with a slide's.

**C61, Flowchart import gives every node one shape and every edge two anchored ends**

* `C61_chain_violated`: The second and later arrows of a chain are lost, together with their nodes.
* `C61_slide_numbers_violated`: Every flowchart with subgraphs gives the slide two shapes numbered 10: the background of the first subgraph has no number of its own and is given that of its place on the slide, which the title of the subgraph already has.
* `C61_two_diagrams_violated`: Two diagrams on one slide use the same numbers.
* `C61_two_subgraphs_violated`: A node mentioned in two subgraphs gets two shapes.

**C63, Every hyperlink put on a shape is written**

* `C63_jump_violated`: A jump to the first slide is written as an internal relationship to a part that does not exist.
* `C63_link_without_id_violated`: A hyperlink without an id is dropped: the slide neither refers to it nor has a relationship for it.

**C64, The package validator accepts what the generator writes**

* `C64_extensions_violated`: A picture of type `jpeg` or `bmp` gets no content type, which the validator reports.
* `C64_fonts_violated`: A font whose name has an ampersand: the part is there, but the validator compares its name with the escaped target.
* `C64_links_violated`: A jump to the first slide, or to a slide that is not there, is a relationship to a missing part.
* `C64_missing_bytes_violated`: A picture without bytes: the slide refers to a relationship that is not there.
* `C64_notes_links_violated`: A web address that looks like the name of a notes part is taken for one.

**C65, Every bullet added to a slide is written exactly once**

* `C65_bullets_hidden_by_table_violated`: A table hides the bullets.
* `C65_bullets_lost_violated`: In the other layouts the bullets are lost.

**C66, Slides are well-formed XML and their text reads back**

* `C66_color_violated`: A colour is written without escaping.
* `C66_custom_bullet_violated`: Without the condition a slide can be unreadable: the character of a custom bullet is written without escaping.
* `C66_font_violated`: A font name is written without escaping.

**C67, Table cells read back row by row**

* `C67_table_lost_violated`: In the other layouts the table is lost.

**C68, Cell alignment is honoured**

* `C68_center_violated`: A centred cell, which is the default, is read as left-aligned, and a cell in the middle, which is the default, as a cell at the top.

**C69, Content types after editing**

* `C69_types_after_edit_violated`: After any structural edit, no part whose extension is not `xml` or `rels`, such as an image, a chart's workbook or a font, has a content type, and the notes slides, the charts and all slide layouts but the first have only the type `application/xml`.

**C70, Links between slides after editing**

* `C70_links_follow_violated`: A slide whose only link leads to a slide that moves no longer links to that slide, in every presentation and for every accepted call.

**C72, Compression leaves a consistent package**

* `C72_comments_kept_violated`: The option to remove comments has no effect at all.
* `C72_dangling_notes_violated`: Removing the notes leaves the relationships of the slides to their notes in place.
* `C72_dangling_properties_violated`: Removing the document properties leaves the relationships of the package to them in place. Every package whose root relationships name `docProps/core.xml` is left with a dangling relationship.

**C73, Repair removes exactly the broken relationships**

* `C73_single_line_violated`: Of a relationship part on a single line nothing at all is left.

**C74, Repair validation finds exactly the broken relationships**

* `C74_found_violated`: A broken target with `..` is not reported, of several relationships on one line only the first is looked at, and a link that is no part of the package, here an e-mail address, is reported although it is not broken.

**C75, Repair validation reports malformed XML**

* `C75_malformed_violated`: Unclosed and wrongly nested elements, bare ampersands and text that is not XML at all pass validation.

**C76, A fully repaired package is valid**

* `C76_fully_repaired_violated`: For the empty package the four required parts are created and counted as repaired, nothing is left unrepaired, yet the result is not valid, since the created relationship parts refer to parts that do not exist.

**C77, The title in the Markdown front matter reads back**

* `C77_special_violated`: For every title with a quote, a backslash or a line break: the literal block marker is put inside the quotes, so the scalar begins with `|` and does not end on its line.

**C78, The Markdown export has one section per slide**

* `C78_code_violated`: By code that contains a fence: the heading of the next slide is read as code.
* `C78_title_violated`: By a deck title with a line break, which is not escaped.

**C79, Web conversion keeps the text of a page**

* `C79_code_violated`: In linear mode for code, tables and images, which are dropped although they are switched on.
* `C79_heading_violated`: Headings: a heading without text below it is dropped, in both modes.
* `C79_list_items_violated`: Without headings (or without grouping): list items that do not fit on a slide are dropped.

**C81, Header and footer text on masters**

* `C81_header_violated`: The text of the header is not in the slide master: two headers give the same part.

**C83, Charts show the data given**

* `C83_axes_violated`: For scatter and bubble charts: both axes have the same identifier.
* `C83_bars_violated`: For all bar charts except horizontal and clustered ones: the bars are written as horizontal and clustered whatever the type.
* `C83_lines_violated`: For all line charts: the grouping is written as `lineMarkers`, which the standard does not know, whatever the type.
* `C83_names_violated`: For the same charts: a reader finds neither names nor categories.
* `C83_values_violated`: For bar, line, area, radar, stock and combination charts: all values of a series have index 0, so that a series with two or more values is not read as these values.

**C85, Bullets look as asked for**

* `C85_level_violated`: A level outside the nine that ECMA-376 knows (0 to 8, 20.1.10.71) is written as it is.

**C86, Written slides read back**

* `C86_all_text_violated`: `all_text` lists the title and the bullets twice.
* `C86_blank_title_violated`: A title of white space is read as the empty title.

**C87, Document properties read back**

* `C87_blank_violated`: A title of white space is lost.
* `C87_date_markup_violated`: A date with markup makes the part unreadable.

**C88, Relationship parts and presentation parts read back**

* `C88_target_violated`: A target with markup (a hyperlink with two parameters, say) makes the part unreadable.

**C89, Markdown documents become the slides they describe**

* `C89_comment_violated`: A comment in a paragraph crashes the import: the text between its first `>` and its first `</` is taken, in that order.
* `C89_first_quote_violated`: A quote before the first slide is lost.
* `C89_quotes_violated`: Of two quotes on a slide the first is lost.
* `C89_style_violated`: Bold text inside bold text ends it, and struck out bold text is only bold.
* `C89_subheading_violated`: A heading of a lower level before the first title is lost.
* `C89_tables_violated`: Of two tables on a slide the first is lost.
* `C89_title_picture_violated`: A picture in a title is lost.

**C90, Flowchart boxes do not overlap and the diagram stands on the slide**

* `C90_tall_violated`: A column of six boxes fits but is not centred.
* `C90_wide_violated`: Every chart from left to right with at least five nodes sticks out of the slide, although five boxes and the gaps between them are narrower than it: the diagram is never moved to the left.

**C91, The well-formedness check tells XML from other text**

* `C91_accepts_violated`: The check of well-formedness accepts every text that is not blank.

**C92, Shapes, pictures, connectors, code blocks and charts read back**

* `C92_angle_overflow_violated`: The angle of a gradient above 71582 degrees overflows.
* `C92_code_block_violated`: Without the optional highlighter the code of a code block is not in a paragraph: a reader that follows the file format finds no text in it.
* `C92_code_text_violated`: A text that looks like code loses its last line feed.
* `C92_color_crash_violated`: A fill colour whose first character is longer than two bytes makes writing a shape with text panic (`is_dark_color` slices the text at bytes 2 and 4).
* `C92_color_violated`: Colours are written without escaping: the slide cannot be read.
* `C92_lines_violated`: Other text is written as a single paragraph, whatever lines it has.
* `C92_rotation_overflow_violated`: A rotation above 35791 degrees overflows.

**C93, Connectors run between the points that were asked for**

* `C93_corners_violated`: The corner and centre sites do not exist.
* `C93_left_right_violated`: The connection sites of rectangles and most other shapes are numbered top, left, bottom, right; the library numbers left and right the other way round.
* `C93_plain_connector_violated`: The other public writer of connectors (`shapes_xml::generate_connector_xml`) writes no flips: its connectors always run from the upper left to the lower right, so one that should run the other way ends in the wrong corners.

**C94, Every kind of shape is written as an existing preset geometry**

* `C94_presets_violated`: Fourteen kinds of shapes are written with geometries that the file format does not have.

**C95, The elements of a slide are in the order of the schema**

* `C95_code_block_violated`: Without the highlighter the text of a code block is written directly into the text body.
* `C95_code_text_violated`: Text that looks like code is written with the font before the fill.
* `C95_effects_violated`: The picture effects are written in the order in which they were added; the schema prescribes one.
* `C95_label_violated`: The label of a connector is written as a text body, which connectors cannot have.
* `C95_reveal_violated`: The transition `reveal` is written as an element that the file format does not have.
* `C95_stops_violated`: A gradient with less than two stops is written as it is; the file format needs two.

**C96, Text in shapes is readable on its fill**

* `C96_code_violated`: Text that looks like code is white, also on a shape without a fill, that is on the white background of the slide.
* `C96_gradient_violated`: On a gradient the text is black, however dark the gradient is: the colour is chosen from the solid fill only, which setting a gradient removes.

**C98, Slide show settings reach the presentation**

* `C98_custom_violated`: **C98 does not hold for custom shows**: for a list of slides, `p:custShow` is written without the required attribute `id` of a custom show of the presentation, and with children that the schema does not allow there. The slides asked for are not found by a reader.
* `C98_narration_violated`: **C98 does not hold for narration**: `showNarration` is written only with the value 0, and it is false when it is not written, so a show is always read as a show without narration, also by default.
* `C98_timings_violated`: **C98 does not hold for timings**: `useTimings` is written only with the value 1, and it is true when it is not written, so a show without timings (`use_timings(false)`) is read as one that uses them.

**C99, Print settings reach the presentation**

* `C99_handouts_violated`: **C99 does not hold for handouts**: `prnWhat="handouts"` is not a value of the schema, which has `handouts1`, `handouts2`, `handouts3`, `handouts4`, `handouts6` and `handouts9`. The number of slides per page is not written.
* `C99_hidden_violated`: **C99 does not hold for hidden slides**: `hiddenSlides` is written only with the value 1 and is true when it is not written, so settings without hidden slides are read as settings with them.
* `C99_ignored_violated`: **C99 does not hold in a presentation**: the parts written for print settings depend only on whether handouts are printed and on the header, footer, date and page number. The colour mode, the number of slides per page, frames, hidden slides, scaling and the orientation have no effect on the presentation.
* `C99_missing_violated`: **C99 does not hold in a presentation**: the presentation properties never have a `p:prnPr` element, whatever the settings.

**C100, The elements of the other parts are in the order of the schema**

* `C100_fonts_violated`: **C100 does not hold with embedded fonts**: the list of fonts is written as the last element of the presentation part, after the default text style and the extensions; the schema has it directly after the size of the notes.

**C101, A theme is read back as it was set**

* `C101_colors_violated`: **C101 does not hold for every theme**: the colours are written without escaping, so a theme with the colour `&` is not well formed.
* `C101_fonts_violated`: **C101 does not hold for every theme**: a theme with the name `Office Theme` and the colours of the Office theme is replaced by the built-in text, so the fonts set with `with_fonts` are lost and both fonts are read as Calibri.

**C102, Embedded fonts are read back**

* `C102_charset_violated`: **C102 does not hold for most character sets**: `charset` has the type `xsd:byte`, from −128 to 127, but it is written as the unsigned code, so 12 of the 14 character sets (all but ANSI and symbol) are written with a number that is not a value of the schema.
* `C102_order_violated`: **C102 does not hold for the order of styles**: the styles of a typeface are written in the order in which they were added and as often as they were added. The schema has them once and in the order regular, bold, italic, bold italic, so adding the bold font before the regular one, or a style twice, gives a presentation that does not follow the schema.
* `C102_panose_violated`: **C102 does not hold for every Panose number**: it is written without escaping, so one with an ampersand makes the presentation part unreadable.

**C103, Ink strokes are read back**

* `C103_empty_violated`: **C103 does not hold for a slide with ink annotations but no strokes**: the ink part is then written as an empty file, which is not an XML document, and still referred to.
* `C103_points_violated`: **C103 does not hold for strokes with more than one point**: InkML separates points by commas, but all numbers are written with blanks, so a stroke is read as a single point with twice as many values as it has points.
* `C103_references_violated`: **C103 does not hold by the rules of InkML**: a reference is to an `xml:id`, but brushes are written with `id`, so no brush has the name that strokes refer to. Every stroke also refers to a context, and there is none.
* `C103_requires_violated`: **C103 does not hold for the slide**: the reference to the ink is a choice that requires the namespace `p14`, which the slide does not declare, and it has no fallback. A reader that follows the rules of markup compatibility has to reject the slide.

**C104, Digital signatures say who signed what**

* `C104_date_violated`: **C104 does not hold for every date**: it is written without escaping, so a date with an ampersand makes the part unreadable.
* `C104_method_violated`: **C104 does not hold for the signature method**: the method is given as the address of a hash function, which is not a signature method.
* `C104_provider_violated`: **C104 does not hold for the provider**: the id of the signature provider is written with two braces on each side, because the braces are doubled twice in the format string; it is not a GUID.
* `C104_signer_violated`: **C104 does not hold for the details of the signer**: the e-mail address, the organization and the title of the signer have no effect on the signature part.
* `C104_unsigned_violated`: **C104 does not hold for the signature itself**: `SignatureValue` is empty and nothing is referred to, so no part of the presentation is signed.

**C105, Every part of a generated deck is reachable**

* `C105_signature_violated`: **C105 does not hold for signatures**: a signed deck has the part `_xmlsignatures/sig1.xml`, but nothing leads to it: the origin of the signatures has no relationships. A reader finds no signature.

**C111, A loaded presentation is the one that was saved**

* `C111_format_violated`: Levels, numbering and formats of bullets are lost: all loaded bullets are plain bullets of the first level, and all slides have the layout with title and content.
* `C111_kinds_violated`: No other geometry the library can write is loaded as what it is: arrows, stars, callouts and flow chart symbols become rectangles.
* `C111_other_content_violated`: Pictures, connectors, groups of shapes with all their texts and everything else that is not directly a shape or a table is left out of the loaded slide.
* `C111_position_violated`: A shape that begins above or left of the slide is moved to its edge, and one whose position is 4294967296 is moved to 0.
* `C111_subtitle_violated`: On a title slide as PowerPoint writes it, the subtitle is taken for the title, because its name contains the word, and the title itself is lost.
* `C111_table_place_violated`: A loaded table is always in the upper left corner of the slide, over the title, and all its columns have the same width, wherever it was and whatever its widths were.
* `C111_tables_violated`: Of several tables on a slide only the first one is kept.

**C112, Commands and tools do what they are asked for**

* `C112_chart_type_violated`: Every other type of chart asked for, for example a scatter or doughnut chart, becomes a bar chart without an error.
* `C112_export_violated`: With any other extension the `export` command writes a PDF file without an error, although the file is called, for example, `deck.md` or `deck.htm`.
* `C112_layout_violated`: The layout asked for a slide is ignored: whatever layouts are asked for, the same presentation is written.
* `C112_table_count_violated`: Tables without rows or columns are left out without a word, but counted in the answer: with one empty table among two the answer speaks of two slides where one was written.
* `C112_validate_violated`: A file with errors is not answered with an error by the validation tool, and a file for which there are warnings only is said to have no issues.

**C114, The kind of a Mermaid diagram is recognised**

* `C114_comment_violated`: A text that begins with a comment, as `%% overview`, or with settings, as `%%{init: ...}%%` or `---`, is of unknown kind, whatever diagram follows.

**C115, Sequence diagrams show every participant and message**

* `C115_activation_violated`: In a sequence diagram, the marks `+` and `-` of activations become part of the names: after `A->>+B: x` and `B-->>-A: y` there are four participants, `A`, `+B`, `B` and `-A`.
* `C115_arrows_violated`: Of the arrows of sequence diagrams only `->>` and `-->>` are understood, and they look the same; messages written with `->`, `-->`, `-x` or `-)` are lost.
* `C115_comment_violated`: Messages in comments of sequence diagrams are drawn, with a participant that is called `%% A`, and a message whose text contains `-->>` is lost.
* `C115_long_violated`: The lifelines of a sequence diagram have room for six messages. From the seventh message on arrows are drawn across the boxes at the bottom, from the ninth on below everything else.
* `C115_self_violated`: In a sequence diagram, the arrow of a message from a participant to themself, and the box of its text, have no width.

**C116, State, class and entity relationship diagrams show every node and connection**

* `C116_back_violated`: In a state diagram, the connector of a transition back to the left begins at the right side of the first state and ends at the left side of the second one, although it is attached to the left side and the right side. In `A --> B` and `B --> A` both states are crossed by the second connector.
* `C116_class_violated`: In a class diagram, classes without a body are not drawn, neither are members given as `A : +int x`; relations with a label, and compositions, aggregations and dependencies, are lost.
* `C116_er_cardinality_violated`: Cardinalities of ER diagrams are not shown, every relationship looks the same.
* `C116_er_names_violated`: In the relationships of an ER diagram, names are cut at `o` and `-`: `Book` becomes `k`, `LINE-ITEM` on the right becomes `ITEM` and on the left `LINE`. Relationships between `zero or one` and `zero or one` or `zero or many` are lost.
* `C116_er_order_violated`: Where the entities of an ER diagram are drawn depends on the order in which a hash map lists them. The order differs from run to run, and so does the drawing.
* `C116_inherit_violated`: In a class diagram, the arrow of `Animal <|-- Dog` (a dog is an animal) points to `Dog`, as that of `Animal --|> Dog`.
* `C116_oneline_violated`: In a class diagram, a class that is written on one line, as `class A {}`, is not finished: all lines up to the next `}` become its members or are lost.
* `C116_self_violated`: A transition of a state diagram from a state to itself is drawn as a line from its right side to its left side, across the state.
* `C116_start_violated`: In a state diagram, a state that is called `Start` is the same as the beginning `[*]`, and one that is called `End` the same as the end.
* `C116_states_violated`: Of a state diagram only transitions are drawn. States without transitions, and the descriptions of states, are lost, and what is within a composite state appears beside it.

**C117, Gantt charts, journeys and timelines show every section and entry**

* `C117_gantt_dates_violated`: In a Gantt chart, dates and durations do not matter. Charts with the same names are drawn in the same way, every bar is as long as the others and begins a little after the one above.
* `C117_gantt_section_violated`: The tasks of a Gantt chart without sections are not drawn, and tasks before the first section are drawn in that section.
* `C117_journey_violated`: The title of a journey and the people of its tasks are not shown, and a journey without sections shows none of its tasks.
* `C117_timeline_violated`: In a timeline, a further text for a date, written on a line of its own as `: Google`, is shown at the next date, and is lost at the end. The names of sections are shown as texts of the date before, and several texts on one line, as `Facebook : Google`, are one text.

**C118, Pie charts, git graphs, quadrant charts and mind maps show what is written**

* `C118_git_branch_violated`: For new branches: in Mermaid a new branch is the current one, but here its commits are drawn on the branch before.
* `C118_git_merge_violated`: For merges: nothing in the drawing shows that branches come together. It is the drawing of a commit with a certain name.
* `C118_git_switch_violated`: For `switch`, which is another word for `checkout`: the line is left out, and the commits after it are drawn on the branch before.
* `C118_git_tag_violated`: For commits with a tag or a kind: they are part of the name.
* `C118_mind_depth_violated`: For the depth of nodes of mind maps that are indented by two blanks for each level: nodes below a branch become branches of the root.
* `C118_mind_first_violated`: For where the branches of a mind map are: the first branch covers the root. `proj r i n` are the distances to the right and downwards for the angle `2πi/n - π/2`, a negative distance being taken for 0; for the first branch, which should be above the root, both are 0.
* `C118_mind_leaves_violated`: For several nodes below one branch of a mind map: they are drawn on top of each other.
* `C118_mind_shape_violated`: For nodes of mind maps with a shape: the name of the node and the opening brackets are part of the text.
* `C118_mind_side_violated`: For where the nodes of a mind map are: none of them is further left or higher than the first one, because negative distances are taken for 0.
* `C118_pie_colon_violated`: For pie charts whose slices have names with a colon: the value is looked for after the first colon of the line, and the slice is left out. Here `value` is any function that reads a number only from a text without quotation marks.
* `C118_pie_title_violated`: For titles of pie charts: the drawing is the same without the title.
* `C118_pie_violated`: For pie charts: the circle is not divided. Whatever the values are, the only round figure of the drawing is one circle in the colour of the first slice.
* `C118_quadrant_edge_violated`: For points near the left or the upper edge of a quadrant chart: all points that are nearer than half the size of a dot are drawn at the same distance, which is half the size of a dot.
* `C118_quadrant_label_violated`: For points written in the usual way, with a blank between the colon and the coordinates: the colon stays part of the label.
* `C118_quadrant_names_violated`: For titles, axes and quadrants of quadrant charts: their names are not drawn. The drawing is the same without these lines.

**C119, The exported page shows the slides and nothing else**

* `C119_attribute_violated`: Names of images (and languages of code) are put into attributes of the exported page as they are: a quotation mark ends the attribute, and what follows can be an event handler.
* `C119_files_violated`: With images as files, the exported page names a file with two endings, `slide_img_photo.png.png` for `photo.png`; the export writes no file, and `image_output_dir` is only put in front of the name.
* `C119_markup_violated`: Titles and bullets of slides, and the title of the presentation, are put into the page as they are. A bullet that contains a `script` element becomes a script that is run by whoever opens the page.
* `C119_table_violated`: Of a table only the words "Table content" are exported to HTML, whatever stands in its cells.
* `C119_text_violated`: Since bullets are not escaped in the exported page, a bullet that explains how to write `&lt;` is shown as `<`, and what stands between `<` and `>`, like the type in `Vec<u8>`, is not shown at all.

**C120, Navigation in the exported page always shows one slide**

* `C120_focused_button_violated`: In the exported page, the key that presses the button which has the focus goes forward, also on "Previous": the handler takes Enter and the space bar for "next slide" and keeps them from the button.
* `C120_slide_elements_violated`: A block of code whose language has the word `slide` in it is taken for one more slide by the script of the exported page: the counter is wrong, and the block is hidden until its turn comes.

**C121, The templates show what they are given**

* `C121_second_line_violated`: The author of a proposal or of training material, the date of a status report and the version of a technical documentation are not shown on any slide: they are bullets of a slide with a centred title, and that layout writes no bullets. The same holds for the line "Discussion and Q&A" at the end of a proposal.

**C122, A table part shows the table it was given**

* `C122_center_violated`: A centred cell of a table part is shown with its text on the left: for the alignment `Center` no paragraph properties are written, but the default of the format is left.
* `C122_double_border_violated`: A double border is written as a dash with the name `dbl`, which does not exist, and as a single line; Office reports such a file as damaged.
* `C122_font_violated`: Fonts and colours are not escaped: a font with an ampersand in its name gives a part that is not XML.
* `C122_from_xml_violated`: A table part that is read from XML is always empty.
* `C122_no_border_violated`: Borders that were switched off are written as lines without any properties: no element says that there is no line, so that the lines of the style of the table stay.
* `C122_row_height_violated`: A row whose height was not set is written without a height, which is a required attribute.
* `C122_row_span_violated`: A cell that is covered by the cell above it is written as covered by the one to its left, since there is only one kind of covered cell.
* `C122_size_violated`: Setting the size of a table after its rows changes the frame but not the columns.

**C123, The content types part names the type of every part**

* `C123_duplicate_violated`: Adding a default for an extension that already has one gives two entries for it, which the packaging standard forbids; no package with such a part can be opened.
* `C123_escape_violated`: Names and types are not escaped: the name of a part with an ampersand, which part names may contain, gives a part that is not XML.
* `C123_from_xml_violated`: Content types that are read from XML are always the standard defaults, without overrides.

**C124, Parts are documents with what was set**

* `C124_app_reread_violated`: Properties that are set after the part was read from XML are not written: the text that was read is written again. None of the fields holds what was read.
* `C124_company_violated`: The texts of the application properties are not escaped: a company with an ampersand in its name gives a part that is not XML.
* `C124_layout_name_violated`: The name of a layout is not escaped: a name with an ampersand gives a part that is not XML.
* `C124_layout_placeholders_violated`: A layout part has no placeholders, whatever its type: a layout for a title and contents has nowhere to put either.
* `C124_master_numbers_violated`: A layout that is added twice to a master is listed twice under the same number.
* `C124_theme_color_violated`: Setting a colour under another name adds an element to the scheme that the schema does not allow.
* `C124_theme_name_violated`: The name and the fonts of a theme are not escaped: a name with an ampersand gives a part that is not XML.
* `C124_theme_val_violated`: Every colour of a theme part is written with a `val` attribute with its own name. The colours of a scheme have no attributes in the schema (ECMA-376 20.1.4.1).

**C125, Parts know their kind, path and relationship target**

* `C125_image_type_violated`: A TIFF image with the extension `tif` has the MIME type of TIFF and the content type of unknown bytes; an SVG image has the MIME type of unknown bytes and the content type of SVG.
* `C125_layout_target_violated`: The relationship target of a layout names the layout only from the folder of the presentation. The parts that refer to layouts are slides and masters; from their folders it names a part that does not exist.
* `C125_media_kind_violated`: Audio and video parts say that they are images, and their content type is the one of an image of an unknown format.
* `C125_notes_kind_violated`: A notes part says that it is a slide with the content type of any XML.
* `C125_number_violated`: A part that is read from XML has the number 1, so its path is the one of the first part of its kind.

**C126, Emphasis in text is shown as it is meant**

* `C126_inline_violated`: Inline formatting (`parse_inline_formatting`): an underscore inside a word is taken for a marker, so `snake_case` loses it and the rest is italic; so is a single star between spaces, as in `2 * 3`; bold text inside bold text is not bold; two italic texts side by side (`*a**b*`) make the second one bold as well; and a text of markers only is shown with the markers.
* `C126_order_violated`: The run written for a code span by `generate_rich_text_runs` has `a:latin` before `a:solidFill`, which is not the order of the schema (`CT_TextCharacterProperties`), for every code span.

**C127, A gradient fill is written as it was described**

* `C127_gradient_violated`: Gradient fills (`generate_gradient_fill_xml`): the type `Path` is written as `path="path"`, which is not a value of ST_PathShadeType; an angle of 360 degrees or more is written as it is although the largest one is below 21600000, and from 71583 degrees on the product overflows `u32` (a panic, or a wrapped angle in release builds); a transparency above 100000 in the public field underflows; a gradient with fewer than two stops is written and does not follow the schema; and a colour is not escaped.

**C128, Video and audio are written as pictures that play**

* `C128_file_violated`: A path without a full stop is taken as its own extension (`from_file`), so a file called `mov` counts as a video.
* `C128_options_violated`: The options of a video or of audio (start, loop, mute, volume, times) and the file have no influence on what is written: two videos that differ only in them give the same XML. Also the link to the file and the embedded part are written with one and the same relationship, although they need different types of relationship.
* `C128_poster_violated`: `generate_video_xml` does not use the relationship of the poster: the picture refers to the video itself as its image, for every video and every poster with another relationship.

**C129, A text frame is written as it was built**

* `C129_lost_violated`: Text frames (`Run::to_xml`, `Paragraph::to_xml`): strikethrough, subscript, superscript and highlight of a run are not written, although `TextFormat` has setters for them; the line spacing of a paragraph is not written; so frames that differ only in these give the same text.
* `C129_raw_violated`: Text frames: the colour of a run, the highlight and the language tag are written without escaping, so a quotation mark in any of them breaks the part; a size of more than 42949672 points overflows (a panic in debug builds).

**C130, An image has what was last asked for**

* `C130_build_violated`: Image builder: `build_with_crop` loses the effects, and `build_with_shadow`, `build_with_glow` and the like lose the crop and all effects added before, for every builder.
* `C130_format_violated`: Image builder: `format` changes the format but not the file name, so the extension under which the image is stored stays that of the old format; images of a format without a type (`WEBP`, which `from_path` gives, and `TIF`) have the type `application/octet-stream`; and all images that are built from data have the same name.

**C131, Lengths are converted to the nearest EMU below, with one step of error**

* `C131_flat_violated`: A picture without a height has no proportions: scaling it to a width leaves the height zero, but scaling it to a height makes it as wide as a number can be (4294967295 EMU), and a picture of no size at all gets the other side zero.
* `C131_short_violated`: The conversions cut the product off instead of rounding it, so that lengths with an exact number of EMU come out one EMU short when the decimal number is not a binary one: 4.1 inches become 3749039 EMU instead of 3749040, 0.35 cm become 125999 instead of 126000, 2.3 pt become 29209 instead of 29210, and 69 percent of the width of the slide become 6309359 instead of 6309360. The conversion to inches and back loses an EMU as well: 61 EMU come back as 60.

**C132, Computing with colours stays near the exact result**

* `C132_alpha_violated`: The opacity of a colour is lost when the colour is given to a shape: `to_color` keeps red, green and blue only, so that `red().opacity(0.5)` and `red().transparent(80)` are drawn like `red()`.
* `C132_gray_violated`: Converting a gray to gray changes it: of the 256 grays, 13 come out one step darker, for example 252525 becomes 242424 and FDFDFD becomes FCFCFC. Converting again and again does not stop at once either: 3D3D3D becomes 3C3C3C.
* `C132_mix_violated`: The parts of a mixture are cut off instead of rounded, and the two weights do not add up to one exactly: mixing white with itself at 0.48 gives FEFEFE with the opacity 254, so that a mixture can be darker than both of its colours.
* `C132_nan_violated`: An amount that is not a number turns every colour black instead of leaving it alone, and an opacity that is not a number makes it invisible.

**C133, Text in a shape fits and can be read**

* `C133_middle_violated`: In the middle of the brightness range the comparison depends on rounding: the gray 808080 has exactly half of the brightness and is taken as dark (white text), and so is 08C848, while 04D21F, which has the same brightness, is taken as light (black text).
* `C133_overflow_violated`: Text that is too long for its shape is written in 6 points and flows over: a word of 100 characters in a shape of one inch by one inch would need 300 points of width and has 57.6.

**C134, The quick functions make what their names say**

* `C134_data_violated`: The data symbol of flowcharts (`shapes::data`) is drawn with the geometry `flowChartData`, which does not exist; the right one is `flowChartInputOutput`.
* `C134_hex_violated`: What is not a colour is silently black: three digits, eight digits, and letters that are not digits. Signs pass as digits, and a text of six bytes whose characters do not begin at even bytes makes `hex` panic.
* `C134_plain_escape_violated`: The title of a slide without content is written as it is, so that a title with markup makes the slide unreadable.
* `C134_theme_color_violated`: A shape that is filled or outlined with a colour of the theme becomes black: `fill` and `stroke` know colours by number only.
* `C134_title_violated`: `create_pptx` does not use the title on the slides: the first one always says "Presentation", and the others their number; the properties of the document list the first one as "Slide 1".

**C135, The second writer of slides writes the whole slide**

* `C135_format_violated`: `create_slide_xml_for_layout` ignores the format of single bullets (bold, colour, size and so on) and the transition of the slide.
* `C135_lost_violated`: `create_slide_xml_for_layout` writes shapes, pictures and tables only in the layout with title and content: in every other layout they are lost without an error.
* `C135_pictures_violated`: `create_slide_xml_for_layout` draws a grey box with the name of the file where a picture should be: its bytes, alternative text, crop and effects play no part.
* `C135_size_violated`: `create_slide_xml_for_layout` writes font sizes as they are given, in points, where the file format has hundredths of a point: except in two columns, a title of 44 points becomes one of 0.44 points.

**C136, Titles and text areas look as asked for**

* `C136_content_underline_violated`: `content_underline(true)` has no effect on the slides of a presentation: the setting is stored and never read by the writer of slides, which passes `false`.
* `C136_section_bold_violated`: The title of a section header is bold even after `title_bold(false)`: the writer passes `true` for this layout.

**C137, Comments are read back with their authors**

* `C137_index_violated`: **C137 does not hold for comments made apart from the list**: `Comment::new` gives every comment the number 1 and `add` keeps it, so two of them by one author have the same number.
* `C137_last_violated`: **C137 does not hold for the number of an author's last comment**: `lastIdx` is 1 for every author, also for authors with later comments, so the next comment made in an editor gets a number that is already in use.

**C138, The section list is read back as it is**

* `C138_same_name_violated`: **C138 does not hold for sections of the same name**, which can be added as long as their slides differ: the id is made from the name alone, so both sections have the same id.

**C139, Parts show their latest content**

* `C139_content_title_violated`: **C139 does not hold for slides made from content**: `title` and `body_text` tell nothing.
* `C139_layout_violated`: **C139 does not hold for the relationships**: whatever the layout of its content, a slide part refers to the first layout and to nothing else.
* `C139_number_violated`: **C139 does not hold for the number of a slide loaded with `from_xml`**, which is always 1, so that two loaded slides are written to the same place.
* `C139_stale_violated`: **C139 does not hold for the title and texts of a changed slide**: `set_content` drops the loaded text but not what was read from it, so `title` and `body_text` still tell the old title and texts.

**C140, Document properties are the last that were set**

* `C140_revision_violated`: **C140 does not hold for a loaded part with the greatest revision**: `touch` panics in a debug build (and counts from 0 in a release build).

**C141, Chains of calls keep what was asked for**

* `C141_flags_violated`: A slide may say it has a table, a chart or an image and have none: `with_table()`, `with_chart()` and `with_image()` only set the answer, and so does giving an empty list of images or charts.
* `C141_wrap_violated`: `wrap(false)` on a cell of a table has no effect: the setting is kept, and nothing reads it, so the written table is the same.

**C142, Styles of a web page become text formats**

* `C142_digits_violated`: Anything of the right length after `#` is taken as a colour: `#zzz` is the colour `ZZZZZZ`, and a colour with a quotation mark makes the slide unreadable.
* `C142_font_violated`: A list of fonts with a quoted name, as in `font-family: "Times New Roman", serif`, keeps its second quotation mark, and the slide is unreadable.
* `C142_invalid_violated`: CSS ignores a declaration with an invalid value, but here it removes an earlier valid one.
* `C142_loose_violated`: Text outside of a paragraph gets the style of the heading that follows it.
* `C142_names_violated`: Names of colours with capital letters and the names `cyan` and `magenta` are not known.
* `C142_pixels_violated`: A pixel is 3/4 of a point, but sizes in pixels are divided by 1.333, so large sizes come out larger: 1335 pixels as 1002 points instead of 1001, and 4 million pixels as 3 000 750 points.
* `C142_span_violated`: Styles of elements inside a paragraph are lost.
* `C142_title_weight_violated`: A title is bold even if its style says `font-weight: normal`.

**C143, A web page is read as it is shown**

* `C143_alt_violated`: A picture of a web page without a description (`alt`) is lost.
* `C143_articles_violated`: If a web page has several articles, as the pages of blogs and newspapers have, only the first one is read: the blocks are the same whatever follows it.
* `C143_blank_title_violated`: A page without `title` and `h1` whose `og:title` is blank gets an empty title instead of "Untitled".
* `C143_deep_violated`: A paragraph inside 256 or more sections one inside the other crashes the reader of web pages: the depth is counted in a `u8` and grows with every element, not with every list, so that a build with overflow checks panics.
* `C143_glued_violated`: A line break does not separate the words of a web page: the texts before and after `<br>` are joined without a blank. The same happens to an item and the list inside it, which become one item.
* `C143_inner_table_violated`: The rows of a table inside a table of a web page are read twice, as cells of the outer row and as rows of the outer table.
* `C143_links_violated`: The links of a web page are never extracted: the option `extract_links` has no effect and no block is a link.
* `C143_long_violated`: Long content of a web page is not shortened but lost: a list item with 500 bytes or more, a heading with 300 or more, code with more than 1000.
* `C143_loose_violated`: Text of a page that stands directly in a section, not in a paragraph, heading, list item, quotation, code or table, is lost, however long it is: a page that only has such text is refused as a page without content.
* `C143_script_violated`: Elements that are skipped elsewhere are text inside a paragraph: the program of a script in a paragraph becomes part of the text of the paragraph.
* `C143_short_violated`: A paragraph of a web page with fewer than ten bytes of text ("Yes.", "Price: 5") is lost.
* `C143_table_violated`: A table of a web page with more than 30 rows is lost.

**C144, What is written is what is opened**

* `C144_mixed_violated`: On a slide with a table the items of the lists of a Markdown document are lost: the slide shows the table alone.
* `C144_title_violated`: The title of the document is written without escaping: if it has an ampersand that does not begin an entity, it is lost for whoever opens the file.
* `C144_web_source_violated`: The description of a web page and its address are put on the title slide, whose layout shows no bullets: the opened presentation has neither.

**C146, Drawings are loaded again**

* `C146_bare_code_violated`: Without highlighting (a feature of the library that can be switched off) the code of a code block is lost when the slide is loaded, because it is not written in a paragraph.
* `C146_blank_lines_violated`: Of a text that begins with a bracket and has a bracket at the end of a line, which is taken for code, the blank lines are lost.
* `C146_code_violated`: With highlighting all white space between the words of code is lost when the slide is loaded, because it is written as runs of its own: `let x` becomes `letx`.
* `C146_kinds_violated`: No other kind of shape than those eleven is loaded as what it is: it becomes a rectangle (a circle an ellipse).
* `C146_looks_violated`: The fill, the gradient, the line, the rotation and the link of every shape are lost.
* `C146_lost_violated`: Pictures, connectors and charts are not loaded: whatever they are, the slide is loaded as if they had not been there, so saving it again loses them.

**C147, A compressed presentation opens as the one it was made from**

* `C147_spaces_violated`: Compression with optimized XML changes every slide title that has a line break, two blanks in a row or a blank at the end, unless it is blank: optimizing takes the blanks in texts for indentation.
* `C147_title_violated`: Every compression that removes the document properties loses the title of the document.

**C148, A generated file needs no repair**

* `C148_image_violated`: A generated file with a picture in another format, here BMP, is found to have a part without content type.
* `C148_mail_violated`: A link to a mail address is found broken in every generated file. The repair removes its relationship, and the shape on the slide is left with a relationship id that leads nowhere.

**C149, A slide is exported as its own picture**

* `C149_old_violated`: A picture from before is taken for the one of this export: with an old `Slide1.png` in the folder the export of the first slide succeeds and moves the old picture. The list of pictures contains files of other origin, too.
* `C149_options_violated`: The resolution, the size and the quality asked for do not reach the program: what it is called with depends on the format only.
* `C149_plain_violated`: The folder of a plain file name is the empty path, which cannot be listed: a slide cannot be exported to `first.png`, whatever the program draws.
* `C149_single_violated`: `soffice` draws one picture, named after the temporary file. It is never taken for the picture of a slide: the export of a slide into an empty folder fails and leaves that picture behind.

**C150, The report of a compression says what was saved**

* `C150_grown_violated`: If a file grows by the compression, a debug build crashes after having written it, and a release build reports that it became smaller by more than a hundred thousand percent.
* `C150_level_violated`: The level of compression and the target size change nothing in the file, and no image is ever compressed.
* `C150_quality_violated`: A quality of more than 100 is accepted.
* `C150_share_violated`: The share of the images compares their unpacked size with the size of the packed file; it is more than one hundred percent as soon as the images are larger than the file.
* `C150_unit_violated`: The summary shows the size of the images with two units, such as `(500 B MB)`.

**C151, Commands on files are commands on presentations**

* `C151_title_violated`: A presentation whose title has an ampersand that does not begin an entity, such as `R&D`, is created without a complaint, but has no title for the commands that follow.

**C152, An edited file needs no repair**

* `C152_signed_violated`: A signed file is out of order as soon as a call of the editor rebuilds the list of content types, by inserting, removing, copying or moving a slide: the rebuilt list has no entry for the signature, and the validator reports its part.

**C153, Repairing a compressed file changes nothing**

* `C153_again_violated`: The repair of a file with minified parts does not even settle what it reports: the first relationship it adds is on the line of the old ones, so its slide is reported again, and repairing once more adds it once more.
* `C153_reported_violated`: Every slide of a file with minified parts is reported as missing from the relationships of the presentation, although it is in them: they are all on one line, and the validation reads one relationship per line.
* `C153_twice_violated`: When the compression minifies the parts, all relationships of the presentation end up on one line, and the validation, which reads the file line by line, takes every slide for unreferenced. The repair adds a second relationship for each of them, and the repaired file is opened with every slide twice.

**C154, A presentation made with a template has its look and the new slides**

* `C154_exchanged_violated`: Where a master of the template shows its first picture, it shows the first picture of the new deck: the relationships are those of the template, and the part they lead to is the picture of the deck.
* `C154_fallback_violated`: If the template has neither the layout asked for nor a first one, the slide leads to a layout that is not in the file.
* `C154_pictures_violated`: The pictures of a master are lost: its relationships are in the file as they are in the template, but the pictures they lead to are not, because only themes, masters, layouts and table styles are taken from a template.
* `C154_twice_violated`: The table styles of a template, which every file of this library has, are written next to those of the new deck, so the file has two entries with the same name.
* `C154_types_violated`: Layouts of a template beyond the seventh (the templates of PowerPoint have eleven) are copied, but the list of content types has none for them: they are plain XML.

**C156, A presentation written from a slide source has the slides the source yields**

* `C156_features_violated`: A source can override `slide_features` (src/generator/builder.rs 291-295), and nothing compares its answer with the slides. With features that do not count charts, two slides with a chart each are both given chart 1, and the archive has two entries of that name; with features that announce notes, relationships are written for a notes part that is not there.
* `C156_gap_violated`: A source that says it has two slides and yields only the first is written without complaint: the presentation and the content types list a second slide for which there is no part (src/generator/builder.rs 1041-1043 passes over it).

**C157, The information about a file is what is in it**

* `C157_command_violated`: `pptcli info` looks for the title and the number of slides in a file that begins with `<?xml`. A presentation is an archive and begins with `PK`: nothing about it is printed, whatever is in it.
* `C157_pictures_violated`: The tool says for each slide whether it has pictures and charts, but the presentation it looks at is loaded without them: whatever file is opened, no slide is said to have pictures or charts.

**C158, Every part of a written file is a well-formed document**

* `C158_extension_violated`: The extension of an image is written into the relationships of its slide without escaping: with the extension `a&b` they are not well-formed.
* `C158_title_violated`: The title of the presentation is written into the properties of the document without escaping: no file with the title "Q & A" has well-formed properties, whatever its slides and settings.

**C159, The library's validator accepts what the library writes**

* `C159_code_violated`: Without the feature for highlighting, quotes in code are not escaped. A slide with the code `r:id="rId9"` is taken by the validator for a slide that refers to a missing relationship, and in a debug build `create_pptx_with_content` panics.
* `C159_ink_violated`: A slide with ink annotations that have no strokes: the ink part is written with no content at all, so it is no XML document, and in a debug build `create_pptx_with_content` panics.
* `C159_jpeg_violated`: A slide with a picture of type `jpeg`: in a debug build `create_pptx_with_content` panics, because the validator finds that the picture has no content type; with type `png` it does not.

**C160, A file that lost a required part is repaired**

* `C160_ids_violated`: A written file that lost `ppt/_rels/presentation.xml.rels` gets relationships with fixed ids: `rId2` is the theme. Slides are added behind them. But the presentation still lists its slides under the ids they had, so the first slide is listed twice: with `rId2`, which is now the theme, and with the id it was given by the repair. All faults are reported as repaired, and the file as valid. Here for a deck of one slide.
* `C160_jpg_violated`: A written file with a JPEG picture that lost `[Content_Types].xml` is not valid after the repair: the rebuilt list of types knows the extension `jpeg`, while the library writes pictures of this kind as `.jpg`.
* `C160_presentation_violated`: For a written file that lost `ppt/presentation.xml`, the repair finds two faults: the missing part, and the relationship of the package that leads to it. It writes a presentation without slides, then removes the relationship although its target is there again. It reports both faults as repaired and the file as valid, but no relationship of the package leads to a presentation, and the presentation lists none of the slides.
* `C160_signature_violated`: A signed file that lost `_rels/.rels` gets back the relationships of the presentation and of the document properties, but not the one of the signature: the signature is still in the file, and nothing leads to it. The repair reports the file as valid.
* `C160_types_violated`: When `[Content_Types].xml` is rebuilt, the type of a part is guessed from its name, and the guesses do not cover all parts that the builder writes: charts, ink, the notes and handout masters, the presentation, view and document properties, table styles and signatures are given the type `application/xml` instead of their own. A reader that goes by the types finds no charts, no notes master and no document properties in the repaired file.

**C161, A saved presentation is exported as the presentation itself**

* `C161_notes_violated`: The speaker notes of a saved presentation are not exported, although those of a presentation that was not saved are: notes are not loaded. The exported files are the same whatever notes the slides have.
* `C161_style_violated`: Numbered bullets, indented bullets, colours, sizes and centred titles of a saved presentation are exported as plain bullets and plain titles at the left: of a slide only the texts are loaded. Exported as it is, the presentation has the numbers in the PDF.

**C162, Exported Markdown is imported as the same slides**

* `C162_titles_violated`: Markdown exported with the numbers of slides, which is the default, is not imported as the slides it was exported from. There is one slide more, with the title of the presentation and nothing on it. Each slide after it has the title of the presentation, with " (continued)" once more than the slide before; its own title is a bullet, with its number, between asterisks. The exporter writes a slide as a heading of the second level below a thematic break; to the importer only headings of the first level begin slides, and a thematic break goes on with the slide before. The lines of metadata are lost.
* `C162_unnumbered_violated`: Without the numbers there is no slide too many, but the first slide has the title of the presentation instead of its own, and the others have it with " (continued)" once more each.

**C163, Placeholders of slides, layouts and the master fit together**

* `C163_section_violated`: `create_slide_xml_for_layout` writes the title of a section header as a centred title, and the layout for section headers has no placeholder for one.
* `C163_slides_violated`: No slide of a written file has a placeholder among its text: title, bullets and tables are text boxes and frames of their own, whatever the layout of the slide, which has placeholders for them. To an editor of presentations such a slide has no title, its text is not in the outline, and it does not follow when the layout is changed. Only things drawn in addition (here `X`) could have one.

**C164, The validation command says the same in every form**

* `C164_unreadable_violated`: If the file cannot be read, `pptcli validate --json` prints nothing, neither a document nor a message: a program that reads the output has no JSON to read, and nobody learns the reason.

**C165, An exported HTML page is imported as the same slides**

* `C165_navigation_violated`: No slide at all is found in a page exported with navigation, which is the default. The importer does not treat the text of a script as text: in `currentSlide < slides.length` it sees an opening tag. The last such tag ends only with the `>` of `</script>` (src/export/html_navigation.js line 128), so the script is never closed and the rest of the page is skipped as part of it.
* `C165_one_slide_violated`: A page exported without navigation is imported as a single slide, however many slides it shows: the exporter writes the titles of the slides as headings of the second level (src/export/html.rs line 131), and the importer begins a slide only at a heading of the first level.

**C166, Imported documents open only the pictures they name**

* `C166_any_file_violated`: The HTML importer puts every file that a page names as an image into the presentation, as a PNG picture, wherever it lies and whatever it holds: `<img src='/etc/passwd'>` in a page from elsewhere copies the list of accounts into the presentation. Neither the name nor the contents are looked at.
* `C166_markdown_violated`: A Markdown text that names a file of four bytes as a picture crashes the importer.
* `C166_one_place_violated`: Pictures of imported documents all get the same place and size, so that of several on a slide each lies exactly over the one before.
* `C166_short_file_violated`: A file of four or five bytes that is named as a picture in a page or a Markdown text stops the importer with a crash unless it begins like a PNG or JPEG picture: the range of the first six bytes is taken without a test of the length, because `a && b || c` groups as `(a && b) || c`.

**C167, Diagrams of every kind stand on the slide**

* `C167_large_violated`: Sequence diagrams of six or more participants, journeys of five or more sections, timelines of six or more dates, git graphs of ten or more commits, pies of fifteen or more slices and state diagrams of thirteen or more states stick out of the slide: distances are fixed, and nothing is made smaller.
* `C167_unknown_violated`: Of a text of unknown kind, as a requirement diagram, only the first line is shown; the drawing is the same whatever follows.

**C168, A PDF made by way of Markdown shows the slides**

* `C168_bullets_violated`: Levels, numbering and looks of bullets are lost in a PDF made by way of Markdown: it is the same whatever the bullets of the slides are, as it is made of the plain texts kept beside them.
* `C168_drawings_violated`: A PDF made by way of Markdown shows nothing of shapes, connectors, charts and ink, and of the pictures only a reference to a file that is not written: the PDF is the same without all of these, and whatever the pictures show.

**C169, The measures of generated files are right**

* `C169_payload_violated`: The payload of slides leaves out what is written in tables, shapes and code: it is the same whatever they contain.

**C170, Charts are built and drawn as they were asked for**

* `C170_described_violated`: What the type of a chart says about itself is not what is written: `bar_direction` is `col` for upright bars, and `grouping` is `stacked` and `percentStacked` for stacked ones, but every bar chart is written with lying bars, side by side; `grouping` of line charts is `standard` or `stacked`, but they are written with `lineMarkers`.
* `C170_markers_violated`: `has_markers` is false for the smooth scatter chart and for the radar chart, whose styles, `smoothMarker` and `marker`, show markers.
* `C170_same_violated`: `has_markers` says which charts show their points, but nothing reads it: line charts with and without markers are the same part, and so are side-by-side and stacked bars, and the stock charts of three and of four values.

**C171, A colour name names one colour**

* `C171_css_violated`: Three names are other colours than in pages that are imported, where the names of CSS are used: `green` is the colour that CSS calls lime (`00FF00`, not `008000`), and `dark_gray` and `dark_grey` are `404040`, not `A9A9A9`.

**C172, The converting commands write one file and say so**

* `C172_directories_violated`: A failed `create` leaves the directories of its output behind: they are made before the template is read.
* `C172_overwrites_violated`: If the text is in a file that is called `.pptx`, as in `md2ppt deck.pptx`, the output is the input: the text is replaced by the presentation, with code 0 and no warning.
* `C172_title_violated`: The title of an imported page is not the title of the presentation, although the help of `--title` says that it is overridden and the description of the importer that it is used: a page is imported as if it had no title, whatever the title is, and the presentation is called `Presentation from HTML`.

**C173, The options of the web converter take effect**

* `C173_source_violated`: The address of a page, which `include_source_url` and the command ask for by default, is on no slide, and neither is the description of the page: both are bullets of a slide with a centred title, and that layout writes no bullets. With and without them all slides are written alike.
* `C173_unused_violated`: Five options of the web converter have no effect at all: the author, page numbers, the sizes of titles and content, and the extraction of links. Whatever they are set to, the file is the same.

**C174, Command lines mean what they say**

* `C174_hyphen_violated`: A title that begins with a hyphen, such as "-5 degrees", cannot be given as `--title` and a text: the command line is refused, whatever else it says. Behind an equals sign it can.
* `C174_library_violated`: Without options the command `web2ppt` does not convert like the library: it puts up to seven bullets on a slide, and `Web2PptConfig` six.

**C175, Sessions of the command line tool touch only their outputs**

* `C175_replace_violated`: A run that cannot write its output to the end destroys what was there: the file holds whatever the system leaves of it, and the old presentation is lost. Nothing is written under another name first.

**C176, Settings hold what was last set**

* `C176_default_violated`: New settings and default settings differ: print settings made by `new` are scaled to fit the paper and those made by `default` are not, and the media controls of a slide show are shown only with `new`. The texts written differ.
* `C176_unreachable_violated`: No calls of the methods make a video that is hidden when it stops or a sound whose icon is hidden, though there are fields for both; and a video may be told to end before it begins.

**C177, A presentation holds what was put into it**

* `C177_lost_violated`: A theme that is given before settings is lost, though the same calls in the other order keep both, and of a presentation that is added the title and all settings, with its theme, fonts and template, are lost.

**C178, Tables and themes hold what was last set**

* `C178_order_violated`: The order of `size` and `add_row` of a `TablePart` matters: a table given its size after the first row keeps columns for the default width of 8 inches, so that they add up to another width than that of the table; given the size first, they fit.
* `C178_undo_violated`: No attribute of a cell of `TablePart` can be taken back: once a cell is bold, italic, underlined or struck out, no method makes it plain again, and a color, font, border or margin can be replaced but not removed.
* `C178_unreachable_violated`: Of the twelve colors of a scheme only four have a method: text, backgrounds, the fourth to sixth accent and followed links cannot be set one at a time.

**C179, Text holds what was last set**

* `C179_spacing_violated`: A spacing of more than 42949672 points panics when it is set on a `Paragraph` (the product with 100 overflows), wherever it is among the calls before it that succeed.
* `C179_unreachable_violated`: The space between lines of a `Paragraph` and the wrapping of a `TextFrame` have no method: no calls change them.

**C180, Checks refuse exactly what they name, and say so**

* `C180_ambiguous_violated`: The message of an invalid part does not always tell path and error apart: quotes in them are not escaped, so two different problems can have the same message.
* `C180_minimal_violated`: The two lists of required parts contradict each other: a package without `ppt/_rels/presentation.xml.rels` has all parts of `REQUIRED_PARTS_MINIMAL` ("minimum parts required for a readable PPTX") but not those needed for repair, and one without `docProps/core.xml` has all parts needed for repair but not the minimal ones.

**C181, Sections tell their slides and overlaps truly**

* `C181_empty_violated`: The last slide of a section without slides is said to be its first, though that slide does not belong to it and may belong to another section.
* `C181_names_violated`: Names of sections need not differ: two sections with one name are both accepted, only the first is found and renamed, and removing the name removes both.

### Seen while modelling

Behaviour that the model shows but that no property is about, or that lies just outside the model.

* Embedded fonts: the list is written after `p:extLst`, where the schema does not allow it; the
  attribute `panose` is written unescaped (src/generator/slide_content/embedded_fonts.rs 222-224).
* `generator/builder.rs`: videos and audio clips of a slide are never written to the package. A
  signature's origin part has no relationship part. The title of a plain deck is a constant.
* Template decks: only layouts 1 to 7 get an override (C30), and the table styles are there twice (C31).
* Section GUIDs depend on the name alone, so that two sections with the same name share one.
* Editor: saving drops the default text style, sections and embedded fonts; a duplicated slide shares
  the notes slide of the original; duplicating a slide without relationships writes an empty
  relationship part.
* Merged cells: the text of a covered cell is dropped.
* Code blocks without syntax highlighting write `a:t` directly below `p:txBody`.
* `is_dark_color` (src/generator/shapes_xml.rs 314) cuts a text at byte offsets, like C22.
* `parse_inline_formatting` takes every `*` and `_` for a mark.
* Tables are written in the layout with title and content only.
* The validator compares relationship targets without reading their entities (C64). Its comparison of
  the ids of masters and layouts looks for elements without the prefix `p:`, so that it never finds
  any (`C64_master_ids_dead`). `rels_source_dir` takes `_rels` for the folder of `_rels/foo.xml.rels`.
* Print settings (`prnPr`) are never written. `AppPropertiesPart` writes its texts unescaped
  (src/parts/app_props.rs 72-112). `NotesSlidePart::from_xml` loses the text of the notes.
* Size reports of the compression subtract without checking (src/opc/compress.rs 239-243).
* HTML import: a list inside a list item clears the items before it; a quotation before the first
  heading is lost; text before the first heading inside a styled element stays styled.
* Markdown and HTML export write the title of the presentation unescaped.
