{"id": "C01", "title": "XML escaping is safe and lossless", "statement": "For every text s, the escaped form returned by escape_xml contains no raw '<', '>', '\"' or \"'\" character, every '&' in it starts one of the five predefined entities, and an XML reader decoding the predefined entities gets s back exactly. Distinct texts therefore escape to distinct outputs.", "quantifier": "every Unicode string", "why_tests_cant": "Round-trip and absence of markup must hold for every string, including strings that already look like entities; a test suite samples a handful.", "anchors": ["src/core/xml_utils.rs: escape_xml", "src/core/xml_utils.rs: append_escape_xml"]}
{"id": "C02", "title": "All XML escaping routines in the crate agree", "statement": "The chained-replace escapers used for sections, comments, embedded fonts and document properties, the append variant, and escape_xml itself return the same text for every input (the order of the chained replacements never double-escapes).", "quantifier": "every Unicode string", "why_tests_cant": "Order-of-replacement bugs only show on strings where one replacement creates input for the next; equality of programs over all strings is not testable.", "anchors": ["src/generator/slide_content/sections.rs: xml_escape", "src/generator/slide_content/comments.rs: xml_escape", "src/generator/slide_content/embedded_fonts.rs: xml_escape", "src/parts/coreprops.rs: escape_xml", "src/core/xml_utils.rs: append_escape_xml"]}
{"id": "C03", "title": "XmlWriter output parses back to what was written", "statement": "Writing any tree of elements with attribute values and text through XmlWriter start_element/empty_element/text/end_element yields a document that an XML reader parses back to exactly the same tree, for arbitrary attribute values and text.", "quantifier": "every element tree with well-formed names, any attribute values and any text", "why_tests_cant": "Nesting depth and content are unbounded.", "anchors": ["src/core/xml_utils.rs: XmlWriter"]}
{"id": "C04", "title": "A package is a map from part path to bytes", "statement": "After any sequence of add_part and remove_part calls, get_part returns the bytes of the last add for that path that was not followed by a remove, has_part agrees with get_part, and part_count is the number of distinct live paths.", "quantifier": "every history of add/remove calls on every path", "why_tests_cant": "Histories are unbounded.", "anchors": ["src/opc/package.rs: Package::add_part, remove_part, get_part, has_part, part_count"]}
{"id": "C05", "title": "Saving and reopening a package loses nothing", "statement": "For every package, saving it and opening the result yields a package with the same paths and the same bytes, whatever order the hash map enumerates the parts in; an archive with a repeated entry name yields the last one.", "quantifier": "every package and every enumeration order of its parts", "why_tests_cant": "Enumeration order of a hash map is nondeterministic; a test sees one order.", "anchors": ["src/opc/package.rs: Package::open_reader, save_writer"]}
{"id": "C06", "title": "Relationship targets resolve as a folder walk", "statement": "Resolving a relationship target against its source folder gives a path without empty, '.' or '..' segments, equals walking the folders one segment at a time, ignores the source folder for targets starting with '/', and never escapes above the package root.", "quantifier": "every source folder and every target string", "why_tests_cant": "Unbounded nesting of '..' and '.' segments.", "anchors": ["src/core/package_validation/rels.rs: resolve_rel_target, rels_source_dir"]}
{"id": "C07", "title": "Reading relationship XML returns what was written", "statement": "Parsing the relationship part produced for any list of relationships returns the same ids, targets and external flags, in order.", "quantifier": "every list of relationships with attribute-safe ids and targets", "why_tests_cant": "The scanner is an index-based state machine whose correctness depends on every element's length.", "anchors": ["src/core/package_validation/context.rs: parse_relationships", "src/generator/package_xml.rs: create_slide_rels_xml_extended"]}
{"id": "C08", "title": "Presentation relationship ids are unique and resolve", "statement": "In a generated deck with any number of slides, any combination of notes and handouts and any embedded fonts, all relationship ids of ppt/presentation.xml are distinct, and the n-th entry of the slide list refers to the relationship whose target is slides/slide{n}.xml; the notes-master, handout-master and font references likewise resolve to a relationship of the right kind.", "quantifier": "every slide count, notes/handout combination and font list", "why_tests_cant": "The ids are computed by arithmetic in two separate places; agreement for all counts is a universally quantified arithmetic fact.", "anchors": ["src/generator/package_xml.rs: create_presentation_rels_xml_full, create_presentation_xml, slide_rel_id, notes_master_rel_id", "src/generator/builder.rs: prepare_settings"]}
{"id": "C09", "title": "Slide ids are unique and legal", "statement": "In every generated deck the slide ids in the slide list are pairwise distinct, at least 256 and below 2147483648, and disjoint from the master and layout ids.", "quantifier": "every slide count up to the format's limit", "why_tests_cant": "Range and uniqueness over all counts.", "anchors": ["src/generator/package_xml.rs: slide_id_value, create_presentation_xml", "src/generator/layout_parts.rs"]}
{"id": "C10", "title": "The relationship collection never hands out a used id", "statement": "After any history of add and add_with_id calls with canonical rIdN ids, the id returned by add is different from every id already present, and if the explicitly supplied ids were distinct and new then all ids are pairwise distinct; get returns the relationship added under that id.", "quantifier": "every history of add/add_with_id/remove-free calls", "why_tests_cant": "Freshness is an invariant over histories.", "anchors": ["src/parts/relationships.rs: Relationships::add, add_with_id, get"]}
{"id": "C11", "title": "Relationship type survives a URI round trip", "statement": "Converting a relationship type to its URI and back gives the same type.", "quantifier": "every relationship type", "why_tests_cant": "A test that picks types passes for most of them; the property fails for particular ones.", "anchors": ["src/parts/relationships.rs: RelationshipType::uri, from_uri"]}
{"id": "C12", "title": "Cell merges never overlap and stay in the table", "statement": "After any sequence of merge requests on a table, the accepted regions are pairwise disjoint and inside the grid; a request is rejected exactly when it has a zero span, sticks out of the grid or shares a cell with an accepted region; a rejected request changes nothing.", "quantifier": "every grid size and every sequence of merge requests", "why_tests_cant": "Invariant over unbounded operation histories.", "anchors": ["src/generator/slide_content/table_merge.rs: TableMergeMap::add_merge, merge_cells, MergeRegion::overlaps"]}
{"id": "C13", "title": "Each table cell is drawn exactly once", "statement": "For any table with accepted merges, every cell is either normal, the anchor of exactly one region, or covered by exactly one region, and the areas of the drawn cells (1 for a normal cell, rows x columns for an anchor) add up to the area of the table.", "quantifier": "every grid and every accepted set of merges", "why_tests_cant": "A tiling argument over all grids.", "anchors": ["src/generator/slide_content/table_merge.rs: TableMergeMap::cell_state"]}
{"id": "C14", "title": "Sections stay sorted and disjoint", "statement": "After any sequence of add, remove and rename calls the sections are ordered by first slide and no slide belongs to two sections, so looking up the section of a slide has at most one answer and returns it whenever there is one; a rejected add changes nothing.", "quantifier": "every history of section operations", "why_tests_cant": "Invariant over histories.", "anchors": ["src/generator/slide_content/sections.rs: SectionManager::add_section, remove_section, rename_section, section_for_slide"]}
{"id": "C15", "title": "Comment authors have stable unique ids", "statement": "After any sequence of lookups by name, asking again for a known name returns the same id and changes nothing, distinct names have distinct ids, ids are 0..n-1 in order of first appearance, and every id handed out resolves to the author it was handed out for.", "quantifier": "every history of get_or_add calls", "why_tests_cant": "Invariant over histories.", "anchors": ["src/generator/slide_content/comments.rs: CommentAuthorList::get_or_add, get_by_id"]}
{"id": "C16", "title": "Editing slides behaves like editing a list", "statement": "Running any sequence of add, insert, update, remove, duplicate and reorder operations through the editor leaves exactly the parts slide1..slideN in the package, and reading them in order gives the list obtained by applying the corresponding list operations (append, insert, set, erase, duplicate, move) to the initial list.", "quantifier": "every initial deck and every sequence of edit operations with any indices", "why_tests_cant": "Renumbering by file moves is correct only if every shift happens in the right order for every index; histories are unbounded.", "anchors": ["src/oxml/editor.rs: PresentationEditor::add_slide, insert_slide, update_slide, remove_slide, duplicate_slide, reorder_slide, renumber_slide"]}
{"id": "C17", "title": "Rejected edits change nothing", "statement": "An edit with an out-of-range index returns an error and leaves the package and the slide count unchanged; an in-range index always succeeds.", "quantifier": "every editor state and every index", "why_tests_cant": "All indices and states.", "anchors": ["src/oxml/editor.rs: update_slide, remove_slide, duplicate_slide, insert_slide, reorder_slide, get_slide"]}
{"id": "C18", "title": "Adding a slide keeps presentation relationship ids unique", "statement": "After opening a generated deck and adding a slide, the relationship ids of ppt/presentation.xml are still pairwise distinct and the new slide's id refers to the new slide.", "quantifier": "every generated deck", "why_tests_cant": "Depends on the deck's slide count and options; fails for all the usual decks.", "anchors": ["src/oxml/editor.rs: add_slide_to_presentation_rels, add_slide_to_presentation_xml"]}
{"id": "C19", "title": "Structural edits keep the notes and handout masters reachable", "statement": "After removing, duplicating, inserting or moving a slide, the notes-master and handout-master references in ppt/presentation.xml name relationships of the matching kind in its relationship part.", "quantifier": "every deck with notes or handouts and every structural edit", "why_tests_cant": "Holds for one particular slide count only; a test with that count passes.", "anchors": ["src/oxml/editor.rs: rebuild_presentation_xml, rebuild_presentation_rels"]}
{"id": "C20", "title": "Base64 images decode to the original bytes", "statement": "Decoding the base64 text of any byte string returns the same bytes, also when the text is wrapped with line breaks or surrounded by whitespace.", "quantifier": "every byte string and every placement of line breaks", "why_tests_cant": "Padding cases times all contents.", "anchors": ["src/export/html.rs: base64_encode", "src/generator/images.rs: base64_decode"]}
{"id": "C21", "title": "RGB colours survive a hex round trip", "statement": "Formatting any RGB colour as hex and parsing it returns the same colour, with or without a leading '#', in upper or lower case; parsing never fails on the formatted form.", "quantifier": "all 2^24 colours", "why_tests_cant": "16 million values times spellings.", "anchors": ["src/elements/color.rs: RgbColor::from_hex, to_hex", "src/helpers/colors.rs: ColorValue::from_hex, to_hex"]}
{"id": "C22", "title": "Colour parsing never crashes", "statement": "Parsing a colour from any string returns a value or nothing and does not panic.", "quantifier": "every Unicode string", "why_tests_cant": "Crashing inputs are multi-byte strings of a particular byte length.", "anchors": ["src/elements/color.rs: RgbColor::from_hex", "src/helpers/colors.rs: ColorValue::from_hex"]}
{"id": "C23", "title": "XML minification keeps every non-blank character", "statement": "Minifying any XML text preserves the sequence of non-whitespace characters, never makes the text longer, changes nothing between double quotes, and otherwise only drops blanks or turns them into spaces.", "quantifier": "every Unicode string", "why_tests_cant": "Character-level state machine over all inputs.", "anchors": ["src/opc/compress.rs: minimize_xml"]}
{"id": "C24", "title": "XML minification keeps slide text", "statement": "Minifying an XML part does not change the text content of any element.", "quantifier": "every XML text", "why_tests_cant": "Fails only for texts with particular whitespace placement.", "anchors": ["src/opc/compress.rs: minimize_xml"]}
{"id": "C25", "title": "Removing unused media keeps used media", "statement": "Compressing a deck with unused-media removal keeps every media part that some relationship of some part points to, keeps all non-media parts, and reports the number of parts removed.", "quantifier": "every package", "why_tests_cant": "Depends on how the media is referenced.", "anchors": ["src/opc/compress.rs: remove_unused_media"]}
{"id": "C26", "title": "Package analysis accounts for every byte", "statement": "The size breakdown reported for a package partitions its parts: image, XML and other sizes add up to the total of all part sizes, every media part is counted exactly once as an image or as other media, and the slide count is the number of slide parts.", "quantifier": "every package", "why_tests_cant": "All packages.", "anchors": ["src/opc/compress.rs: analyze_pptx"]}
{"id": "C27", "title": "Identical images are stored once", "statement": "Registering any sequence of images stores one media part per distinct (bytes, extension), assigns numbers 1..k without gaps, gives equal images the same number and different images different numbers, and every returned number denotes the stored image.", "quantifier": "every sequence of images", "why_tests_cant": "Histories.", "anchors": ["src/generator/media_registry.rs: MediaRegistry::register", "src/generator/builder.rs: build_media_registry"]}
{"id": "C28", "title": "Slide relationship ids are unique and referenced ids exist", "statement": "For every slide, the ids in its relationship part are pairwise distinct, and every image, chart and ink reference in the slide XML names a relationship of the right kind and the right target.", "quantifier": "every slide content and every deck", "why_tests_cant": "Ids are computed by index arithmetic in two places; equality over all combinations of features.", "anchors": ["src/generator/builder.rs: write_slides, write_slide_relationships_extended, slide_content_rel_start", "src/generator/slide_xml/content.rs: render_additional_content", "src/generator/package_xml.rs: create_slide_rels_xml_extended"]}
{"id": "C29", "title": "Generated packages have no dangling relationship", "statement": "Every internal relationship target of every relationship part of a generated deck is a part of the package.", "quantifier": "every list of slides and settings", "why_tests_cant": "Parts and relationships are emitted by separate loops; agreement over all inputs.", "anchors": ["src/generator/builder.rs: write_package_files", "src/generator/package_xml.rs"]}
{"id": "C30", "title": "Every generated part has a content type", "statement": "Every part of a generated deck is covered by a Default extension or an Override in [Content_Types].xml, and every Override names a part of the package.", "quantifier": "every list of slides and settings", "why_tests_cant": "Same.", "anchors": ["src/generator/package_xml.rs: create_content_types_xml_with_notes_and_charts, append_image_content_type_defaults", "src/generator/builder.rs: write_content_types, write_images"]}
{"id": "C31", "title": "Generated packages have no duplicate part name", "statement": "The list of archive entries written for a deck has pairwise distinct names and contains all required package parts.", "quantifier": "every list of slides and settings without a template", "why_tests_cant": "Names are produced by loops over slides, charts, images, fonts.", "anchors": ["src/generator/builder.rs: write_package_files"]}
{"id": "C32", "title": "Chart numbering is global and gap-free", "statement": "Charts of a deck are numbered 1..k in slide order, each slide's charts get consecutive numbers, every number is used by exactly one chart, and the parts written for charts are exactly those numbers.", "quantifier": "every distribution of charts over slides", "why_tests_cant": "All distributions.", "anchors": ["src/generator/builder.rs: collect_chart_info, write_charts"]}
{"id": "C33", "title": "Shape ids on a slide are unique", "statement": "On every generated slide whose shapes carry no user-chosen ids, all drawing ids (title, content, table, shapes, images, code blocks, connectors, charts) are pairwise distinct.", "quantifier": "every slide content", "why_tests_cant": "Ids come from fixed offsets plus counts; distinctness must hold for all counts.", "anchors": ["src/generator/slide_xml/content.rs: render_additional_content", "src/generator/slide_xml/layouts.rs"]}
{"id": "C34", "title": "Streaming generation equals in-memory generation", "statement": "Writing a deck from a lazy slide source that yields the given slides produces the same list of parts with the same names as the in-memory path.", "quantifier": "every list of slides", "why_tests_cant": "Two separate code paths; equality over all inputs.", "anchors": ["src/generator/builder.rs: write_package_files_lazy, write_package_files, LazySlideSource"]}
{"id": "C35", "title": "Two-column layout loses no bullet", "statement": "Splitting the bullets of a two-column slide puts every bullet in exactly one column, in order, with column sizes differing by at most one and the left never smaller.", "quantifier": "every list of bullets", "why_tests_cant": "All lengths.", "anchors": ["src/generator/slide_xml/layouts.rs: TwoColumn"]}
{"id": "C36", "title": "Package repair accounts for every issue", "statement": "Every issue found by repair is reported as repaired or as not repaired, exactly once and in order, and the result is flagged valid exactly when revalidation finds nothing.", "quantifier": "every package", "why_tests_cant": "All packages.", "anchors": ["src/oxml/repair.rs: PptxRepair::repair, RepairResult"]}
{"id": "C37", "title": "XML repair leaves no bare ampersand and keeps valid text", "statement": "After ampersand repair of any text every '&' in the result starts a predefined entity or a numeric reference, text that has no bare ampersand is unchanged (apart from a missing XML declaration), and no other character is lost.", "quantifier": "every Unicode string", "why_tests_cant": "Character scanner over all inputs.", "anchors": ["src/oxml/repair.rs: attempt_xml_repair"]}
{"id": "C38", "title": "Repair assigns fresh relationship and slide ids", "statement": "When repair registers an unreferenced slide, the relationship id and slide id it assigns differ from all ids already present, and the slide id is legal (at least 256).", "quantifier": "every package", "why_tests_cant": "Freshness over all existing id sets.", "anchors": ["src/oxml/repair.rs: repair_missing_slide_reference, add_slide_to_presentation, find_max_rel_id, find_max_slide_id"]}
{"id": "C39", "title": "Validation verdict matches the issue list", "statement": "A validation report is valid exactly when it has no error, error and warning counts add up with infos to the number of issues, and merging reports adds the counts.", "quantifier": "every list of issues", "why_tests_cant": "All lists.", "anchors": ["src/core/package_validation/report.rs"]}
{"id": "C40", "title": "Dangling relationships are reported", "statement": "The package validator reports an error for an internal relationship exactly when its resolved target is not a part of the package, and never for an external one.", "quantifier": "every package", "why_tests_cant": "All packages.", "anchors": ["src/core/package_validation/rules.rs: check_relationship_targets"]}
{"id": "C41", "title": "JSON output decodes to the original text", "statement": "The JSON string printed for any text by the command-line tool decodes, by JSON rules, to exactly that text and contains no raw control character, quote or backslash.", "quantifier": "every Unicode string", "why_tests_cant": "All strings.", "anchors": ["src/cli/commands.rs: json_string"]}
{"id": "C42", "title": "Markdown export escaping is reversible", "statement": "Escaping text for Markdown export and reading it back with backslash unescaping yields the same text, and every Markdown-active character is preceded by a backslash.", "quantifier": "every Unicode string", "why_tests_cant": "Order of chained replacements matters only on special strings.", "anchors": ["src/export/md.rs: escape_markdown"]}
{"id": "C43", "title": "Exported Markdown tables keep their shape", "statement": "Every row of a table exported as GFM has exactly as many cells as the table has columns when read back.", "quantifier": "every table", "why_tests_cant": "Fails only for cell texts with particular characters.", "anchors": ["src/export/md.rs: export_table_to_gfm"]}
{"id": "C44", "title": "HTML import ignores skipped elements only", "statement": "Content outside script, style, nav, form, svg and similar elements is imported; content inside them is not.", "quantifier": "every HTML event sequence", "why_tests_cant": "Depends on the tag stack for all nestings.", "anchors": ["src/import/html.rs: HtmlSlideParser::parse, is_inside_skip_tag"]}
{"id": "C45", "title": "HTML import respects its limits", "statement": "The number of slides imported never exceeds the configured maximum, and paragraphs and list items never push a slide beyond the configured maximum number of bullets; bullets and their text list always have the same length.", "quantifier": "every HTML event sequence and every option value", "why_tests_cant": "State machine over all inputs.", "anchors": ["src/import/html.rs: HtmlSlideParser::parse, add_paragraph, flush_list_items, add_formatted_text"]}
{"id": "C46", "title": "HTML entity decoding inverts escaping", "statement": "Decoding the HTML-escaped form of any text gives the text back; text without '&' is unchanged.", "quantifier": "every Unicode string", "why_tests_cant": "All strings.", "anchors": ["src/import/html.rs: decode_entities", "src/export/html.rs: escape_html"]}
{"id": "C47", "title": "Web page grouping loses no block after the first heading", "statement": "Grouping page blocks by headings yields, when flattened, all blocks in order, each group starts with a heading and contains no other heading.", "quantifier": "every list of blocks", "why_tests_cant": "All lists.", "anchors": ["src/web2ppt/parser.rs: WebContent::grouped_by_headings"]}
{"id": "C48", "title": "Web conversion respects slide and bullet limits", "statement": "Converting a page never yields more slides than the configured maximum and no content slide has more than the configured number of bullets.", "quantifier": "every page and configuration", "why_tests_cant": "All inputs.", "anchors": ["src/web2ppt/converter.rs: build_slides, build_grouped_slides, build_linear_slides"]}
{"id": "C49", "title": "Text truncation is bounded and a prefix", "statement": "Truncating text to a byte budget returns the text itself when it fits, and otherwise a prefix of the text within the budget followed by an ellipsis, never splitting a character.", "quantifier": "every string and every budget", "why_tests_cant": "Multi-byte boundaries.", "anchors": ["src/web2ppt/converter.rs: truncate_text"]}
{"id": "C50", "title": "Grid and stack layouts do not overlap and stay on the slide", "statement": "Positions returned by the grid, stack and distribute helpers give pairwise non-overlapping shapes that lie within the slide whenever they fit.", "quantifier": "every count and size that fits", "why_tests_cant": "All counts and sizes.", "anchors": ["src/prelude.rs: layouts::grid, stack_horizontal, stack_vertical, distribute_horizontal, center"]}
{"id": "C51", "title": "XML tree building follows the event stream", "statement": "Parsing the event stream of any element tree rebuilds that tree; searches return elements in document order.", "quantifier": "every element tree", "why_tests_cant": "Unbounded nesting.", "anchors": ["src/oxml/xmlchemy.rs: XmlParser::parse, XmlElement::find_all_descendants"]}
{"id": "C52", "title": "Reading a deck returns slides in presentation order", "statement": "The reader lists the slides of a generated deck in the order they were written, for any number of slides.", "quantifier": "every slide count", "why_tests_cant": "Lexicographic-versus-numeric ordering bugs appear only from ten slides up.", "anchors": ["src/oxml/presentation.rs: parse_presentation_xml"]}
{"id": "C53", "title": "Document timestamps are valid dates", "statement": "The creation timestamp written for any clock value has a month in 1..12 and a day in 1..31 and denotes that instant.", "quantifier": "every clock value", "why_tests_cant": "Wrong only on particular days.", "anchors": ["src/generator/props_xml.rs: current_timestamp", "src/parts/coreprops.rs: current_timestamp"]}
{"id": "C54", "title": "Document properties are well-formed for every title", "statement": "The core properties part generated for any title is well-formed XML whose title element contains exactly the title; the extended properties list one title per slide.", "quantifier": "every title and slide list", "why_tests_cant": "Fails for titles with markup characters.", "anchors": ["src/generator/props_xml.rs: create_core_props_xml, create_app_props_xml"]}
{"id": "C55", "title": "Concurrent in-memory compressions do not interfere", "statement": "When two in-memory compressions run concurrently under any interleaving of their file operations, each returns the compression of its own input.", "quantifier": "every schedule of two or more calls", "why_tests_cant": "Schedules cannot be enumerated by tests.", "anchors": ["src/opc/compress.rs: compress_pptx_in_memory", "src/api.rs: Presentation::compress"]}
{"id": "C56", "title": "A crash while saving does not destroy the previous file", "statement": "If saving over an existing deck is interrupted at any point, the file on disk is either the complete old deck or the complete new deck.", "quantifier": "every crash point", "why_tests_cant": "Crash points.", "anchors": ["src/api.rs: Presentation::save", "src/opc/package.rs: Package::save", "src/oxml/editor.rs: PresentationEditor::save"]}
{"id": "C57", "title": "Table helpers accept every size", "statement": "Building a table from any rectangular or ragged data returns a table whose rows all have the same number of cells as there are columns and whose columns fit the slide; it never crashes.", "quantifier": "every table data including empty", "why_tests_cant": "Crash only on empty input.", "anchors": ["src/helpers/tables.rs: simple_table, table_from_data, QuickTable::new", "src/generator/table/style.rs: table_from_string_rows"]}
{"id": "C58", "title": "Image type detection never crashes", "statement": "Auto-detecting the format of any byte string returns an image and never panics; PNG, JPEG and GIF signatures are recognised.", "quantifier": "every byte string", "why_tests_cant": "Crash only on particular short inputs.", "anchors": ["src/generator/images.rs: ImageBuilder::auto, read_image_dimensions"]}
{"id": "C59", "title": "Markdown list import keeps every item", "statement": "Every list item of a Markdown document, at any nesting level, becomes a bullet of some slide.", "quantifier": "every document", "why_tests_cant": "Nested structures.", "anchors": ["src/cli/markdown/parser.rs: MarkdownParser::handle_event, flush_list_items"]}
{"id": "C60", "title": "Slide ids in the low-level presentation part are unique", "statement": "After any sequence of add_slide calls on a new presentation part, slide ids and relationship ids are pairwise distinct.", "quantifier": "every number of slides and any loaded part", "why_tests_cant": "Histories.", "anchors": ["src/parts/presentation.rs: PresentationPart::add_slide, from_xml"]}
{"id": "C61", "title": "Flowchart import gives every node one shape and every edge two anchored ends", "statement": "For any parsed flowchart, every node gets exactly one shape, shape ids are distinct, and each drawn connector is anchored to the shapes of its two end nodes.", "quantifier": "every flowchart and every enumeration order of its node map", "why_tests_cant": "Node map order is nondeterministic.", "anchors": ["src/cli/markdown/mermaid/flowchart.rs: generate_elements"]}
{"id": "C62", "title": "The section list in the file refers to slides of the deck, each at most once", "statement": "For any history of section edits and any deck size, the slide ids written into the section list are ids of slides in the deck's slide list, no slide is listed in two sections or twice in one, and every slide of the deck that belongs to a section is listed.", "quantifier": "every history of section edits and every slide count", "why_tests_cant": "The ids are recomputed by arithmetic from section ranges that may extend beyond the deck.", "anchors": ["src/generator/slide_content/sections.rs: to_xml", "src/generator/package_xml.rs: slide_id_value"]}
{"id": "C63", "title": "Every hyperlink put on a shape is written", "statement": "For every deck and every shape with a hyperlink, the slide refers to that hyperlink and the slide's relationship part has an entry with the hyperlink's target.", "quantifier": "every deck, slide, shape and hyperlink", "why_tests_cant": "Hyperlinks whose relationship id was never assigned are skipped silently; the file opens without complaint but the link is gone.", "anchors": ["src/generator/shapes_xml.rs: generate_shape_xml", "src/generator/builder.rs: slide relationships"]}
{"id": "C64", "title": "The package validator accepts what the generator writes", "statement": "For every deck whose images have ordinary extensions and whose internal links point into the deck, the validator's relationship and content-type checks report no error on the generated package.", "quantifier": "every deck", "why_tests_cant": "The generator and the validator encode the package rules separately; a disagreement shows up only for particular combinations of content.", "anchors": ["src/core/package_validation/rules.rs: check_relationships", "src/generator/builder.rs"]}
{"id": "C65", "title": "Every bullet added to a slide is written exactly once", "statement": "After any sequence of plain, styled and nested bullet additions to a slide, reading the generated slide gives the bullet texts after the title, each exactly once and in order, whatever the layout.", "quantifier": "every sequence of bullet additions and every layout", "why_tests_cant": "Layouts that ignore bullets produce a valid file; the text is simply gone.", "anchors": ["src/generator/slide_content/content.rs: add_bullet, add_styled_bullet, add_sub_bullet", "src/generator/slide_xml/layouts.rs"]}
{"id": "C66", "title": "Slides are well-formed XML and their text reads back", "statement": "For every slide content, layout and transition, the generated slide is well-formed XML and an XML reader finds the title, the bullet texts and the cell texts exactly as given, in the boxes of the layout.", "quantifier": "every slide content: all texts, styles, colours, fonts, bullet characters", "why_tests_cant": "Only particular characters in particular fields break the markup.", "anchors": ["src/generator/slide_xml/mod.rs: create_slide_xml_with_content", "src/generator/slide_xml/layouts.rs", "src/generator/table/xml.rs"]}
{"id": "C67", "title": "Table cells read back row by row", "statement": "A table put on a slide is written with its rows and cells in order; each cell has its text and spans unless it is covered by a merged cell.", "quantifier": "every table and layout", "why_tests_cant": "Dropped cells and dropped tables produce valid files.", "anchors": ["src/generator/table/xml.rs: generate_table_xml", "src/generator/table/format.rs: generate_cell_xml"]}
{"id": "C68", "title": "Cell alignment is honoured", "statement": "A reader applying the defaults of the file format sees the horizontal and vertical alignment that was set for each table cell.", "quantifier": "every cell and alignment", "why_tests_cant": "Omitted attributes mean the format's default, not the library's.", "anchors": ["src/generator/table/format.rs: paragraph_props_xml, tc_properties_xml"]}
{"id": "C69", "title": "Content types after editing", "statement": "After any successful insertion, removal, duplication or move of a slide, every part of the package still has the content type it had before, and every slide has the content type of slides.", "quantifier": "every package and every structural edit", "why_tests_cant": "The editor rewrites the content type list from a fixed template; only packages with media, charts, notes or further layouts show the loss.", "anchors": ["src/oxml/editor.rs: rebuild_content_types"]}
{"id": "C70", "title": "Links between slides after editing", "statement": "After any successful edit a link from one slide to another that is still in the presentation leads to the same slide.", "quantifier": "every package, every link and every edit", "why_tests_cant": "Slides are renamed by position; a link that names a slide by its number then silently leads elsewhere.", "anchors": ["src/oxml/editor.rs: renumber_slide, insert_slide, remove_slide, duplicate_slide, reorder_slide"]}
{"id": "C71", "title": "The slide list after editing", "statement": "After any successful insertion, removal, duplication or move of a slide, the slide list of presentation.xml has one entry per slide, in order, and the relationship of each entry leads to the part of that slide.", "quantifier": "every package and every structural edit", "why_tests_cant": "The slide list, the relationship ids and the part names are computed in three places by separate arithmetic.", "anchors": ["src/oxml/editor.rs: rebuild_presentation_xml, rebuild_presentation_rels"]}
{"id": "C72", "title": "Compression leaves a consistent package", "statement": "After compression with any options every relationship of a kept part still leads to a part of the package, content that was requested to be removed (notes, properties, comments) is gone, and everything else is kept.", "quantifier": "every package and every combination of options", "why_tests_cant": "Dangling relationships appear only for particular options and packages; an ignored option shows only if somebody looks for the content.", "anchors": ["src/opc/compress.rs: compress_pptx, remove_document_properties, remove_notes_slides, optimize_xml_content"]}
{"id": "C73", "title": "Repair removes exactly the broken relationships", "statement": "Repairing a broken relationship removes the relationships with the reported id from the part and keeps all other relationships of that part, and all other parts, unchanged.", "quantifier": "every package, relationship part and id", "why_tests_cant": "Relationships are removed by dropping lines of text; only parts with a particular layout lose others with them.", "anchors": ["src/oxml/repair.rs: repair_broken_relationship"]}
{"id": "C74", "title": "Repair validation finds exactly the broken relationships", "statement": "Validation for repair reports a relationship of the package, the presentation or a slide as broken exactly when it is not external and its target is not a part of the package.", "quantifier": "every package and relationship", "why_tests_cant": "Which relationships are skipped depends on how targets are written and on the line breaks of the part.", "anchors": ["src/oxml/repair.rs: check_relationships, check_rels_file, resolve_path"]}
{"id": "C75", "title": "Repair validation reports malformed XML", "statement": "Validation for repair reports exactly the XML parts that are not well-formed.", "quantifier": "every package and every text of a part", "why_tests_cant": "A few malformed samples say nothing about which texts pass.", "anchors": ["src/core/validation.rs: validate_well_formed_xml", "src/oxml/repair.rs: check_xml_validity"]}
{"id": "C76", "title": "A fully repaired package is valid", "statement": "If a repair leaves no issue unrepaired, validating the resulting package finds no issue.", "quantifier": "every package", "why_tests_cant": "Repairs write parts that are validated only afterwards; only some combinations of missing parts show new issues.", "anchors": ["src/oxml/repair.rs: repair, repair_missing_part"]}
{"id": "C77", "title": "The title in the Markdown front matter reads back", "statement": "The title written into the front matter of the Markdown export, read as a YAML double-quoted scalar, is the presentation's title.", "quantifier": "every title", "why_tests_cant": "Only titles with quotes, backslashes or line breaks go through the other branch.", "anchors": ["src/export/md.rs: escape_yaml, export_to_markdown"]}
{"id": "C78", "title": "The Markdown export has one section per slide", "statement": "A Markdown reader finds in the exported document exactly one second-level heading per slide, in order, with the slide's number and escaped title, whatever the slides contain.", "quantifier": "every deck, title, text, table, code block, note and option", "why_tests_cant": "Text that looks like a heading or a code fence in one field changes the structure of all that follows.", "anchors": ["src/export/md.rs: export_to_markdown"]}
{"id": "C79", "title": "Web conversion keeps the text of a page", "statement": "As long as the slide limit is not reached, the texts of all content blocks of a page appear as bullets, in order, below their heading; continued slides are marked as such.", "quantifier": "every page and configuration", "why_tests_cant": "Which texts are dropped depends on how many blocks of which kind stand under which heading.", "anchors": ["src/web2ppt/converter.rs: build_slides, build_grouped_slides, build_linear_slides"]}
{"id": "C80", "title": "A slide uses the layout that was asked for", "statement": "The layout part that a generated slide refers to has the type and the placeholders of the layout chosen for the slide, for every deck built without a template; different kinds of layout lead to different layout parts.", "quantifier": "every deck and every layout choice", "why_tests_cant": "A wrong layout number gives a valid file that just looks different.", "anchors": ["src/generator/slide_content/layout.rs: layout_number", "src/generator/layout_parts.rs: create_slide_layout_xml, layout_rel_target", "src/generator/package_xml.rs: create_slide_rels_xml_with_images"]}
{"id": "C81", "title": "Header and footer text on masters", "statement": "The header and footer text of the print settings reads back from the slide master and the handout master exactly as given, and date and page number placeholders are present exactly when requested.", "quantifier": "every header, footer and flag", "why_tests_cant": "Text with markup characters and flag combinations; a placeholder that is missing leaves a valid file.", "anchors": ["src/generator/theme_xml.rs: create_slide_master_xml", "src/generator/slide_content/print_settings.rs: to_handout_master_xml"]}
{"id": "C82", "title": "Speaker notes read back", "statement": "For every slide number and notes text the notes page is well-formed and a reader finds the notes text exactly as given in the notes body and the slide number in its field.", "quantifier": "every notes text and slide number", "why_tests_cant": "Only particular characters would break the markup.", "anchors": ["src/generator/notes_xml.rs: create_notes_xml"]}
{"id": "C83", "title": "Charts show the data given", "statement": "For every chart type, title, categories and series, the generated chart part is well-formed and a reader following ECMA-376 finds the title, and for each series its index, name, categories and values in order with their indices; direction, grouping and axes are those of the chart type.", "quantifier": "every chart of every type, with any texts and any number of series and values", "why_tests_cant": "A chart with wrong indices or names still opens; only a comparison with the data for many sizes shows the loss.", "anchors": ["src/generator/charts/xml.rs: generate_chart_part_xml and the functions it calls", "src/generator/charts/types.rs: grouping, bar_direction"]}
{"id": "C84", "title": "Articles are imported completely", "statement": "A web page made of headings, paragraphs, lists, sub-headings, code blocks, tables and quotations with bold, italic, link and line break text is imported as one slide per first-level heading: its title, every paragraph, sub-heading and list item as a bullet in order (up to the bullet limit), the last table cell by cell, every code block, and the last quotation as notes.", "quantifier": "every article, every option setting, every text", "why_tests_cant": "Which text ends up on which slide depends on the order of tags and on buffers that several handlers share.", "anchors": ["src/import/html.rs: tokenize, HtmlSlideParser::parse, handle_open_tag, handle_close_tag, handle_text, flush_text_buffer, flush_list_items, flush_table, flush_code_block, flush_blockquote, finalize_current_slide"]}
{"id": "C85", "title": "Bullets look as asked for", "statement": "Every bullet of a slide with a content area is written as a paragraph with its level, the margins of that level, the bullet character or numbering of its style, and the size, bold, italic, underline, strike-through, sub- or superscript, colour, highlight and font that result from the slide's and the bullet's own format.", "quantifier": "every list of bullets with any formats, in every layout with a content area", "why_tests_cant": "Format merging has many combinations; a wrong level or a lost flag leaves a valid file.", "anchors": ["src/generator/slide_xml/layouts.rs: generate_bullet_text_props, generate_bullet_paragraph_from_point", "src/generator/layouts/common.rs: ExtendedTextProps::to_xml", "src/generator/slide_content/bullet.rs: BulletStyle::to_xml"]}
{"id": "C86", "title": "Written slides read back", "statement": "Reading a generated slide gives its boxes with place and size, the title, every bullet with text, level, bold, italic, underline, size and colour, and the table with all cells and spans.", "quantifier": "every slide content in every layout, and every deck after any history of edits", "why_tests_cant": "The reader finds properties by local names anywhere below an element; whether it picks up the right one depends on everything else that was written.", "anchors": ["src/oxml/slide.rs: SlideParser::parse, parse_shape, parse_paragraph, parse_run, parse_table", "src/generator/slide_xml/layouts.rs: create_slide_xml_with_content"]}
{"id": "C87", "title": "Document properties read back", "statement": "Writing the document properties and reading the part again gives the same properties.", "quantifier": "every combination of properties with any texts", "why_tests_cant": "Any text, any combination of missing fields.", "anchors": ["src/parts/coreprops.rs: CorePropertiesPart::to_xml, from_xml"]}
{"id": "C88", "title": "Relationship parts and presentation parts read back", "statement": "After any history of additions, the relationship part that is written reads back as the same relationships with the same counter for new ids; the presentation part reads back with the same slides, ids, master and size.", "quantifier": "every history of additions, every presentation part", "why_tests_cant": "Histories are unbounded; the counter is not written and has to be recovered from the ids.", "anchors": ["src/parts/relationships.rs: Relationships::to_xml, from_xml", "src/parts/presentation.rs: PresentationPart::to_xml, from_xml"]}
{"id": "C89", "title": "Markdown documents become the slides they describe", "statement": "Importing a Markdown document gives one slide for each first-level heading and each rule, in order, holding in order the paragraphs, lower headings and list items (with their inline marks) as bullets, the tables cell by cell, the code blocks with their language, the quotations as notes, the pictures and the diagrams that follow it; no document crashes the import.", "quantifier": "every document tree, every text, every event sequence for the absence of crashes", "why_tests_cant": "The importer is a state machine with shared buffers and flags; what happens to a block depends on everything before it.", "anchors": ["src/cli/markdown/parser.rs: MarkdownParser::parse, handle_event, push_text, add_paragraph, flush_list_items, flush_table, flush_code_block, flush_blockquote, add_image_placeholder, finalize_current_slide"]}
{"id": "C90", "title": "Flowchart boxes do not overlap and the diagram stands on the slide", "statement": "No two boxes of an imported flowchart overlap, no two subgraph frames overlap, every box lies inside its frame or apart from the others; a diagram not larger than the space below the title is centred in it.", "quantifier": "every flowchart with any number of nodes, subgraphs and edges", "why_tests_cant": "Overlaps appear only for particular numbers of nodes and rows.", "anchors": ["src/cli/markdown/mermaid/flowchart.rs: generate_elements", "src/cli/markdown/mermaid/types.rs: DiagramBounds::from_shapes", "src/cli/markdown/parser.rs: add_mermaid_diagram"]}
{"id": "C91", "title": "The well-formedness check tells XML from other text", "statement": "The check of well-formedness used by the validator and the repair tool accepts a text exactly if it is well-formed XML; in particular it refuses texts with open tags or open quotations.", "quantifier": "every text", "why_tests_cant": "The scanner's state is computed but a test with one good and one blank text does not notice that it is never looked at.", "anchors": ["src/core/validation.rs: validate_well_formed_xml", "src/core/package_validation/rules.rs: check_xml_parts", "src/oxml/repair.rs: check_xml_validity"]}
{"id": "C92", "title": "Shapes, pictures, connectors, code blocks and charts read back", "statement": "For every drawing on a slide, writing does not panic, the slide is well-formed, and an XML reader finds after the text of the slide the shapes, code blocks, pictures, connectors and charts in order, each with its id, place, rotation, geometry, fill, outline, text, link, crop, effects and relationship as set.", "quantifier": "every drawing: all lists of shapes, pictures, connectors, code blocks and charts with all values", "why_tests_cant": "The markup is assembled from unescaped and optional pieces; only particular values break it.", "anchors": ["src/generator/shapes_xml.rs: generate_shape_xml", "src/generator/images_xml.rs: generate_image_xml", "src/generator/connectors.rs: generate_connector_xml", "src/generator/slide_xml/content.rs: render_additional_content"]}
{"id": "C93", "title": "Connectors run between the points that were asked for", "statement": "A connector written to a slide starts and ends at the points that were set, in whichever direction it runs, with arrows, sizes and dashes named as in the file format, and is attached to the connection sites that were set.", "quantifier": "every connector, all coordinates and sites", "why_tests_cant": "Direction is encoded in a box and two flips; a missing flip only shows for connectors that run to the left or upwards.", "anchors": ["src/generator/connectors.rs: generate_connector_xml, ConnectionSite::index", "src/generator/shapes_xml.rs: generate_connector_xml"]}
{"id": "C94", "title": "Every kind of shape is written as an existing preset geometry", "statement": "Each kind of shape is written as the preset geometry of the file format that it stands for, and different kinds are written as different geometries.", "quantifier": "every kind of shape", "why_tests_cant": "A wrong name is accepted by every test that does not compare with the list of the standard; viewers refuse the file or draw nothing.", "anchors": ["src/generator/shapes.rs: ShapeType::preset_name"]}
{"id": "C95", "title": "The elements of a slide are in the order of the schema", "statement": "For every slide with text, tables and drawings, every element has its child elements in the order, and as often, as the schemas of the file format require.", "quantifier": "every slide and drawing", "why_tests_cant": "The order of elements is decided in many places by string concatenation; presentation programs reject files with a wrong order, parsers used in tests do not.", "anchors": ["src/generator/slide_xml/mod.rs", "src/generator/shapes_xml.rs", "src/generator/connectors.rs", "src/generator/image_effects.rs", "src/generator/table/xml.rs"]}
{"id": "C96", "title": "Text in shapes is readable on its fill", "statement": "The text of a filled shape is written in black or white, differing from the fill in brightness by at least half of the range.", "quantifier": "every fill and text", "why_tests_cant": "The threshold is decided over 16 million colours and several kinds of fill.", "anchors": ["src/generator/shapes_xml.rs: is_dark_color, get_text_color"]}
{"id": "C97", "title": "Gradient stops stay sorted and complete", "statement": "After any sequence of added stops a gradient has the stops it had and those that were added, each as often as given, sorted by position; positions and opacities are percentages in thousandths.", "quantifier": "every gradient and sequence of additions", "why_tests_cant": "Order and completeness after repeated additions is a property of all sequences.", "anchors": ["src/generator/shapes.rs: GradientFill::with_stop, GradientStop::new, with_transparency"]}
{"id": "C98", "title": "Slide show settings reach the presentation", "statement": "For all slide show settings, a reader of the presentation properties that applies the schema's default values finds the kind of show, looping, narration, animations, timings, pen colour and slides that were set.", "quantifier": "every combination of settings, every range and list of slides", "why_tests_cant": "An attribute that is left out has the schema's default, not the library's; a test that looks for substrings cannot see the difference.", "anchors": ["src/generator/slide_content/slide_show_settings.rs: SlideShowSettings::to_xml", "src/generator/package_xml.rs: create_pres_props_xml_with_show"]}
{"id": "C99", "title": "Print settings reach the presentation", "statement": "For all print settings, the presentation has a print properties element with values of the schema, from which a reader finds what is printed, the colour mode, frames, scaling and hidden slides as set.", "quantifier": "every combination of print settings", "why_tests_cant": "The element is produced by a function that the writer of the presentation does not call; unit tests call it directly.", "anchors": ["src/generator/slide_content/print_settings.rs: PrintSettings::to_prnpr_xml", "src/generator/builder.rs: write_package_files"]}
{"id": "C100", "title": "The elements of the other parts are in the order of the schema", "statement": "In the presentation, its properties, view properties, layouts, theme, slide master, handout master and notes slides, every element has its children in the order, and as often, as the schemas require.", "quantifier": "every number of slides, all layouts, themes, notes, headers and footers, fonts and settings", "why_tests_cant": "Presentation programs refuse files with a wrong order, the parsers used in tests do not; parts are inserted by text replacement.", "anchors": ["src/generator/package_xml.rs", "src/generator/layout_parts.rs", "src/generator/theme_xml.rs", "src/generator/notes_xml.rs", "src/generator/slide_content/embedded_fonts.rs: to_xml"]}
{"id": "C101", "title": "A theme is read back as it was set", "statement": "For every theme, the theme part is well-formed and a reader finds the name, the twelve colours in the order of the schema and the two fonts; palettes give the colours they name, and the text is long enough for the validator.", "quantifier": "every name, font and colour, every palette", "why_tests_cant": "A theme that looks like the default one is replaced by a constant; texts with markup are rarely tested.", "anchors": ["src/generator/presentation_theme.rs: to_theme_xml, from_palette, normalize_hex", "src/generator/theme_xml.rs"]}
{"id": "C102", "title": "Embedded fonts are read back", "statement": "For every list of embedded fonts, the font list has one entry for each typeface in the order of first appearance, with its descriptor and the relationship of the data of every style, and its values and order are those of the schema.", "quantifier": "every list of fonts with any typefaces and styles", "why_tests_cant": "Grouping by typeface and the order of styles depend on the whole list.", "anchors": ["src/generator/slide_content/embedded_fonts.rs: EmbeddedFontList::to_xml"]}
{"id": "C103", "title": "Ink strokes are read back", "statement": "For every list of strokes, the ink part is well-formed InkML from which a reader finds every stroke with its points and its pen, and the slide refers to it in a way readers accept.", "quantifier": "every list of strokes, points and pens", "why_tests_cant": "References between traces and brushes are resolved by readers only; substring tests do not follow them.", "anchors": ["src/generator/slide_content/ink_annotations.rs: InkAnnotations::to_xml, InkStroke::to_xml", "src/generator/builder.rs"]}
{"id": "C104", "title": "Digital signatures say who signed what", "statement": "For every digital signature, the signature part is well-formed and a reader finds the signer with all details, the comments, the commitment and the date, a signature method, the provider and references to what is signed.", "quantifier": "every signature with any texts", "why_tests_cant": "A signature part that signs nothing looks right to every test that searches it for the signer's name.", "anchors": ["src/generator/slide_content/digital_signature.rs: DigitalSignature::to_signature_xml, to_origin_xml"]}
{"id": "C105", "title": "Every part of a generated deck is reachable", "statement": "In every generated deck, each part except content types and relationship parts is reached from the package relationships by following relationships, and every relationship part belongs to a part of the deck.", "quantifier": "every deck and all settings without a template", "why_tests_cant": "Reachability is a global property of all parts and relationships; a part that nothing refers to is silently ignored by readers.", "anchors": ["src/generator/builder.rs: write_package_files", "src/generator/package_xml.rs: create_rels_xml, create_presentation_rels_xml"]}
{"id": "C106", "title": "A slide exported to PDF is painted with all its text", "statement": "For every slide, the content stream of its page is valid PDF, and a reader finds the background, the title, the lines of the body in their order with font, size, colour and position, the code blocks and the slide number, every text as it was given; no slide crashes the export.", "quantifier": "every slide with any texts, colours and numbers of lines", "why_tests_cant": "Escaping, positions and the end of the page depend on the whole text; the tests only look for the header of the file.", "anchors": ["src/export/slide_render.rs: render_slide, draw_text_line, escape_pdf_text, hex_to_rgb"]}
{"id": "C107", "title": "The objects of an exported PDF refer to each other correctly", "statement": "For every presentation with slides, the objects of the PDF have distinct numbers in sequence, the catalog leads to the list of pages, the list has one page for each slide in their order, each page refers back to the list, to the stream painted for its slide with the right length, and declares every font that is used on it; the internal assertion never fails.", "quantifier": "every list of slides", "why_tests_cant": "Numbers of objects are computed ahead of the objects; a mistake shows only for some numbers of slides.", "anchors": ["src/export/slide_render.rs: render_to_pdf_bytes, add_page, add_fonts"]}
{"id": "C108", "title": "Bullets are numbered in an exported PDF as on the slide", "statement": "Every numbered bullet in the PDF carries the number that presentation programs show for it on the slide, in its style; Roman numerals denote their number for every number.", "quantifier": "all numbers and all lists of bullets", "why_tests_cant": "Tests check a few small numerals; the counter depends on all bullets before.", "anchors": ["src/export/slide_render.rs: bullet_prefix, to_roman, render_slide"]}
{"id": "C109", "title": "Temporary files are private and removed", "statement": "Whatever fails and however calls of the PNG export, the compression, the analysis and the image export are interleaved: every call works on the data it has written itself and its temporary files are gone when it returns.", "quantifier": "every number of calls, every interleaving of their steps and every failure of a step", "why_tests_cant": "Races of calls that share a name and failures of single steps such as a full disk do not occur in tests.", "anchors": ["src/export/image_export.rs", "src/opc/compress.rs", "src/cli/commands.rs", "src/api.rs: save_as_png, from_pdf"]}
{"id": "C110", "title": "Pages of an imported PDF are in their order", "statement": "The slides made from a PDF are its pages in their order, one for each page, with the title of the file, for every number of pages.", "quantifier": "every number of pages and every order in which the directory lists them", "why_tests_cant": "The order depends on how many digits pdftoppm uses for the numbers of pages and on the order of the directory.", "anchors": ["src/api.rs: from_pdf"]}
{"id": "C111", "title": "A loaded presentation is the one that was saved", "statement": "For every presentation, loading the saved file gives its title and slides in their order, each with the title, bullets, shapes and tables it had, at their place; saving and loading again changes nothing.", "quantifier": "every presentation and every shape read", "why_tests_cant": "Loading combines readers and builders whose tests use one small file each.", "anchors": ["src/import/mod.rs: import_pptx, map_shape_type", "src/oxml/slide.rs"]}
{"id": "C112", "title": "Commands and tools do what they are asked for", "statement": "Create, tables, charts, merge, export and validate, as commands and as tools of the server, write exactly the presentation asked for, or nothing and answer with an error; numbers in answers are those of what was written.", "quantifier": "all arguments and all states of the file system", "why_tests_cant": "Every combination of arguments and of files that cannot be read or written is beyond tests.", "anchors": ["src/mcp/mod.rs", "src/cli/commands.rs"]}
{"id": "C113", "title": "The JSON report is JSON and says what was found", "statement": "For every file name and every list of issues, the validation command prints one JSON document with the name, the flag, the counts and all issues in their order.", "quantifier": "every file name and every list of issues with any texts", "why_tests_cant": "The text is put together from lines by hand; quotes, control characters and commas depend on the issues.", "anchors": ["src/cli/commands.rs: print_json, json_string", "src/core/package_validation/report.rs"]}
{"id": "C114", "title": "The kind of a Mermaid diagram is recognised", "statement": "For every diagram whose first line begins with a keyword of Mermaid, the diagram is read as one of the kind the keyword names.", "quantifier": "every text of a diagram and every spelling of keywords in upper and lower case", "why_tests_cant": "Keywords are prefixes of each other; the order of the tests matters.", "anchors": ["src/cli/markdown/mermaid/mod.rs: detect_type, create_diagram_elements"]}
{"id": "C115", "title": "Sequence diagrams show every participant and message", "statement": "For every sequence diagram, the participants are drawn in the order in which they first occur, each in a column of its own with a line, and the messages one below the other in their order, each between the lines of its two participants with its text and pointing to the receiver.", "quantifier": "every list of participants and messages", "why_tests_cant": "Rows and columns are computed from counters; tests use two participants.", "anchors": ["src/cli/markdown/mermaid/sequence.rs"]}
{"id": "C116", "title": "State, class and entity relationship diagrams show every node and connection", "statement": "For every such diagram, each state, class or entity is drawn once with its contents, no two overlapping, and each transition or relationship is a connector between the two it names, attached where the shapes are, with its label.", "quantifier": "every list of statements", "why_tests_cant": "Shapes are referred to by numbers computed from positions in lists; tests use two or three nodes.", "anchors": ["src/cli/markdown/mermaid/state_diagram.rs", "src/cli/markdown/mermaid/class_diagram.rs", "src/cli/markdown/mermaid/er_diagram.rs"]}
{"id": "C117", "title": "Gantt charts, journeys and timelines show every section and entry", "statement": "For every such diagram, the title, sections and their entries are drawn in their order, none covering another, entries under their section.", "quantifier": "every list of sections with any entries", "why_tests_cant": "The positions add up over all sections before.", "anchors": ["src/cli/markdown/mermaid/gantt.rs", "src/cli/markdown/mermaid/journey.rs", "src/cli/markdown/mermaid/timeline.rs"]}
{"id": "C118", "title": "Pie charts, git graphs, quadrant charts and mind maps show what is written", "statement": "For every such diagram: a pie is divided by the values, with a legend; commits are on the lines of their branches in their order; points are where their coordinates say, with their labels; nodes of mind maps are around their parents with their texts.", "quantifier": "every list of slices, statements, points and nodes", "why_tests_cant": "Places depend on numbers and orders of entries; tests only count shapes.", "anchors": ["src/cli/markdown/mermaid/pie.rs", "src/cli/markdown/mermaid/gitgraph.rs", "src/cli/markdown/mermaid/quadrant.rs", "src/cli/markdown/mermaid/mindmap.rs", "src/cli/markdown/mermaid/types.rs"]}
{"id": "C119", "title": "The exported page shows the slides and nothing else", "statement": "For every presentation, what a browser finds in the exported page is the title, and for each slide in order its number, title, bullets, table, images with their data, code and notes; no text of the presentation becomes markup.", "quantifier": "every presentation with any texts and every choice of options", "why_tests_cant": "What a browser makes of the page depends on every character of every text; tests look for substrings.", "anchors": ["src/export/html.rs: export_to_html_with_options, render_slide_with_options, render_table_html, render_image_with_options"]}
{"id": "C120", "title": "Navigation in the exported page always shows one slide", "statement": "After every sequence of keys, clicks, swipes and turns of the automatic show, exactly one slide of the page is shown, the counter names it, and the buttons are off exactly at the ends; each event moves as it says.", "quantifier": "every number of slides and every sequence of events", "why_tests_cant": "There are infinitely many sequences of events, and no test runs the script.", "anchors": ["src/export/html_navigation.js", "src/export/html.rs: export_to_html_with_options"]}
{"id": "C121", "title": "The templates show what they are given", "statement": "For every title, author, date, version and list of points, the slides of each template show, in their order, the title and all the lines that were given, each once and below the heading it belongs to.", "quantifier": "every title and every list of points, modules, components and endpoints", "why_tests_cant": "The slides depend on all of the lists; tests only count slides.", "anchors": ["src/templates.rs"]}
{"id": "C122", "title": "A table part shows the table it was given", "statement": "For every table, the XML of its part is a frame with the given position, size and id and in it a table with the given columns and rows, every cell with its text, spans, font, alignment, margins, borders and colours.", "quantifier": "every table with any rows, cells and formats", "why_tests_cant": "Every combination of cell options is written by other code; tests look for single substrings.", "anchors": ["src/parts/table.rs"]}
{"id": "C123", "title": "The content types part names the type of every part", "statement": "After every sequence of calls that add defaults and overrides, the part is a document in which a reader finds, for each part that was added, the content type of its kind.", "quantifier": "every sequence of calls", "why_tests_cant": "Tests add one entry at a time.", "anchors": ["src/parts/content_types.rs"]}
{"id": "C124", "title": "Parts are documents with what was set", "statement": "For every application properties, notes, layout, master and theme part, the XML is a document from which the fields that were set can be read back; parts that were read are written as they were read.", "quantifier": "every value of the fields and every sequence of colours that are set", "why_tests_cant": "Texts with markup, empty lists and repeated entries are not among the tests.", "anchors": ["src/parts/app_props.rs", "src/parts/notes_slide.rs", "src/parts/slide_layout.rs", "src/parts/slide_master.rs", "src/parts/theme.rs"]}
{"id": "C125", "title": "Parts know their kind, path and relationship target", "statement": "The relationship target of each part resolves to its path from the folder of the parts that refer to it, its kind and content type are those of what it contains, and extensions name formats in any case.", "quantifier": "every number and every format", "why_tests_cant": "Targets are only checked as texts; nothing resolves them.", "anchors": ["src/parts/media.rs", "src/parts/image.rs", "src/parts/base.rs", "src/parts/slide_layout.rs", "src/parts/slide_master.rs", "src/parts/theme.rs", "src/parts/notes_slide.rs"]}
{"id": "C126", "title": "Emphasis in text is shown as it is meant", "statement": "For every text with nested bold, italic and code parts, the segments of the inline parser show each character in the style it was given and nothing else; whatever the text is, only markers are lost; the runs written for the segments are well-formed, follow the schema and have the style of the segments.", "quantifier": "every nested text with emphasis, and every text for what is lost", "why_tests_cant": "Nesting and neighbouring markers have infinitely many forms; tests have one marker per text.", "anchors": ["src/generator/slide/formatting.rs: parse_inline_formatting, generate_rich_text_runs"]}
{"id": "C127", "title": "A gradient fill is written as it was described", "statement": "For every gradient the XML can be read back as the same stops with their positions, colours and opacities and the same angle or figure; it follows the schema with values that exist; sorting keeps all stops; the presets are valid.", "quantifier": "every list of stops, every type and direction", "why_tests_cant": "Tests have two fixed stops and look for substrings.", "anchors": ["src/generator/gradients.rs"]}
{"id": "C128", "title": "Video and audio are written as pictures that play", "statement": "For every video and audio the XML is a picture with its id, description, place and poster that plays the right medium with the given options; formats are found by extension in any case, and content type entries name them.", "quantifier": "every medium with any description, relationship and options, every path", "why_tests_cant": "Descriptions with markup, paths without extension and options are not tested.", "anchors": ["src/generator/media.rs"]}
{"id": "C129", "title": "A text frame is written as it was built", "statement": "For every text frame the XML can be read back as the same anchor, margins and paragraphs, each with its alignment, level, bullet, spacing and runs with their formats; it follows the schema; raised and lowered text exclude each other; attributes of a format occur once; languages written from right to left say so.", "quantifier": "every frame with any paragraphs, runs and texts, every sequence of format calls", "why_tests_cant": "Tests look for one substring per option; combinations and markup in texts are not tested.", "anchors": ["src/generator/text/frame.rs", "src/generator/text/paragraph.rs", "src/generator/text/run.rs", "src/generator/text/format.rs", "src/generator/text/rtl.rs"]}
{"id": "C130", "title": "An image has what was last asked for", "statement": "After every sequence of calls of the image builder the image has the last position, size, crop and format and all effects in order, its file name has the extension of its format and its type is that of the format; data given as bytes or Base64 are its bytes; it is drawn as it was built.", "quantifier": "every sequence of calls, every file name, format and data", "why_tests_cant": "Orders of calls are not tested, and no test reads back what is drawn.", "anchors": ["src/generator/images.rs: ImageBuilder, Image", "src/generator/images_xml.rs"]}
{"id": "C131", "title": "Lengths are converted to the nearest EMU below, with one step of error", "statement": "For every length in inches, centimetres, points, percent or EMU that is a floating point number, the conversion gives the exact number of EMU cut off, or one less or more where rounding crosses a whole number; it never decreases, stays within the range of the type, and takes percentages from the right side of the slide; scaling a picture keeps its proportions; transforms are written as they were made.", "quantifier": "every floating point number, finite or not", "why_tests_cant": "There are 2^64 numbers; tests use whole inches, where nothing is rounded.", "anchors": ["src/core/dimension.rs", "src/elements/position.rs", "src/generator/shapes.rs: from_dimensions, emu_to_inches", "src/generator/images.rs: scale_to_width, scale_to_height", "src/prelude.rs: inches, cm, pt"]}
{"id": "C132", "title": "Computing with colours stays near the exact result", "statement": "Lightening, darkening, mixing, opacity, grayscale and inversion of a colour, computed in single precision, differ from the exact result by at most one step, keep their order (lighter is not darker), stay within the range and have the right ends.", "quantifier": "every colour and every floating point amount", "why_tests_cant": "Tests use white, black and one half.", "anchors": ["src/helpers/colors.rs: ColorValue"]}
{"id": "C133", "title": "Text in a shape fits and can be read", "statement": "The size chosen for the text of a shape is between 6 and 72 points, never decreases when the shape grows, and lets all lines fit into the shape unless it is the smallest; it is the size that is written; the choice of a white or black text by the floating point brightness agrees with the exact brightness except exactly in the middle.", "quantifier": "every text and every size of the shape, every colour", "why_tests_cant": "Tests have a few short texts; rounding in the middle of the range is never met.", "anchors": ["src/generator/shapes_xml.rs: calculate_font_size, estimate_wrapped_lines, is_dark_color"]}
{"id": "C134", "title": "The quick functions make what their names say", "statement": "Every quick function for a shape draws the geometry of its name at the place given in inches, with the given text and colour; colours by six digits are filled and outlined as written; theme colours have their own names; the quick builder makes one slide for every call, in order, with its title, lines and shapes; slides without content show their title.", "quantifier": "every function and every floating point place, every colour, every list of calls", "why_tests_cant": "Tests call each function once with whole inches.", "anchors": ["src/prelude.rs: shapes, QuickPptx", "src/helpers/mod.rs: hex, rect, circle, ShapeExt", "src/helpers/shapes.rs", "src/generator/slide_xml/mod.rs: create_slide_xml", "src/generator/builder.rs: create_pptx, collect_slide_titles"]}
{"id": "C135", "title": "The second writer of slides writes the whole slide", "statement": "For every slide and layout the XML of create_slide_xml_for_layout can be read back as the title, the content, columns or table with all their text, followed by the shapes and pictures with numbers of their own; sizes and formats are those asked for.", "quantifier": "every layout, every title, list of bullets, table, shapes and pictures", "why_tests_cant": "Tests look for substrings in one slide per layout.", "anchors": ["src/generator/layouts/mod.rs: create_slide_xml_for_layout", "src/generator/layouts/common.rs", "src/generator/layouts/title_content.rs", "src/generator/layouts/two_column.rs", "src/generator/layouts/blank.rs", "src/generator/layouts/centered_title.rs", "src/generator/layouts/title_only.rs"]}
{"id": "C136", "title": "Titles and text areas look as asked for", "statement": "On every written slide with a title, the first object is the title in the place of the layout with the alignment, size, bold and italic face, underlining and colour that were asked for; the text is in the areas of the layout, which are on the slide and do not overlap.", "quantifier": "every slide, layout and setting", "why_tests_cant": "Tests set one option on one layout and look for a substring.", "anchors": ["src/generator/slide_xml/layouts.rs", "src/generator/slide_content/content.rs: title_size, title_bold, content_underline"]}
{"id": "C137", "title": "Comments are read back with their authors", "statement": "After any sequence of comments by any people, made by looking up the author and adding the comment, the two XML parts can be read back as the comments in order, numbered from 1, with text and position, each referring to exactly one author with the name given; lists put together by hand are read with all their fields.", "quantifier": "every sequence of comments, every text, name and position", "why_tests_cant": "Tests look for substrings in a part with one comment.", "anchors": ["src/generator/slide_content/comments.rs: CommentAuthorList, SlideComments, Comment"]}
{"id": "C138", "title": "The section list is read back as it is", "statement": "For every list of sections the XML can be read back as the sections with their names, the slide ids of exactly the existing slides of each, and ids in the form of a GUID that tell sections apart.", "quantifier": "every list of sections and every number of slides", "why_tests_cant": "Tests look for substrings; ids are compared for two names.", "anchors": ["src/generator/slide_content/sections.rs: to_xml, generate_section_id"]}
{"id": "C139", "title": "Parts show their latest content", "statement": "A slide or chart part that was made, loaded or given new content any number of times is written as its latest content, keeps its number and places in the package, and tells the title and texts of its content; writing a slide and loading it again gives its title and bullets.", "quantifier": "every way to make a part and every sequence of contents", "why_tests_cant": "Tests set content once and do not read the title afterwards.", "anchors": ["src/parts/slide.rs", "src/parts/chart.rs"]}
{"id": "C140", "title": "Document properties are the last that were set", "statement": "After any sequence of changes every document property has the value set last, the revision counts the calls of touch, the creation date stays, the date of change is that of the last touch, and all this is read back from the written part.", "quantifier": "every sequence of changes and every time", "why_tests_cant": "Tests set every property once.", "anchors": ["src/parts/coreprops.rs"]}
{"id": "C141", "title": "Chains of calls keep what was asked for", "statement": "After any chain of calls on a slide, bullet, text format, table cell, table, connector or shape, every setting has the value asked for last, everything added is there in the order of the calls, bullets have the default style at the time they were added, and settings that exclude each other are never both on.", "quantifier": "every chain of calls of any length, with any values", "why_tests_cant": "Tests call each method once and in one order.", "anchors": ["src/generator/slide_content/content.rs", "src/generator/slide_content/bullet.rs", "src/generator/table/cell.rs", "src/generator/table/builder.rs", "src/generator/connectors.rs", "src/generator/shapes.rs: Shape"]}
{"id": "C142", "title": "Styles of a web page become text formats", "statement": "Importing an HTML page with style attributes gives the same slides as without looking at the styles, and every bullet has the colour, highlight, size, font, weight, slant and lines that the declarations around it ask for, inner declarations and later ones counting more; headings pass colour, size, slant and underline on to titles; the slide's XML shows these formats.", "quantifier": "every page of styled sections, every nesting and every list of declarations", "why_tests_cant": "Tests look at one declaration at a time on one element.", "anchors": ["src/import/html.rs: InlineStyle, parse_css_color, parse_font_size, HtmlSlideParser"]}
{"id": "C143", "title": "A web page is read as it is shown", "statement": "Reading a web page gives its title, description and the headings, paragraphs, list items, quotations, code, pictures and tables of its main content, each once, in the order of the page, with the words as a browser shows them; every block stands for an element of that kind in the page, elements that are not shown are left out, and reading never crashes.", "quantifier": "every tree of elements and texts, every configuration of the parser", "why_tests_cant": "Tests parse three small pages and compare single blocks.", "anchors": ["src/web2ppt/parser.rs: parse, extract_title, extract_meta_description, extract_content, walk_element, clean_text, extract_table"]}
{"id": "C144", "title": "What is written is what is opened", "statement": "For every list of slides with text and tables the file that is written, opened again, is a presentation with the title and, slide by slide, the titles, bullets and table texts that were put in; saving and opening it again changes nothing; the same holds from Markdown, HTML and web pages to the opened presentation.", "quantifier": "every list of slides, all texts, times and settings; every Markdown document, styled page and web page of the described forms", "why_tests_cant": "Tests write a file and check that it exists; no test compares what is opened with what was put in.", "anchors": ["src/generator/builder.rs", "src/opc/package.rs", "src/import/mod.rs", "src/import/markdown/parser.rs", "src/import/html.rs", "src/web2ppt/converter.rs", "src/cli/commands.rs"]}
{"id": "C145", "title": "Editing a file is editing its list of slides", "statement": "A written file is opened in the editor, changed by any calls and saved, any number of times; every call is accepted and answered as on a list of slides, and opening the file at the end gives the title it was written with and exactly the edited list.", "quantifier": "every list of slides, every number of sessions and every sequence of calls, every order of parts in the saved files", "why_tests_cant": "Tests make one call and look at the slide count.", "anchors": ["src/oxml/editor.rs", "src/opc/package.rs", "src/generator/builder.rs", "src/import/mod.rs"]}
{"id": "C146", "title": "Drawings are loaded again", "statement": "Loading a slide with a drawing gives its text as without the drawing and, in order, every shape with its kind, place and text; a file with drawings that is opened, saved and opened again stays what it was.", "quantifier": "every slide and drawing that is written without a stop, with positions that fit into 32 bits; all texts", "why_tests_cant": "The tests load a file with one rectangle and count slides.", "anchors": ["src/oxml/slide.rs: parse, parse_shape, parse_text_body", "src/import/mod.rs: import_pptx, map_shape_type", "src/generator/slide_xml/content.rs", "src/generator/shapes_xml.rs"]}
{"id": "C147", "title": "A compressed presentation opens as the one it was made from", "statement": "A written file that is compressed with any options and opened gives the presentation that the file itself gives: the same title, the same slides in the same order, and the same texts in titles, bullets and tables.", "quantifier": "every list of slides, all texts, every combination of options, every order of parts in the saved file", "why_tests_cant": "Tests compress one file and compare sizes; none opens the result and compares texts.", "anchors": ["src/opc/compress.rs: compress_pptx, minimize_xml, optimize_xml_content", "src/opc/package.rs", "src/import/mod.rs", "src/generator/builder.rs"]}
{"id": "C148", "title": "A generated file needs no repair", "statement": "The repair finds no issue in a file that the generator wrote: the required parts are there, no part is blank, every relationship of the package, the presentation and the slides is accepted, the listed slides are the slides of the file, and every part has a content type; so the file is not changed, and opening it after a repair gives the presentation that was written.", "quantifier": "every deck with pictures, links, notes, charts, ink, fonts, handouts and signature; every order of parts in the saved file", "why_tests_cant": "Tests repair one small file and look at the number of issues.", "anchors": ["src/oxml/repair.rs: validate, repair", "src/core/validation.rs", "src/generator/builder.rs", "src/generator/package_xml.rs", "src/generator/hyperlinks.rs"]}
{"id": "C149", "title": "A slide is exported as its own picture", "statement": "Exporting one slide as an image leaves the picture of just this slide under the name asked for, whatever is in the folder; exporting all slides gives their pictures in the order of the slides; a slide that does not exist is refused and nothing is changed; the settings asked for reach the drawing program.", "quantifier": "every number of slides, every folder and order of its files, every way the drawing program behaves", "why_tests_cant": "Tests do not call the drawing program; they look at default options.", "anchors": ["src/export/image_export.rs: export_images, export_slide, generate_thumbnail"]}
{"id": "C150", "title": "The report of a compression says what was saved", "statement": "The percentage reported by the compression is that of the bytes saved, up to rounding, and lies between 0 and 100; the sizes and the number of removed files are the real ones and the target is reported as reached exactly if it is; sizes are shown in the right unit, rounded to the last digit; after any chain of settings every option has the value set last.", "quantifier": "every pair of file sizes, every chain of settings, every number of bytes up to 2^53", "why_tests_cant": "Tests format three sizes and compute one percentage.", "anchors": ["src/opc/compress.rs: CompressionLevel, CompressionOptions, CompressionResult, compress_pptx, format_bytes, PptxAnalysis"]}
{"id": "C151", "title": "Commands on files are commands on presentations", "statement": "After any sequence of commands that create, write, merge, copy, edit and compress files, beginning without files, exactly the expected files exist and each, opened, is the presentation that the same commands give on a store of presentations; files that a command does not name are left alone.", "quantifier": "every sequence of commands of any length, every choice of paths, all texts, every order of parts in the saved files, every set of paths that cannot be written", "why_tests_cant": "Tests run one command on one file.", "anchors": ["src/mcp/mod.rs", "src/bin/pptcli.rs", "src/api.rs", "src/oxml/editor.rs", "src/opc/compress.rs", "src/import/mod.rs", "src/generator/builder.rs"]}
{"id": "C152", "title": "An edited file needs no repair", "statement": "However often a generated file is edited with the slide editor, compressed and repaired, in any order, the repair module finds nothing wrong with it and changes nothing, and the file shows the title it was written with and the slides the edits ask for.", "quantifier": "every deck, every sequence of sessions with any calls, compressions and repairs, every order of parts in the saved files", "why_tests_cant": "Tests validate one freshly generated file; no test repairs an edited file.", "anchors": ["src/oxml/editor.rs", "src/oxml/repair.rs", "src/opc/compress.rs", "src/generator/builder.rs"]}
{"id": "C153", "title": "Repairing a compressed file changes nothing", "statement": "A generated file that is compressed, whatever the options, and then repaired is opened with the slides of the presentation, each once; the repair reports no slide as missing from the presentation, and after a repair nothing is left to repair.", "quantifier": "every deck with text and tables, every choice of compression options, every order of parts in the saved files", "why_tests_cant": "Tests compress and repair separately, each on one file.", "anchors": ["src/opc/compress.rs: minimize_xml, compress_pptx", "src/oxml/repair.rs: check_slide_references, add_relationship, repair", "src/import/mod.rs"]}
{"id": "C154", "title": "A presentation made with a template has its look and the new slides", "statement": "A file is accepted as a template exactly if it has a master. A presentation made with a template has the themes, masters, layouts and table styles of the template, with everything they use and their content types, each part once; every slide has the layout it asks for or the first one; and the file is opened as the presentation it was written from.", "quantifier": "every template file with any parts, every deck and all settings, every order in which the parts of the template are visited", "why_tests_cant": "Tests use one generated file as the template and look for the layout part and one text.", "anchors": ["src/generator/template.rs: PptxTemplate", "src/generator/builder.rs: create_pptx_with_template, resolve_layout_number, write_theme_and_layouts"]}
{"id": "C155", "title": "Presentations made in one process do not influence each other", "statement": "The slide master, the layouts and their relationships are kept in variables shared by all threads. Every presentation has the parts made from its own settings, whatever was made before or is made at the same time; taking them never panics, the threads never all wait for each other, every presentation is finished, and each variable is computed once.", "quantifier": "any number of presentations with any settings, begun at any time in any number of threads, every interleaving of their steps", "why_tests_cant": "Tests make one presentation after the other in a fresh process; an interleaving that shows a wrong or unfinished value would have to be met by chance.", "anchors": ["src/generator/package_cache.rs", "src/generator/builder.rs: write_theme_and_layouts"]}
{"id": "C156", "title": "A presentation written from a slide source has the slides the source yields", "statement": "What is written for a source that is asked for its slides one by one is what is written for the list of its slides; an index without a slide takes away exactly the two parts of that slide. No part name occurs twice, every slide that is listed has its part, and the listed titles are those of the slides.", "quantifier": "every source: any count, any slide or none at every index, any reported features, all settings", "why_tests_cant": "Tests use sources that yield a slide at every index and do not override the features.", "anchors": ["src/generator/builder.rs: LazySlideSource, create_pptx_lazy_to_writer, write_package_files_lazy, write_slide_packages_lazy, write_content_types_lazy, write_notes_relationships_lazy, collect_chart_info_lazy, collect_slide_titles_lazy"]}
{"id": "C157", "title": "The information about a file is what is in it", "statement": "The tool get_pptx_info answers with a JSON document that reads as the title, the number of slides and, for each slide in order, its number, title, number of bullets and what else it has; it is an error exactly if the file cannot be loaded. The command info prints path and size and the title and number of slides of the presentation.", "quantifier": "every presentation with any texts, every file, every JSON value", "why_tests_cant": "Escaping and nesting of JSON over all texts; a test compares one answer.", "anchors": ["src/mcp/mod.rs: handle_get_pptx_info", "src/cli/commands.rs: InfoCommand"]}
{"id": "C158", "title": "Every part of a written file is a well-formed document", "statement": "Each part of a written file that is no picture, font or workbook is an XML document with one root element: content types, relationships, presentation, properties, masters, layouts, themes, notes, signature, slides, charts and ink.", "quantifier": "every deck, every number of slides, all settings and texts", "why_tests_cant": "Tests look for substrings in single parts, and the library's own check accepts any text that is not blank.", "anchors": ["src/generator/builder.rs: write_package_files", "src/generator/package_xml.rs", "src/generator/notes_xml.rs", "src/generator/theme_xml.rs", "src/generator/slide_content/presentation_settings.rs"]}
{"id": "C159", "title": "The library's validator accepts what the library writes", "statement": "The validator finds no error in a file that the library writes, so the check at the end of create_pptx and create_pptx_with_settings does not panic in debug builds. In the text of every slide it finds exactly the ids of the shapes, and no references but those to relationships of the slide.", "quantifier": "every number of slides, every slide with any texts, shapes, pictures, code, connectors, charts, ink and notes, all settings", "why_tests_cant": "The check runs on whatever decks the tests happen to build; that a text of the user is never taken for markup needs all texts.", "anchors": ["src/generator/builder.rs: debug_assert_package_valid, create_pptx, create_pptx_with_settings", "src/core/package_validation/rules.rs", "src/generator/slide_xml/content.rs"]}
{"id": "C160", "title": "A file that lost a required part is repaired", "statement": "If one of the four required parts of a written file is missing, the repair reports it, writes it again so that the file says what it said before, keeps all other parts, and reports the file as valid. The types given to parts are those of the builder, and a namespace is declared once.", "quantifier": "every deck and all settings, each of the four required parts, every number of slides; every package and namespace", "why_tests_cant": "Tests repair packages of a few parts and look for the part to be there, not for what it says.", "anchors": ["src/oxml/repair.rs: repair, repair_missing_part, generate_content_types, generate_package_rels, generate_presentation_xml, generate_presentation_rels, infer_content_type, repair_missing_namespace, repair_broken_relationship"]}
{"id": "C161", "title": "A saved presentation is exported as the presentation itself", "statement": "Exporting a saved file to HTML, Markdown or PDF gives what exporting the presentation it was saved from gives: the same text with the same titles, bullets, tables and notes.", "quantifier": "every number of slides, all texts, every choice of export options, every order of parts in the saved file", "why_tests_cant": "Tests export presentations that are in memory; the command exports files, whose slides have been written and read again.", "anchors": ["src/bin/pptcli.rs: Export", "src/mcp/mod.rs: handle_export_pptx", "src/api.rs: save_as_html, save_as_markdown, save_as_pdf", "src/export/html.rs", "src/export/md.rs", "src/import/mod.rs"]}
{"id": "C162", "title": "Exported Markdown is imported as the same slides", "statement": "A presentation that is exported to Markdown and imported again has the same number of slides, each with its title and its bullets.", "quantifier": "every presentation, every title and bullet with any special characters, every number of slides, with and without metadata and slide numbers", "why_tests_cant": "Tests export and import separately and look for substrings.", "anchors": ["src/export/md.rs: export_to_markdown_with_options", "src/cli/markdown/parser.rs"]}
{"id": "C163", "title": "Placeholders of slides, layouts and the master fit together", "statement": "The text of a slide is in placeholders, each of which is a placeholder of the layout of the slide. Every layout has the name of what was asked for, and its placeholders, like those of the slide master, have different ids, are on the slide and do not overlap.", "quantifier": "every layout, every title and number of bullets with any formats, every header, footer, date and number on the master", "why_tests_cant": "Tests look for the text of a slide, not for what kind of shape holds it, and never compare a slide with its layout.", "anchors": ["src/generator/layout_parts.rs: create_slide_layout_xml", "src/generator/theme_xml.rs: create_slide_master_xml", "src/generator/slide_xml/layouts.rs", "src/generator/slide_xml/common.rs", "src/generator/layouts/common.rs", "src/generator/layouts/two_column.rs", "src/generator/layouts/title_content.rs"]}
{"id": "C164", "title": "The validation command says the same in every form", "statement": "The exit code of the validation command is 0 exactly if the file can be read and has no error. Its text for people ends with that verdict and lists every issue with severity, category, path and message, its JSON output is always one document with the same issues, and the tool for assistants gives the same verdict and the same errors.", "quantifier": "every report, all names of files, paths and messages, files that cannot be read", "why_tests_cant": "Tests run the command on a valid file and look at the result, not at what is printed for every combination of errors and warnings.", "anchors": ["src/cli/commands.rs: ValidateCommand::execute, print_human, print_json", "src/bin/pptcli.rs: Validate", "src/mcp/mod.rs: handle_validate_pptx"]}
{"id": "C165", "title": "An exported HTML page is imported as the same slides", "statement": "A presentation that is exported to HTML and imported again has the same number of slides, each with its title and its bullets.", "quantifier": "every presentation with titles, bullets and notes, every number of slides, with and without navigation and notes, every limit of the importer", "why_tests_cant": "Tests export and import separately; none of them imports an exported page.", "anchors": ["src/export/html.rs: export_to_html_with_options", "src/export/html_navigation.js", "src/import/html.rs"]}
{"id": "C166", "title": "Imported documents open only the pictures they name", "statement": "An imported HTML page or Markdown text reads no files but those it names as pictures, and none if pictures are not wanted. Only files that begin like pictures are put on the slides, unchanged and with the format of their signature, and no file on the disk makes the import crash.", "quantifier": "all pages and texts, all disks, all options of the importer", "why_tests_cant": "Tests import documents without pictures or with one good picture; none names other files, short files or several pictures, and independence of other files is a statement about two runs.", "anchors": ["src/import/html.rs: load_image, handle_open_tag", "src/cli/markdown/parser.rs: load_image, add_image_placeholder", "src/generator/images.rs: ImageBuilder::auto"]}
{"id": "C167", "title": "Diagrams of every kind stand on the slide", "statement": "A Mermaid block of any kind is drawn by the generator of its kind, is put on the slide as a whole, in the middle of the space below the title, and no shape of it lies beside or below the slide. Alone in a document it makes one slide with the title of its kind.", "quantifier": "all texts of diagrams of all kinds but flowcharts (C90), all values of the numeric functions", "why_tests_cant": "Tests draw small examples; positions grow with the number of entries, and only some of the kinds have limits.", "anchors": ["src/cli/markdown/mermaid/mod.rs: create_diagram_elements, get_diagram_style", "src/cli/markdown/mermaid/types.rs: DiagramElements", "src/cli/markdown/parser.rs: add_mermaid_diagram"]}
{"id": "C168", "title": "A PDF made by way of Markdown shows the slides", "statement": "The PDF that pdfrs makes shows every slide, under its number and title and in order, with what the options ask for and nothing they switch off; the file written is the PDF returned, and nothing is written if making it fails.", "quantifier": "all presentations, options, file systems, and all behaviours of pdfrs", "why_tests_cant": "Tests check that a PDF of some bytes comes out; what the engine is given, and what of a slide never reaches it, does not show in the bytes of one example.", "anchors": ["src/export/pdf_export.rs: export_to_pdf_bytes, export_to_pdf, PdfExportOptions", "src/export/md.rs: export_to_markdown_with_options", "src/api.rs: save_as_pdf_via_pdfrs, to_pdf_bytes"]}
{"id": "C169", "title": "The measures of generated files are right", "statement": "The payload of slides is the number of bytes of their texts, the reserved space is the sum of what the slides, texts, charts and pictures need without overflow, both ways of generating are measured alike, and the bytes for each slide are the quotient.", "quantifier": "all slides with all texts and pictures", "why_tests_cant": "Tests compare measures of sample slides by inequalities.", "anchors": ["src/generator/memory_profile.rs: estimate_slide_payload, estimate_output_capacity, GenerationMetrics, profile_eager_generation, profile_lazy_generation, sample_slides"]}
{"id": "C170", "title": "Charts are built and drawn as they were asked for", "statement": "A built chart has the title and type it was begun with, the last place, size and labels asked for, and all series in order; the default place otherwise. Types have different names, and the part of a chart holds the drawing element, the style and the direction that its type names.", "quantifier": "all titles, types and sequences of calls of the builder, all data", "why_tests_cant": "Tests build a few charts with each method called once and look for substrings of the part.", "anchors": ["src/generator/charts/builder.rs: ChartBuilder", "src/core/placement.rs: ElementPlacement", "src/generator/charts/types.rs: as_str, xml_element, bar_direction, has_markers, is_smooth", "src/helpers/mod.rs: bar_chart, line_chart, pie_chart, area_chart"]}
{"id": "C171", "title": "A colour name names one colour", "statement": "Every named colour is written as six digits, and functions, constants and presets of the same name, in all spellings and in imported pages, mean the same colour. The palettes of the prelude are the themes of the generator, with every colour in the place it is named for.", "quantifier": "all named colours of the library and of imported pages, all palettes", "why_tests_cant": "Tests look at single colours; that lists in four places agree is a statement about all of them.", "anchors": ["src/helpers/colors.rs: red, green, …, corporate_orange", "src/prelude.rs: colors, themes", "src/elements/color.rs: RgbColor", "src/import/html.rs: css_named_color"]}
{"id": "C172", "title": "The converting commands write one file and say so", "statement": "A run of create, md2ppt, html2ppt, pdf2ppt or web2ppt either writes the presentation of its input to its output and nothing else, ends with code 0 and prints the file, title and size it wrote; or it ends with code 1 and one message, and changes nothing. The input is never overwritten unless it is named as output, and without --title the presentation has the title of the document.", "quantifier": "all file systems with all failures, all inputs, all behaviours of importers and generator", "why_tests_cant": "Tests run the commands on good input in an empty directory; failures of the system at every step and what they leave behind are not tested.", "anchors": ["src/bin/pptcli.rs: main, execute_web2ppt", "src/cli/commands.rs: CreateCommand, FromMarkdownCommand, FromHtmlCommand", "src/mcp/mod.rs: handle_markdown_to_pptx", "src/import/html.rs"]}
{"id": "C173", "title": "The options of the web converter take effect", "statement": "Every option of the web converter has the value of the last call that sets it, or its default, and every option has its effect: what is switched off is not in the presentation, what is switched on is, and titles, author, sizes and page numbers are those asked for.", "quantifier": "all pages, all configurations and all sequences of calls of their methods", "why_tests_cant": "Tests read back the fields of a configuration; that two configurations give the same file for every page is a statement about all pages and both runs.", "anchors": ["src/web2ppt/config.rs: Web2PptConfig", "src/web2ppt/converter.rs: ConversionOptions, html_to_pptx_with_options, build_slides", "src/web2ppt/parser.rs: walk_element"]}
{"id": "C174", "title": "Command lines mean what they say", "statement": "A command line with the arguments of a command and any of its options, each at most once, in any order and spelling and with any values, starts the command with exactly these values and the defaults for the rest, and these reach the importer. Everything else is refused before anything is done, and without options a command converts like the library.", "quantifier": "all commands, all command lines", "why_tests_cant": "Tests run the commands with a few options; that the place and spelling of options do not matter is a statement about all lines.", "anchors": ["src/cli/parser.rs: Cli, Commands, ExportFormat", "src/bin/pptcli.rs: main, execute_web2ppt", "src/cli/commands.rs: FromHtmlCommand::execute"]}
{"id": "C175", "title": "Sessions of the command line tool touch only their outputs", "statement": "However many command lines are run one after another, and whatever fails: a file that is the output of none of them is as before, the output of the last successful run holds what it wrote, a run that fails changes nothing, and a line that succeeds has written the presentation of its input with the options given.", "quantifier": "all sequences of command lines, all file systems with all failures, all behaviours of importers, generator and network", "why_tests_cant": "Tests run single commands in fresh directories; what a sequence of runs with failures leaves is a statement about all sequences.", "anchors": ["src/bin/pptcli.rs: main, execute_web2ppt", "src/cli/parser.rs: Cli, Commands", "src/cli/commands.rs: CreateCommand, FromMarkdownCommand, FromHtmlCommand", "src/api.rs: from_path, add_presentation, save"]}
{"id": "C176", "title": "Settings hold what was last set", "statement": "Slide show and print settings, signatures, fonts, videos, sounds and links have, after any calls of their methods, the value of the last call for each field and the documented default otherwise; strokes and ink keep everything added in order; new settings are the default settings, and every option can be set.", "quantifier": "all sequences of calls with all values", "why_tests_cant": "Tests call each method once and read the field back; that calls do not disturb each other is a statement about all sequences.", "anchors": ["src/generator/slide_content/slide_show_settings.rs: SlideShowSettings", "src/generator/slide_content/print_settings.rs: PrintSettings, HandoutLayout", "src/generator/slide_content/digital_signature.rs: SignerInfo, DigitalSignature, HashAlgorithm", "src/generator/slide_content/embedded_fonts.rs: EmbeddedFont, EmbeddedFontList", "src/generator/slide_content/ink_annotations.rs: InkStroke, InkAnnotations", "src/generator/media.rs: VideoOptions, AudioOptions, Video, Audio", "src/generator/hyperlinks.rs: Hyperlink"]}
{"id": "C177", "title": "A presentation holds what was put into it", "statement": "After any calls of its methods a presentation has the slides added, one by one or from other presentations, in the order of the calls, the last title, and the last value given for every setting; what is built is made of exactly these, and saving writes it to the path and changes no other file. Nothing that was given is lost.", "quantifier": "all presentations, sequences of calls, settings, generators and file systems", "why_tests_cant": "Tests add a few slides and settings in one order; that the order of calls does not lose anything is a statement about all sequences.", "anchors": ["src/api.rs: Presentation::title, add_slide, add_presentation, with_theme, with_settings, build, into_bytes, save", "src/generator/slide_content/presentation_settings.rs: PresentationSettings"]}
{"id": "C178", "title": "Tables and themes hold what was last set", "statement": "After any calls of their methods cells of the table part and themes have, for each field, the value of the last call that sets it; tables have the rows added, in order, and the last position, size and column widths given. The order of calls for different things does not matter, every color can be set, and what was set can be taken back.", "quantifier": "all cells, tables, color schemes and themes, all sequences of calls with all values", "why_tests_cant": "Tests call each method once and read the field back; that calls do not disturb each other is a statement about all sequences.", "anchors": ["src/parts/table.rs: TableCellPart, CellBorders, CellMargins, TablePart", "src/generator/presentation_theme.rs: ThemeColorScheme, ThemeFonts, PresentationTheme"]}
{"id": "C179", "title": "Text holds what was last set", "statement": "After any calls of their methods formats, runs, paragraphs and text frames have, for each field, the value of the last call that sets it, with sub- and superscript putting each other out and levels cut off at 8; runs and paragraphs added are kept in order. No call fails, and every field can be set.", "quantifier": "all formats, runs, paragraphs and frames, all sequences of calls with all values", "why_tests_cant": "Tests call each method once and read the field back; that calls do not disturb each other is a statement about all sequences.", "anchors": ["src/generator/text/format.rs: TextFormat, FormattedText", "src/generator/text/run.rs: Run", "src/generator/text/paragraph.rs: Paragraph", "src/generator/text/frame.rs: TextFrame"]}
{"id": "C180", "title": "Checks refuse exactly what they name, and say so", "statement": "A text is accepted if and only if it is not blank, a list if it is not empty, an index if it is within range, a number if it is positive; otherwise the error names the field and the problem. Exactly the required parts that are missing are reported, in order; messages of different problems differ, and the lists of required parts agree.", "quantifier": "all texts, lists, numbers, fields, packages and lists of required parts", "why_tests_cant": "Tests check one accepted and one refused value each; equivalences and unambiguous messages are statements about all values.", "anchors": ["src/core/validation.rs: validate_non_empty_str, validate_non_empty, validate_index, validate_positive, check_required_parts, check_required_parts_with_descriptions, ValidationIssue::message", "src/exc/messages.rs"]}
{"id": "C181", "title": "Sections tell their slides and overlaps truly", "statement": "The slides of a section are those from its first to its last slide, and a section ends before the next begins; adding a section gives an error exactly if it is refused, and the message names an existing section that shares a slide with it and the slides of both. A name means one section.", "quantifier": "all sections and histories of adding, removing and renaming", "why_tests_cant": "Tests check one section and one overlap; the statements are about all ranges and all histories.", "anchors": ["src/generator/slide_content/sections.rs: SlideSection::last_slide, SectionManager::add_section, get_section, rename_section"]}
