{
 "claims": [
  {
   "property": "C01",
   "status": "proved",
   "theorems": [
    "PptRs.Props.C01_escape_roundtrip",
    "PptRs.Props.C01_escape_no_markup",
    "PptRs.Props.C01_escape_amp",
    "PptRs.Props.C01_escape_injective"
   ],
   "note": ""
  },
  {
   "property": "C02",
   "status": "proved",
   "theorems": [
    "PptRs.Props.C02_attr_roundtrip",
    "PptRs.Props.C02_html_roundtrip",
    "PptRs.Props.C02_chained_eq",
    "PptRs.Props.C02_props_eq",
    "PptRs.Props.C02_append_eq"
   ],
   "note": ""
  },
  {
   "property": "C03",
   "status": "proved",
   "theorems": [
    "PptRs.Props.C03_writer_roundtrip",
    "PptRs.Props.C03_writer_appends"
   ],
   "note": ""
  },
  {
   "property": "C04",
   "status": "proved",
   "theorems": [
    "PptRs.Props.C04_get_last_write",
    "PptRs.Props.C04_has_iff_get",
    "PptRs.Props.C04_remove_returns",
    "PptRs.Props.C04_count"
   ],
   "note": ""
  },
  {
   "property": "C05",
   "status": "partial",
   "theorems": [
    "PptRs.Props.C05_open_last_entry",
    "PptRs.Props.C05_roundtrip_partial",
    "PptRs.Props.C05_roundtrip_violated"
   ],
   "note": "Holds for all paths that do not end in a slash or backslash; such a part is written but skipped as a directory on opening (C05_roundtrip_violated)."
  },
  {
   "property": "C06",
   "status": "partial",
   "theorems": [
    "PptRs.Props.C06_resolve_is_walk",
    "PptRs.Props.C06_resolve_clean",
    "PptRs.Props.C06_resolve_up_down",
    "PptRs.Props.C06_resolve_absolute",
    "PptRs.Props.C06_resolve_violated",
    "PptRs.Props.C06_source_dir"
   ],
   "note": "Holds for relative targets and for clean absolute targets; an absolute target with '..' or empty segments is not normalised (C06_resolve_violated)."
  },
  {
   "property": "C07",
   "status": "proved",
   "theorems": [
    "PptRs.Props.C07_parse_render"
   ],
   "note": ""
  },
  {
   "property": "C08",
   "status": "partial",
   "theorems": [
    "PptRs.Props.C08_ids_distinct",
    "PptRs.Props.C08_slides_resolve",
    "PptRs.Props.C08_masters_resolve",
    "PptRs.Props.C08_fonts_resolve",
    "PptRs.Props.C08_font_ids_violated",
    "PptRs.Props.C08_text_reads_back"
   ],
   "note": "All ids distinct and all references resolve, for decks whose fonts have no id chosen by the caller; a chosen font id can collide with a slide's id (C08_font_ids_violated)."
  },
  {
   "property": "C09",
   "status": "proved",
   "theorems": [
    "PptRs.Props.C09_slide_ids"
   ],
   "note": ""
  },
  {
   "property": "C10",
   "status": "proved",
   "theorems": [
    "PptRs.Props.C10_add_fresh",
    "PptRs.Props.C10_ids_distinct",
    "PptRs.Props.C10_get",
    "PptRs.Props.C10_stored"
   ],
   "note": ""
  },
  {
   "property": "C11",
   "status": "partial",
   "theorems": [
    "PptRs.Props.C11_standard_partial",
    "PptRs.Props.C11_custom_partial",
    "PptRs.Props.C11_roundtrip_violated"
   ],
   "note": "Round trip proved for the standard types except extendedProperties, and for custom URIs containing none of the recognised fragments; otherwise the type comes back as another one (C11_roundtrip_violated)."
  },
  {
   "property": "C12",
   "status": "proved",
   "theorems": [
    "PptRs.Props.C12_regions_disjoint",
    "PptRs.Props.C12_accept_iff",
    "PptRs.Props.C12_effect"
   ],
   "note": ""
  },
  {
   "property": "C13",
   "status": "proved",
   "theorems": [
    "PptRs.Props.C13_cell_cases",
    "PptRs.Props.C13_areas_add_up"
   ],
   "note": ""
  },
  {
   "property": "C14",
   "status": "proved",
   "theorems": [
    "PptRs.Props.C14_sorted",
    "PptRs.Props.C14_disjoint",
    "PptRs.Props.C14_lookup",
    "PptRs.Props.C14_add_iff",
    "PptRs.Props.C14_remove_rename"
   ],
   "note": ""
  },
  {
   "property": "C15",
   "status": "proved",
   "theorems": [
    "PptRs.Props.C15_ids_in_order",
    "PptRs.Props.C15_id_resolves",
    "PptRs.Props.C15_idempotent",
    "PptRs.Props.C15_distinct"
   ],
   "note": ""
  },
  {
   "property": "C16",
   "status": "proved",
   "theorems": [
    "PptRs.Props.C16_editing_is_list_editing",
    "PptRs.Props.C16_new_presentation"
   ],
   "note": "For packages whose slides are numbered 1..n, as generated ones are, and without the two temporary names; relationship parts move with their slides. A duplicated slide without relationships gets an empty relationship part, which the specification records."
  },
  {
   "property": "C17",
   "status": "proved",
   "theorems": [
    "PptRs.Props.C17_rejected_changes_nothing",
    "PptRs.Props.C17_accepted_iff_in_range"
   ],
   "note": ""
  },
  {
   "property": "C18",
   "status": "partial",
   "theorems": [
    "PptRs.Props.C18_added_relationship_partial",
    "PptRs.Props.C18_added_id_violated",
    "PptRs.Props.C18_slide_list_extended"
   ],
   "note": "The slide list entry is right; the relationship id is the slide number plus one, which in every generated deck already belongs to another relationship (C18_added_id_violated). What is written is described exactly (C18_added_relationship_partial)."
  },
  {
   "property": "C19",
   "status": "partial",
   "theorems": [
    "PptRs.Props.C19_masters_after_edit_partial",
    "PptRs.Props.C19_masters_after_edit_violated"
   ],
   "note": "Right exactly when the presentation has four slides after the edit; otherwise the reference to the notes master or handout master leads to another part (C19_masters_after_edit_violated)."
  },
  {
   "property": "C20",
   "status": "proved",
   "theorems": [
    "PptRs.Props.C20_encode_is_base64",
    "PptRs.Props.C20_decode_encoded",
    "PptRs.Props.C20_decode_base64",
    "PptRs.Props.C20_unpadded",
    "PptRs.Props.C20_rejects"
   ],
   "note": ""
  },
  {
   "property": "C21",
   "status": "proved",
   "theorems": [
    "PptRs.Props.C21_parse",
    "PptRs.Props.C21_roundtrip",
    "PptRs.Props.C21_roundtrip_alpha"
   ],
   "note": ""
  },
  {
   "property": "C22",
   "status": "partial",
   "theorems": [
    "PptRs.Props.C22_ascii_never_crashes_partial",
    "PptRs.Props.C22_other_lengths_partial",
    "PptRs.Props.C22_crash_violated",
    "PptRs.Props.C22_html_violated",
    "PptRs.Props.C22_html_partial"
   ],
   "note": "Never crashes on ASCII text nor on text whose byte length is not 6 or 8; every 6-byte text starting with a three-byte character crashes both parsers (C22_crash_violated). Web pages: a style colour of eight bytes that cannot be cut after six stops the import (C22_html_violated); with ASCII style attributes no page crashes it (C22_html_partial)."
  },
  {
   "property": "C23",
   "status": "proved",
   "theorems": [
    "PptRs.Props.C23_nonblank_kept",
    "PptRs.Props.C23_not_longer",
    "PptRs.Props.C23_quoted_kept",
    "PptRs.Props.C23_only_blanks_dropped"
   ],
   "note": ""
  },
  {
   "property": "C24",
   "status": "partial",
   "theorems": [
    "PptRs.Props.C24_tidy_unchanged_partial",
    "PptRs.Props.C24_trailing_space_violated",
    "PptRs.Props.C24_inner_spaces_violated",
    "PptRs.Props.C24_quote_in_text_violated"
   ],
   "note": "Texts without runs of blanks and without blanks before a tag are unchanged. A space at the end of a text run is always lost (C24_trailing_space_violated), runs of spaces are shortened, and a quotation mark in a text lets attribute values be changed."
  },
  {
   "property": "C25",
   "status": "partial",
   "theorems": [
    "PptRs.Props.C25_exact_partial",
    "PptRs.Props.C25_others_kept",
    "PptRs.Props.C25_count",
    "PptRs.Props.C25_used_picture_violated",
    "PptRs.Props.C25_not_on_slide_violated"
   ],
   "note": "Exact characterisation proved: a media part is kept iff some slide's own XML contains its file name. Relationship parts are not searched, so pictures in use are dropped (C25_used_picture_violated, C25_not_on_slide_violated)."
  },
  {
   "property": "C26",
   "status": "proved",
   "theorems": [
    "PptRs.Props.C26_fold",
    "PptRs.Props.C26_sizes",
    "PptRs.Props.C26_counts"
   ],
   "note": ""
  },
  {
   "property": "C27",
   "status": "proved",
   "theorems": [
    "PptRs.Props.C27_files",
    "PptRs.Props.C27_number_denotes",
    "PptRs.Props.C27_same_number_iff",
    "PptRs.Props.C27_no_gaps"
   ],
   "note": ""
  },
  {
   "property": "C28",
   "status": "partial",
   "theorems": [
    "PptRs.Props.C28_ids_distinct",
    "PptRs.Props.C28_images_partial",
    "PptRs.Props.C28_charts_partial",
    "PptRs.Props.C28_ink_partial",
    "PptRs.Props.C28_layout_and_notes",
    "PptRs.Props.C28_links_partial",
    "PptRs.Props.C28_images_violated",
    "PptRs.Props.C28_link_ids_violated"
   ],
   "note": "Pictures, charts and ink resolve if every image of the slide has data; otherwise the ids in the slide and in its relationships drift apart (C28_images_violated). Ids chosen by the caller for hyperlinks are not checked (C28_link_ids_violated)."
  },
  {
   "property": "C29",
   "status": "partial",
   "theorems": [
    "PptRs.Props.C29_template_layout",
    "PptRs.Props.C29_no_dangling_partial",
    "PptRs.Props.C29_links_violated"
   ],
   "note": "No relationship dangles if images have ordinary extensions, hyperlink ids are the caller's responsibility, and internal hyperlink targets are slides of the deck; a link to a slide outside the deck dangles (C29_links_violated)."
  },
  {
   "property": "C30",
   "status": "partial",
   "theorems": [
    "PptRs.Props.C30_types_partial",
    "PptRs.Props.C30_overrides_exist",
    "PptRs.Props.C30_images_violated",
    "PptRs.Props.C30_template_violated"
   ],
   "note": "Proved for decks without a template whose images have extension png, jpg or gif; jpeg images get no content type (C30_images_violated), a template's layouts beyond the seventh get none (C30_template_violated)."
  },
  {
   "property": "C31",
   "status": "partial",
   "theorems": [
    "PptRs.Props.C31_exact_parts",
    "PptRs.Props.C31_no_duplicates_partial",
    "PptRs.Props.C31_fonts_violated",
    "PptRs.Props.C31_template_violated",
    "PptRs.Props.C31_required_parts"
   ],
   "note": "Part names proved exactly equal to the expected list for decks without a template; distinctness needs distinct font file names (C31_fonts_violated). With a template whose parts include generated names, entries are duplicated (C31_template_violated)."
  },
  {
   "property": "C32",
   "status": "proved",
   "theorems": [
    "PptRs.Props.C32_numbers",
    "PptRs.Props.C32_start",
    "PptRs.Props.C32_parts"
   ],
   "note": ""
  },
  {
   "property": "C33",
   "status": "partial",
   "theorems": [
    "PptRs.Props.C33_drawing_ids",
    "PptRs.Props.C33_one_id_each",
    "PptRs.Props.C33_user_ids_violated"
   ],
   "note": "Distinct for slides whose shapes have no id chosen by the caller; a chosen id can collide (C33_user_ids_violated)."
  },
  {
   "property": "C34",
   "status": "partial",
   "theorems": [
    "PptRs.Props.C34_same_parts",
    "PptRs.Props.C34_same_content_partial",
    "PptRs.Props.C34_content_types_partial",
    "PptRs.Props.C34_content_types_violated",
    "PptRs.Props.C34_content_violated"
   ],
   "note": "Part names agree for all decks. Contents agree apart from [Content_Types].xml if every image has data (C34_content_violated otherwise); the content type lists agree without signature, fonts and ink (C34_content_types_violated otherwise)."
  },
  {
   "property": "C35",
   "status": "proved",
   "theorems": [
    "PptRs.Props.C35_two_columns",
    "PptRs.Props.C35_two_columns_few"
   ],
   "note": "Colours, fonts and custom bullet characters must not contain markup (see C66)."
  },
  {
   "property": "C36",
   "status": "proved",
   "theorems": [
    "PptRs.Props.C36_accounted",
    "PptRs.Props.C36_valid",
    "PptRs.Props.C36_untouched"
   ],
   "note": ""
  },
  {
   "property": "C37",
   "status": "partial",
   "theorems": [
    "PptRs.Props.C37_escaped_partial",
    "PptRs.Props.C37_unchanged",
    "PptRs.Props.C37_nothing_lost",
    "PptRs.Props.C37_bare",
    "PptRs.Props.C37_declaration",
    "PptRs.Props.C37_bad_number_violated"
   ],
   "note": "Every ampersand starts an entity or '&#' afterwards; references are kept, texts without semicolons are escaped exactly. Unknown entities lose their semicolon, '&#zz;' is kept, and numeric references with leading zeros are escaped (C37_bad_number_violated)."
  },
  {
   "property": "C38",
   "status": "partial",
   "theorems": [
    "PptRs.Props.C38_rel_id_fresh",
    "PptRs.Props.C38_relationship_added",
    "PptRs.Props.C38_slide_id_fresh",
    "PptRs.Props.C38_slide_listed",
    "PptRs.Props.C38_slide_id_legal_violated",
    "PptRs.Props.C38_both_parts"
   ],
   "note": "Fresh relationship and slide ids, same id in both parts, list extended at its end. In a presentation without slides the new slide id is 1, which is not legal (C38_slide_id_legal_violated)."
  },
  {
   "property": "C39",
   "status": "proved",
   "theorems": [
    "PptRs.Props.C39_valid_iff_no_error",
    "PptRs.Props.C39_counts",
    "PptRs.Props.C39_extend",
    "PptRs.Props.C39_error_messages",
    "PptRs.Props.C39_valid_iff",
    "PptRs.Props.C39_in_category"
   ],
   "note": ""
  },
  {
   "property": "C40",
   "status": "proved",
   "theorems": [
    "PptRs.Props.C40_dangling_reported",
    "PptRs.Props.C40_valid_iff_no_dangling"
   ],
   "note": ""
  },
  {
   "property": "C41",
   "status": "proved",
   "theorems": [
    "PptRs.Props.C41_roundtrip",
    "PptRs.Props.C41_no_control",
    "PptRs.Props.C41_injective"
   ],
   "note": ""
  },
  {
   "property": "C42",
   "status": "proved",
   "theorems": [
    "PptRs.Props.C42_roundtrip",
    "PptRs.Props.C42_active_escaped",
    "PptRs.Props.C42_plain"
   ],
   "note": ""
  },
  {
   "property": "C43",
   "status": "partial",
   "theorems": [
    "PptRs.Props.C43_roundtrip_partial",
    "PptRs.Props.C43_shape_partial",
    "PptRs.Props.C43_pipes_violated",
    "PptRs.Props.C43_newline_violated"
   ],
   "note": "Texts without a pipe and without line breaks read back cell by cell; pipes and line breaks are not escaped (C43_pipes_violated, C43_newline_violated)."
  },
  {
   "property": "C44",
   "status": "partial",
   "theorems": [
    "PptRs.Props.C44_hidden_partial",
    "PptRs.Props.C44_lost_violated",
    "PptRs.Props.C44_tokens",
    "PptRs.Props.C44_page_partial",
    "PptRs.Props.C44_page_violated",
    "PptRs.Props.C44_script_violated",
    "PptRs.Props.C44_attributes"
   ],
   "note": "A page is imported as if its hidden elements were not there, from the written text on (C44_page_partial), provided no hidden element contains an element without closing tag. Otherwise everything after it is lost (C44_page_violated), as it is after a script with a `<` in it (C44_script_violated)."
  },
  {
   "property": "C45",
   "status": "partial",
   "theorems": [
    "PptRs.Props.C45_headings_violated",
    "PptRs.Props.C45_zero_violated",
    "PptRs.Props.C45_bullets_match",
    "PptRs.Props.C45_bullets_partial",
    "PptRs.Props.C45_switches",
    "PptRs.Props.C45_slides"
   ],
   "note": "Slides: exact (C45_slides). Switches: exact. Bullets: at most max 1 limit plus the number of sub-headings (C45_bullets_partial); sub-headings ignore the limit (C45_headings_violated) and limit 0 still gives a bullet (C45_zero_violated)."
  },
  {
   "property": "C46",
   "status": "proved",
   "theorems": [
    "PptRs.Props.C46_entity",
    "PptRs.Props.C46_html_roundtrip",
    "PptRs.Props.C46_xml_roundtrip",
    "PptRs.Props.C46_no_ampersand",
    "PptRs.Props.C46_no_semicolon",
    "PptRs.Props.C46_decimal",
    "PptRs.Props.C46_no_character",
    "PptRs.Props.C46_length"
   ],
   "note": ""
  },
  {
   "property": "C47",
   "status": "partial",
   "theorems": [
    "PptRs.Props.C47_flatten",
    "PptRs.Props.C47_in_order_partial",
    "PptRs.Props.C47_groups",
    "PptRs.Props.C47_nothing_lost",
    "PptRs.Props.C47_headings",
    "PptRs.Props.C47_order_violated"
   ],
   "note": "All blocks kept, one group per heading; blocks before the first heading are moved behind it (C47_order_violated)."
  },
  {
   "property": "C48",
   "status": "partial",
   "theorems": [
    "PptRs.Props.C48_slides",
    "PptRs.Props.C48_bullets_partial",
    "PptRs.Props.C48_zero_violated"
   ],
   "note": "Slide limit always respected; bullet limit respected unless it is zero (C48_zero_violated)."
  },
  {
   "property": "C49",
   "status": "proved",
   "theorems": [
    "PptRs.Props.C49_fits",
    "PptRs.Props.C49_prefix",
    "PptRs.Props.C49_bound",
    "PptRs.Props.C49_no_space",
    "PptRs.Props.C49_at_word"
   ],
   "note": ""
  },
  {
   "property": "C50",
   "status": "partial",
   "theorems": [
    "PptRs.Props.C50_grid",
    "PptRs.Props.C50_stack_horizontal",
    "PptRs.Props.C50_stack_vertical",
    "PptRs.Props.C50_distribute",
    "PptRs.Props.C50_center",
    "PptRs.Props.C50_too_large_violated",
    "PptRs.Props.C50_empty_violated"
   ],
   "note": "All helpers, whenever the shapes fit on the slide: exact positions, no overlap, centred. Sizes that do not fit crash by subtraction overflow in a debug build (C50_too_large_violated), and an empty stack crashes (C50_empty_violated)."
  },
  {
   "property": "C51",
   "status": "partial",
   "theorems": [
    "PptRs.Props.C51_rebuilds_partial",
    "PptRs.Props.C51_error",
    "PptRs.Props.C51_cdata",
    "PptRs.Props.C51_empty",
    "PptRs.Props.C51_search_order",
    "PptRs.Props.C51_attributes",
    "PptRs.Props.C51_text_partial",
    "PptRs.Props.C51_blank_text_violated",
    "PptRs.Props.C51_mixed_text_violated"
   ],
   "note": "Tree, attributes, search order and errors exact; texts that are white space only are lost and texts around children are joined (violated theorems)."
  },
  {
   "property": "C52",
   "status": "partial",
   "theorems": [
    "PptRs.Props.C52_generated_order",
    "PptRs.Props.C52_order_after_edits",
    "PptRs.Props.C52_edited_deck_partial",
    "PptRs.Props.C52_new_editor_violated",
    "PptRs.Props.C52_fonts_order"
   ],
   "note": "Generated decks and decks after any history of edits are read in order, with the content of every slide (C52_order_after_edits); without presentation relationships, as in a new editor, the order is that of the file names (C52_new_editor_violated)."
  },
  {
   "property": "C53",
   "status": "partial",
   "theorems": [
    "PptRs.Props.C53_time_partial",
    "PptRs.Props.C53_date_violated",
    "PptRs.Props.C53_month_violated"
   ],
   "note": "Time of day right for every clock value; years are taken as 365 days and months as 30, so from the end of 1976 on no timestamp denotes the right instant (C53_date_violated), and month 13 occurs (C53_month_violated)."
  },
  {
   "property": "C54",
   "status": "partial",
   "theorems": [
    "PptRs.Props.C54_core_partial",
    "PptRs.Props.C54_core_violated",
    "PptRs.Props.C54_unreadable_violated",
    "PptRs.Props.C54_markup_violated",
    "PptRs.Props.C54_app",
    "PptRs.Props.C54_titles"
   ],
   "note": "app.xml proved for every title list; core.xml only for titles without markup characters because the title is not escaped: every title with an ampersand is read differently or not at all (C54_core_violated)."
  },
  {
   "property": "C55",
   "status": "partial",
   "theorems": [
    "PptRs.Props.C55_cleanup_partial",
    "PptRs.Props.C55_leak_violated",
    "PptRs.Props.C55_one_after_another_partial",
    "PptRs.Props.C55_mixed_up_violated",
    "PptRs.Props.C55_spurious_error_violated"
   ],
   "note": "Proved for calls that do not overlap; overlapping calls share fixed temporary file names and return each other's output or fail (violated theorems)."
  },
  {
   "property": "C56",
   "status": "partial",
   "theorems": [
    "PptRs.Props.C56_old_or_beginning_partial",
    "PptRs.Props.C56_empty_file_violated"
   ],
   "note": "Old file or a beginning of the new one; the file is empty right after it is created, so an interruption destroys the old deck (C56_empty_file_violated)."
  },
  {
   "property": "C57",
   "status": "partial",
   "theorems": [
    "PptRs.Props.C57_simple_partial",
    "PptRs.Props.C57_simple_violated",
    "PptRs.Props.C57_data_empty_violated",
    "PptRs.Props.C57_data_first_violated",
    "PptRs.Props.C57_data_ragged_violated",
    "PptRs.Props.C57_data_partial",
    "PptRs.Props.C57_header_partial",
    "PptRs.Props.C57_header_violated",
    "PptRs.Props.C57_quick_partial",
    "PptRs.Props.C57_quick_violated",
    "PptRs.Props.C57_string_rows_partial",
    "PptRs.Props.C57_string_rows_violated",
    "PptRs.Props.C57_widths",
    "PptRs.Props.C57_wide_violated"
   ],
   "note": "For each helper: the shape, the padding and the column widths under the stated condition, and the inputs for which it crashes or gives a ragged table (zero columns, empty data, rows of different length). C57_widths: exact widths and places. C57_wide_violated: 2^32 columns panic."
  },
  {
   "property": "C58",
   "status": "partial",
   "theorems": [
    "PptRs.Props.C58_formats_partial",
    "PptRs.Props.C58_short_violated",
    "PptRs.Props.C58_name_partial",
    "PptRs.Props.C58_size_total",
    "PptRs.Props.C58_png_size",
    "PptRs.Props.C58_gif_size",
    "PptRs.Props.C58_webp_size",
    "PptRs.Props.C58_webp_lossless_size",
    "PptRs.Props.C58_jpeg_size_partial",
    "PptRs.Props.C58_extended_violated",
    "PptRs.Props.C58_from_file",
    "PptRs.Props.C58_bitmap_violated"
   ],
   "note": "Format for all data but 4 and 5 byte files, which crash (C58_short_violated); sizes for PNG, GIF, WebP (lossy, lossless) and JPEG with baseline or progressive frame after any list of segments. Extended JPEG frames are not found (C58_extended_violated); top-down bitmaps crash the loader (C58_bitmap_violated)."
  },
  {
   "property": "C59",
   "status": "partial",
   "theorems": [
    "PptRs.Props.C59_flat_partial",
    "PptRs.Props.C59_nested_violated",
    "PptRs.Props.C59_earlier_items_violated",
    "PptRs.Props.C59_paragraphs_violated",
    "PptRs.Props.C59_quoted_violated",
    "PptRs.Props.C59_tasks_violated"
   ],
   "note": "C59_flat_partial: the items of every list outside other lists, with one paragraph each, become bullets of one slide in order. Violated: an item containing a list and the items before it are lost; several paragraphs of an item are glued together; a list in a quote becomes notes; the state of tasks is lost."
  },
  {
   "property": "C60",
   "status": "partial",
   "theorems": [
    "PptRs.Props.C60_reloaded_targets_partial",
    "PptRs.Props.C60_generated_violated",
    "PptRs.Props.C60_new_partial",
    "PptRs.Props.C60_relationship_ids_partial",
    "PptRs.Props.C60_targets_partial",
    "PptRs.Props.C60_loaded_violated"
   ],
   "note": "Slide ids and targets proved for new parts and after writing and reading; a loaded part can hand out a slide id twice (C60_loaded_violated), and loading any generated deck gives the theme the relationship id of the first slide (C60_generated_violated)."
  },
  {
   "property": "C61",
   "status": "partial",
   "theorems": [
    "PptRs.Props.C61_reading_partial",
    "PptRs.Props.C61_header",
    "PptRs.Props.C61_source_partial",
    "PptRs.Props.C61_any_text",
    "PptRs.Props.C61_two_subgraphs_violated",
    "PptRs.Props.C61_chain_violated",
    "PptRs.Props.C61_slide_numbers_violated",
    "PptRs.Props.C61_two_diagrams_violated",
    "PptRs.Props.C61_layout_partial"
   ],
   "note": "C61_source_partial: for every chart written one edge, node or subgraph line per line with the arrows and outlines listed, the shapes and connectors drawn are exactly those meant, attached to the right boxes, with distinct numbers. C61_any_text covers every input text: what is read never names an unknown node. Missing: text in other forms. Violated: a node named in two subgraphs is drawn twice; chained arrows lose edges; subgraph backgrounds without a number collide with number 10 on the slide; two diagrams on one slide share numbers."
  },
  {
   "property": "C62",
   "status": "proved",
   "theorems": [
    "PptRs.Props.C62_section_ids"
   ],
   "note": ""
  },
  {
   "property": "C63",
   "status": "partial",
   "theorems": [
    "PptRs.Props.C63_link_without_id_violated",
    "PptRs.Props.C63_links_written_partial",
    "PptRs.Props.C63_targets_partial",
    "PptRs.Props.C63_jump_violated"
   ],
   "note": "Hyperlinks with an id are written; one without an id is dropped (C63_link_without_id_violated)."
  },
  {
   "property": "C64",
   "status": "partial",
   "theorems": [
    "PptRs.Props.C64_relationships_partial",
    "PptRs.Props.C64_required",
    "PptRs.Props.C64_content_types_partial",
    "PptRs.Props.C64_extensions_violated",
    "PptRs.Props.C64_links_violated",
    "PptRs.Props.C64_fonts_violated",
    "PptRs.Props.C64_xml_partial",
    "PptRs.Props.C64_slides_partial",
    "PptRs.Props.C64_charts_partial",
    "PptRs.Props.C64_notes_partial",
    "PptRs.Props.C64_theme_partial",
    "PptRs.Props.C64_notes_master_partial",
    "PptRs.Props.C64_handout_partial",
    "PptRs.Props.C64_master_ids_dead",
    "PptRs.Props.C64_master_partial",
    "PptRs.Props.C64_accepted_partial",
    "PptRs.Props.C64_missing_bytes_violated",
    "PptRs.Props.C64_notes_links_violated",
    "PptRs.Props.C64_presentation_partial"
   ],
   "note": "Proved for decks without a template, pictures with bytes and ordinary extensions, link ids without quotes that are distinct and free, no shape ids chosen by the caller, plain typefaces, font ids left to the builder. The texts of slides, charts, masters and themes are a parameter that has the ids and references of the builder's model (TextsOk). The violations show why the conditions are needed."
  },
  {
   "property": "C65",
   "status": "partial",
   "theorems": [
    "PptRs.Props.C65_levels_partial",
    "PptRs.Props.C65_bullets_written_once_partial",
    "PptRs.Props.C65_bullets_lost_violated",
    "PptRs.Props.C65_bullets_hidden_by_table_violated"
   ],
   "note": "Proved for layouts with a content area and no table; bullets are lost in Blank, TitleOnly, SectionHeader and CenteredTitle (C65_bullets_lost_violated) and hidden by a table (C65_bullets_hidden_by_table_violated)."
  },
  {
   "property": "C66",
   "status": "partial",
   "theorems": [
    "PptRs.Props.C66_slide_text_reads_back_partial",
    "PptRs.Props.C66_custom_bullet_violated",
    "PptRs.Props.C66_color_violated",
    "PptRs.Props.C66_font_violated"
   ],
   "note": "No condition on texts; colours, fonts and custom bullet characters must not contain markup because they are written unescaped (C66_custom_bullet_violated, C66_color_violated, C66_font_violated)."
  },
  {
   "property": "C67",
   "status": "partial",
   "theorems": [
    "PptRs.Props.C67_table_reads_back_partial",
    "PptRs.Props.C67_table_lost_violated"
   ],
   "note": "Proved for the layout that supports tables (colours without markup); in other layouts the table is lost (C67_table_lost_violated)."
  },
  {
   "property": "C68",
   "status": "partial",
   "theorems": [
    "PptRs.Props.C68_cell_align_partial",
    "PptRs.Props.C68_center_violated"
   ],
   "note": "Holds for alignments other than centre/middle of cells with text; centre and middle, the defaults, are not written and read as left and top (C68_center_violated)."
  },
  {
   "property": "C69",
   "status": "partial",
   "theorems": [
    "PptRs.Props.C69_types_after_edit_partial",
    "PptRs.Props.C69_types_after_edit_violated"
   ],
   "note": "Slides keep their type; all parts other than xml and rels lose theirs, and notes slides, charts and layouts other than the first become application/xml (C69_types_after_edit_violated)."
  },
  {
   "property": "C70",
   "status": "partial",
   "theorems": [
    "PptRs.Props.C70_links_follow_partial",
    "PptRs.Props.C70_links_follow_violated"
   ],
   "note": "A link survives exactly when the number of its destination does not change (C70_links_follow_violated otherwise)."
  },
  {
   "property": "C71",
   "status": "proved",
   "theorems": [
    "PptRs.Props.C71_slide_list_after_edit"
   ],
   "note": ""
  },
  {
   "property": "C72",
   "status": "partial",
   "theorems": [
    "PptRs.Props.C72_exact_partial",
    "PptRs.Props.C72_dangling_properties_violated",
    "PptRs.Props.C72_dangling_notes_violated",
    "PptRs.Props.C72_comments_kept_violated"
   ],
   "note": "Exact effect on every part proved for all options. Removing properties or notes leaves their relationships dangling; the comments option has no effect (violated theorems)."
  },
  {
   "property": "C73",
   "status": "partial",
   "theorems": [
    "PptRs.Props.C73_removed_partial",
    "PptRs.Props.C73_package_partial",
    "PptRs.Props.C73_single_line_violated"
   ],
   "note": "For parts with one relationship per line, as this crate writes them. A part on a single line, as PowerPoint writes them, is emptied (C73_single_line_violated)."
  },
  {
   "property": "C74",
   "status": "partial",
   "theorems": [
    "PptRs.Props.C74_found_partial",
    "PptRs.Props.C74_sound_partial",
    "PptRs.Props.C74_found_violated"
   ],
   "note": "For parts with one relationship per line: sound, and complete for targets without '..' and leading slash. Targets with '..' are never reported, only the first relationship of a line is looked at, and e-mail links are reported as broken (C74_found_violated)."
  },
  {
   "property": "C75",
   "status": "partial",
   "theorems": [
    "PptRs.Props.C75_reported_partial",
    "PptRs.Props.C75_malformed_violated"
   ],
   "note": "Exactly the blank parts are reported; every other malformed text passes (C75_malformed_violated)."
  },
  {
   "property": "C76",
   "status": "partial",
   "theorems": [
    "PptRs.Props.C76_fully_repaired_violated"
   ],
   "note": "Fails for the empty package: all four issues are counted as repaired and the result is invalid."
  },
  {
   "property": "C77",
   "status": "partial",
   "theorems": [
    "PptRs.Props.C77_plain_partial",
    "PptRs.Props.C77_special_violated"
   ],
   "note": "Right exactly for titles without quotes, backslashes and line breaks; all others are unreadable (C77_special_violated)."
  },
  {
   "property": "C78",
   "status": "partial",
   "theorems": [
    "PptRs.Props.C78_headings_partial",
    "PptRs.Props.C78_count_partial",
    "PptRs.Props.C78_title_violated",
    "PptRs.Props.C78_code_violated"
   ],
   "note": "Proved for all bullets, tables and notes; titles and languages must be one line and code must not contain a fence (C78_title_violated, C78_code_violated)."
  },
  {
   "property": "C79",
   "status": "partial",
   "theorems": [
    "PptRs.Props.C79_grouped_partial",
    "PptRs.Props.C79_bullets_partial",
    "PptRs.Props.C79_paragraphs_partial",
    "PptRs.Props.C79_list_items_violated",
    "PptRs.Props.C79_heading_violated",
    "PptRs.Props.C79_code_violated"
   ],
   "note": "Exact description of grouped mode for bullet limits above zero; in linear mode paragraphs are kept, list items beyond the limit, code, tables, images and headings without text are dropped (violated theorems)."
  },
  {
   "property": "C80",
   "status": "proved",
   "theorems": [
    "PptRs.Props.C80_layout",
    "PptRs.Props.C80_slide",
    "PptRs.Props.C80_distinct"
   ],
   "note": ""
  },
  {
   "property": "C81",
   "status": "partial",
   "theorems": [
    "PptRs.Props.C81_styles",
    "PptRs.Props.C81_handout",
    "PptRs.Props.C81_master_partial",
    "PptRs.Props.C81_header_violated"
   ],
   "note": "Handout master proved completely; slide master for well-formed text style sections (a parameter). The header text is not written to the slide master (C81_header_violated)."
  },
  {
   "property": "C82",
   "status": "proved",
   "theorems": [
    "PptRs.Props.C82_notes",
    "PptRs.Props.C82_slide"
   ],
   "note": ""
  },
  {
   "property": "C83",
   "status": "partial",
   "theorems": [
    "PptRs.Props.C83_title",
    "PptRs.Props.C83_series_partial",
    "PptRs.Props.C83_doughnut",
    "PptRs.Props.C83_pie_partial",
    "PptRs.Props.C83_scatter",
    "PptRs.Props.C83_values_violated",
    "PptRs.Props.C83_names_violated",
    "PptRs.Props.C83_categories_partial",
    "PptRs.Props.C83_bars_violated",
    "PptRs.Props.C83_lines_violated",
    "PptRs.Props.C83_areas",
    "PptRs.Props.C83_radar",
    "PptRs.Props.C83_scatter_style",
    "PptRs.Props.C83_axes_violated"
   ],
   "note": "Doughnut, scatter and bubble series proved exactly, titles for all types, order of series and values for all types. In bar, line, area, radar, stock and combination charts all values have index 0 and names and categories are not where a reader looks (C83_values_violated, C83_names_violated); bars are always horizontal and clustered (C83_bars_violated), line grouping is not a legal value (C83_lines_violated), scatter axes share an id (C83_axes_violated)."
  },
  {
   "property": "C84",
   "status": "proved",
   "theorems": [
    "PptRs.Props.C84_events",
    "PptRs.Props.C84_article",
    "PptRs.Props.C84_complete",
    "PptRs.Props.C84_first",
    "PptRs.Props.C84_table"
   ],
   "note": "Exact result for every article, from the text of the page on (C84_article); complete when it fits (C84_complete), otherwise the first bullets (C84_first)."
  },
  {
   "property": "C85",
   "status": "partial",
   "theorems": [
    "PptRs.Props.C85_bullet_format_partial",
    "PptRs.Props.C85_plain_lines_partial",
    "PptRs.Props.C85_level_violated"
   ],
   "note": "Exact reading of every bullet (C85_bullet_format_partial) for colours, fonts and bullet characters without markup characters, which are written unescaped; levels above 8 are written although the format has none (C85_level_violated)."
  },
  {
   "property": "C86",
   "status": "partial",
   "theorems": [
    "PptRs.Props.C86_slide_reads_back_partial",
    "PptRs.Props.C86_title_and_bullets_partial",
    "PptRs.Props.C86_blank_title_violated",
    "PptRs.Props.C86_all_text_violated"
   ],
   "note": "Exact for colours, fonts and bullet characters without markup, 32-bit numbers and slides without further text boxes; blank texts are lost and all_text lists title and bullets twice (violated theorems)."
  },
  {
   "property": "C87",
   "status": "partial",
   "theorems": [
    "PptRs.Props.C87_properties_read_back_partial",
    "PptRs.Props.C87_round_trip_partial",
    "PptRs.Props.C87_date_markup_violated",
    "PptRs.Props.C87_blank_violated"
   ],
   "note": "All fields; the dates are written unescaped (C87_date_markup_violated) and blank texts are lost (C87_blank_violated)."
  },
  {
   "property": "C88",
   "status": "partial",
   "theorems": [
    "PptRs.Props.C88_relationships_read_back_partial",
    "PptRs.Props.C88_relationships_round_trip_partial",
    "PptRs.Props.C88_target_violated",
    "PptRs.Props.C88_presentation_reads_back_partial",
    "PptRs.Props.C88_default_size"
   ],
   "note": "Relationships after every history, with counter; presentation part except the theme's relationship id, which is not read. Ids, targets and custom types are written unescaped (C88_target_violated). C88_default_size: new parts and texts without a size."
  },
  {
   "property": "C89",
   "status": "partial",
   "theorems": [
    "PptRs.Props.C89_import_partial",
    "PptRs.Props.C89_subheading_violated",
    "PptRs.Props.C89_title_picture_violated",
    "PptRs.Props.C89_tables_violated",
    "PptRs.Props.C89_quotes_violated",
    "PptRs.Props.C89_first_quote_violated",
    "PptRs.Props.C89_style_violated",
    "PptRs.Props.C89_comment_violated",
    "PptRs.Props.C89_no_crash"
   ],
   "note": "C89_import_partial: exact slides for every document of headings, paragraphs, flat lists, quotes of one paragraph, code, tables, rules and pictures. C89_no_crash: every event sequence, unless HTML with one of four tags has `</` before `>`. Violated: such a comment crashes; lower headings and quotes before the first slide, pictures in titles, all but the last table and quote of a slide are lost; nested bold ends early and struck out bold text is only bold."
  },
  {
   "property": "C90",
   "status": "partial",
   "theorems": [
    "PptRs.Props.C90_apart",
    "PptRs.Props.C90_centred_partial",
    "PptRs.Props.C90_wide_violated",
    "PptRs.Props.C90_tall_violated"
   ],
   "note": "C90_apart for every flowchart. Centring holds when the drawing starts left of and above the centred place (C90_centred_partial); the offset is never negative, so charts of five or more boxes in a row stick out of the slide (C90_wide_violated)."
  },
  {
   "property": "C91",
   "status": "partial",
   "theorems": [
    "PptRs.Props.C91_accepts_violated",
    "PptRs.Props.C91_refused_partial"
   ],
   "note": "Violated: every text that is not blank is accepted. Proved: what is refused is no XML document."
  },
  {
   "property": "C92",
   "status": "partial",
   "theorems": [
    "PptRs.Props.C92_drawing_reads_back_partial",
    "PptRs.Props.C92_written_partial",
    "PptRs.Props.C92_color_crash_violated",
    "PptRs.Props.C92_rotation_overflow_violated",
    "PptRs.Props.C92_angle_overflow_violated",
    "PptRs.Props.C92_color_violated",
    "PptRs.Props.C92_shape_text",
    "PptRs.Props.C92_fill",
    "PptRs.Props.C92_actions",
    "PptRs.Props.C92_text_place",
    "PptRs.Props.C92_code_text_violated",
    "PptRs.Props.C92_lines_violated",
    "PptRs.Props.C92_code_block_violated",
    "PptRs.Props.C92_code_block"
   ],
   "note": "Exact reading of every object of every drawing for values without markup characters (C92_drawing_reads_back_partial); no panic for ASCII colours and rotations and angles that fit (C92_written_partial); the font size of shape text is a parameter, ink is not modelled. Violated: colours unescaped; non-ASCII colours, large rotations and angles panic; text that looks like code loses its last line feed; several lines become one paragraph; code blocks have no readable text in the default build."
  },
  {
   "property": "C93",
   "status": "partial",
   "theorems": [
    "PptRs.Props.C93_connector_ends_partial",
    "PptRs.Props.C93_names",
    "PptRs.Props.C93_plain_connector_violated",
    "PptRs.Props.C93_left_right_violated",
    "PptRs.Props.C93_corners_violated",
    "PptRs.Props.C93_sites_partial"
   ],
   "note": "End points, arrows, sizes and dashes exact (C93_connector_ends_partial, C93_names). Violated: the second writer of connectors has no flips; left and right connection sites are exchanged; corner and centre sites do not exist."
  },
  {
   "property": "C94",
   "status": "partial",
   "theorems": [
    "PptRs.Props.C94_presets_partial",
    "PptRs.Props.C94_kinds_partial",
    "PptRs.Props.C94_presets_violated",
    "PptRs.Props.C94_distinct"
   ],
   "note": "All kinds but 14, which are written with geometries that the format does not have (C94_presets_violated)."
  },
  {
   "property": "C95",
   "status": "partial",
   "theorems": [
    "PptRs.Props.C95_schema_order_partial",
    "PptRs.Props.C95_label_violated",
    "PptRs.Props.C95_effects_violated",
    "PptRs.Props.C95_code_block_violated",
    "PptRs.Props.C95_code_text_violated",
    "PptRs.Props.C95_reveal_violated",
    "PptRs.Props.C95_stops_violated"
   ],
   "note": "Whole slides with text, tables, transitions and drawings against the content models of Spec/Drawing (C95_schema_order_partial). Violated: connector labels, unsorted effects, code blocks in the default build, text that looks like code, the reveal transition, gradients with fewer than two stops."
  },
  {
   "property": "C96",
   "status": "partial",
   "theorems": [
    "PptRs.Props.C96_contrast_partial",
    "PptRs.Props.C96_gradient_violated",
    "PptRs.Props.C96_code_violated"
   ],
   "note": "Every solid fill of six hexadecimal digits; black text on every gradient and white code text on every background (violated theorems)."
  },
  {
   "property": "C97",
   "status": "proved",
   "theorems": [
    "PptRs.Props.C97_stops",
    "PptRs.Props.C97_stable",
    "PptRs.Props.C97_percentages",
    "PptRs.Props.C97_gradients"
   ],
   "note": ""
  },
  {
   "property": "C98",
   "status": "partial",
   "theorems": [
    "PptRs.Props.C98_partial",
    "PptRs.Props.C98_none",
    "PptRs.Props.C98_pen",
    "PptRs.Props.C98_narration_violated",
    "PptRs.Props.C98_timings_violated",
    "PptRs.Props.C98_custom_violated"
   ],
   "note": "Kind of show, looping, animations, pen and ranges for all settings (C98_partial). Violated: narration is always read as off, timings always as on, and custom lists of slides are written as an element without its required id."
  },
  {
   "property": "C99",
   "status": "partial",
   "theorems": [
    "PptRs.Props.C99_partial",
    "PptRs.Props.C99_handouts_violated",
    "PptRs.Props.C99_hidden_violated",
    "PptRs.Props.C99_missing_violated",
    "PptRs.Props.C99_ignored_violated"
   ],
   "note": "The element itself (C99_partial). Violated: handouts have an illegal value, hidden slides cannot be switched off, and the element never reaches the presentation."
  },
  {
   "property": "C100",
   "status": "partial",
   "theorems": [
    "PptRs.Props.C100_presentation_partial",
    "PptRs.Props.C100_presProps_partial",
    "PptRs.Props.C100_viewProps",
    "PptRs.Props.C100_layout",
    "PptRs.Props.C100_theme",
    "PptRs.Props.C100_notes",
    "PptRs.Props.C100_master",
    "PptRs.Props.C100_handout",
    "PptRs.Props.C100_fonts_violated"
   ],
   "note": "Proved for every part named in the statement except embedded fonts, which are written at a place the schema does not allow (C100_fonts_violated), and custom shows (C98_custom_violated)."
  },
  {
   "property": "C101",
   "status": "partial",
   "theorems": [
    "PptRs.Props.C101_partial",
    "PptRs.Props.C101_default",
    "PptRs.Props.C101_fonts_violated",
    "PptRs.Props.C101_colors_violated",
    "PptRs.Props.C101_builtin",
    "PptRs.Props.C101_builtin_values",
    "PptRs.Props.C101_palette",
    "PptRs.Props.C101_hex",
    "PptRs.Props.C101_size"
   ],
   "note": "Every theme except one with the default name and the default colours, whose fonts are lost, and colours with markup."
  },
  {
   "property": "C102",
   "status": "partial",
   "theorems": [
    "PptRs.Props.C102_partial",
    "PptRs.Props.C102_none",
    "PptRs.Props.C102_text",
    "PptRs.Props.C102_charset_violated",
    "PptRs.Props.C102_panose_violated",
    "PptRs.Props.C102_order_violated"
   ],
   "note": "Entries, descriptors and relationships for every list (C102_partial). Violated: character sets over 127, unescaped Panose numbers, order and repetition of styles."
  },
  {
   "property": "C103",
   "status": "partial",
   "theorems": [
    "PptRs.Props.C103_partial",
    "PptRs.Props.C103_empty_violated",
    "PptRs.Props.C103_points_violated",
    "PptRs.Props.C103_references_violated",
    "PptRs.Props.C103_requires_violated"
   ],
   "note": "Strokes, pens and coordinates for every list with a lenient reader (C103_partial). Violated: empty lists, separation of points, references and the namespace of the choice."
  },
  {
   "property": "C104",
   "status": "partial",
   "theorems": [
    "PptRs.Props.C104_partial",
    "PptRs.Props.C104_commitments",
    "PptRs.Props.C104_signer_violated",
    "PptRs.Props.C104_unsigned_violated",
    "PptRs.Props.C104_method_violated",
    "PptRs.Props.C104_provider_violated",
    "PptRs.Props.C104_date_violated"
   ],
   "note": "Signer's name, comments, commitment and date (C104_partial). Violated: other details of the signer are dropped, nothing is signed, the method is a hash function, the provider is not a GUID, dates are unescaped."
  },
  {
   "property": "C105",
   "status": "partial",
   "theorems": [
    "PptRs.Props.C105_partial",
    "PptRs.Props.C105_relationships",
    "PptRs.Props.C105_signature_violated"
   ],
   "note": "Every part but the signature, for every deck without a template whose relationship targets can be written (C105_partial); the signature part is unreachable (C105_signature_violated)."
  },
  {
   "property": "C106",
   "status": "partial",
   "theorems": [
    "PptRs.Props.C106_partial",
    "PptRs.Props.C106_fonts",
    "PptRs.Props.C106_title_place",
    "PptRs.Props.C106_content_place",
    "PptRs.Props.C106_bullet_place",
    "PptRs.Props.C106_line_height",
    "PptRs.Props.C106_fit",
    "PptRs.Props.C106_all_fit",
    "PptRs.Props.C106_bullets_in_order",
    "PptRs.Props.C106_content_in_order",
    "PptRs.Props.C106_text_read",
    "PptRs.Props.C106_no_panic",
    "PptRs.Props.C106_color",
    "PptRs.Props.C106_violated_panic",
    "PptRs.Props.C106_violated_overflow",
    "PptRs.Props.C106_violated_encoding",
    "PptRs.Props.C106_violated_carriage_return",
    "PptRs.Props.C106_violated_table",
    "PptRs.Props.C106_code_place"
   ],
   "note": "What a reader of the stream finds, for every slide (C106_partial), with positions, order and room; no crash for ASCII colours. Violated: crash on cut characters, lines that do not fit, UTF-8 in fonts without an encoding, carriage returns, tables."
  },
  {
   "property": "C107",
   "status": "partial",
   "theorems": [
    "PptRs.Props.C107_partial",
    "PptRs.Props.C107_distinct",
    "PptRs.Props.C107_no_panic",
    "PptRs.Props.C107_empty",
    "PptRs.Props.C107_fonts",
    "PptRs.Props.C107_violated_courier"
   ],
   "note": "Numbers, references, lengths, order of pages and the assertion for all lists of slides (C107_partial); fonts on pages without code. Violated: Courier is used but not declared."
  },
  {
   "property": "C108",
   "status": "partial",
   "theorems": [
    "PptRs.Props.C108_roman",
    "PptRs.Props.C108_roman_distinct",
    "PptRs.Props.C108_roman_lower",
    "PptRs.Props.C108_number",
    "PptRs.Props.C108_letters",
    "PptRs.Props.C108_partial",
    "PptRs.Props.C108_violated_letters",
    "PptRs.Props.C108_violated_counter",
    "PptRs.Props.C108_violated_period"
   ],
   "note": "Roman numerals for all numbers, numbers, 26 letters, lists of one style and level (C108_partial). Violated: letters after z, one counter for all styles and levels, no period after Roman numerals."
  },
  {
   "property": "C109",
   "status": "partial",
   "theorems": [
    "PptRs.Props.C109_partial",
    "PptRs.Props.C109_compress",
    "PptRs.Props.C109_names",
    "PptRs.Props.C109_violated_tool_missing",
    "PptRs.Props.C109_violated_disk_full",
    "PptRs.Props.C109_violated_mixed_up",
    "PptRs.Props.C109_violated_removed",
    "PptRs.Props.C109_violated_import"
   ],
   "note": "Any number of calls in every interleaving and with failures (C109_partial), names never clash for distinct identifiers. Violated: tool missing, disk full, images left behind or mixed up, import."
  },
  {
   "property": "C110",
   "status": "proved",
   "theorems": [
    "PptRs.Props.C110_order",
    "PptRs.Props.C110_title"
   ],
   "note": ""
  },
  {
   "property": "C111",
   "status": "partial",
   "theorems": [
    "PptRs.Props.C111_slide_partial",
    "PptRs.Props.C111_deck_partial",
    "PptRs.Props.C111_stable_partial",
    "PptRs.Props.C111_shapes",
    "PptRs.Props.C111_kinds",
    "PptRs.Props.C111_kinds_violated",
    "PptRs.Props.C111_tables_violated",
    "PptRs.Props.C111_table_place_violated",
    "PptRs.Props.C111_position_violated",
    "PptRs.Props.C111_format_violated",
    "PptRs.Props.C111_other_content_violated",
    "PptRs.Props.C111_subtitle_violated"
   ],
   "note": "Round trip of texts of whole decks (C111_deck_partial), stability, shapes in order. Violated: geometries, second tables, positions, formats, pictures and groups, subtitle taken for the title."
  },
  {
   "property": "C112",
   "status": "partial",
   "theorems": [
    "PptRs.Props.C112_create_partial",
    "PptRs.Props.C112_create_error",
    "PptRs.Props.C112_layout_violated",
    "PptRs.Props.C112_tables_partial",
    "PptRs.Props.C112_table_count_violated",
    "PptRs.Props.C112_charts_partial",
    "PptRs.Props.C112_chart_types",
    "PptRs.Props.C112_chart_type_violated",
    "PptRs.Props.C112_merge",
    "PptRs.Props.C112_merge_command",
    "PptRs.Props.C112_merge_error",
    "PptRs.Props.C112_export",
    "PptRs.Props.C112_export_format_partial",
    "PptRs.Props.C112_export_violated",
    "PptRs.Props.C112_default_output",
    "PptRs.Props.C112_validate_violated"
   ],
   "note": "Create, tables, charts, merge, export (C112_..._partial and others) for all arguments and file systems. Violated: layout ignored, wrong counts, other chart types, unknown extensions, validation answers."
  },
  {
   "property": "C113",
   "status": "proved",
   "theorems": [
    "PptRs.Props.C113_json",
    "PptRs.Props.C113_counts"
   ],
   "note": ""
  },
  {
   "property": "C114",
   "status": "partial",
   "theorems": [
    "PptRs.Props.C114_kinds",
    "PptRs.Props.C114_only",
    "PptRs.Props.C114_comment_violated"
   ],
   "note": "Every keyword in every spelling, given a lower-case function that is right on ASCII (C114_kinds). Violated: comments or directives before the keyword."
  },
  {
   "property": "C115",
   "status": "partial",
   "theorems": [
    "PptRs.Props.C115_read",
    "PptRs.Props.C115_partial",
    "PptRs.Props.C115_complete",
    "PptRs.Props.C115_self_violated",
    "PptRs.Props.C115_long_violated",
    "PptRs.Props.C115_arrows_violated",
    "PptRs.Props.C115_activation_violated",
    "PptRs.Props.C115_comment_violated"
   ],
   "note": "Diagrams of participants and messages are read and drawn as they are written (C115_read, C115_partial, C115_complete). Violated: messages to oneself, many messages or participants, other arrows, activations, comments."
  },
  {
   "property": "C116",
   "status": "partial",
   "theorems": [
    "PptRs.Props.C116_er_read",
    "PptRs.Props.C116_er_partial",
    "PptRs.Props.C116_er_order_violated",
    "PptRs.Props.C116_er_names_violated",
    "PptRs.Props.C116_er_cardinality_violated",
    "PptRs.Props.C116_class_read",
    "PptRs.Props.C116_class_partial",
    "PptRs.Props.C116_ids",
    "PptRs.Props.C116_class_violated",
    "PptRs.Props.C116_inherit_violated",
    "PptRs.Props.C116_oneline_violated",
    "PptRs.Props.C116_read",
    "PptRs.Props.C116_states_partial",
    "PptRs.Props.C116_sites",
    "PptRs.Props.C116_back_violated",
    "PptRs.Props.C116_start_violated",
    "PptRs.Props.C116_states_violated",
    "PptRs.Props.C116_self_violated"
   ],
   "note": "Reading and drawing of the three kinds (C116_read, C116_er_read, C116_class_read and the partial theorems). Violated: backward transitions, start states, composite states, the order of entities, cardinalities, kinds of class relations."
  },
  {
   "property": "C117",
   "status": "partial",
   "theorems": [
    "PptRs.Props.C117_gantt_read",
    "PptRs.Props.C117_gantt_partial",
    "PptRs.Props.C117_gantt_dates_violated",
    "PptRs.Props.C117_gantt_section_violated",
    "PptRs.Props.C117_journey_read",
    "PptRs.Props.C117_journey_partial",
    "PptRs.Props.C117_journey_violated",
    "PptRs.Props.C117_timeline_read",
    "PptRs.Props.C117_timeline_partial",
    "PptRs.Props.C117_timeline_violated"
   ],
   "note": "Reading and drawing of the three kinds (C117_..._read, C117_..._partial). Violated: dates are not used, tasks without a section, journeys and timelines with further values."
  },
  {
   "property": "C118",
   "status": "partial",
   "theorems": [
    "PptRs.Props.C118_pie_read",
    "PptRs.Props.C118_pie_partial",
    "PptRs.Props.C118_pie_violated",
    "PptRs.Props.C118_pie_colon_violated",
    "PptRs.Props.C118_pie_title_violated",
    "PptRs.Props.C118_git_read",
    "PptRs.Props.C118_git_partial",
    "PptRs.Props.C118_git_branch_violated",
    "PptRs.Props.C118_git_tag_violated",
    "PptRs.Props.C118_git_merge_violated",
    "PptRs.Props.C118_git_switch_violated",
    "PptRs.Props.C118_quadrant_read",
    "PptRs.Props.C118_quadrant_partial",
    "PptRs.Props.C118_quadrant_label_violated",
    "PptRs.Props.C118_quadrant_edge_violated",
    "PptRs.Props.C118_quadrant_names_violated",
    "PptRs.Props.C118_mind_read",
    "PptRs.Props.C118_mind_partial",
    "PptRs.Props.C118_mind_first_violated",
    "PptRs.Props.C118_mind_side_violated",
    "PptRs.Props.C118_mind_leaves_violated",
    "PptRs.Props.C118_mind_depth_violated",
    "PptRs.Props.C118_mind_shape_violated"
   ],
   "note": "Reading and drawing of the four kinds (C118_..._read, C118_..._partial). Violated: the pie is not divided, new branches are not current, merges without lines, points at edges, names of quadrants, all nodes of mind maps on one side."
  },
  {
   "property": "C119",
   "status": "partial",
   "theorems": [
    "PptRs.Props.C119_page_partial",
    "PptRs.Props.C119_markup_violated",
    "PptRs.Props.C119_text_violated",
    "PptRs.Props.C119_table_violated",
    "PptRs.Props.C119_files_violated",
    "PptRs.Props.C119_attribute_violated",
    "PptRs.Props.C119_image_data_partial"
   ],
   "note": "The tokens a browser reads are those of the expected tree, for plain titles and bullets, no tables, images in the page (C119_page_partial, C119_image_data_partial). Violated: titles and bullets become markup, tables, image files, attributes."
  },
  {
   "property": "C120",
   "status": "partial",
   "theorems": [
    "PptRs.Props.C120_slide_elements_partial",
    "PptRs.Props.C120_slide_elements_violated",
    "PptRs.Props.C120_one_slide_shown",
    "PptRs.Props.C120_moves",
    "PptRs.Props.C120_every_slide_reached",
    "PptRs.Props.C120_focused_button_violated"
   ],
   "note": "Invariant over all sequences of events (C120_one_slide_shown), effect of each event (C120_moves), reachability, and the slides the script finds (C120_slide_elements_partial). Violated: languages with the word slide; Enter on a focused Previous."
  },
  {
   "property": "C121",
   "status": "partial",
   "theorems": [
    "PptRs.Props.C121_proposal_partial",
    "PptRs.Props.C121_training_partial",
    "PptRs.Props.C121_status_partial",
    "PptRs.Props.C121_technical_partial",
    "PptRs.Props.C121_simple",
    "PptRs.Props.C121_second_line_violated"
   ],
   "note": "Every slide of each template read back from its XML, for all inputs (C121_*_partial, C121_simple). Violated: the line below a centred title (author, date, version) is never shown."
  },
  {
   "property": "C122",
   "status": "partial",
   "theorems": [
    "PptRs.Props.C122_table_partial",
    "PptRs.Props.C122_columns",
    "PptRs.Props.C122_center_violated",
    "PptRs.Props.C122_double_border_violated",
    "PptRs.Props.C122_no_border_violated",
    "PptRs.Props.C122_row_span_violated",
    "PptRs.Props.C122_row_height_violated",
    "PptRs.Props.C122_size_violated",
    "PptRs.Props.C122_font_violated",
    "PptRs.Props.C122_from_xml_violated"
   ],
   "note": "Every table whose cells are not centred and have no double or switched-off borders (C122_table_partial). Violated: centred cells, double borders, no borders, row spans, rows without a height, size after rows, unescaped fonts, reading."
  },
  {
   "property": "C123",
   "status": "partial",
   "theorems": [
    "PptRs.Props.C123_content_types_partial",
    "PptRs.Props.C123_type_of_part",
    "PptRs.Props.C123_duplicate_violated",
    "PptRs.Props.C123_escape_violated",
    "PptRs.Props.C123_from_xml_violated"
   ],
   "note": "All sequences of calls with texts without markup (C123_content_types_partial, C123_type_of_part). Violated: repeated defaults, unescaped names, reading."
  },
  {
   "property": "C124",
   "status": "partial",
   "theorems": [
    "PptRs.Props.C124_app_partial",
    "PptRs.Props.C124_company_violated",
    "PptRs.Props.C124_app_reread_violated",
    "PptRs.Props.C124_notes",
    "PptRs.Props.C124_notes_reread",
    "PptRs.Props.C124_layout_partial",
    "PptRs.Props.C124_layout_placeholders_violated",
    "PptRs.Props.C124_layout_name_violated",
    "PptRs.Props.C124_master_partial",
    "PptRs.Props.C124_master_numbers_violated",
    "PptRs.Props.C124_theme_partial",
    "PptRs.Props.C124_theme_colors",
    "PptRs.Props.C124_theme_val_violated",
    "PptRs.Props.C124_theme_color_violated",
    "PptRs.Props.C124_theme_name_violated",
    "PptRs.Props.C124_kept"
   ],
   "note": "All five parts for texts without markup (C124_*_partial); notes and colours of themes without conditions. Violated: unescaped texts, setters after reading, no placeholders in layouts, repeated layouts, attribute val and further colours in themes."
  },
  {
   "property": "C125",
   "status": "partial",
   "theorems": [
    "PptRs.Props.C125_targets_partial",
    "PptRs.Props.C125_layout_target_violated",
    "PptRs.Props.C125_media_formats",
    "PptRs.Props.C125_media_extension",
    "PptRs.Props.C125_image_type_partial",
    "PptRs.Props.C125_image_type_violated",
    "PptRs.Props.C125_media_kind_violated",
    "PptRs.Props.C125_notes_kind_violated",
    "PptRs.Props.C125_number_violated"
   ],
   "note": "Targets of notes, media, images, themes and masters; formats of media in any case; six formats of images. Violated: target of layouts, tif and svg, kinds of media and notes, number after reading."
  },
  {
   "property": "C126",
   "status": "partial",
   "theorems": [
    "PptRs.Props.C126_inline_partial",
    "PptRs.Props.C126_kept",
    "PptRs.Props.C126_runs",
    "PptRs.Props.C126_inline_violated",
    "PptRs.Props.C126_order_violated",
    "PptRs.Props.C126_order_partial"
   ],
   "note": "All nested texts without double emphasis and without two italic signs in one row (C126_inline_partial); all texts for what is kept (C126_kept) and for the runs (C126_runs). Violated: underscores in words, lone stars, bold in bold, neighbouring italics, only markers; order of elements in code runs."
  },
  {
   "property": "C127",
   "status": "partial",
   "theorems": [
    "PptRs.Props.C127_read_partial",
    "PptRs.Props.C127_total_partial",
    "PptRs.Props.C127_schema_partial",
    "PptRs.Props.C127_sorted",
    "PptRs.Props.C127_presets",
    "PptRs.Props.C127_gradient_violated"
   ],
   "note": "All gradients with colours without markup and a type other than Path (C127_read_partial); schema for two stops or more and angles below 360. Violated: type Path, large angles, fewer than two stops, transparency above 100%, unescaped colours."
  },
  {
   "property": "C128",
   "status": "partial",
   "theorems": [
    "PptRs.Props.C128_formats",
    "PptRs.Props.C128_file",
    "PptRs.Props.C128_types",
    "PptRs.Props.C128_registered",
    "PptRs.Props.C128_video_partial",
    "PptRs.Props.C128_audio_partial",
    "PptRs.Props.C128_volume",
    "PptRs.Props.C128_poster_violated",
    "PptRs.Props.C128_options_violated",
    "PptRs.Props.C128_file_violated"
   ],
   "note": "All videos and audios with relationship ids without markup (C128_video_partial, C128_audio_partial); all extensions and paths. Violated: poster never used, options never written, one relationship for link and part, paths without a full stop."
  },
  {
   "property": "C129",
   "status": "partial",
   "theorems": [
    "PptRs.Props.C129_frame_partial",
    "PptRs.Props.C129_total",
    "PptRs.Props.C129_schema",
    "PptRs.Props.C129_baseline",
    "PptRs.Props.C129_attrs",
    "PptRs.Props.C129_highlight_partial",
    "PptRs.Props.C129_level",
    "PptRs.Props.C129_rtl",
    "PptRs.Props.C129_lost_violated",
    "PptRs.Props.C129_raw_violated"
   ],
   "note": "All frames without strikethrough, raised, lowered or highlighted text and line spacing, with colours without markup (C129_frame_partial); schema for all frames with such colours. Violated: those formats are never written; unescaped colours and language tags; overflow of sizes."
  },
  {
   "property": "C130",
   "status": "partial",
   "theorems": [
    "PptRs.Props.C130_calls",
    "PptRs.Props.C130_size",
    "PptRs.Props.C130_scale_partial",
    "PptRs.Props.C130_build_with",
    "PptRs.Props.C130_drawn",
    "PptRs.Props.C130_format_partial",
    "PptRs.Props.C130_file",
    "PptRs.Props.C130_base64",
    "PptRs.Props.C130_relationship",
    "PptRs.Props.C130_build_violated",
    "PptRs.Props.C130_format_violated"
   ],
   "note": "All sequences of calls (C130_calls, C130_size), all files; formats of images from data are seven (C130_format_partial). Violated: build_with_* lose crop and effects, format leaves the file name, WEBP and TIF have no type."
  },
  {
   "property": "C131",
   "status": "partial",
   "theorems": [
    "PptRs.Props.C131_close",
    "PptRs.Props.C131_exact",
    "PptRs.Props.C131_written_partial",
    "PptRs.Props.C131_monotone",
    "PptRs.Props.C131_cut",
    "PptRs.Props.C131_ratio",
    "PptRs.Props.C131_axes",
    "PptRs.Props.C131_back_partial",
    "PptRs.Props.C131_short_violated",
    "PptRs.Props.C131_scale_partial",
    "PptRs.Props.C131_flat_violated",
    "PptRs.Props.C131_signed",
    "PptRs.Props.C131_rotation",
    "PptRs.Props.C131_transform"
   ],
   "note": "All floating point numbers (C131_close, C131_monotone, C131_cut); units that are whole numbers exactly (C131_exact); back to inches and scaling below 2^31 or for sizes in range (partial). Violated: decimal lengths come out one EMU short; pictures without a height."
  },
  {
   "property": "C132",
   "status": "partial",
   "theorems": [
    "PptRs.Props.C132_lighter",
    "PptRs.Props.C132_darker",
    "PptRs.Props.C132_opacity",
    "PptRs.Props.C132_transparent",
    "PptRs.Props.C132_mix_partial",
    "PptRs.Props.C132_mix_violated",
    "PptRs.Props.C132_ends",
    "PptRs.Props.C132_gray_partial",
    "PptRs.Props.C132_gray_violated",
    "PptRs.Props.C132_invert",
    "PptRs.Props.C132_drawn_partial",
    "PptRs.Props.C132_alpha_violated",
    "PptRs.Props.C132_nan_violated"
   ],
   "note": "All colours and amounts between zero and one (C132_lighter, C132_darker, C132_opacity, C132_transparent, C132_invert); mixing and gray within one step (partial). Violated: mixing a colour with itself, gray of gray, opacity lost in to_color, amounts that are not numbers."
  },
  {
   "property": "C133",
   "status": "partial",
   "theorems": [
    "PptRs.Props.C133_range",
    "PptRs.Props.C133_monotone",
    "PptRs.Props.C133_fits_partial",
    "PptRs.Props.C133_overflow_violated",
    "PptRs.Props.C133_written_partial",
    "PptRs.Props.C133_contrast",
    "PptRs.Props.C133_middle_violated"
   ],
   "note": "All texts with at most 2^40 lines of 2^50 characters; fitting when the size is above the smallest (C133_fits_partial); text that looks like code has a fixed size (C133_written_partial). Violated: long text overflows; rounding decides in the middle of the brightness."
  },
  {
   "property": "C134",
   "status": "partial",
   "theorems": [
    "PptRs.Props.C134_figures_partial",
    "PptRs.Props.C134_drawn_partial",
    "PptRs.Props.C134_data_violated",
    "PptRs.Props.C134_other",
    "PptRs.Props.C134_color_partial",
    "PptRs.Props.C134_scheme",
    "PptRs.Props.C134_theme_color_violated",
    "PptRs.Props.C134_hex_violated",
    "PptRs.Props.C134_plain_slide_partial",
    "PptRs.Props.C134_title_violated",
    "PptRs.Props.C134_plain_escape_violated",
    "PptRs.Props.C134_numbered",
    "PptRs.Props.C134_builder",
    "PptRs.Props.C134_setters"
   ],
   "note": "All figures but the data symbol (C134_figures_partial, C134_drawn_partial), all six digit colours (C134_color_partial), all theme colours and lists of calls. Violated: the data symbol, theme colours become black, other colour texts are silently black or panic, create_pptx ignores its title and does not escape titles. C134_setters: fill, line and text of a shape."
  },
  {
   "property": "C135",
   "status": "partial",
   "theorems": [
    "PptRs.Props.C135_read_back_partial",
    "PptRs.Props.C135_looks_partial",
    "PptRs.Props.C135_written",
    "PptRs.Props.C135_numbers",
    "PptRs.Props.C135_size_violated",
    "PptRs.Props.C135_size_columns",
    "PptRs.Props.C135_lost_violated",
    "PptRs.Props.C135_format_violated",
    "PptRs.Props.C135_pictures_violated"
   ],
   "note": "All slides without markup in colours and bullet characters (C135_read_back_partial); numbers for all slides. Violated: sizes in points written as hundredths, shapes, pictures and tables lost in most layouts, pictures replaced by grey boxes, bullet formats and transitions ignored."
  },
  {
   "property": "C136",
   "status": "partial",
   "theorems": [
    "PptRs.Props.C136_title_partial",
    "PptRs.Props.C136_section_bold_violated",
    "PptRs.Props.C136_content_underline_violated",
    "PptRs.Props.C136_areas_partial",
    "PptRs.Props.C136_areas_fit"
   ],
   "note": "All slides without markup in colours (C136_title_partial), without a table for the areas (C136_areas_partial). Violated: section headers are always bold, content_underline has no effect."
  },
  {
   "property": "C137",
   "status": "partial",
   "theorems": [
    "PptRs.Props.C137_read_back_partial",
    "PptRs.Props.C137_fields",
    "PptRs.Props.C137_changed",
    "PptRs.Props.C137_last_violated",
    "PptRs.Props.C137_index_violated"
   ],
   "note": "All sequences of comments (C137_read_back_partial), all lists (C137_fields). Violated: lastIdx is always 1, comments made apart have the same number. No caller puts these parts into a package."
  },
  {
   "property": "C138",
   "status": "partial",
   "theorems": [
    "PptRs.Props.C138_read_back_partial",
    "PptRs.Props.C138_empty",
    "PptRs.Props.C138_hash",
    "PptRs.Props.C138_one_byte",
    "PptRs.Props.C138_same_name_violated"
   ],
   "note": "All section lists (C138_read_back_partial); different hashes have different ids (C138_hash), names that differ in one byte have different ids (C138_one_byte). Missing: collisions of the hash between other names. Violated: sections of the same name have the same id."
  },
  {
   "property": "C139",
   "status": "partial",
   "theorems": [
    "PptRs.Props.C139_latest",
    "PptRs.Props.C139_loaded",
    "PptRs.Props.C139_reload_partial",
    "PptRs.Props.C139_new",
    "PptRs.Props.C139_stale_violated",
    "PptRs.Props.C139_content_title_violated",
    "PptRs.Props.C139_number_violated",
    "PptRs.Props.C139_layout_violated",
    "PptRs.Props.C139_chart"
   ],
   "note": "All sequences of contents (C139_latest, C139_chart); reloading as in C86 (C139_reload_partial). Violated: titles stay stale after set_content, parts made from content tell no title, from_xml always gives number 1, the relationships always name the first layout."
  },
  {
   "property": "C140",
   "status": "partial",
   "theorems": [
    "PptRs.Props.C140_last",
    "PptRs.Props.C140_saved_partial",
    "PptRs.Props.C140_revision_violated"
   ],
   "note": "All sequences (C140_last); read back for texts that are not blank (C140_saved_partial). Violated: touch overflows on the greatest revision."
  },
  {
   "property": "C141",
   "status": "partial",
   "theorems": [
    "PptRs.Props.C141_format",
    "PptRs.Props.C141_one_script",
    "PptRs.Props.C141_bullet",
    "PptRs.Props.C141_indent",
    "PptRs.Props.C141_cell",
    "PptRs.Props.C141_header_cell",
    "PptRs.Props.C141_wrap_violated",
    "PptRs.Props.C141_table",
    "PptRs.Props.C141_table_size",
    "PptRs.Props.C141_connector",
    "PptRs.Props.C141_line",
    "PptRs.Props.C141_shape",
    "PptRs.Props.C141_slide_text",
    "PptRs.Props.C141_slide_bullets",
    "PptRs.Props.C141_slide_objects",
    "PptRs.Props.C141_slide_flags_partial",
    "PptRs.Props.C141_flags_violated"
   ],
   "note": "All chains. Violated: wrap() on a cell has no effect; with_table, with_chart, with_image and empty lists make a slide say it has what it has not (C141_slide_flags_partial is the direction that holds)."
  },
  {
   "property": "C142",
   "status": "partial",
   "theorems": [
    "PptRs.Props.C142_hex",
    "PptRs.Props.C142_short_hex",
    "PptRs.Props.C142_rgb",
    "PptRs.Props.C142_names",
    "PptRs.Props.C142_points",
    "PptRs.Props.C142_pixels",
    "PptRs.Props.C142_pixels_partial",
    "PptRs.Props.C142_pixels_violated",
    "PptRs.Props.C142_decimal",
    "PptRs.Props.C142_fractions_partial",
    "PptRs.Props.C142_style",
    "PptRs.Props.C142_words",
    "PptRs.Props.C142_nested",
    "PptRs.Props.C142_same_text",
    "PptRs.Props.C142_page",
    "PptRs.Props.C142_slide_partial",
    "PptRs.Props.C142_invalid_violated",
    "PptRs.Props.C142_names_violated",
    "PptRs.Props.C142_digits_violated",
    "PptRs.Props.C142_font_violated",
    "PptRs.Props.C142_span_violated",
    "PptRs.Props.C142_loose_violated",
    "PptRs.Props.C142_title_weight_violated"
   ],
   "note": "Any page for the texts (C142_same_text); pages of headings, paragraphs and lists with room for all texts (C142_page, C142_slide_partial); sizes with fractions of up to six digits, sizes in pixels up to 1334. Violated: pixels divided by 1.333, invalid declarations remove earlier ones, capital letters in colour names, markup in colours and quoted font lists make the slide unreadable, styles inside a paragraph are lost, loose text gets the style of the next heading, titles are always bold."
  },
  {
   "property": "C143",
   "status": "partial",
   "theorems": [
    "PptRs.Props.C143_deep_violated",
    "PptRs.Props.C143_loose_violated",
    "PptRs.Props.C143_short_violated",
    "PptRs.Props.C143_long_violated",
    "PptRs.Props.C143_table_violated",
    "PptRs.Props.C143_alt_violated",
    "PptRs.Props.C143_glued_violated",
    "PptRs.Props.C143_script_violated",
    "PptRs.Props.C143_inner_table_violated",
    "PptRs.Props.C143_articles_violated",
    "PptRs.Props.C143_links_violated",
    "PptRs.Props.C143_blocks_partial",
    "PptRs.Props.C143_page_partial",
    "PptRs.Props.C143_article_partial",
    "PptRs.Props.C143_sound",
    "PptRs.Props.C143_no_crash_partial",
    "PptRs.Props.C143_title",
    "PptRs.Props.C143_description",
    "PptRs.Props.C143_blank_title_violated"
   ],
   "note": "Soundness for every page (C143_sound); completeness for pages within the limits of the parser whose body or first article is the main content (C143_page_partial, C143_article_partial). Violated: more than 256 nested elements crash; loose text, short paragraphs, long headings, items and code, tables with more than 30 rows, pictures without description, further articles and links are lost; line breaks and inner lists are glued; scripts in paragraphs are shown; inner tables are read twice. Title and description for every page (C143_title, C143_description). The HTML parser itself (scraper) is not modelled."
  },
  {
   "property": "C144",
   "status": "partial",
   "theorems": [
    "PptRs.Props.C144_resaved",
    "PptRs.Props.C144_open_partial",
    "PptRs.Props.C144_texts_partial",
    "PptRs.Props.C144_again_partial",
    "PptRs.Props.C144_title_violated",
    "PptRs.Props.C144_fonts",
    "PptRs.Props.C144_fonts_open_partial",
    "PptRs.Props.C144_markdown_partial",
    "PptRs.Props.C144_mixed_violated",
    "PptRs.Props.C144_html_partial",
    "PptRs.Props.C144_web_slides_partial",
    "PptRs.Props.C144_web_source_violated",
    "PptRs.Props.C144_web_partial"
   ],
   "note": "From slides with text and a table to bytes of an archive and back, at any time and with any settings without a template (C154 is about templates); texts of white space only are lost; drawings are covered by C146. Embedded fonts change nothing (C144_fonts, for files with anything on their slides). Saving and opening again (C144_resaved) holds for files of any origin. Violated: a document title with a bare ampersand is lost, bullets beside a table are lost, description and address of a web page are never shown."
  },
  {
   "property": "C145",
   "status": "partial",
   "theorems": [
    "PptRs.Props.C145_edited_partial",
    "PptRs.Props.C145_results",
    "PptRs.Props.C145_any",
    "PptRs.Props.C145_any_results",
    "PptRs.Props.C145_drawn_partial"
   ],
   "note": "C145_any and C145_any_results: for files written from any slides, also with pictures, charts, links and ink, as lists of slide texts. C145_edited_partial and C145_drawn_partial say what is seen on slides with text, tables and drawings. Without template and fonts; titles without & and <; texts of white space only are not seen. For a new editor without a file the order is wrong from ten slides on, see C52_new_editor_violated."
  },
  {
   "property": "C146",
   "status": "partial",
   "theorems": [
    "PptRs.Props.C146_slide_partial",
    "PptRs.Props.C146_same",
    "PptRs.Props.C146_lost_violated",
    "PptRs.Props.C146_looks_violated",
    "PptRs.Props.C146_kinds_violated",
    "PptRs.Props.C146_bare_code_violated",
    "PptRs.Props.C146_code_violated",
    "PptRs.Props.C146_blank_lines_violated",
    "PptRs.Props.C146_stable_partial",
    "PptRs.Props.C146_code_stable_partial",
    "PptRs.Props.C146_file_partial",
    "PptRs.Props.C146_again_partial",
    "PptRs.Props.C146_fonts_partial"
   ],
   "note": "Colours and relationship ids without markup. Kept: the eleven known kinds, places, texts. Lost (the _violated theorems): pictures, connectors and charts, looks, other kinds, the code of code blocks, blank lines of text that looks like code. Files: without pictures, charts and links."
  },
  {
   "property": "C147",
   "status": "partial",
   "theorems": [
    "PptRs.Props.C147_any_partial",
    "PptRs.Props.C147_open_partial",
    "PptRs.Props.C147_same_partial",
    "PptRs.Props.C147_words_partial",
    "PptRs.Props.C147_title_violated",
    "PptRs.Props.C147_spaces_violated"
   ],
   "note": "Without optimizing XML for files of any origin (C147_any_partial). With it for files written from slides with text and a table and titles without markup or quotes: the words of every text are kept with all options (C147_words_partial), the texts themselves if they have single spaces only (C147_same_partial). Violated: removing the properties loses the title, optimizing XML squeezes blanks and line breaks in texts."
  },
  {
   "property": "C148",
   "status": "partial",
   "theorems": [
    "PptRs.Props.C148_valid_partial",
    "PptRs.Props.C148_untouched_partial",
    "PptRs.Props.C148_same_partial",
    "PptRs.Props.C148_mail_violated",
    "PptRs.Props.C148_image_violated",
    "PptRs.Props.C148_type_reported"
   ],
   "note": "Without template; pictures in PNG, JPEG (jpg) or GIF; links to slides of the deck or to the web. Violated: links to mail addresses are found broken and their relationship is removed; pictures in other formats have no content type."
  },
  {
   "property": "C149",
   "status": "partial",
   "theorems": [
    "PptRs.Props.C149_slide_partial",
    "PptRs.Props.C149_order",
    "PptRs.Props.C149_all_partial",
    "PptRs.Props.C149_refused",
    "PptRs.Props.C149_thumbnail",
    "PptRs.Props.C149_command",
    "PptRs.Props.C149_setters",
    "PptRs.Props.C149_quality",
    "PptRs.Props.C149_presets",
    "PptRs.Props.C149_options_violated",
    "PptRs.Props.C149_single_violated",
    "PptRs.Props.C149_old_violated",
    "PptRs.Props.C149_plain_violated"
   ],
   "note": "The drawing program is a parameter of the model (any answer, any change of the folder). Holds if it draws every slide into a file named after its number. C149_setters, C149_quality, C149_presets: values of options. Violated: soffice, which is called, draws one picture with another name, so the export of a slide fails or takes an old picture; resolution, size and quality are not passed on; a plain file name has no folder."
  },
  {
   "property": "C150",
   "status": "partial",
   "theorems": [
    "PptRs.Props.C150_reduction_partial",
    "PptRs.Props.C150_grown_violated",
    "PptRs.Props.C150_report",
    "PptRs.Props.C150_level_violated",
    "PptRs.Props.C150_options",
    "PptRs.Props.C150_levels",
    "PptRs.Props.C150_quality_violated",
    "PptRs.Props.C150_presets",
    "PptRs.Props.C150_bytes",
    "PptRs.Props.C150_unit_violated",
    "PptRs.Props.C150_share_violated"
   ],
   "note": "Sizes up to 2^53 bytes; the percentage holds if the file did not grow. Violated: a file that grew crashes a debug build and is reported as saving more than 100000 percent in a release build; level and target size change nothing; quality over 100 is accepted; the summary prints two units; the share of images may exceed 100 percent."
  },
  {
   "property": "C151",
   "status": "partial",
   "theorems": [
    "PptRs.Props.C151_step_partial",
    "PptRs.Props.C151_run_partial",
    "PptRs.Props.C151_others",
    "PptRs.Props.C151_title_violated"
   ],
   "note": "Refinement by induction over the run. Titles without & and <; slides with text and tables; compression without removing properties and without optimizing XML; fewer than 2^32 slides. Violated: a title with an ampersand is lost."
  },
  {
   "property": "C152",
   "status": "partial",
   "theorems": [
    "PptRs.Props.C152_edited_partial",
    "PptRs.Props.C152_opened_partial",
    "PptRs.Props.C152_signed_violated"
   ],
   "note": "Invariant (InOrder) of packages kept by every call, by saving and opening, by compression and by repair. Slides with text, tables and notes; compression without removing properties and without optimizing XML. Violated: signed files lose the content type of the signature with the first structural edit."
  },
  {
   "property": "C153",
   "status": "partial",
   "theorems": [
    "PptRs.Props.C153_kept_partial",
    "PptRs.Props.C153_reported_violated",
    "PptRs.Props.C153_twice_violated",
    "PptRs.Props.C153_again_violated"
   ],
   "note": "Holds for compressions that keep the layout of the parts (no XML optimization, properties kept), by C152. Violated whenever the XML is optimized: every slide is reported as missing, the repaired file has every slide twice, and the first slide added is reported again."
  },
  {
   "property": "C154",
   "status": "partial",
   "theorems": [
    "PptRs.Props.C154_accepted",
    "PptRs.Props.C154_layout_count",
    "PptRs.Props.C154_resolved",
    "PptRs.Props.C154_look",
    "PptRs.Props.C154_theme",
    "PptRs.Props.C154_opened_partial",
    "PptRs.Props.C154_layout_partial",
    "PptRs.Props.C154_own",
    "PptRs.Props.C154_twice_violated",
    "PptRs.Props.C154_pictures_violated",
    "PptRs.Props.C154_types_violated",
    "PptRs.Props.C154_fallback_violated",
    "PptRs.Props.C154_exchanged_violated"
   ],
   "note": "Themes, masters, layouts and table styles are kept byte for byte, for any template. Opening: slides with text and tables, no fonts, titles without & and <. Violated: the table styles are written twice, pictures of masters are not copied (and are exchanged for pictures of the deck), layouts beyond the seventh have no content type, and a template without the first layout leaves slides with a layout that does not exist."
  },
  {
   "property": "C155",
   "status": "proved",
   "theorems": [
    "PptRs.Props.C155_own",
    "PptRs.Props.C155_no_panic",
    "PptRs.Props.C155_progress",
    "PptRs.Props.C155_finishes",
    "PptRs.Props.C155_can_finish",
    "PptRs.Props.C155_once",
    "PptRs.Props.C155_places",
    "PptRs.Props.C155_footer"
   ],
   "note": "Each get_or_init is modelled as three steps: start of the computation, its end, taking the value. Trusted: OnceLock lets one thread compute and the others wait. Presentations without a template; one with a template takes nothing from the variables."
  },
  {
   "property": "C156",
   "status": "partial",
   "theorems": [
    "PptRs.Props.C156_gaps",
    "PptRs.Props.C156_slides",
    "PptRs.Props.C156_complete",
    "PptRs.Props.C156_listed",
    "PptRs.Props.C156_distinct_partial",
    "PptRs.Props.C156_resolves",
    "PptRs.Props.C156_titles",
    "PptRs.Props.C156_gap_violated",
    "PptRs.Props.C156_features_violated"
   ],
   "note": "C156_gaps gives the exact archive of every source whose features are those of its slides. Violated: a source that yields no slide below its count leaves listed slides without part, and a source that overrides slide_features wrongly gets two charts of one name or relationships of a missing notes part. Trusted: the source gives the same answer whenever it is asked the same."
  },
  {
   "property": "C157",
   "status": "partial",
   "theorems": [
    "PptRs.Props.C157_pretty",
    "PptRs.Props.C157_tool",
    "PptRs.Props.C157_file_partial",
    "PptRs.Props.C157_pictures_violated",
    "PptRs.Props.C157_command_file",
    "PptRs.Props.C157_command_title",
    "PptRs.Props.C157_command_violated"
   ],
   "note": "serde_json's pretty printer is modelled as documented. Violated: slides of a loaded file are never said to have pictures or charts, and the command info prints nothing about a presentation because it expects XML text instead of an archive. C157_file_partial is for slides with text in the usual layout."
  },
  {
   "property": "C158",
   "status": "partial",
   "theorems": [
    "PptRs.Props.C158_counts",
    "PptRs.Props.C158_content_types",
    "PptRs.Props.C158_relationships",
    "PptRs.Props.C158_presentation",
    "PptRs.Props.C158_wellformed_partial",
    "PptRs.Props.C158_own_partial",
    "PptRs.Props.C158_simple_partial",
    "PptRs.Props.C158_title_violated",
    "PptRs.Props.C158_extension_violated"
   ],
   "note": "C158_content_types holds for every deck and all settings. Partial: what is written without escaping (ids of links and fonts, extensions of images, panose and date of a signature, colours, numbers of charts, the title) has no markup; C158_title_violated and C158_extension_violated show that this is needed. C158_counts: numbers of slides and notes in the properties."
  },
  {
   "property": "C159",
   "status": "partial",
   "theorems": [
    "PptRs.Props.C159_slide_partial",
    "PptRs.Props.C159_accepted_partial",
    "PptRs.Props.C159_debug_partial",
    "PptRs.Props.C159_builds",
    "PptRs.Props.C159_simple",
    "PptRs.Props.C159_jpeg_violated",
    "PptRs.Props.C159_ink_violated",
    "PptRs.Props.C159_code_violated"
   ],
   "note": "C159_simple holds for create_pptx with every title and number of slides. Otherwise partial: images of type png, jpg or gif with bytes, links to slides that are there, typefaces without characters to escape, ink with a stroke, and no markup in what is written without escaping. Violated: debug builds panic for pictures of type jpeg, for ink without strokes, and for code that mentions r:id=\"rId9\" when highlighting is not compiled in; C64 has further decks that the validator rejects."
  },
  {
   "property": "C160",
   "status": "partial",
   "theorems": [
    "PptRs.Props.C160_types_partial",
    "PptRs.Props.C160_types_violated",
    "PptRs.Props.C160_relationships",
    "PptRs.Props.C160_root_partial",
    "PptRs.Props.C160_signature_violated",
    "PptRs.Props.C160_presentation_violated",
    "PptRs.Props.C160_listed_partial",
    "PptRs.Props.C160_jpg_violated",
    "PptRs.Props.C160_namespace",
    "PptRs.Props.C160_ids_violated"
   ],
   "note": "C160_relationships, C160_root_partial: a lost _rels/.rels is restored for every deck without signature. C160_listed_partial: a lost [Content_Types].xml is listed again for every XML part, valid with PNG pictures only. C160_namespace is full. Violated: the types of charts, ink, masters of notes and handouts and properties are not restored, jpg pictures get no type, the signature's relationship is lost, a lost presentation.xml leaves a file whose package relationships lead to no presentation, and a lost presentation.xml.rels leaves slide ids that lead to the theme; the last three are reported as valid."
  },
  {
   "property": "C161",
   "status": "partial",
   "theorems": [
    "PptRs.Props.C161_same_partial",
    "PptRs.Props.C161_browser_partial",
    "PptRs.Props.C161_headings_partial",
    "PptRs.Props.C161_pdf_partial",
    "PptRs.Props.C161_notes_violated",
    "PptRs.Props.C161_style_violated"
   ],
   "note": "C161_same_partial: for slides with a title and bullets or a table of plain texts the three exports of the saved file are those of the presentation, for all options. C161_browser_partial, C161_headings_partial, C161_pdf_partial: what a reader then sees. Violated: notes are lost, and bullets with another style or level are exported as plain ones."
  },
  {
   "property": "C162",
   "status": "partial",
   "theorems": [
    "PptRs.Props.C162_titles_violated",
    "PptRs.Props.C162_unnumbered_violated",
    "PptRs.Props.C162_bullets_partial"
   ],
   "note": "C162_bullets_partial: the bullets of all slides survive in order, below a bullet that is the title. The Markdown reader covers exactly the documents the exporter writes for titles and bullets that begin with a letter. Violated: titles of slides become bullets, every slide gets the title of the presentation with (continued) once more each, and there is one slide more when slides are numbered."
  },
  {
   "property": "C163",
   "status": "partial",
   "theorems": [
    "PptRs.Props.C163_layouts",
    "PptRs.Props.C163_names",
    "PptRs.Props.C163_master",
    "PptRs.Props.C163_slides_violated",
    "PptRs.Props.C163_second_partial",
    "PptRs.Props.C163_section_violated"
   ],
   "note": "C163_layouts, C163_names, C163_master: names, ids, places and overlaps. C163_second_partial: the placeholders of the second slide writer are placeholders of the layout, except on section headers, for pages without shapes, pictures and table. Violated: slides of written files have no placeholder for their text, and the second writer uses a centred title on section headers, whose layout has none."
  },
  {
   "property": "C164",
   "status": "partial",
   "theorems": [
    "PptRs.Props.C164_exit",
    "PptRs.Props.C164_json",
    "PptRs.Props.C164_unreadable_violated",
    "PptRs.Props.C164_issues_partial",
    "PptRs.Props.C164_verdict",
    "PptRs.Props.C164_tool",
    "PptRs.Props.C164_tool_unreadable"
   ],
   "note": "C164_exit, C164_verdict, C164_json, C164_tool, C164_tool_unreadable hold for every report. C164_issues_partial: the text lists all issues, for paths and messages of one line each. Violated: with --json nothing at all is printed for a file that cannot be read."
  },
  {
   "property": "C165",
   "status": "partial",
   "theorems": [
    "PptRs.Props.C165_page_partial",
    "PptRs.Props.C165_lines_partial",
    "PptRs.Props.C165_one_slide_violated",
    "PptRs.Props.C165_navigation_violated"
   ],
   "note": "C165_page_partial and C165_lines_partial say exactly what is imported from a page without navigation, for slides of titles, bullets and notes (no tables, images, code) and texts without < and &: one slide with all lines. Violated: never one slide per slide; with navigation (the default) no slide at all."
  },
  {
   "property": "C166",
   "status": "partial",
   "theorems": [
    "PptRs.Props.C166_picture_partial",
    "PptRs.Props.C166_short_file_violated",
    "PptRs.Props.C166_page_files",
    "PptRs.Props.C166_page_no_images",
    "PptRs.Props.C166_page_partial",
    "PptRs.Props.C166_page_images",
    "PptRs.Props.C166_any_file_violated",
    "PptRs.Props.C166_one_place_violated",
    "PptRs.Props.C166_markdown_files",
    "PptRs.Props.C166_markdown_partial",
    "PptRs.Props.C166_markdown_violated"
   ],
   "note": "C166_page_files, C166_page_no_images, C166_page_images, C166_markdown_files hold for all disks, without downloads (the web2ppt feature). C166_page_partial, C166_markdown_partial, C166_picture_partial: no crash and exact pictures if no file has four or five bytes. Violated: any file at all is embedded as a PNG picture, files of four or five bytes crash both importers, and all pictures get the same place."
  },
  {
   "property": "C167",
   "status": "partial",
   "theorems": [
    "PptRs.Props.C167_moved",
    "PptRs.Props.C167_on_page_partial",
    "PptRs.Props.C167_titles",
    "PptRs.Props.C167_words",
    "PptRs.Props.C167_slide",
    "PptRs.Props.C167_large_violated",
    "PptRs.Props.C167_unknown_violated"
   ],
   "note": "C167_moved: all shapes and connectors are moved alike, into the middle unless they were further right or down. C167_on_page_partial: nothing sticks out, for diagrams up to a size that is given for each kind. C167_titles, C167_words, C167_slide: the slide of a diagram. Violated: larger diagrams of six kinds always stick out; of texts of unknown kind only the first line is shown."
  },
  {
   "property": "C168",
   "status": "partial",
   "theorems": [
    "PptRs.Props.C168_headings_partial",
    "PptRs.Props.C168_default",
    "PptRs.Props.C168_file",
    "PptRs.Props.C168_off",
    "PptRs.Props.C168_on",
    "PptRs.Props.C168_options",
    "PptRs.Props.C168_drawings_violated",
    "PptRs.Props.C168_bullets_violated"
   ],
   "note": "C168_headings_partial: the engine gets a Markdown text with one numbered heading for each slide (C78), C168_on, C168_off: notes and pictures as the options say, C168_file: what is written, C168_options, C168_default. Violated: shapes, connectors, charts and ink do not reach the engine, nor do pictures; levels and numbering of bullets are lost. What pdfrs does with the text is outside."
  },
  {
   "property": "C169",
   "status": "partial",
   "theorems": [
    "PptRs.Props.C169_payload",
    "PptRs.Props.C169_capacity",
    "PptRs.Props.C169_metrics",
    "PptRs.Props.C169_sample",
    "PptRs.Props.C169_payload_violated"
   ],
   "note": "C169_payload, C169_capacity, C169_metrics, C169_sample hold. Violated: texts in tables, shapes and code are not counted. The time measured is left out."
  },
  {
   "property": "C170",
   "status": "partial",
   "theorems": [
    "PptRs.Props.C170_built",
    "PptRs.Props.C170_quick",
    "PptRs.Props.C170_names",
    "PptRs.Props.C170_element",
    "PptRs.Props.C170_described_violated",
    "PptRs.Props.C170_same_violated",
    "PptRs.Props.C170_told",
    "PptRs.Props.C170_markers_violated",
    "PptRs.Props.C170_styles"
   ],
   "note": "C170_built, C170_quick: what is built. C170_names: names are different. C170_told: which types have markers, smooth lines and directions. C170_element: the drawing element, C170_styles: styles of radar charts. Violated: direction and grouping of bars and lines are not as the type says, and types that differ in markers or stacking are written alike; has_markers leaves out types that have them."
  },
  {
   "property": "C171",
   "status": "partial",
   "theorems": [
    "PptRs.Props.C171_digits",
    "PptRs.Props.C171_one_colour",
    "PptRs.Props.C171_css_partial",
    "PptRs.Props.C171_css_violated",
    "PptRs.Props.C171_palettes",
    "PptRs.Props.C171_places",
    "PptRs.Props.C171_readable"
   ],
   "note": "C171_digits, C171_one_colour: within the library. C171_css_partial: names that are also CSS names, but for three. C171_palettes, C171_places, C171_readable: the palettes. Violated: green and dark grey are other colours in imported pages."
  },
  {
   "property": "C172",
   "status": "partial",
   "theorems": [
    "PptRs.Props.C172_convert",
    "PptRs.Props.C172_untouched",
    "PptRs.Props.C172_create",
    "PptRs.Props.C172_pdf",
    "PptRs.Props.C172_web",
    "PptRs.Props.C172_tool",
    "PptRs.Props.C172_default",
    "PptRs.Props.C172_overwrites_violated",
    "PptRs.Props.C172_directories_violated",
    "PptRs.Props.C172_title_violated"
   ],
   "note": "C172_convert, C172_create, C172_pdf, C172_web: both outcomes, with exact conditions (for web2ppt one direction). C172_untouched: nothing is changed for bad input. C172_default: an output not given. C172_tool: the Markdown tool agrees with md2ppt. Violated: an input called .pptx is overwritten, a failed create leaves directories, the title of a page is not used. Reasons of system errors and verbose output are left out."
  },
  {
   "property": "C173",
   "status": "partial",
   "theorems": [
    "PptRs.Props.C173_off",
    "PptRs.Props.C173_unused_violated",
    "PptRs.Props.C173_source_violated",
    "PptRs.Props.C173_title",
    "PptRs.Props.C173_setters"
   ],
   "note": "C173_setters: the values (but for the user agent, which belongs to the network), C173_off: pictures, tables and code switched off are not found, C173_title: the title. Limits of slides and bullets are C48 and C79. Violated: author, page numbers, font sizes and links have no effect, and the source address and description are on no slide. Fetching pages is outside."
  },
  {
   "property": "C174",
   "status": "partial",
   "theorems": [
    "PptRs.Props.C174_read",
    "PptRs.Props.C174_order",
    "PptRs.Props.C174_create",
    "PptRs.Props.C174_md2ppt",
    "PptRs.Props.C174_html2ppt",
    "PptRs.Props.C174_web2ppt",
    "PptRs.Props.C174_others",
    "PptRs.Props.C174_accepted",
    "PptRs.Props.C174_refused",
    "PptRs.Props.C174_hyphen_violated",
    "PptRs.Props.C174_library_violated",
    "PptRs.Props.C174_kinds",
    "PptRs.Props.C174_formats",
    "PptRs.Props.C174_hyphen",
    "PptRs.Props.C174_letters"
   ],
   "note": "C174_read, C174_order: lines of allowed pieces, C174_create, C174_md2ppt, C174_html2ppt, C174_web2ppt, C174_others: what the commands get, C174_kinds, C174_formats, C174_hyphen, C174_letters: kinds of options and values, C174_accepted, C174_refused: what is refused. Violated: a title that begins with a hyphen is refused, web2ppt and the library have different defaults. What clap does with the declarations is described in the model and trusted; texts of help and errors are left out."
  },
  {
   "property": "C175",
   "status": "partial",
   "theorems": [
    "PptRs.Props.C175_command",
    "PptRs.Props.C175_refused",
    "PptRs.Props.C175_session",
    "PptRs.Props.C175_last",
    "PptRs.Props.C175_failed",
    "PptRs.Props.C175_md",
    "PptRs.Props.C175_html",
    "PptRs.Props.C175_merge",
    "PptRs.Props.C175_create",
    "PptRs.Props.C175_web",
    "PptRs.Props.C175_pdf",
    "PptRs.Props.C175_export",
    "PptRs.Props.C175_replace_violated"
   ],
   "note": "C175_command: both outcomes of every command, C175_refused, C175_failed: nothing changes, C175_session: induction over sequences, C175_last: outputs last, C175_create, C175_md, C175_html, C175_pdf, C175_web, C175_merge, C175_export: from the line to the file. Violated: a run that breaks off while writing has destroyed the old output. Lines that export pictures (several files, by an external program) and temporary files are left out; the parser of lines is that of C174."
  },
  {
   "property": "C176",
   "status": "partial",
   "theorems": [
    "PptRs.Props.C176_video_options",
    "PptRs.Props.C176_audio_options",
    "PptRs.Props.C176_autoplay",
    "PptRs.Props.C176_video",
    "PptRs.Props.C176_audio",
    "PptRs.Props.C176_link",
    "PptRs.Props.C176_unreachable_violated",
    "PptRs.Props.C176_show",
    "PptRs.Props.C176_print",
    "PptRs.Props.C176_signature",
    "PptRs.Props.C176_font",
    "PptRs.Props.C176_points",
    "PptRs.Props.C176_ink",
    "PptRs.Props.C176_find",
    "PptRs.Props.C176_names",
    "PptRs.Props.C176_kiosk",
    "PptRs.Props.C176_default_violated"
   ],
   "note": "C176_show, C176_print, C176_signature, C176_font, C176_video_options, C176_audio_options, C176_video, C176_audio, C176_link: last call wins, C176_points, C176_ink: everything in order, C176_find: lookup and sizes of fonts, C176_names, C176_kiosk: names and preset. Violated: new and default settings differ for slide shows and printing, and two options of videos and sounds have no method. Coordinates and opacity of ink are numbers after conversion; what is written for settings is C98 to C103."
  },
  {
   "property": "C177",
   "status": "partial",
   "theorems": [
    "PptRs.Props.C177_slides",
    "PptRs.Props.C177_new",
    "PptRs.Props.C177_plain",
    "PptRs.Props.C177_settings",
    "PptRs.Props.C177_theme",
    "PptRs.Props.C177_set",
    "PptRs.Props.C177_any",
    "PptRs.Props.C177_build",
    "PptRs.Props.C177_added",
    "PptRs.Props.C177_lost_violated"
   ],
   "note": "C177_slides, C177_plain, C177_settings, C177_theme: sequences of calls, C177_set, C177_any: settings, C177_build: building and saving, C177_added: presentations added. Violated: a theme given before settings is lost, and so are title and settings of an added presentation. The generator is a parameter here; what it writes is C01 to C61 and others."
  },
  {
   "property": "C178",
   "status": "partial",
   "theorems": [
    "PptRs.Props.C178_cell",
    "PptRs.Props.C178_margins",
    "PptRs.Props.C178_table",
    "PptRs.Props.C178_widths",
    "PptRs.Props.C178_colors",
    "PptRs.Props.C178_theme",
    "PptRs.Props.C178_undo_violated",
    "PptRs.Props.C178_order_violated",
    "PptRs.Props.C178_unreachable_violated"
   ],
   "note": "C178_cell, C178_colors, C178_theme: last call wins, C178_table: rows in order and last position and size, C178_widths: widths given stay, C178_margins: equal margins. Violated: attributes of cells cannot be taken back, the size must be given before the first row, and eight of the twelve colors have no method. Widths of borders are numbers after conversion; what is written for tables is C122."
  },
  {
   "property": "C179",
   "status": "partial",
   "theorems": [
    "PptRs.Props.C179_format",
    "PptRs.Props.C179_run",
    "PptRs.Props.C179_paragraph",
    "PptRs.Props.C179_frame",
    "PptRs.Props.C179_of_text",
    "PptRs.Props.C179_spacing_violated",
    "PptRs.Props.C179_unreachable_violated"
   ],
   "note": "C179_format, C179_run, C179_paragraph, C179_frame, C179_of_text: sequences of calls. Violated: a spacing of more than 42949672 points panics, and line spacing and wrapping have no method. Run and FormattedText share one model with all the setters, of which each has some; what is written for text is C129."
  },
  {
   "property": "C180",
   "status": "partial",
   "theorems": [
    "PptRs.Props.C180_accepted",
    "PptRs.Props.C180_refused",
    "PptRs.Props.C180_index_told",
    "PptRs.Props.C180_parts",
    "PptRs.Props.C180_required",
    "PptRs.Props.C180_message",
    "PptRs.Props.C180_minimal_violated",
    "PptRs.Props.C180_ambiguous_violated"
   ],
   "note": "C180_accepted, C180_refused: checks of values, C180_index_told, C180_message: what messages tell, C180_parts: missing parts, C180_required: the lists. Violated: the two lists of required parts contradict each other, and messages on invalid parts can be ambiguous. The check of XML (validate_well_formed_xml) is C75."
  },
  {
   "property": "C181",
   "status": "partial",
   "theorems": [
    "PptRs.Props.C181_range",
    "PptRs.Props.C181_order",
    "PptRs.Props.C181_error",
    "PptRs.Props.C181_empty_violated",
    "PptRs.Props.C181_names_violated"
   ],
   "note": "C181_range, C181_order: first and last slides, in every history, C181_error: messages. Violated: an empty section tells a last slide that is not its own, and two sections may have one name. Sums of slide numbers fit 64 bits. The sections themselves are C14, what is written for them C62."
  }
 ]
}