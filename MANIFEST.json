{
 "claims": [
  {
   "property": "C01",
   "status": "proved",
   "theorems": [
    "Verif.C01_accepts",
    "Verif.C01_prefix_roundtrip",
    "Verif.C01_prefix_transparent",
    "Verif.C01_fold_then_prefix",
    "Verif.C01_lines_prefixed",
    "Verif.C01_short_prefix_fails"
   ],
   "note": "Prefixes of two or more characters on one line; C01_short_prefix_fails shows that one-character prefixes, which the writer accepts, do not round-trip."
  },
  {
   "property": "C02",
   "status": "proved",
   "theorems": [
    "Verif.C02_fold_roundtrip",
    "Verif.C02_long_is_folded",
    "Verif.C02_blank_after_backslash_fails"
   ],
   "note": "C02_blank_after_backslash_fails shows that the side condition on lines ending in backslash and blanks is needed."
  },
  {
   "property": "C03",
   "status": "proved",
   "theorems": [
    "Verif.C03_line_bound",
    "Verif.C03_line_bound_gen",
    "Verif.C03_unfolded_is_short",
    "Verif.C03_bound_reached"
   ],
   "note": "The bound is 139 with the default widths and is reached; the nominal maximum 80 is not kept."
  },
  {
   "property": "C04",
   "status": "partial",
   "theorems": [
    "Verif.RoundTrip.C04_no_early_end",
    "Verif.RoundTrip.C04_roundtrip_partial",
    "Verif.RoundTrip.C04_plain_partial",
    "Verif.RoundTrip.C04_comment_fails",
    "Verif.RoundTrip.C04_folded_comment_fails",
    "Verif.RoundTrip.C04_return_fails",
    "Verif.RoundTrip.C04_header_fails"
   ],
   "note": "No field is ended early by a line feed and semicolon, for all texts. The round trip is proved for all texts and limits apart from the features named in FieldSafe; for each of those the code is wrong and a witness is proved."
  },
  {
   "property": "C05",
   "status": "partial",
   "theorems": [
    "Verif.RoundTrip.C05_total",
    "Verif.RoundTrip.C05_read_partial",
    "Verif.RoundTrip.C05_printable_partial",
    "Verif.RoundTrip.C05_stop_fails",
    "Verif.RoundTrip.C05_return_fails",
    "Verif.RoundTrip.C05_form_feed_fails"
   ],
   "note": "Every text has a representation, and it is read back unless it has one of the features named in Safe, for which the witnesses show that the code is wrong."
  },
  {
   "property": "C06",
   "status": "proved",
   "theorems": [
    "Verif.Scanner.C06_longest",
    "Verif.Scanner.C06_delivered",
    "Verif.Scanner.C06_error",
    "Verif.Scanner.C06_terminates",
    "Verif.Scanner.C06_again",
    "Verif.Scanner.grammars_ok"
   ],
   "note": "For any pattern table; grammars_ok instantiates the side conditions for the four grammars."
  },
  {
   "property": "C07",
   "status": "proved",
   "theorems": [
    "Verif.Scanner.C07_tiled",
    "Verif.Scanner.C07_text",
    "Verif.Scanner.C07_positions",
    "Verif.Scanner.C07_grows"
   ],
   "note": ""
  },
  {
   "property": "C08",
   "status": "proved",
   "theorems": [
    "Verif.Reader.C08_accepted",
    "Verif.Reader.C08_places",
    "Verif.Reader.C08_rest",
    "Verif.Reader.C08_empty_list_fails",
    "Verif.Reader.C08_no_names_fails"
   ],
   "note": "Loops with at least one name and not ending in an empty list; the witnesses show what happens otherwise."
  },
  {
   "property": "C09",
   "status": "proved",
   "theorems": [
    "Verif.Reader.C09_rejected",
    "Verif.Reader.C09_text",
    "Verif.Reader.C09_read",
    "Verif.Reader.C09_stored"
   ],
   "note": ""
  },
  {
   "property": "C10",
   "status": "proved",
   "theorems": [
    "Verif.RoundTrip.C10_roundtrip",
    "Verif.RoundTrip.C10_roundtrip_plain",
    "Verif.RoundTrip.C10_no_rows_fails",
    "Verif.RoundTrip.C10_no_names_fails",
    "Verif.RoundTrip.C10_number_is_text"
   ],
   "note": "For blocks of texts and numbers that are safe by themselves (C04, C05), with rectangular loops that have names and rows; the witnesses show why the conditions on loops are needed, and that numbers come back as their text. With formatting hints the order is the one the hints ask for."
  },
  {
   "property": "C100",
   "status": "partial",
   "theorems": [
    "Verif.Coll.C100_topmost_partial",
    "Verif.Coll.C100_plain",
    "Verif.Coll.C100_text_fails"
   ],
   "note": "Proved for lists of names and children. A single child given as a text is searched for parts: a parent whose name is part of the name of the child is not found."
  },
  {
   "property": "C101",
   "status": "partial",
   "theorems": [
    "Verif.Block.C101_items",
    "Verif.Block.C101_get_partial",
    "Verif.Block.C101_case_fails",
    "Verif.Block.C101_names_fails"
   ],
   "note": "Reading is proved for names in lower case. Other spellings are never found through a view; GetLoopNames raises AttributeError for names outside the loop."
  },
  {
   "property": "C102",
   "status": "partial",
   "theorems": [
    "Verif.Block.C102_set_partial",
    "Verif.Block.C102_add_partial",
    "Verif.Block.C102_order",
    "Verif.Block.C102_length_fails",
    "Verif.Block.C102_ragged_fails"
   ],
   "note": "Proved for new columns of the right length. With another length the call raises but the item stays stored outside the loop; an item of the loop can be given a column of any length, after which the loop is not rectangular."
  },
  {
   "property": "C103",
   "status": "partial",
   "theorems": [
    "Verif.Block.C103_stays_partial",
    "Verif.Block.C103_reused_fails"
   ],
   "note": "Proved as long as one name of the loop is neither removed nor put into another loop. Numbers of loops are used again: the view of a loop that is gone shows the next loop that is made."
  },
  {
   "property": "C104",
   "status": "partial",
   "theorems": [
    "Verif.Validate.C104_open_iff",
    "Verif.Validate.C104_open_partial",
    "Verif.Validate.C104_history_partial",
    "Verif.Validate.C104_hidden_fails",
    "Verif.Validate.C104_invalid_fails",
    "Verif.Validate.C104_spelling_fails",
    "Verif.Validate.C104_nested_fails"
   ],
   "note": "Opening, and all histories in which new blocks are valid and have unused names spelt as their keys. Save frames are not checked; a refused block stays in the file; a name with capitals or blanks raises KeyError after the block was stored; a block with the name of a nested block is not checked."
  },
  {
   "property": "C105",
   "status": "partial",
   "theorems": [
    "Verif.Drel.C105_sound",
    "Verif.Drel.C105_halts",
    "Verif.Drel.C105_unique",
    "Verif.Drel.C105_complete_partial",
    "Verif.Drel.C105_unambiguous",
    "Verif.Drel.C105_fine",
    "Verif.Drel.C105_complete_fails"
   ],
   "note": "Acceptance is proved for the texts of a grammar without the ambiguities of the one in the code. The full statement is false: the list of a for without braces swallows the beginning of the body. The tables are those of the LALR construction with conflicts resolved in favour of shifting; PLY itself is not in the repository."
  },
  {
   "property": "C106",
   "status": "partial",
   "theorems": [
    "Verif.Drel.C106_expression_partial",
    "Verif.Drel.C106_injective",
    "Verif.Drel.C106_assignment",
    "Verif.Drel.C106_step_fails",
    "Verif.Drel.C106_conversion",
    "Verif.Drel.C106_prefix",
    "Verif.Drel.C106_number_fails",
    "Verif.Drel.C106_forms_partial",
    "Verif.Drel.C106_forms_unique"
   ],
   "note": "The round trip is proved for all trees in canonical form and for all the ways to write them that are given in Spec/DrelForms. Slices with a step and no finish are read as having the step for finish; a number after a name is read as an attribute without its first character."
  },
  {
   "property": "C107",
   "status": "partial",
   "theorems": [
    "Verif.Drel.C107_program_partial",
    "Verif.Drel.C107_injective",
    "Verif.Drel.C107_do",
    "Verif.Drel.C107_line_fails",
    "Verif.Drel.C107_forms_partial",
    "Verif.Drel.C107_forms_unique",
    "Verif.Drel.C107_braces",
    "Verif.Drel.C107_dangling"
   ],
   "note": "Proved for programs whose bodies are in braces or are a single line, except a plain if, and for and do with a simple statement as their body, which are not always accepted. A body in braces on one line is a syntax error."
  },
  {
   "property": "C108",
   "status": "partial",
   "theorems": [
    "Verif.Drel.C108_read_partial",
    "Verif.Drel.C108_rounds",
    "Verif.Drel.C108_lossless",
    "Verif.Drel.C108_long_fails",
    "Verif.Drel.C108_escape_fails",
    "Verif.Drel.C108_else_fails"
   ],
   "note": "Reading back is proved for all lists of tokens without long strings and numbers with a base, and without if after else. Two long strings in a text are read as one token; a quote ends a short string even if escaped; else before a word that begins with if is read as else if."
  },
  {
   "property": "C109",
   "status": "proved",
   "theorems": [
    "Verif.Drel.C109_unique",
    "Verif.Drel.C109_expression",
    "Verif.Drel.C109_program",
    "Verif.Drel.C109_injective"
   ],
   "note": "The composition of C106, C107 and C108 on the model of lexer and parser; names, tags and literals are those of the specification Spec/DrelText."
  },
  {
   "property": "C11",
   "status": "proved",
   "theorems": [
    "Verif.Print.C11_apart",
    "Verif.Print.C11_column_zero_fails"
   ],
   "note": "Texts and numbers; lists and tables of CIF 2.0 are not covered. Hints that ask for column 0 are excluded, which the witness shows to be necessary; process_template never produces them for a value."
  },
  {
   "property": "C110",
   "status": "proved",
   "theorems": [
    "Verif.Drel.C110_spelling",
    "Verif.Drel.C110_tokens",
    "Verif.Drel.C110_program",
    "Verif.Drel.C110_same",
    "Verif.Drel.C110_forms"
   ],
   "note": "For the programs of C107; operators are followed by a blank or another separator."
  },
  {
   "property": "C111",
   "status": "partial",
   "theorems": [
    "Verif.Validate.C111_report_partial",
    "Verif.Validate.C111_rows",
    "Verif.Validate.C111_file",
    "Verif.Validate.C111_raises",
    "Verif.Validate.C111_looped_fails",
    "Verif.Validate.C111_headings_fails"
   ],
   "note": "Fails for DDLm dictionaries as soon as the looping check fails (no explanation, KeyError), and where the rows of a table differ in kind (headings of the first row only). How values are printed is an argument of the model."
  },
  {
   "property": "C112",
   "status": "partial",
   "theorems": [
    "Verif.TypeInfo.C112_fixed_partial",
    "Verif.TypeInfo.C112_same",
    "Verif.TypeInfo.C112_types",
    "Verif.TypeInfo.C112_bad",
    "Verif.TypeInfo.C112_none",
    "Verif.TypeInfo.C112_twice_fails",
    "Verif.TypeInfo.C112_outside_fails",
    "Verif.TypeInfo.C112_first_fails",
    "Verif.TypeInfo.C112_lines_fails",
    "Verif.TypeInfo.C112_single_fails"
   ],
   "note": "Proved for expressions on one line with at most one mark of each kind, between brackets. False of the code for several marks (only the last is changed), marks outside brackets (changed), marks directly after the bracket (not changed), several lines (the rest is lost), and a single type that is not looped. What re.compile makes of the text is an argument."
  },
  {
   "property": "C113",
   "status": "partial",
   "theorems": [
    "Verif.CifDic.C113_tables_partial",
    "Verif.CifDic.C113_checked",
    "Verif.CifDic.C113_unlisted_fails",
    "Verif.CifDic.C113_unlooped_fails",
    "Verif.CifDic.C113_none",
    "Verif.CifDic.C113_repeated_fails",
    "Verif.CifDic.C113_text_fails"
   ],
   "note": "Proved for loops in which no scope and option occur twice. False of the code for a scope that is not listed while another is (KeyError), for information that is not looped (KeyError on opening), for repeated rows (only the last counts) and for a single name given as text (taken apart). Nothing of this is read when the dictionary is opened without dREL."
  },
  {
   "property": "C114",
   "status": "partial",
   "theorems": [
    "Verif.Drel.C114_ends",
    "Verif.Drel.C114_unique",
    "Verif.Drel.C114_alone_partial",
    "Verif.Drel.C114_methods",
    "Verif.Drel.C114_others",
    "Verif.Drel.C114_opens",
    "Verif.Drel.C114_functions",
    "Verif.Drel.C114_lines",
    "Verif.Drel.C114_functions_fails",
    "Verif.Drel.C114_category_fails",
    "Verif.Drel.C114_purpose_fails"
   ],
   "note": "False of the code after a function with an error, which leaves the shared lexer inside parentheses, so that the first method of the next dictionary is lost; for functions whose category is written in other capitals; and for methods without a purpose. The translation into Python (C89 and others) is an argument."
  },
  {
   "property": "C115",
   "status": "partial",
   "theorems": [
    "Verif.Wrap.C115_characters_partial",
    "Verif.Wrap.C115_untouched",
    "Verif.Wrap.C115_ends",
    "Verif.Wrap.C115_lines",
    "Verif.Wrap.C115_words",
    "Verif.Wrap.C115_hint",
    "Verif.Wrap.C115_long_fails",
    "Verif.Wrap.C115_hyphen_fails",
    "Verif.Wrap.C115_paragraphs_fails",
    "Verif.Wrap.C115_grows_fails",
    "Verif.Wrap.C115_outputs_fails",
    "Verif.Wrap.C115_endless_fails",
    "Verif.Wrap.C115_tab_fails"
   ],
   "note": "False of the code: words that do not fit on a line, or have hyphens, are cut; the blank lines between paragraphs are lost; every output puts one more line end before the text; indentations above 70 make the layout of a paragraph that starts with whitespace run for ever; a template indented by tabs raises AttributeError."
  },
  {
   "property": "C116",
   "status": "partial",
   "theorems": [
    "Verif.Template.C116_hint_partial",
    "Verif.Template.C116_missing",
    "Verif.Template.C116_columns_positive",
    "Verif.Template.C116_columns_partial",
    "Verif.Template.C116_delimiter",
    "Verif.Template.C116_single_fails",
    "Verif.Template.C116_dot_fails",
    "Verif.Template.C116_bracket_fails",
    "Verif.Template.C116_nextline_fails",
    "Verif.Template.C116_text_fails",
    "Verif.Template.C116_comment_fails"
   ],
   "note": "False of the code: with a single blank between name and value the value goes to twice its column; the name is used as a regular expression, so that dots match anything and names with an index in brackets raise AttributeError; values on the next line get a wrong column; lines of earlier texts, and comments, are taken for the item or the value."
  },
  {
   "property": "C117",
   "status": "partial",
   "theorems": [
    "Verif.Template.C117_values",
    "Verif.Template.C117_columns_partial",
    "Verif.Template.C117_positive",
    "Verif.Template.C117_row",
    "Verif.Template.C117_start_fails",
    "Verif.Template.C117_single_fails",
    "Verif.Template.C117_underscore_fails",
    "Verif.Template.C117_triple_fails",
    "Verif.Template.C117_template_partial",
    "Verif.Template.C117_header",
    "Verif.Template.C117_oneline_fails",
    "Verif.Template.C117_comment_fails",
    "Verif.Template.C117_sameline_fails",
    "Verif.Template.C117_prefix_fails"
   ],
   "note": "False of the code: values at the start of a line are put two columns beyond the end of the line before; with one blank between values the second goes to a tab stop; values with underscores end the row, with StopIteration if names are left; values in triple double quotes are taken apart. Headers with their names in the line of loop_, with comments, or with values after the last name raise AttributeError; a name gets the column of an earlier name it is a prefix of."
  },
  {
   "property": "C118",
   "status": "partial",
   "theorems": [
    "Verif.Template.C118_names",
    "Verif.Template.C118_order",
    "Verif.Template.C118_item",
    "Verif.Template.C118_loop",
    "Verif.Template.C118_columns_partial",
    "Verif.Template.C118_hint",
    "Verif.Template.C118_row",
    "Verif.Template.C118_missing",
    "Verif.Template.C118_loops_fails"
   ],
   "note": "False of the code for the position of loop_, which is the same for all loops of a block; for items and loops, what C116 and C117 say."
  },
  {
   "property": "C12",
   "status": "proved",
   "theorems": [
    "Verif.ReadStar.C12_ctrlZ",
    "Verif.ReadStar.C12_binary",
    "Verif.ReadStar.C12_no_binary",
    "Verif.ReadStar.C12_length",
    "Verif.ReadStar.C12_length_ok"
   ],
   "note": ""
  },
  {
   "property": "C13",
   "status": "partial",
   "theorems": [
    "Verif.ReadStar.C13_header",
    "Verif.ReadStar.C13_request",
    "Verif.ReadStar.C13_auto_partial",
    "Verif.ReadStar.C13_none",
    "Verif.ReadStar.C13_fails"
   ],
   "note": "The first two clauses hold. The third is proved for parsers whose failed attempts leave the collection as it was; C13_fails shows a text that CIF 1.1 accepts but automatic detection rejects because the failed CIF 2.0 attempt leaves a block behind."
  },
  {
   "property": "C14",
   "status": "proved",
   "theorems": [
    "Verif.Block.C14_one_place",
    "Verif.Block.C14_any_history",
    "Verif.Block.C14_repeated_name_fails"
   ],
   "note": "Histories start from an empty block; CreateLoop gets distinct names (C14_repeated_name_fails shows the code does not check this and then breaks the property)."
  },
  {
   "property": "C15",
   "status": "proved",
   "theorems": [
    "Verif.Block.C15_history"
   ],
   "note": ""
  },
  {
   "property": "C16",
   "status": "proved",
   "theorems": [
    "Verif.Block.C16_locked",
    "Verif.Block.C16_locked_subscript",
    "Verif.Block.C16_new_name"
   ],
   "note": ""
  },
  {
   "property": "C17",
   "status": "partial",
   "theorems": [
    "Verif.Block.C17_addItem",
    "Verif.Block.C17_removeItem",
    "Verif.Block.C17_addLoopName",
    "Verif.Block.C17_addLoopName_again",
    "Verif.Block.C17_changeOrder",
    "Verif.Block.C17_createLoop_partial",
    "Verif.Block.C17_createLoop_fails"
   ],
   "note": "CreateLoop of unlooped single values wraps them one at a time, and a failure half way leaves some wrapped: C17_createLoop_fails proves the negation. All other failures change nothing."
  },
  {
   "property": "C18",
   "status": "proved",
   "theorems": [
    "Verif.Block.C18_rectangular",
    "Verif.Block.C18_createLoop_refuses",
    "Verif.Block.C18_addLoopName_refuses",
    "Verif.Block.C18_string_column_fails"
   ],
   "note": "C18_string_column_fails shows why the restriction to columns is needed: AddLoopName accepts a plain string with as many characters as the loop has rows."
  },
  {
   "property": "C19",
   "status": "partial",
   "theorems": [
    "Verif.Block.C19_moves",
    "Verif.Block.C19_position_exact",
    "Verif.Block.C19_position_partial",
    "Verif.Block.C19_position_fails"
   ],
   "note": "Everything but the requested print position holds in full. The position is counted before the named items are taken out of the order: C19_position_exact says where the loop ends up, C19_position_fails refutes the full claim, C19_position_partial covers items that were all looped."
  },
  {
   "property": "C20",
   "status": "proved",
   "theorems": [
    "Verif.Block.C20_remove"
   ],
   "note": ""
  },
  {
   "property": "C21",
   "status": "proved",
   "theorems": [
    "Verif.Block.C21_single",
    "Verif.Block.C21_looped",
    "Verif.Block.C21_unknown",
    "Verif.Block.C21_loop_number_always_raises"
   ],
   "note": "C21_loop_number_always_raises: moving a loop by its number never works."
  },
  {
   "property": "C22",
   "status": "proved",
   "theorems": [
    "Verif.Block.C22_rows"
   ],
   "note": ""
  },
  {
   "property": "C23",
   "status": "proved",
   "theorems": [
    "Verif.Block.C23_keyed",
    "Verif.Block.C23_compound",
    "Verif.Block.C23_caseless_number_raises"
   ],
   "note": "C23_caseless_number_raises: with the case-insensitive option a key column of numbers makes the lookup raise an AttributeError."
  },
  {
   "property": "C24",
   "status": "partial",
   "theorems": [
    "Verif.Block.C24_remove",
    "Verif.Block.C24_remove_succeeds_partial",
    "Verif.Block.C24_remove_read_fails",
    "Verif.Block.C24_add",
    "Verif.Block.C24_add_succeeds",
    "Verif.Block.C24_add_locked_fails"
   ],
   "note": "Whenever the call succeeds the row change is exact. Success is proved for columns whose values pass the block checks; C24_remove_read_fails and C24_add_locked_fails show calls that raise after part of the loop has changed."
  },
  {
   "property": "C25",
   "status": "proved",
   "theorems": [
    "Verif.Block.C25_order",
    "Verif.Block.C25_template",
    "Verif.Block.C25_repeated_hint_fails"
   ],
   "note": "For any distinct lower-case requested names, which every template gives; C25_repeated_hint_fails shows that repeated hints, which templates cannot produce, print twice."
  },
  {
   "property": "C26",
   "status": "proved",
   "theorems": [
    "Verif.Block.C26_halves"
   ],
   "note": "Holds even for unknown names."
  },
  {
   "property": "C27",
   "status": "partial",
   "theorems": [
    "Verif.Block.C27_ascii",
    "Verif.Block.C27_sound",
    "Verif.Block.C27_complete_partial",
    "Verif.Block.C27_fails"
   ],
   "note": "Exact for the ASCII character set. For the CIF 2.0 set nothing invalid is accepted; the code refuses every character beyond U+FFFF whose last hexadecimal digit is E or F (C27_fails)."
  },
  {
   "property": "C28",
   "status": "proved",
   "theorems": [
    "Verif.Block.C28_strict_clash",
    "Verif.Block.C28_strict",
    "Verif.Block.C28_replace",
    "Verif.Block.C28_overlay"
   ],
   "note": "The other block is rectangular, and in strict mode none of its loops consists of match-list names only."
  },
  {
   "property": "C29",
   "status": "proved",
   "theorems": [
    "Verif.Coll.C29_new",
    "Verif.Coll.C29_del",
    "Verif.Coll.C29_rename",
    "Verif.Coll.C29_case",
    "Verif.Coll.C29_history"
   ],
   "note": ""
  },
  {
   "property": "C30",
   "status": "proved",
   "theorems": [
    "Verif.Coll.C30_no_loss",
    "Verif.Coll.C30_refused_iff",
    "Verif.Coll.C30_no_standard_fails"
   ],
   "note": "The claim is about collections with a standard; C30_no_standard_fails shows that without one the older block is replaced."
  },
  {
   "property": "C31",
   "status": "proved",
   "theorems": [
    "Verif.Coll.C31_bookkeeping",
    "Verif.Coll.C31_missing_parent_fails",
    "Verif.Coll.C31_cycle_fails"
   ],
   "note": "Histories of fair calls (Op.Fair): enclosing blocks named in a call exist and are not moved below themselves, and deleted or renamed blocks are visible. The _fails theorems show the code does not check this."
  },
  {
   "property": "C32",
   "status": "partial",
   "theorems": [
    "Verif.Coll.C32_subtree_partial",
    "Verif.Coll.C32_dictionary",
    "Verif.Coll.C32_missing",
    "Verif.Coll.C32_hidden_fails"
   ],
   "note": "Exact when the whole subtree is visible, which dictionary scoping guarantees; with instance scoping deleting a block with children raises half way (C32_hidden_fails)."
  },
  {
   "property": "C33",
   "status": "partial",
   "theorems": [
    "Verif.Coll.C33_rename_partial",
    "Verif.Coll.C33_refused",
    "Verif.Coll.C33_hidden_fails"
   ],
   "note": "For visible blocks; renaming a hidden nested block raises after the table was changed (C33_hidden_fails)."
  },
  {
   "property": "C34",
   "status": "partial",
   "theorems": [
    "Verif.Coll.C34_is_child",
    "Verif.Coll.C34_child_list",
    "Verif.Coll.C34_immediate",
    "Verif.Coll.C34_get_children_partial",
    "Verif.Coll.C34_get_children_root_partial",
    "Verif.Coll.C34_get_children_fails",
    "Verif.Coll.C34_get_parent"
   ],
   "note": "Queries are exact. get_children is exact when no key has the form the code gives to root blocks; C34_get_children_fails is the counterexample."
  },
  {
   "property": "C35",
   "status": "proved",
   "theorems": [
    "Verif.Coll.C35_makebc"
   ],
   "note": ""
  },
  {
   "property": "C36",
   "status": "proved",
   "theorems": [
    "Verif.Coll.C36_disjoint",
    "Verif.Coll.C36_visible_fails",
    "Verif.Coll.C36_clash_raises",
    "Verif.Coll.C36_replace_wins",
    "Verif.Coll.C36_replace_order_fails",
    "Verif.Coll.C36_nested_clash_fails"
   ],
   "note": "The _fails theorems record effects outside the claim: nested blocks becoming visible, a duplicated output order after a replacing merge, and an AttributeError when a top-level and a nested block share a name."
  },
  {
   "property": "C37",
   "status": "proved",
   "theorems": [
    "Verif.Coll.C37_flat",
    "Verif.Coll.C37_flat_complete",
    "Verif.Coll.C37_nested",
    "Verif.Coll.C37_selection_fails"
   ],
   "note": "At the level of whole blocks: the text of one block is a single piece. For collections built by the public operations; C37_selection_fails shows that a selection made by get_children writes nothing. With nested save frames (STAR2) siblings come in table order."
  },
  {
   "property": "C38",
   "status": "proved",
   "theorems": [
    "Verif.Coll.C38_get_all",
    "Verif.Coll.C38_get_all_succeeds"
   ],
   "note": ""
  },
  {
   "property": "C39",
   "status": "partial",
   "theorems": [
    "Verif.Validate.C39_enum_partial",
    "Verif.Validate.C39_unrestricted",
    "Verif.Validate.C39_single_fails"
   ],
   "note": "Proved when the definition lists its values in a list; a single listed value given outside a loop raises AttributeError for every value (witness)."
  },
  {
   "property": "C40",
   "status": "partial",
   "theorems": [
    "Verif.Validate.C40_range_partial",
    "Verif.Validate.C40_unlooped_fails",
    "Verif.Validate.C40_suffix_fails",
    "Verif.Validate.C40_ddl1"
   ],
   "note": "Proved for ranges given as lists and for DDL1 ranges; a range given outside a loop is taken apart character by character, and a number followed by other text passes for the number (witnesses). Numbers are exact rationals."
  },
  {
   "property": "C41",
   "status": "partial",
   "theorems": [
    "Verif.Validate.C41_type_partial",
    "Verif.Validate.C41_sound",
    "Verif.Validate.C41_numb",
    "Verif.Validate.C41_lines_fail",
    "Verif.Validate.C41_empty_fails"
   ],
   "note": "Proved for values without line feeds; the witnesses show a value with lines that is refused although it matches and an empty value that is let through."
  },
  {
   "property": "C42",
   "status": "partial",
   "theorems": [
    "Verif.Validate.C42_parent_partial",
    "Verif.Validate.C42_no_parent",
    "Verif.Validate.C42_stand_in",
    "Verif.Validate.C42_unlinked",
    "Verif.Validate.C42_child_partial",
    "Verif.Validate.C42_agree",
    "Verif.Validate.C42_optimised_fails",
    "Verif.Validate.C42_verdict_fails"
   ],
   "note": "Proved with optimisation off, as in Validate; validating blocks switch it on, and then wrong values are overlooked (witnesses)."
  },
  {
   "property": "C43",
   "status": "partial",
   "theorems": [
    "Verif.Validate.C43_unique",
    "Verif.Validate.C43_repeated_partial",
    "Verif.Validate.C43_missing",
    "Verif.Validate.C43_join_fails"
   ],
   "note": "Soundness is proved in full; a failure is proved to be right when no key value contains a blank, and the witness shows a wrong one."
  },
  {
   "property": "C44",
   "status": "partial",
   "theorems": [
    "Verif.Validate.C44_exclusion",
    "Verif.Validate.C44_dependents_partial",
    "Verif.Validate.C44_case_fails"
   ],
   "note": "Exclusion proved; dependency proved for names that the dictionary writes in lower case (witness for the others)."
  },
  {
   "property": "C45",
   "status": "proved",
   "theorems": [
    "Verif.Validate.C45_mandatory",
    "Verif.Validate.C45_prohibited",
    "Verif.Validate.C45_category"
   ],
   "note": "The tables of mandatory and prohibited items by scope are taken as given."
  },
  {
   "property": "C46",
   "status": "partial",
   "theorems": [
    "Verif.Validate.C46_membership",
    "Verif.Validate.C46_key_partial",
    "Verif.Validate.C46_key_vacuous",
    "Verif.Validate.C46_ddl1_fails",
    "Verif.Validate.C46_ddl2_fails",
    "Verif.Validate.C46_alternate_fails",
    "Verif.Validate.C46_ddlm_partial",
    "Verif.Validate.C46_compound_fails"
   ],
   "note": "Membership proved. The key check looks in the wrong place for DDL1 and DDL2, mishandles alternates and accepts part of a compound key (witnesses)."
  },
  {
   "property": "C47",
   "status": "proved",
   "theorems": [
    "Verif.Validate.C47_verdict",
    "Verif.Validate.C47_complete",
    "Verif.Validate.C47_valid"
   ],
   "note": "For any list of checks, with and without optimisation, whenever no check raises."
  },
  {
   "property": "C48",
   "status": "proved",
   "theorems": [
    "Verif.Validate.C48_add",
    "Verif.Validate.C48_history",
    "Verif.Validate.C48_later_invalid"
   ],
   "note": "Items unknown to the dictionary are stored unchecked, as in the code. The last theorem shows that AddItem does not keep the whole block valid, since present items are not checked again."
  },
  {
   "property": "C49",
   "status": "proved",
   "theorems": [
    "Verif.C49_read",
    "Verif.C49_blank",
    "Verif.C49_any",
    "Verif.C49_plus_fails"
   ],
   "note": "Numbers are exact rationals: rounding and overflow of floating point are not modelled. A leading plus sign is not understood by the code (witness)."
  },
  {
   "property": "C50",
   "status": "proved",
   "theorems": [
    "Verif.TypeContents.C50_accepted",
    "Verif.TypeContents.C50_refused",
    "Verif.TypeContents.C50_unbalanced",
    "Verif.TypeContents.C50_printed",
    "Verif.TypeContents.C50_container_lost",
    "Verif.TypeContents.C50_empty_refused"
   ],
   "note": "The generated parser is modelled with its context-sensitive scanner; accepted texts and their structures are characterised exactly. Python's recursion limit on very deep nesting is not modelled."
  },
  {
   "property": "C51",
   "status": "partial",
   "theorems": [
    "Verif.Convert.C51_tuple",
    "Verif.Convert.C51_tuples",
    "Verif.Convert.C51_repeated",
    "Verif.Convert.C51_single",
    "Verif.Convert.C51_looped",
    "Verif.Convert.C51_real_partial",
    "Verif.Convert.C51_integer",
    "Verif.Convert.C51_integer_texts",
    "Verif.Convert.C51_integer_number",
    "Verif.Convert.C51_caseless",
    "Verif.Convert.C51_text",
    "Verif.Convert.C51_exponent_fails",
    "Verif.Convert.C51_letter_fails",
    "Verif.Convert.C51_point_fails",
    "Verif.Convert.C51_imag_fails",
    "Verif.Convert.C51_nested_fails",
    "Verif.Convert.C51_dimension_fails"
   ],
   "note": "Element by element conversion is proved for list types and lists of list types. Types nested deeper are not converted by the code, a list without a dimension is taken for a single value, and an exponent after an uncertainty is lost (witnesses). Complex numbers and Numpy arrays are parameters of the model."
  },
  {
   "property": "C52",
   "status": "proved",
   "theorems": [
    "Verif.Shape.C52_transpose",
    "Verif.Shape.C52_involution",
    "Verif.Shape.C52_raises",
    "Verif.Shape.C52_no_columns_fails",
    "Verif.Shape.C52_not_none",
    "Verif.Shape.C52_stringiness",
    "Verif.Shape.C52_tables_fail"
   ],
   "note": "Numpy arrays are not modelled."
  },
  {
   "property": "C53",
   "status": "proved",
   "theorems": [
    "Verif.Shape.C53_reach",
    "Verif.Shape.C53_misses",
    "Verif.Shape.C53_single",
    "Verif.Shape.C53_slice",
    "Verif.Shape.C53_mixed_fails"
   ],
   "note": "Slices without a step are modelled as the last index; C53_mixed_fails shows what happens when the lists on the way are not StarLists."
  },
  {
   "property": "C54",
   "status": "partial",
   "theorems": [
    "Verif.CifDic.C54_duplicates",
    "Verif.CifDic.C54_found_partial",
    "Verif.CifDic.C54_keys",
    "Verif.CifDic.C54_others",
    "Verif.CifDic.C54_imported",
    "Verif.CifDic.C54_case_fails",
    "Verif.CifDic.C54_list_fails"
   ],
   "note": "Building the table fails exactly for equal identifiers; every definition is found in any capitalisation when no other identifier differs from it in case only. Identifiers that differ in case only are not refused and hide one definition (C54_case_fails); a DDL2 definition with several names makes the table fail (C54_list_fails)."
  },
  {
   "property": "C55",
   "status": "partial",
   "theorems": [
    "Verif.Import.C55_own",
    "Verif.Import.C55_plain",
    "Verif.Import.C55_imported_partial",
    "Verif.Import.C55_absent",
    "Verif.Import.C55_missing",
    "Verif.Import.C55_registered",
    "Verif.Import.C55_heavy_clash",
    "Verif.Import.C55_heavy",
    "Verif.CifDic.C55_heavy_dictionary",
    "Verif.CifDic.C55_heavy_refused",
    "Verif.CifDic.C55_heavy_all",
    "Verif.CifDic.C55_heavy_whole",
    "Verif.Import.C55_mixed_fails",
    "Verif.Import.C55_skipped_fails",
    "Verif.Import.C55_chain_fails",
    "Verif.Import.C55_contains_fails"
   ],
   "note": "Exact when every reference imports attributes from a registered file. A definition that also imports definitions from another file, or skips a missing one, cannot be read at all (C55_mixed_fails, C55_skipped_fails); imports of imports are not followed (C55_chain_fails); `in` and `get` do not see imported attributes (C55_contains_fails); heavy imports refuse attributes present in both (C55_heavy_clash)."
  },
  {
   "property": "C56",
   "status": "partial",
   "theorems": [
    "Verif.CifDic.C56_immediate",
    "Verif.CifDic.C56_children",
    "Verif.CifDic.C56_semantic_partial",
    "Verif.CifDic.C56_expand",
    "Verif.CifDic.C56_expand_item",
    "Verif.CifDic.C56_danglers",
    "Verif.CifDic.C56_rootless",
    "Verif.CifDic.C56_case_fails",
    "Verif.CifDic.C56_cycle_fails",
    "Verif.CifDic.C56_no_head_fails"
   ],
   "note": "Children, immediate children and expansion are exact. is_semantic_child is exact for a child written in lower case (C56_case_fails otherwise). Danglers are exactly the definitions that do not reach the Head, which includes those below a category that is not defined."
  },
  {
   "property": "C57",
   "status": "partial",
   "theorems": [
    "Verif.CifDic.C57_rooted_partial",
    "Verif.CifDic.C57_order_partial",
    "Verif.CifDic.C57_lost_fails",
    "Verif.CifDic.C57_name_fails",
    "Verif.CifDic.C57_nested_fails",
    "Verif.CifDic.C57_point_fails"
   ],
   "note": "Exact when categories are kept in blocks named by their identifiers (Tidy) and definitions that do not reach the Head have the form the code expects (Loose). The witnesses show lost definitions, a name that is no block and exceptions otherwise."
  },
  {
   "property": "C58",
   "status": "proved",
   "theorems": [
    "Verif.Derive.C58_restored",
    "Verif.Derive.C58_read_restored",
    "Verif.Derive.C58_refused",
    "Verif.Derive.C58_chain",
    "Verif.Derive.C58_terminates",
    "Verif.Derive.C58_read_terminates"
   ],
   "note": "Over all dictionaries and methods whose names lie in a finite set (Closed); methods are arbitrary terminating programs that read items, derive categories and change the block."
  },
  {
   "property": "C59",
   "status": "partial",
   "theorems": [
    "Verif.Derive.C59_alias",
    "Verif.Derive.C59_alias_unchanged",
    "Verif.Derive.C59_definition",
    "Verif.Derive.C59_other_alias",
    "Verif.Derive.C59_ambiguous",
    "Verif.Derive.C59_method",
    "Verif.Derive.C59_method_unstored",
    "Verif.Derive.C59_default",
    "Verif.Derive.C59_index_default",
    "Verif.Derive.C59_underivable",
    "Verif.Derive.C59_choice",
    "Verif.Derive.C59_unsaid_fails",
    "Verif.Derive.C59_column_partial",
    "Verif.Derive.C59_column_default",
    "Verif.Derive.C59_column_stored",
    "Verif.Derive.C59_empty_loop_fails",
    "Verif.Derive.C59_no_loop_fails"
   ],
   "note": "The order alias, method, default, failure holds for all dictionaries, blocks and outcomes of methods. The computed value of an item of a loop that is absent is dropped (C59_empty_loop_fails), and a column beside an unlooped one raises after storing (C59_no_loop_fails). When the outermost call does not say whether defaults may be used, it uses them and the calls made during it do not (C59_unsaid_fails)."
  },
  {
   "property": "C60",
   "status": "proved",
   "theorems": [
    "Verif.Derive.C60_pullback",
    "Verif.Derive.C60_filter",
    "Verif.Derive.C60_present",
    "Verif.Derive.C60_repeated_fails"
   ],
   "note": "For key columns without repeated values, as keys must be. C60_repeated_fails shows what happens otherwise. Storing the built columns in the block is modelled but not covered by a theorem."
  },
  {
   "property": "C61",
   "status": "partial",
   "theorems": [
    "Verif.Derive.C61_reverse_partial",
    "Verif.Derive.C61_forward_partial",
    "Verif.Derive.C61_single_fails",
    "Verif.Derive.C61_case_fails"
   ],
   "note": "Exact for aliases given in loops and compared letter by letter. C61_single_fails: a single alias outside a loop is taken apart into letters. C61_case_fails: a name in other capitals is not recognised."
  },
  {
   "property": "C62",
   "status": "proved",
   "theorems": [
    "Verif.Drel.C62_append",
    "Verif.Drel.C62_append_raises",
    "Verif.Drel.C62_add",
    "Verif.Drel.C62_sub",
    "Verif.Drel.C62_scalar",
    "Verif.Drel.C62_lengths",
    "Verif.Drel.C62_one",
    "Verif.Drel.C62_numbers",
    "Verif.Drel.C62_add_sub",
    "Verif.Drel.C62_remove",
    "Verif.Drel.C62_remove_raises",
    "Verif.Drel.C62_strip"
   ],
   "note": "Lists of numbers (exact rationals) for sums and differences; Numpy arrays as operands are not modelled."
  },
  {
   "property": "C63",
   "status": "proved",
   "theorems": [
    "Verif.RoundTrip.C63_file"
   ],
   "note": "Files without save frames, at least one block. Save frames: C74."
  },
  {
   "property": "C64",
   "status": "partial",
   "theorems": [
    "Verif.Validate.C64_esd_partial",
    "Verif.Validate.C64_permitted",
    "Verif.Validate.C64_ddl2_fails",
    "Verif.Validate.C64_ddlm_fails"
   ],
   "note": "The clause holds for DDL1 numb items; for DDL2 and DDLm the witnesses show that the check is never carried out."
  },
  {
   "property": "C65",
   "status": "partial",
   "theorems": [
    "Verif.Validate.C65_looping",
    "Verif.Validate.C65_references_partial",
    "Verif.Validate.C65_group_fails"
   ],
   "note": "References to groups of names (ending in an underscore) are never refused (witness)."
  },
  {
   "property": "C66",
   "status": "partial",
   "theorems": [
    "Verif.Derive.C66_stored",
    "Verif.Derive.C66_converted",
    "Verif.Derive.C66_inapplicable",
    "Verif.Derive.C66_missing",
    "Verif.Derive.C66_missing_default",
    "Verif.Derive.C66_missing_fails",
    "Verif.Derive.C66_method",
    "Verif.Derive.C66_default",
    "Verif.Derive.C66_unknown_partial",
    "Verif.Derive.C66_unknown_kept",
    "Verif.Derive.C66_get",
    "Verif.Derive.C66_default_fails",
    "Verif.Derive.C66_removed_fails"
   ],
   "note": "Everything but the last clause on unknown values holds. For an item with '?' that has only a default, the default is stored but '?' is returned (C66_default_fails); if it cannot be derived at all '?' is returned but the item is removed from the block (C66_removed_fails)."
  },
  {
   "property": "C67",
   "status": "partial",
   "theorems": [
    "Verif.CifDic.C67_item_partial",
    "Verif.CifDic.C67_item_refused",
    "Verif.CifDic.C67_category_partial",
    "Verif.CifDic.C67_capitals_fails",
    "Verif.CifDic.C67_hidden_fails",
    "Verif.CifDic.C67_orphan_fails",
    "Verif.CifDic.C67_headless_fails",
    "Verif.CifDic.C67_itself_fails",
    "Verif.CifDic.C67_unlocked_fails"
   ],
   "note": "Proved for lower-case item names that are not in use and for categories with an existing parent or a Head. Capitals in an item name make it unremovable (C67_capitals_fails); a name in use hides the earlier definition (C67_hidden_fails); a missing parent or a missing Head leaves the category behind (C67_orphan_fails, C67_headless_fails); a category may become its own parent (C67_itself_fails); adding an item unlocks the dictionary for good (C67_unlocked_fails)."
  },
  {
   "property": "C68",
   "status": "partial",
   "theorems": [
    "Verif.CifDic.C68_remove",
    "Verif.CifDic.C68_missing",
    "Verif.CifDic.C68_delete_partial",
    "Verif.CifDic.C68_stale_fails",
    "Verif.CifDic.C68_cycle_fails"
   ],
   "note": "remove_definition is exact for dictionaries whose blocks are nested as their categories are (Nested). del of a definition whose block encloses others leaves their names behind (C68_stale_fails); with cyclic categories the removal does not end (C68_cycle_fails)."
  },
  {
   "property": "C69",
   "status": "partial",
   "theorems": [
    "Verif.CifDic.C69_name_partial",
    "Verif.CifDic.C69_item_partial",
    "Verif.CifDic.C69_category_partial",
    "Verif.CifDic.C69_unmoved",
    "Verif.CifDic.C69_rename_partial",
    "Verif.CifDic.C69_hidden_fails",
    "Verif.CifDic.C69_same_fails",
    "Verif.CifDic.C69_title_fails",
    "Verif.CifDic.C69_cycle_fails",
    "Verif.CifDic.C69_block_fails",
    "Verif.CifDic.C69_underscore_fails"
   ],
   "note": "Proved for new names that are not in use and categories kept in blocks named like them. A name in use hides the other definition (C69_hidden_fails), the name it has already makes the definition itself disappear (C69_same_fails), the enclosing block cannot be renamed (C69_title_fails), a category may go into one below it (C69_cycle_fails), a category in a block of another name makes the move fail halfway (C69_block_fails), and the items of a renamed category are listed without their underscore (C69_underscore_fails)."
  },
  {
   "property": "C70",
   "status": "partial",
   "theorems": [
    "Verif.RoundTrip.C70_written",
    "Verif.RoundTrip.C70_roundtrip_partial",
    "Verif.RoundTrip.C70_roundtrip_plain_partial",
    "Verif.RoundTrip.C70_file_partial",
    "Verif.RoundTrip.C74_file20_partial",
    "Verif.RoundTrip.C70_glued_fails",
    "Verif.RoundTrip.C70_name_glued_fails",
    "Verif.RoundTrip.C70_key_fails",
    "Verif.RoundTrip.C70_last_fails",
    "Verif.RoundTrip.C70_triple_fails"
   ],
   "note": "Writing never fails. Reading back is proved when words cannot run together (Unglued: lists or tables only in loops of one column and names of tables that end before column 80, or all lines shorter than 79 characters). Otherwise values run together at the end of full lines (C70_glued_fails, C70_name_glued_fails). Keys with quotes, empty lists at the end of a loop and texts with triple quotes are misread (C70_key_fails, C70_last_fails, C70_triple_fails)."
  },
  {
   "property": "C71",
   "status": "partial",
   "theorems": [
    "Verif.DrelMeaning.C71_expression_partial",
    "Verif.DrelMeaning.C71_unique",
    "Verif.DrelMeaning.C71_variables",
    "Verif.DrelMeaning.C71_start",
    "Verif.DrelMeaning.C71_union_fails",
    "Verif.DrelMeaning.C71_list_fails",
    "Verif.DrelMeaning.C71_step_fails",
    "Verif.DrelMeaning.C71_raises_fails",
    "Verif.DrelMeaning.C71_sort_fails",
    "Verif.DrelMeaning.C71_words_fails",
    "Verif.DrelMeaning.C71_packet_fails"
   ],
   "note": "Proved for all expressions of any depth without the constructions for which it fails: & after |, lists outside the right side of an assignment, slices with missing parts, several slices, empty brackets, sort, names that are Python keywords, integers with leading zeros, literals with backslashes or over several lines, packets chosen inside an expression without taking an object."
  },
  {
   "property": "C72",
   "status": "partial",
   "theorems": [
    "Verif.DrelMeaning.C72_statements_partial",
    "Verif.DrelMeaning.C72_method_partial",
    "Verif.DrelMeaning.C72_unique",
    "Verif.DrelMeaning.C72_downwards_fails",
    "Verif.DrelMeaning.C72_end_fails",
    "Verif.DrelMeaning.C72_operator_fails",
    "Verif.DrelMeaning.C72_with_fails",
    "Verif.DrelMeaning.C72_alias_fails",
    "Verif.DrelMeaning.C72_stale_fails",
    "Verif.DrelMeaning.C72_copied_fails",
    "Verif.DrelMeaning.C72_several_fails",
    "Verif.DrelMeaning.C72_attribute_fails",
    "Verif.DrelMeaning.C72_string_fails",
    "Verif.DrelMeaning.C72_limit_fails",
    "Verif.DrelMeaning.C72_own_fails",
    "Verif.DrelMeaning.C72_index_fails"
   ],
   "note": "Proved for all statements of any depth without the constructions for which it fails: ranges that count downwards or whose end is an unbracketed operation binding less than +, *= and /=, other names of a category inside with, aliases after their with statement, packets copied between variables, among several values or in variables given other values later, attributes of variables as targets, strings over several lines, loops limited by a variable a, the derived item in a packet of a loop, loops nested in a later loop with an alias used before."
  },
  {
   "property": "C73",
   "status": "partial",
   "theorems": [
    "Verif.DrelMeaning.C73_dependencies_partial",
    "Verif.DrelMeaning.C73_itself_fails",
    "Verif.DrelMeaning.C73_twice_fails"
   ],
   "note": "Names of items taken from packets are reported in the case of the dictionary, others in lower case: so the item itself can be reported as its own dependency, and an item twice. The constructions excluded in C72 are not treated."
  },
  {
   "property": "C74",
   "status": "proved",
   "theorems": [
    "Verif.RoundTrip.C74_file",
    "Verif.RoundTrip.C74_start",
    "Verif.RoundTrip.C74_ctrlZ_fails"
   ],
   "note": "CIF 1.1. The same for CIF 2.0 is C74_file20_partial, listed with C70. Reading stops at Ctrl-Z (C74_ctrlZ_fails), so texts with it are excluded."
  },
  {
   "property": "C75",
   "status": "partial",
   "theorems": [
    "Verif.CifDic.C75_names_partial",
    "Verif.CifDic.C75_split",
    "Verif.CifDic.C75_deep_fails"
   ],
   "note": "Proved when looped categories are nested at most once. With deeper nesting, of several looped categories in a category only the last one passes its names on to the categories further up."
  },
  {
   "property": "C76",
   "status": "partial",
   "theorems": [
    "Verif.CifDic.C76_keys_partial",
    "Verif.CifDic.C76_nested_fails"
   ],
   "note": "Proved when looped categories are nested at most once. For every dictionary with deeper nesting it is proved that making the table raises a TypeError, so that the dictionary cannot be read."
  },
  {
   "property": "C77",
   "status": "proved",
   "theorems": [
    "Verif.CifDic.C77_parents",
    "Verif.CifDic.C77_same",
    "Verif.CifDic.C77_equivs",
    "Verif.CifDic.Equivs.unique"
   ],
   "note": "A looped category below itself makes the code loop for ever; the hypothesis excludes it."
  },
  {
   "property": "C78",
   "status": "partial",
   "theorems": [
    "Verif.Ddl1.C78_opens",
    "Verif.Ddl1.C78_keys",
    "Verif.Ddl1.C78_found_partial",
    "Verif.Ddl1.C78_types",
    "Verif.Ddl1.C78_range",
    "Verif.Ddl1.C78_case_fails"
   ],
   "note": "Proved for files in which no block has the name of a definition, as usual in DDL1. If a block is named as its definition is, and the name has capitals, the definition is lost (C78_case_fails)."
  },
  {
   "property": "C79",
   "status": "partial",
   "theorems": [
    "Verif.Ddl1.C79_categories_partial",
    "Verif.Ddl1.C79_once",
    "Verif.Ddl1.C79_twice_fails"
   ],
   "note": "Exact but for repeated items in other capitals: definitions are listed in lower case, what they name as it is written (C79_twice_fails). Without capitals no item is listed twice (C79_once)."
  },
  {
   "property": "C80",
   "status": "partial",
   "theorems": [
    "Verif.SemPacket.C80_packet_partial",
    "Verif.SemPacket.C80_none",
    "Verif.SemPacket.C80_tables",
    "Verif.SemPacket.C80_again_fails",
    "Verif.SemPacket.C80_unbound_fails",
    "Verif.SemPacket.C80_underscores_fails"
   ],
   "note": "Proved for keys that are usable once they are read (no None) and names that do not begin with two underscores. A key that is generated as None adds the row before it once more, or raises UnboundLocalError if there is none (C80_again_fails, C80_unbound_fails); items with two underscores are no attributes (C80_underscores_fails)."
  },
  {
   "property": "C81",
   "status": "partial",
   "theorems": [
    "Verif.SemPacket.C81_derived_partial",
    "Verif.SemPacket.C81_underivable",
    "Verif.SemPacket.C81_caseless_fails"
   ],
   "note": "Keys are compared without regard to case here whatever their type, so the row must be the only one in this sense; otherwise a ValueError is raised for an attribute of a packet that was itself found by its key (C81_caseless_fails)."
  },
  {
   "property": "C82",
   "status": "partial",
   "theorems": [
    "Verif.SemPacket.C82_packet_partial",
    "Verif.SemPacket.C82_none_fails",
    "Verif.SemPacket.C82_nested_fails"
   ],
   "note": "Proved for categories without looped categories nested in them. Without such a row an empty packet is returned and no error is raised (C82_none_fails); with a nested category that has something for its keys in the block there is always an error unless the keys of the nested category are given too (C82_nested_fails)."
  },
  {
   "property": "C83",
   "status": "partial",
   "theorems": [
    "Verif.Ddl2.C83_opened_partial",
    "Verif.Ddl2.C83_listed_fails",
    "Verif.Ddl2.C83_aliases_fails",
    "Verif.Ddl2.C83_links_fails"
   ],
   "note": "Proved for dictionaries whose definitions name one item each and that have no aliases. Under Python 3 no DDL2 dictionary with a definition that lists several names, and none with an alias, can be opened (C83_listed_fails, C83_aliases_fails, for all such dictionaries), and links are not completed (C83_links_fails)."
  },
  {
   "property": "C84",
   "status": "proved",
   "theorems": [
    "Verif.ReadEnds.C84_ends"
   ],
   "note": "Every rule consumes text and every repetition ends; the bounds of the model are never reached. The limit of the interpreter on nested calls is not modelled."
  },
  {
   "property": "C85",
   "status": "partial",
   "theorems": [
    "Verif.ReadEnds.C85_partial",
    "Verif.ReadEnds.C85_apart",
    "Verif.ReadEnds.C85_frameless",
    "Verif.ReadEnds.C85_fails"
   ],
   "note": "Proved for texts in which no save frame has the name of a data block (C85_apart, C85_frameless). A save frame with the name of an earlier data block makes merge_fast raise AttributeError, which is not caught (C85_fails); nothing else is raised (C85_partial)."
  },
  {
   "property": "C86",
   "status": "proved",
   "theorems": [
    "Verif.Decode.C86_plain",
    "Verif.Decode.C86_bom",
    "Verif.Decode.C86_refused",
    "Verif.Decode.C86_saved"
   ],
   "note": "UTF-8 is specified by the encoder of the Lean library; the decoder of the model follows the rules of Python."
  },
  {
   "property": "C87",
   "status": "partial",
   "theorems": [
    "Verif.Decode.C87_partial",
    "Verif.Decode.C87_nothing_fails",
    "Verif.Decode.C87_fails"
   ],
   "note": "On UTF-8 files permissive mode makes no difference. For every other file it reads nothing and returns None, because the stream is read a second time after it has come to its end."
  },
  {
   "property": "C88",
   "status": "partial",
   "theorems": [
    "Verif.Decode.C88_partial",
    "Verif.Decode.C88_empty_fails",
    "Verif.Decode.C88_empty_sources",
    "Verif.Decode.C88_default_fails"
   ],
   "note": "Proved for sources with a text that is not empty. For the others, which C88_empty_sources characterises, None is returned; ReadStar without a collection always raises AttributeError."
  },
  {
   "property": "C89",
   "status": "partial",
   "theorems": [
    "Verif.CifDic.C89_heads_partial",
    "Verif.CifDic.C89_category_fails",
    "Verif.CifDic.C89_frame_fails",
    "Verif.CifDic.C89_nested_fails"
   ],
   "note": "Proved for the import of a head into a head, for dictionaries whose frames are not nested and have no names in common. The import of any other category raises IndexError (C89_category_fails, for all such dictionaries); an importing definition whose frame has another name raises StarError (C89_frame_fails); nested frames are deleted again (C89_nested_fails)."
  },
  {
   "property": "C90",
   "status": "partial",
   "theorems": [
    "Verif.CifDic.C90_light_partial",
    "Verif.CifDic.C90_case_fails"
   ],
   "note": "Names are found in lower case only, which is proved for all names (C90_case_fails). Imported definitions are not listed."
  },
  {
   "property": "C91",
   "status": "partial",
   "theorems": [
    "Verif.CifDic.C91_missing_partial",
    "Verif.CifDic.C91_duplicate",
    "Verif.CifDic.C91_every",
    "Verif.CifDic.C91_loaded",
    "Verif.CifDic.C91_none",
    "Verif.CifDic.C91_spelling_fails"
   ],
   "note": "Flags are compared with case: any value but Exit passes over a missing definition (C91_spelling_fails); values of dupl other than Exit and Ignore go on with the import. Proved for heavy imports."
  },
  {
   "property": "C92",
   "status": "partial",
   "theorems": [
    "Verif.Validate.C92_file_partial",
    "Verif.Validate.C92_raises",
    "Verif.Validate.C92_matched",
    "Verif.Validate.C92_unmatched_fails",
    "Verif.Validate.C92_scoping_fails"
   ],
   "note": "The results are as stated, and the only errors are those of the checks. The file is not left as it was: items that are not in the dictionary are deleted from it (C92_unmatched_fails, for all files), and a dictionary stays in the scoping of dictionaries (C92_scoping_fails). Files whose names are all known keep their blocks (C92_matched)."
  },
  {
   "property": "C93",
   "status": "partial",
   "theorems": [
    "Verif.Validate.C93_block_partial",
    "Verif.Validate.C93_whole_fails",
    "Verif.Validate.C93_spelling_fails"
   ],
   "note": "Proved for single blocks under their names in lower case. The question about the whole file always raises AttributeError, and a name with capitals KeyError."
  },
  {
   "property": "C94",
   "status": "partial",
   "theorems": [
    "Verif.Validate.C94_valid_partial",
    "Verif.Validate.C94_invalid",
    "Verif.Validate.C94_unmatched_fails",
    "Verif.Validate.C94_delete_fails",
    "Verif.Validate.C94_loop_fails"
   ],
   "note": "Proved for making the block. A block with a name that is not in the dictionary is never accepted, deletion always raises an error, and so does AddToLoop."
  },
  {
   "property": "C95",
   "status": "partial",
   "theorems": [
    "Verif.Block.C95_loop_partial",
    "Verif.Block.C95_constructor",
    "Verif.Block.C95_nested",
    "Verif.Block.C95_compat",
    "Verif.Block.C95_extra_fails",
    "Verif.Block.C95_missing_fails",
    "Verif.Block.C95_text_fails",
    "Verif.Block.C95_flat_fails"
   ],
   "note": "Proved for the constructor, AddLoopItem and the nested form of AddCifItem with as many columns as names. Further columns are dropped; with too few the block stays half filled; AddCifItem stores a text as a list of its characters and always refuses (names,columns)."
  },
  {
   "property": "C96",
   "status": "proved",
   "theorems": [
    "Verif.Alias.C96_independent",
    "Verif.Alias.C96_new",
    "Verif.Alias.C96_call"
   ],
   "note": ""
  },
  {
   "property": "C97",
   "status": "partial",
   "theorems": [
    "Verif.Alias.C97_same",
    "Verif.Alias.C97_mild_partial",
    "Verif.Alias.C97_move_fails",
    "Verif.Alias.C97_packet_fails",
    "Verif.Alias.C97_remove_fails",
    "Verif.Alias.C97_loop_fails",
    "Verif.Alias.C97_loop_name_fails",
    "Verif.Alias.C97_add_packet_fails"
   ],
   "note": "Independence is proved for histories that change no existing loop. A copy shares the lists of names of its loops and the stored values with the original: removing, moving or looping a looped item of the copy, or adding and removing packets, changes the original, which then omits the item from output, prints an item twice or loses packets (proved for all blocks). CifBlock.copy always raises AttributeError."
  },
  {
   "property": "C98",
   "status": "partial",
   "theorems": [
    "Verif.Coll.C98_disjoint_partial",
    "Verif.Coll.C98_replace_partial",
    "Verif.Coll.C98_match_partial",
    "Verif.Coll.C98_single",
    "Verif.Coll.C98_clash",
    "Verif.Coll.C98_replace_fails",
    "Verif.Coll.C98_atomic_fails",
    "Verif.Coll.C98_order_fails",
    "Verif.Coll.C98_renamed_fails",
    "Verif.Coll.C98_unnamed_fails"
   ],
   "note": "Proved for files without common names, with every block under its own name and after the block that encloses it; for replacing, into files without a standard and without nested blocks. In a file with a standard (all CIF files) replace mode raises for every top-level block that both have; a refused strict merge has already added blocks; blocks that come before the enclosing one are lost; files with a save frame named like a data block cannot be merged; blocks without a name are skipped."
  },
  {
   "property": "C99",
   "status": "partial",
   "theorems": [
    "Verif.Coll.C99_one",
    "Verif.Coll.C99_outer_partial",
    "Verif.Coll.C99_ddl1_fails",
    "Verif.Coll.C99_frames_fails",
    "Verif.Coll.C99_several_fails"
   ],
   "note": "Only the outer blocks of dictionaries with save frames are merged, never the definitions; DDL1 dictionaries cannot be merged in any mode; if the first dictionary has several blocks but not on_this_dictionary the others are ignored. All proved for all dictionaries."
  }
 ]
}