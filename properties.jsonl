{"id": "C01", "title": "Line-prefix protocol round trip", "statement": "Applying the text-prefix protocol to any text with any acceptable prefix and then decoding it the way the reader does gives the original text back; a prefix that starts with a semicolon or contains a backslash is refused.", "quantifier": "all texts; all single-line prefixes of two or more characters", "why_tests_cant": "Texts and prefixes are unbounded strings, and the interesting texts contain the prefix itself, newlines, backslashes and folding headers in any position.", "anchors": ["src/StarFile.nw:apply_line_prefix", "src/StarFile.nw:remove_line_prefix", "src/YappsStarParser.nw:stripextras"]}
{"id": "C02", "title": "Line-folding protocol round trip", "statement": "If apply_line_folding folds a text, remove_line_folding gives back exactly that text, provided no line of the text ends in a backslash followed by blanks; texts it does not fold it returns unchanged.", "quantifier": "all texts of any number and length of lines", "why_tests_cant": "Fold positions depend on the length and blanks of every line; a fold can fall next to a backslash or a blank anywhere in an unbounded text.", "anchors": ["src/StarFile.nw:apply_line_folding", "src/StarFile.nw:remove_line_folding"]}
{"id": "C03", "title": "Folded lines are short", "statement": "After folding, every physical line of the text has a bounded length that does not depend on the input, and folding is only skipped when every line was already shorter than the wrap length.", "quantifier": "all texts", "why_tests_cant": "The bound must hold for every line of every text, including lines with blanks placed adversarially.", "anchors": ["src/StarFile.nw:apply_line_folding"]}
{"id": "C04", "title": "Semicolon text field round trip", "statement": "A text written as a semicolon-delimited field (with whatever folding and prefixing the writer chooses) is decoded by the reader to exactly the original text, and the field cannot be terminated early by its own contents.", "quantifier": "all texts and all output line-length limits", "why_tests_cant": "Embedded newline-semicolon pairs, fold headers and prefix look-alikes can occur anywhere in unbounded text.", "anchors": ["src/StarFile.nw:_formatstring", "src/StarFile.nw:apply_line_folding", "src/StarFile.nw:apply_line_prefix", "src/YappsStarParser.nw:stripextras"]}
{"id": "C05", "title": "Choice of delimiter is safe", "statement": "For every string the writer's chosen representation (bare, single-quoted, double-quoted or semicolon), when followed by white space, is read by the CIF 1.1 reader as one value token which decodes to the original string.", "quantifier": "all strings, all output line-length limits, all requested delimiters", "why_tests_cant": "The delimiter decision looks at first characters, reserved words, embedded quotes and length; any string over the alphabet may be written.", "anchors": ["src/StarFile.nw:_formatstring", "src/YappsStarParser.nw:data_value_1", "src/YappsStarParser.nw:stripstring", "src/YappsStarParser.nw:stripextras"]}
{"id": "C06", "title": "Scanner takes the longest match, earliest pattern on ties", "statement": "Each token delivered by the scanner is the longest match among the permitted patterns at that place, the first listed pattern winning ties, and only ignorable text (blanks, comments) is skipped between tokens.", "quantifier": "all inputs, all pattern tables, all restriction sets", "why_tests_cant": "Quantifies over every input text and every set of permitted tokens the parser can ask for.", "anchors": ["src/yapps3_compiled_rt.py:Scanner.interp_scan", "src/yapps3_compiled_rt.py:Scanner.interp_token"]}
{"id": "C07", "title": "Scanner loses no text", "statement": "At every moment of a parse the consumed input is exactly the concatenation, in order, of the delivered tokens and the skipped text, and token positions never decrease.", "quantifier": "all inputs and all histories of token requests", "why_tests_cant": "History property of an unbounded sequence of scan requests.", "anchors": ["src/yapps3_compiled_rt.py:Scanner.interp_scan", "src/yapps3_compiled_rt.py:Scanner.interp_token", "src/yapps3_compiled_rt.py:Parser._scan"]}
{"id": "C08", "title": "Loop construction from a flat value list", "statement": "Reading a loop of n names and a flat list of values succeeds exactly when the values fill whole packets; then value number k goes to row k div n of the column named by position k mod n, every column has the same length, and otherwise an error is raised.", "quantifier": "all name lists without repetition and all value lists", "why_tests_cant": "Numbers of columns and rows are unbounded.", "anchors": ["src/YappsStarParser.nw:makeloop", "src/StarFile.nw:CreateLoop", "src/StarFile.nw:AddItem"]}
{"id": "C09", "title": "Duplicate data names in a file are rejected", "statement": "Reading a data block in which a data name occurs twice (in any combination of capitals, looped or not) always fails, and reading a block without such a repetition stores every item with exactly its value.", "quantifier": "all sequences of items and loops in a block", "why_tests_cant": "The repeated name can be any distance away and in any loop.", "anchors": ["src/YappsStarParser.nw:dblock", "src/YappsStarParser.nw:makeloop", "src/StarFile.nw:AddItem"]}
{"id": "C10", "title": "Writing a block and reading it back", "statement": "For every data block of string items and loops, the text produced by printing the block is parsed by the CIF 1.1 reader to a block with the same names, the same values, the same loops and the same order.", "quantifier": "all blocks whose values are strings that the delimiter choice treats safely", "why_tests_cant": "Layout (tabs, line breaks, delimiters dropped at full lines) depends on the lengths of all preceding text; blocks are unbounded.", "anchors": ["src/StarFile.nw:printsection", "src/StarFile.nw:CIFStringIO.write", "src/StarFile.nw:format_packets", "src/YappsStarParser.nw:dblock"]}
{"id": "C11", "title": "Line layout keeps tokens apart", "statement": "Printing never glues two consecutive names or values together: between the end of one and the start of the next there is always white space, and a semicolon text field always starts at the beginning of a line.", "quantifier": "all sequences of items and loops of string values, all layout hints a template can produce (none asks for column 0)", "why_tests_cant": "The line position is a running state over unbounded output and the separator is sometimes deliberately dropped.", "anchors": ["src/StarFile.nw:CIFStringIO.write", "src/StarFile.nw:printsection", "src/StarFile.nw:format_packets", "src/StarFile.nw:format_names"]}
{"id": "C12", "title": "Input clean-up before parsing", "statement": "Text after a control-Z is ignored; with CBF set, the text between the first and second, third and fourth, ... binary markers is dropped and everything outside them is kept; a line longer than the limit is always reported with the number of the first such line.", "quantifier": "all texts and all limits", "why_tests_cant": "Markers and long lines may occur anywhere and any number of times.", "anchors": ["src/StarFile.nw:ReadStar"]}
{"id": "C13", "title": "Grammar selection", "statement": "A CIF 2.0 parse is attempted only for text that starts with the CIF 2.0 header; requesting 2.0 without that header is an error; automatic detection returns the result of the first grammar, in the order 2.0, 1.1, 1.0, that parses the text.", "quantifier": "all texts, all requested grammars, all outcomes of the individual parsers", "why_tests_cant": "Quantifies over the outcomes of three parsers on every text.", "anchors": ["src/StarFile.nw:ReadStar"]}
{"id": "C14", "title": "Every item is in exactly one place", "statement": "After any sequence of operations on a block, every stored data name appears exactly once in the print order: either directly or in exactly one loop; loop numbers in the order are exactly the existing loops; nothing else is listed.", "quantifier": "all finite histories of AddItem, RemoveItem, CreateLoop (of distinct names), AddLoopName, ChangeItemOrder, clear, packet operations and merging, successful or failing", "why_tests_cant": "Invariant of an unbounded history of mutations.", "anchors": ["src/StarFile.nw:StarBlock", "src/StarFile.nw:CreateLoop", "src/StarFile.nw:RemoveItem", "src/StarFile.nw:AddLoopName"]}
{"id": "C15", "title": "A block is a case-insensitive map", "statement": "Looking up a data name, in any capitalisation, gives the value most recently stored under that name in any capitalisation, unless it was removed since; operations on one name never change the value of another.", "quantifier": "all finite histories of set, delete, loop and order operations, all names", "why_tests_cant": "Map semantics over all histories.", "anchors": ["src/StarFile.nw:StarBlock.__setitem__", "src/StarFile.nw:StarBlock.__getitem__", "src/StarFile.nw:RemoveItem", "src/StarFile.nw:GetFullItemValue"]}
{"id": "C16", "title": "Locked blocks cannot be overwritten", "statement": "When overwriting is disabled, storing under a name that is already present (in any capitalisation) raises an error and leaves the block exactly as it was; storing under a new name still works.", "quantifier": "all block states, names and values", "why_tests_cant": "All states.", "anchors": ["src/StarFile.nw:AddItem"]}
{"id": "C17", "title": "Failed block operations change nothing", "statement": "If AddItem, RemoveItem, CreateLoop or AddLoopName raises an error or finds nothing to do, names, values, loops and print order are unchanged.", "quantifier": "all block states and arguments", "why_tests_cant": "Every failing call in every state.", "anchors": ["src/StarFile.nw:AddItem", "src/StarFile.nw:RemoveItem", "src/StarFile.nw:CreateLoop", "src/StarFile.nw:AddLoopName"]}
{"id": "C18", "title": "Loops stay rectangular", "statement": "All columns of a loop have the same number of values after every history of loop operations in which values of looped names are only replaced by columns of the same length and only columns are added to loops; CreateLoop and AddLoopName refuse columns of different length.", "quantifier": "all histories and all columns", "why_tests_cant": "Unbounded histories and loop sizes.", "anchors": ["src/StarFile.nw:CreateLoop", "src/StarFile.nw:AddLoopName", "src/StarFile.nw:RemoveItem"]}
{"id": "C19", "title": "CreateLoop moves exactly the requested names", "statement": "After CreateLoop succeeds, the named items form one loop in the requested order at the requested print position, they are in no other loop, loops that became empty are gone, and every other item and loop stays where it was in the same relative order.", "quantifier": "all block states and name lists", "why_tests_cant": "Any interleaving of old loops and requested names.", "anchors": ["src/StarFile.nw:CreateLoop"]}
{"id": "C20", "title": "Removing an item", "statement": "Removing a name deletes exactly that name: it is no longer found or printed, other members of its loop stay, and a loop disappears exactly when its last member is removed.", "quantifier": "all block states and names", "why_tests_cant": "All states.", "anchors": ["src/StarFile.nw:RemoveItem"]}
{"id": "C21", "title": "Changing print order only changes the order", "statement": "ChangeItemOrder moves the given item to the given position of the block or of its loop and keeps all other items in their relative order; no item is lost, duplicated or changes loop.", "quantifier": "all block states, names and positions, including negative and too large ones", "why_tests_cant": "All positions in lists of any length.", "anchors": ["src/StarFile.nw:ChangeItemOrder"]}
{"id": "C22", "title": "Packets are rows", "statement": "Iterating over a loop gives exactly one packet per row, in row order, and packet i holds the i-th value of every column; GetPacket(i) gives the same packet.", "quantifier": "all loops", "why_tests_cant": "Unbounded numbers of rows and columns.", "anchors": ["src/StarFile.nw:LoopBlock.__iter__", "src/StarFile.nw:GetPacket"]}
{"id": "C23", "title": "Keyed packet lookup is unambiguous", "statement": "GetKeyedPacket returns a packet exactly when precisely one row has the requested key value, and then it is that row; with none or several matches it raises an error. The compound-key version does the same for a conjunction of keys.", "quantifier": "all loops, keys, values and both case modes", "why_tests_cant": "Unbounded rows.", "anchors": ["src/StarFile.nw:GetKeyedPacket", "src/StarFile.nw:GetCompoundKeyedPacket"]}
{"id": "C24", "title": "Removing and adding packets", "statement": "RemoveKeyedPacket deletes exactly the first row with the given key value from every column of the loop; AddPacket appends exactly one row; all other rows keep their order.", "quantifier": "all loops and key values", "why_tests_cant": "Unbounded loops.", "anchors": ["src/StarFile.nw:RemoveKeyedPacket", "src/StarFile.nw:AddPacket"]}
{"id": "C25", "title": "Print ordering is complete", "statement": "Whatever template is used, the order in which a block is printed contains every item and every loop exactly once, follows the template for names it mentions, and keeps block order for the rest; reordering a loop's columns loses no column.", "quantifier": "all block states and all templates", "why_tests_cant": "Arbitrary templates against arbitrary blocks.", "anchors": ["src/StarFile.nw:create_ordering"]}
{"id": "C26", "title": "Printing in two halves covers everything once", "statement": "Printing a block up to a given name and then from that name on outputs every item exactly once whenever the name is known to the template or the block.", "quantifier": "all blocks, templates and split names", "why_tests_cant": "Arbitrary templates against arbitrary blocks.", "anchors": ["src/StarFile.nw:create_ordering", "src/StarFile.nw:WriteOut"]}
{"id": "C27", "title": "Data name validity", "statement": "A data name is accepted exactly when it starts with an underscore, respects the length limit and contains only characters permitted by the block's character set.", "quantifier": "all names, limits and both character sets", "why_tests_cant": "All strings.", "anchors": ["src/StarFile.nw:check_data_name"]}
{"id": "C28", "title": "Merging blocks", "statement": "Strict block merging fails if the blocks share a name outside the match list, and otherwise the result holds both blocks' items with unchanged values; replace merging takes the new block's value for every shared name and keeps the rest.", "quantifier": "all pairs of blocks", "why_tests_cant": "Arbitrary overlaps.", "anchors": ["src/StarFile.nw:StarBlock.merge"]}
{"id": "C29", "title": "A block collection is a case-insensitive map", "statement": "Looking up a block name, in any capitalisation, gives the block most recently stored under it and not since deleted; other blocks are unaffected by insertions, deletions and renamings of a name.", "quantifier": "all finite histories of NewBlock, deletion and rename", "why_tests_cant": "Map semantics over all histories.", "anchors": ["src/StarFile.nw:BlockCollection", "src/StarFile.nw:NewBlock", "src/StarFile.nw:__delitem__", "src/StarFile.nw:rename"]}
{"id": "C30", "title": "Adding a block never loses another", "statement": "With a standard set, NewBlock either raises an error and changes nothing, or adds the block under the returned key and keeps every block that was there before, with the same contents and parent (a clashing top-level block may get a new key with '+' appended).", "quantifier": "all collections, names, parents and contents", "why_tests_cant": "All name clashes in all hierarchies.", "anchors": ["src/StarFile.nw:NewBlock", "src/StarFile.nw:_rekey"]}
{"id": "C31", "title": "Collection bookkeeping agrees", "statement": "After any history of block operations the key set, the block table, the parent table and the output order list exactly the same keys, each once, every recorded parent exists, and the visible keys are all keys (dictionary scoping) or exactly the top-level keys (instance scoping).", "quantifier": "all finite histories of NewBlock with existing parent, deletion, rename and scoping change", "why_tests_cant": "Invariant of unbounded histories.", "anchors": ["src/StarFile.nw:BlockCollection", "src/StarFile.nw:__setattr__", "src/StarFile.nw:NewBlock", "src/StarFile.nw:__delitem__", "src/StarFile.nw:_rekey"]}
{"id": "C32", "title": "Deleting a block deletes exactly its subtree", "statement": "Deleting a block removes that block and all blocks nested in it at any depth, and no other block.", "quantifier": "all block hierarchies", "why_tests_cant": "Unbounded depth and width.", "anchors": ["src/StarFile.nw:__delitem__", "src/StarFile.nw:is_child_of_parent"]}
{"id": "C33", "title": "Renaming keeps structure", "statement": "Renaming a block changes only its name: contents, parent, children, and its place in the output order stay the same; renaming to an existing name or of a missing block is refused without change.", "quantifier": "all collections and names", "why_tests_cant": "All hierarchies.", "anchors": ["src/StarFile.nw:rename", "src/StarFile.nw:_rekey"]}
{"id": "C34", "title": "Nesting queries agree with the parent table", "statement": "is_child_of_parent is true exactly for blocks reachable through one or more parent links; get_child_list, get_children and get_immediate_children return exactly the corresponding blocks.", "quantifier": "all acyclic hierarchies", "why_tests_cant": "Unbounded depth.", "anchors": ["src/StarFile.nw:is_child_of_parent", "src/StarFile.nw:get_children", "src/StarFile.nw:get_child_list", "src/StarFile.nw:get_immediate_children"]}
{"id": "C35", "title": "Extracting a sub-collection", "statement": "makebc keeps exactly the requested blocks with their contents, keeps a parent link exactly when the parent is also requested, and makes the others top-level.", "quantifier": "all collections and name lists", "why_tests_cant": "All selections.", "anchors": ["src/StarFile.nw:makebc"]}
{"id": "C36", "title": "Merging collections", "statement": "A fast merge of collections with disjoint names contains exactly the blocks of both, with unchanged contents and nesting; in strict mode clashing top-level names raise an error; in replace mode the new block wins.", "quantifier": "all pairs of collections", "why_tests_cant": "Arbitrary overlaps.", "anchors": ["src/StarFile.nw:merge_fast"]}
{"id": "C37", "title": "Every block is written exactly once", "statement": "WriteOut writes each top-level block once under its own name and each nested block once inside its top-level ancestor, in output order.", "quantifier": "all collections satisfying the bookkeeping invariant", "why_tests_cant": "Unbounded hierarchies.", "anchors": ["src/StarFile.nw:WriteOut", "src/StarFile.nw:block_to_string_nested"]}
{"id": "C38", "title": "Collecting all values of a name", "statement": "get_all returns every value the name takes in any visible block, each once, in order of first occurrence, and nothing else.", "quantifier": "all collections", "why_tests_cant": "Unbounded.", "anchors": ["src/StarFile.nw:get_all"]}
{"id": "C39", "title": "Enumeration check", "statement": "An item value passes the enumeration check exactly when it is one of the listed values or '.' or '?', for every value of the item.", "quantifier": "all dictionaries, items and values", "why_tests_cant": "All values.", "anchors": ["src/CifFile_module.nw:validate_item_enum"]}
{"id": "C40", "title": "Range check agrees with the dictionary's range", "statement": "A numeric value passes the range check exactly when it lies in one of the permitted intervals, end points counting only when listed; for a DDL1 range min:max this means min <= value <= max.", "quantifier": "all numbers, all range lists, all DDL1 ranges", "why_tests_cant": "All numbers and ranges.", "anchors": ["src/CifFile_module.nw:validate_enum_range", "src/CifFile_module.nw:DDL1_normalise", "src/CifFile_module.nw:getmaxmin"]}
{"id": "C41", "title": "Type check", "statement": "A value passes the type check exactly when it is '.' or '?' or the whole value matches the type's regular expression; a partial match is not enough.", "quantifier": "all values and all pattern matchers", "why_tests_cant": "All strings.", "anchors": ["src/CifFile_module.nw:validate_item_type"]}
{"id": "C42", "title": "Parent-child consistency check", "statement": "The check of a child item succeeds exactly when each of its values occurs among the values of its parent item (or is '.' or '?'); the check made from the parent side agrees.", "quantifier": "all blocks and item lists", "why_tests_cant": "Unbounded columns.", "anchors": ["src/CifFile_module.nw:validate_parent", "src/CifFile_module.nw:validate_child", "src/CifFile_module.nw:check_parent_child"]}
{"id": "C43", "title": "Key uniqueness check", "statement": "If a loop passes the uniqueness check then no two rows have the same key values; a loop that fails really has two rows with the same key.", "quantifier": "all loops and key sets", "why_tests_cant": "Unbounded rows.", "anchors": ["src/CifFile_module.nw:validate_uniqueness"]}
{"id": "C44", "title": "Exclusion and dependency checks", "statement": "An item passes the exclusion check exactly when none of the items it excludes is present, and the dependency check exactly when all items it depends on are present.", "quantifier": "all blocks and dictionaries", "why_tests_cant": "All sets of present names.", "anchors": ["src/CifFile_module.nw:validate_exclusion", "src/CifFile_module.nw:validate_dependents"]}
{"id": "C45", "title": "Mandatory and prohibited items", "statement": "The mandatory check fails exactly when a required category or item is missing, listing precisely the missing ones; the prohibited check fails exactly when a prohibited item is present.", "quantifier": "all blocks and dictionaries", "why_tests_cant": "All sets of present names.", "anchors": ["src/CifFile_module.nw:validate_mandatory_category", "src/CifFile_module.nw:check_mandatory_items", "src/CifFile_module.nw:check_prohibited_items"]}
{"id": "C46", "title": "Loop key and membership checks", "statement": "A loop passes the key check exactly when every key item of its category is in the loop; passes the category check exactly when all its items belong to one final category.", "quantifier": "all loops, keys and category assignments", "why_tests_cant": "All loops.", "anchors": ["src/CifFile_module.nw:validate_loop_key", "src/CifFile_module.nw:validate_loop_key_ddlm", "src/CifFile_module.nw:validate_loop_membership", "src/CifFile_module.nw:get_final_cats"]}
{"id": "C47", "title": "Validity verdict", "statement": "A block is reported valid exactly when no individual check returned a failure, and the report contains exactly the failing checks, each under the item it concerns, in the order they were run.", "quantifier": "all blocks and all sets of validation functions", "why_tests_cant": "All outcomes of all checks.", "anchors": ["src/CifFile_module.nw:run_data_checks", "src/CifFile_module.nw:run_item_validation", "src/CifFile_module.nw:update_value"]}
{"id": "C48", "title": "AddItem on a validating block", "statement": "AddItem on a validating block either stores the value, in which case all item checks passed, or raises an error and leaves the block as it was.", "quantifier": "all histories of AddItem on a validating block", "why_tests_cant": "All histories.", "anchors": ["src/CifFile_module.nw:ValidCifBlock.AddItem", "src/CifFile_module.nw:ValidCifBlock.single_item_check", "src/CifFile_module.nw:ValidCifBlock.report_if_invalid"]}
{"id": "C49", "title": "Numbers with standard uncertainties", "statement": "A numeric string [-]d.ddd(ee)[E\u00b1x] is read as exactly that decimal value, and its uncertainty as the digits in brackets scaled to the last decimal place and the exponent; '.' and '?' give no value.", "quantifier": "all digit strings and exponents", "why_tests_cant": "Unbounded digit strings.", "anchors": ["src/CifFile_module.nw:get_number_with_esd"]}
{"id": "C50", "title": "Type-contents expressions", "statement": "Parsing the printed form of a DDLm type-contents expression (names, List(...), nested to any depth, separated by commas) yields its nested structure: each name as itself and each container as the list of what is in it (the container's own name is not kept). Exactly the texts written this way are accepted; unbalanced or otherwise malformed input is rejected with a syntax error.", "quantifier": "all expressions", "why_tests_cant": "Unbounded nesting.", "anchors": ["src/TypeContentsParser.nw:input"]}
{"id": "C51", "title": "Converting structured values", "statement": "Converting a list value according to a list type converts element i with type i, keeps length and order, and fails exactly when the lengths differ or an element fails.", "quantifier": "all values and types", "why_tests_cant": "Unbounded nesting.", "anchors": ["src/CifFile_module.nw:convert_list_values", "src/CifFile_module.nw:convert_simple_list", "src/CifFile_module.nw:convert_type"]}
{"id": "C52", "title": "Shape utilities", "statement": "transpose of a rectangular list of lists with at least one row swaps indices, and is its own inverse when there are columns too; it raises an IndexError exactly when there is no row or a row is shorter than the first. not_none and check_stringiness are true exactly when every leaf of the nested lists is, respectively, not None and a string (tables count as strings).", "quantifier": "all nested lists", "why_tests_cant": "Unbounded nesting.", "anchors": ["src/StarFile.nw:transpose", "src/StarFile.nw:not_none", "src/StarFile.nw:check_stringiness"]}
{"id": "C53", "title": "Multi-index access to lists", "statement": "Indexing a nested StarList with several indices, x[i,j,k], equals indexing repeatedly with one index, as long as the lists on the way are StarLists, including the IndexErrors.", "quantifier": "all nested lists and index sequences, including negative indices", "why_tests_cant": "Unbounded nesting.", "anchors": ["src/StarFile.nw:StarList.__getitem__"]}
{"id": "C54", "title": "Definition lookup", "statement": "After the definition table is built, every definition is found by its identifier in any capitalisation; duplicate identifiers are refused.", "quantifier": "all dictionaries", "why_tests_cant": "Unbounded.", "anchors": ["src/CifFile_module.nw:create_def_block_table", "src/CifFile_module.nw:CifDic.__getitem__"]}
{"id": "C55", "title": "Import precedence", "statement": "An attribute looked up in a definition comes from the definition itself if present there, otherwise from the last import reference that provides it; missing imports are skipped or raise an error as the import says.", "quantifier": "all definitions, import lists and dictionaries", "why_tests_cant": "Arbitrary import lists.", "anchors": ["src/CifFile_module.nw:DicBlock.__getitem__", "src/CifFile_module.nw:follow_import"]}
{"id": "C56", "title": "Category tree queries", "statement": "The children of a category found by the dictionary are exactly the items and categories that reach it through parent-category links; danglers are exactly the definitions whose category is not defined.", "quantifier": "all acyclic dictionaries", "why_tests_cant": "Unbounded depth.", "anchors": ["src/CifFile_module.nw:ddlm_all_children", "src/CifFile_module.nw:ddlm_immediate_children", "src/CifFile_module.nw:ddlm_danglers", "src/CifFile_module.nw:is_semantic_child"]}
{"id": "C57", "title": "Dictionary output contains every definition", "statement": "The save-frame order used for writing a dictionary lists every definition below the head category exactly once, parents before children.", "quantifier": "all acyclic dictionaries", "why_tests_cant": "Unbounded.", "anchors": ["src/CifFile_module.nw:get_full_child_list", "src/CifFile_module.nw:recurse_child_list"]}
{"id": "C58", "title": "Recursive derivation is guarded", "statement": "While a value is being derived, asking again for the same name on the same call chain is refused rather than looping; after any call, successful or failing, the record of names being derived is as before; every derivation terminates.", "quantifier": "all dependency graphs, including cyclic ones, and all nested call patterns", "why_tests_cant": "All call histories.", "anchors": ["src/CifFile_module.nw:track_recursion", "src/CifFile_module.nw:derive_item"]}
{"id": "C59", "title": "Order of derivation sources", "statement": "A missing value is taken from an alias if one is present, otherwise computed by the dictionary's methods, otherwise, only if defaults are allowed, from the default; ambiguous aliases are refused; a value that was computed or defaulted is stored under the requested name, one found under an alias is only returned.", "quantifier": "all dictionaries, blocks and evaluation outcomes", "why_tests_cant": "All outcomes.", "anchors": ["src/CifFile_module.nw:derive_item"]}
{"id": "C60", "title": "Category construction is a join", "statement": "A category built from two source categories by pullback contains exactly one packet for every pair of source rows with equal linking values.", "quantifier": "all source columns", "why_tests_cant": "Unbounded rows.", "anchors": ["src/CifFile_module.nw:construct_category"]}
{"id": "C61", "title": "Aliases table and final names", "statement": "Following definition aliases: every alias listed in a definition maps back to that definition.", "quantifier": "all dictionaries", "why_tests_cant": "Unbounded.", "anchors": ["src/CifFile_module.nw:create_alias_table"]}
{"id": "C62", "title": "dREL list operators", "statement": "On lists, augmented append adds its argument as one further element at the end; add and subtract work element by element (a number is applied to every element) and refuse lists of different lengths, neither of which is one; remove takes out the first equal element and keeps the order of the others; Strip takes the given element of every element.", "quantifier": "all lists", "why_tests_cant": "Unbounded.", "anchors": ["src/drel/drel_runtime.nw:aug_append", "src/drel/drel_runtime.nw:aug_add", "src/drel/drel_runtime.nw:aug_sub", "src/drel/drel_runtime.nw:aug_remove"]}
{"id": "C63", "title": "Whole files are read back", "statement": "A file of data blocks written with any header of comments is parsed by the CIF 1.1 reader to a collection with the same blocks, in the same order, under the same names, each with the same contents.", "quantifier": "all collections of data blocks without save frames whose blocks meet the conditions of the single-block round trip, all headers, all usable templates", "why_tests_cant": "Unbounded number and size of blocks.", "anchors": ["src/StarFile.nw:BlockCollection.WriteOut", "src/YappsStarParser.nw:CIF 1.1 grammar"]}
{"id": "C64", "title": "Uncertainty check", "statement": "A number with a standard uncertainty in brackets passes the uncertainty check exactly when the definition of its item permits uncertainties.", "quantifier": "all numeric values, all dictionaries", "why_tests_cant": "All numbers.", "anchors": ["src/CifFile_module.nw:validate_item_esd", "src/CifFile_module.nw:validate_item_esd_ddlm"]}
{"id": "C65", "title": "Looping and list reference checks", "statement": "An item passes the looping check exactly when it is looped or not as its definition demands; it passes the list reference check exactly when every item it refers to (or an alternative to it) is in the same loop.", "quantifier": "all values, blocks and dictionaries", "why_tests_cant": "All blocks.", "anchors": ["src/CifFile_module.nw:validate_looping", "src/CifFile_module.nw:validate_loop_references"]}
{"id": "C66", "title": "Reading an item through the dictionary", "statement": "Reading an item that has a value never changes the block: it gives the stored value, converted to the type of its definition exactly when values are asked for, the item is defined and the stored text contains neither '?' nor '.'. A missing item is derived, first without defaults and only if that fails with them; a KeyError is raised if both fail; a derived value is stored if values are kept, and reading again gives the same value. An item whose value is unknown throughout ('?') is derived in the same way and keeps '?' if that is impossible. get never derives a missing item.", "quantifier": "all dictionaries, blocks, items and outcomes of methods", "why_tests_cant": "All dictionaries and methods.", "anchors": ["src/StarFile.nw:StarBlock.__getitem__", "src/StarFile.nw:StarBlock.get", "src/CifFile_module.nw:derive_item", "src/CifFile_module.nw:change_type"]}
{"id": "C67", "title": "Adding definitions", "statement": "Adding an item or a category to a dictionary in good order gives a dictionary in good order that has exactly one more definition, under the name built from its category and object name, with exactly the attributes asked for; every other definition is unchanged. An item whose category does not exist is refused, and a category whose parent does not exist, and then nothing is added. A locked dictionary is locked afterwards.", "quantifier": "all dictionaries with one enclosing block and distinct identifiers, all names, parents and texts", "why_tests_cant": "All dictionaries and names.", "anchors": ["src/CifFile_module.nw:CifDic.add_category", "src/CifFile_module.nw:CifDic.add_definition"]}
{"id": "C68", "title": "Removing definitions", "statement": "Removing a category removes it together with exactly the definitions below it; removing an item removes exactly that item; every other definition is as before and the dictionary is in good order. Removing a name that is not defined changes nothing. del removes exactly one definition.", "quantifier": "all dictionaries in good order whose categories are acyclic, all names", "why_tests_cant": "All dictionaries and names; depth of nesting unbounded.", "anchors": ["src/CifFile_module.nw:CifDic.remove_definition", "src/CifFile_module.nw:CifDic.__delitem__"]}
{"id": "C69", "title": "Renaming and moving definitions", "statement": "Changing the object name of an item, moving an item or category to another category, and renaming a category give a dictionary in good order and locked in which the definition is found under the name built from its category and object name, its name, category and object attributes say so, its other attributes are as before, and every definition not concerned is unchanged. An item that moves is enclosed by the block of its new category. The items of a renamed category follow it under their new names. Moving to the category it is in already, or to one that is not defined, changes nothing.", "quantifier": "all dictionaries in good order, all definitions and new names", "why_tests_cant": "All dictionaries and names; unbounded number of items in a category.", "anchors": ["src/CifFile_module.nw:CifDic.change_name", "src/CifFile_module.nw:CifDic.change_category", "src/CifFile_module.nw:CifDic.change_category_name", "src/CifFile_module.nw:CifDic.rename"]}
{"id": "C70", "title": "Lists and tables written in CIF 2.0 are read back", "statement": "A block with texts, numbers, lists and tables, nested to any depth, as values of items and in loops, can always be written in CIF 2.0, and the text is read by the CIF 2.0 reader as a block with the same names in the same order and spelling, the same values (numbers as texts, all lists as StarLists) and the same loops. The same holds for whole files.", "quantifier": "all blocks with rectangular loops whose texts are representable, all usable templates, all files of such blocks, with or without save frames", "why_tests_cant": "Unbounded depth of nesting, number of values and length of lines.", "anchors": ["src/StarFile.nw:StarBlock.printsection", "src/StarFile.nw:StarBlock.format_value", "src/StarFile.nw:CIFStringIO.write", "src/YappsStarParser.nw:CIF 2.0 grammar"]}
{"id": "C71", "title": "Expressions of dREL methods", "statement": "An expression of a dREL method is translated to a Python text that Python reads as the expression meant: every operator and function is applied to the same operands as in dREL whatever stands around it, built-in functions to their Python counterparts, other functions with the data file as last argument; _cat.obj and alias.obj denote the data item of that category and object in the dictionary, as the target, the value in the current packet, the value in the packet of a loop, or the value in a category of one packet; a subscript of a category chooses a packet by key. Different items of the current packet get different variables. The translation succeeds whenever the names occurring in the expression are known.", "quantifier": "all dREL expressions, dictionaries, aliases and states of the translation", "why_tests_cant": "Unbounded nesting of expressions; all names and literals.", "anchors": ["src/drel/py_from_ast.nw:traverse_ast", "src/drel/py_from_ast.nw:get_function_name", "src/drel/py_from_ast.nw:fix_mathops", "src/drel/drel_ast_yacc.py"]}
{"id": "C72", "title": "Statements of dREL methods", "statement": "A dREL method is translated to a Python text that Python reads as the statements meant: assignments, also those that change a variable, values added to the category being made, conditions with all their branches, ranges including their last value, loops over values, loops over the packets of a category (all, or those whose number compares with a limit; the category is made first if none of its items is there), repetition, break and next, aliases for categories, and functions, with the same nesting and order; expressions in them are those of C71. A variable that was given a packet of a category stands for that packet until it is given another value. The translation succeeds whenever the names occurring are known, and different items of the current packet get different variables.", "quantifier": "all dREL statements of any depth of nesting, all dictionaries, aliases and states of the translation", "why_tests_cant": "Unbounded nesting and number of statements; all names and literals.", "anchors": ["src/drel/py_from_ast.nw:start_traverse", "src/drel/py_from_ast.nw:traverse_ast", "src/drel/py_from_ast.nw:add_indent", "src/drel/drel_ast_yacc.py"]}
{"id": "C73", "title": "Dependencies of dREL methods", "statement": "The data names reported as the dependencies of a dREL method are, up to case, exactly those of the data items the method refers to other than the item it is for: items named directly or through an alias, items taken from a packet, and the keys of categories of which packets are chosen. The item itself is not among them, no item is reported twice, and every item that is passed to the method as a value of the current packet is among them.", "quantifier": "all dREL methods of any depth of nesting, all dictionaries", "why_tests_cant": "Unbounded nesting and number of statements; all names.", "anchors": ["src/drel/py_from_ast.nw:make_python_function", "src/drel/py_from_ast.nw:start_traverse", "src/drel/py_from_ast.nw:traverse_ast"]}
{"id": "C74", "title": "Files with save frames are read back", "statement": "A collection of data blocks that enclose save frames, nested to any depth, is written by WriteOut with the CIF 1.1 grammar as a text from which reading, with the grammar asked for or left open, gives a collection with the same blocks under the same names and with the same contents as in C10. Every save frame belongs to the data block that enclosed it, directly or not; the order is that of the file, data blocks followed by what they enclose; and the blocks shown are all of them for dictionary scoping and the data blocks for instance scoping. Dictionaries, whose data blocks are written in two parts around their save frames, are included.", "quantifier": "all collections made by calls of the API that hold at least one block and whose blocks are representable as in C10, all usable templates, headers of comments, scopings and requests for a grammar; texts without Ctrl-Z", "why_tests_cant": "Unbounded number of blocks and depth of nesting; all contents.", "anchors": ["src/StarFile.nw:StarFile.WriteOut", "src/StarFile.nw:ReadStar", "src/YappsStarParser.nw:StarParserBase.dblock", "src/StarFile.nw:BlockCollection.merge_fast"]}
{"id": "C75", "title": "Items are found by category and object", "statement": "In a DDLm dictionary, asking for the name of the item with a given category and object, in any capitals and with or without an underscore before the category, gives the name of an item of that category with that object if there is one; otherwise that of an item, not a key, with that object in a looped category nested in that category at any depth; otherwise a KeyError, or the usual name if a default is asked for.", "quantifier": "all DDLm dictionaries whose items have an object and an identifier, all categories and objects", "why_tests_cant": "Unbounded number of definitions and depth of nesting of looped categories.", "anchors": ["src/CifFile_module.nw:CifDic.create_cat_obj_table", "src/CifFile_module.nw:CifDic.get_name_by_cat_obj", "src/CifFile_module.nw:CifDic.get_cat_obj"]}
{"id": "C76", "title": "Keys of looped categories are collected", "statement": "Reading a DDLm dictionary makes, for every looped category and for nothing else, the list of its key followed by the keys of the looped categories nested in it, one for each, whatever the depth of nesting.", "quantifier": "all DDLm dictionaries in which the keys of looped categories can be read", "why_tests_cant": "Unbounded number of categories and depth of nesting.", "anchors": ["src/CifFile_module.nw:CifDic.create_cat_key_table", "src/CifFile_module.nw:CifDic.get_loopable_cats"]}
{"id": "C77", "title": "Parents and equivalent keys of looped categories are found", "statement": "In a DDLm dictionary without cycles of looped categories, each looped category is given the topmost looped category at or above it, so that two of them are given the same one exactly if some looped category is at or above both; and each key of a looped category is given the keys reached from it by following links up through the looped categories, nearest first.", "quantifier": "all DDLm dictionaries whose looped categories form no cycle and name their category; for keys, those in which keys are items of their category and are linked to all keys of the looped category above", "why_tests_cant": "Unbounded number of categories and depth of nesting.", "anchors": ["src/CifFile_module.nw:CifDic.add_category_info"]}
{"id": "C78", "title": "Definitions of DDL1 dictionaries are found", "statement": "Opening a DDL1 dictionary succeeds and gives a dictionary whose names are, each once and in lower case, those of the definitions in its blocks, one for each name a block lists, and of the categories that definitions belong to but that the file does not define. Each definition is found by its name in any capitals (a category by the part of its name that names the category) and has that name, defaults for the attributes on looping and conditions, a type of its own if it comes with a pattern, and otherwise what its block says. The types are listed in the block about the dictionary, and a range given as min:max lets exactly the values between the limits pass.", "quantifier": "all DDL1 files: any number of blocks and names, all attributes; names, categories and blocks that differ do so in more than case", "why_tests_cant": "Unbounded number of blocks and names; all attributes and values.", "anchors": ["src/CifFile_module.nw:CifDic.DDL1_normalise", "src/CifFile_module.nw:CifDic.dic_determine", "src/CifFile_module.nw:CifDic.create_def_block_table"]}
{"id": "C79", "title": "Categories of DDL1 dictionaries list what they require", "statement": "After opening a DDL1 dictionary every category that definitions belong to, or that is defined, is found by its name in any capitals; it has an attribute that lists exactly the items of the category that have to be given, and one that lists exactly the items that identify a row, each item once.", "quantifier": "all DDL1 files as in C78, all categories", "why_tests_cant": "Unbounded number of blocks, names and categories.", "anchors": ["src/CifFile_module.nw:CifDic.DDL1_normalise", "src/CifFile_module.nw:CifDic.ddl1_cat_load"]}
{"id": "C80", "title": "Packets of a category are put together by key", "statement": "Asking a block with a dictionary for the packet of a looped category by a key value gives the rows with this value of the loops of the category and of the looped categories nested in it, put together: all values of these rows, each attribute with the value it has in the last of the rows that has it, and as key the first of the keys that is there. Values are compared without regard to case exactly for keys whose contents are Code, Name or Tag. A key that is missing is read first, by which it may be derived; a loop with no such row or several is passed over, and if none has one a ValueError is raised.", "quantifier": "all blocks, dictionaries, categories and key values; any number of nested categories, rows and columns", "why_tests_cant": "Unbounded number of loops, rows and columns; any method may run while keys are read.", "anchors": ["src/StarFile.nw:StarBlock.GetKeyedSemanticPacket", "src/StarFile.nw:StarBlock.GetKeyedPacket", "src/StarFile.nw:StarPacket.merge_packet"]}
{"id": "C81", "title": "Missing attributes of a packet are derived", "statement": "Asking the packet of a category for an attribute it does not have derives the item, and gives its value in the one row of the loop whose key values are those of the packet; what is raised while it is derived is raised.", "quantifier": "all packets with any number of keys, all attributes, blocks and dictionaries", "why_tests_cant": "Unbounded number of rows and keys; deriving may run any method and change the block.", "anchors": ["src/StarFile.nw:StarPacket.__getattr__", "src/StarFile.nw:StarBlock.GetCompoundKeyedPacket"]}
{"id": "C82", "title": "Packets are found by several keys", "statement": "Asking for the packet of a looped category by the values of several keys gives the row with these values in the loop of the category, the keys being those of the category or keys equivalent to them, together with the rows of looped categories nested in it; it is an error if there is no such row.", "quantifier": "all blocks and categories, any number of keys, rows and nested categories", "why_tests_cant": "Unbounded number of keys, rows and nested categories.", "anchors": ["src/StarFile.nw:StarBlock.GetMultiKeyedSemanticPacket", "src/StarFile.nw:StarBlock.GetCompoundKeyedPacket"]}
{"id": "C83", "title": "Definitions of DDL2 dictionaries are found", "statement": "Opening a DDL2 dictionary succeeds and gives a dictionary whose names are, each once and in lower case, those of its categories and items, one for each name that a definition lists, and the alias names. Each name finds its definition in any capitals, an alias the definition it is an alias of. If a definition says that an item is the child of another, both definitions say so after opening.", "quantifier": "all DDL2 files: any number of blocks, names, aliases and links; names that differ do so in more than case", "why_tests_cant": "Unbounded number of blocks, names, aliases and links.", "anchors": ["src/CifFile_module.nw:CifDic.DDL2_normalise", "src/CifFile_module.nw:CifDic.create_def_block_table"]}
{"id": "C84", "title": "Reading any text comes to an end", "statement": "Whatever text is read, with whatever grammar and options and into whatever collection, reading returns or raises an exception; it never goes on for ever.", "quantifier": "all texts, well-formed or not; all grammars, line length limits and collections", "why_tests_cant": "Unbounded texts, including nested lists that are never closed and malformed ones; no test shows that a loop ends for all inputs.", "anchors": ["src/StarFile.nw:ReadStar", "src/YappsStarParser.nw:input", "src/yapps3_compiled_rt.py:Scanner", "src/StarFile.nw:BlockCollection.merge_fast"]}
{"id": "C85", "title": "Reading raises only StarError", "statement": "Reading a text that cannot be read raises StarError; no other exception reaches the caller.", "quantifier": "all texts, grammars that can be asked for, line length limits and collections", "why_tests_cant": "Unbounded texts; any text may reach any combination of parser rules and block operations.", "anchors": ["src/StarFile.nw:ReadStar", "src/YappsStarParser.nw:input", "src/YappsStarParser.nw:makeloop", "src/StarFile.nw:BlockCollection.merge_fast", "src/StarFile.nw:BlockCollection.NewBlock"]}
{"id": "C86", "title": "Files are read as the text they encode", "statement": "A file whose bytes are the UTF-8 encoding of a text, with or without a byte order mark, is read exactly as the text itself, whether it is given by name, as a stream of bytes or as a stream of text. Bytes that encode no text are refused with StarError and nothing is changed. So a collection that is written, saved as UTF-8 and read again comes back.", "quantifier": "all texts and all byte sequences, all grammars, options and collections", "why_tests_cant": "Unbounded texts and byte sequences with characters of one to four bytes.", "anchors": ["src/StarFile.nw:ReadStar", "src/CifFile_module.nw:ReadCif"]}
{"id": "C87", "title": "Permissive mode reads Latin-1 files", "statement": "With permissive=True a file that is not in UTF-8 is read as Latin-1; files in UTF-8 are read as without it.", "quantifier": "all byte sequences, grammars, options and collections", "why_tests_cant": "Unbounded byte sequences.", "anchors": ["src/StarFile.nw:ReadStar", "src/CifFile_module.nw:ReadCif"]}
{"id": "C88", "title": "Reading a file returns the collection", "statement": "ReadCif and ReadStar, if they do not raise an exception, return the collection that has been read, the same that the constructor CifFile makes of the same source; ReadStar makes a new one if none is given.", "quantifier": "all sources, grammars, options and collections", "why_tests_cant": "Unbounded texts and byte sequences.", "anchors": ["src/StarFile.nw:ReadStar", "src/CifFile_module.nw:ReadCif", "src/CifFile_module.nw:CifFile.__init__", "src/StarFile.nw:StarFile.__init__"]}
{"id": "C89", "title": "Import of definitions", "statement": "With heavy imports, importing the head of another dictionary into the head of this one adds all definitions below it that are not known yet, with their contents, puts those that were directly below the imported head below the head of this dictionary, leaves all other definitions alone, and removes the request. Importing another category adds it below the importing category, with everything below it.", "quantifier": "all pairs of dictionaries in good order", "why_tests_cant": "Arbitrary dictionaries and category trees.", "anchors": ["src/CifFile_module.nw:CifDic.ddlm_import", "src/CifFile_module.nw:CifDic.obtain_imports", "src/StarFile.nw:merge_fast", "src/StarFile.nw:makebc"]}
{"id": "C90", "title": "Light imports", "statement": "With light imports, the dictionary's own definitions are looked up as before, and all definitions below the imported category are found under their names, whatever the case.", "quantifier": "all pairs of dictionaries in good order, all names", "why_tests_cant": "Arbitrary dictionaries, category trees and names.", "anchors": ["src/CifFile_module.nw:CifDic.ddlm_import_light", "src/CifFile_module.nw:CifDic.lookup_imports"]}
{"id": "C91", "title": "Flags of imports", "statement": "If the definition an import asks for is missing, or a full import asks for a definition that is there already, an error is raised unless the import says otherwise; then nothing changes. A dictionary without imports stays as it is.", "quantifier": "all dictionaries and import references", "why_tests_cant": "Arbitrary dictionaries and references.", "anchors": ["src/CifFile_module.nw:CifDic.obtain_imports"]}
{"id": "C92", "title": "Validating a file", "statement": "Validate gives a result for each data block of the file (each save frame and the first data block of a dictionary) and for no other; it lists exactly the names that are not in the dictionary, judges the remaining items by all checks, and leaves the file as it was.", "quantifier": "all files, dictionaries and sets of checks", "why_tests_cant": "Arbitrary files, dictionaries and data values.", "anchors": ["src/CifFile_module.nw:Validate", "src/CifFile_module.nw:ValidationResult", "src/CifFile_module.nw:run_data_checks"]}
{"id": "C93", "title": "Questions about the result of a validation", "statement": "is_valid and has_no_match_items answer for any block, under its name in any case, and for the whole file: a block is valid exactly if none of its checks fails.", "quantifier": "all files, dictionaries and block names", "why_tests_cant": "Arbitrary files, dictionaries and names.", "anchors": ["src/CifFile_module.nw:ValidationResult.is_valid", "src/CifFile_module.nw:ValidationResult.has_no_match_items"]}
{"id": "C94", "title": "Validating blocks", "statement": "A ValidCifBlock made from a block has all its items and satisfies all checks; a block with a failing check is refused with ValidCifError, unknown data names are accepted; items can be deleted and added to loops as long as the checks are satisfied.", "quantifier": "all blocks, dictionaries and sets of checks", "why_tests_cant": "Arbitrary blocks and dictionaries.", "anchors": ["src/CifFile_module.nw:ValidCifBlock.__init__", "src/CifFile_module.nw:ValidCifBlock.__delitem__", "src/CifFile_module.nw:ValidCifBlock.AddToLoop", "src/CifFile_module.nw:ValidCifBlock.run_data_checks"]}
{"id": "C95", "title": "Filling a block with lists of items and loops", "statement": "A block made from a list of items and loops, and AddLoopItem and AddCifItem, store what they are given: each item has its value, the names of each loop form one loop in their order, each with its column, and all other items are unchanged; a refused call changes nothing.", "quantifier": "all blocks, names and columns of any length", "why_tests_cant": "Arbitrary blocks and loops of any size.", "anchors": ["src/StarFile.nw:StarBlock.__init__", "src/StarFile.nw:StarBlock.AddLoopItem", "src/CifFile_module.nw:CifBlock.AddCifItem", "src/CifFile_module.nw:CifBlock.__setitem__"]}
{"id": "C96", "title": "Blocks do not influence each other", "statement": "Blocks that were made separately are independent: whatever calls are made on any of them, in any order and whether they succeed or not, each block appears as if only the calls on itself had been made, although the blocks are mutable objects holding references to mutable lists.", "quantifier": "all histories of calls on two blocks, interleaved in any way", "why_tests_cant": "Interleavings of arbitrary calls of unbounded length.", "anchors": ["src/StarFile.nw:StarBlock.AddItem", "src/StarFile.nw:StarBlock.RemoveItem", "src/StarFile.nw:StarBlock.CreateLoop", "src/StarFile.nw:StarBlock.AddLoopName", "src/StarFile.nw:StarBlock.ChangeItemOrder", "src/StarFile.nw:StarBlock.RemoveKeyedPacket", "src/StarFile.nw:LoopBlock.AddPacket"]}
{"id": "C97", "title": "Copies of blocks", "statement": "A copy of a block has the same content as the block, and afterwards the two are independent: whatever is done with one does not show in the other.", "quantifier": "all blocks and all histories of calls on a block and its copy", "why_tests_cant": "Interleavings of arbitrary calls of unbounded length.", "anchors": ["src/StarFile.nw:StarBlock.copy", "src/StarFile.nw:StarBlock.__init__", "src/CifFile_module.nw:CifBlock.copy"]}
{"id": "C98", "title": "Merging files", "statement": "Merging a second file into a file adds every block of the second file, with its contents, its spelling and its place inside other blocks, and leaves the blocks of the first file alone. Where both have a block of the same name, strict mode refuses and leaves the file unchanged, and replace mode takes the block of the second file. Merging single blocks changes no other block.", "quantifier": "all pairs of files, modes and parents", "why_tests_cant": "Arbitrary trees of blocks with arbitrary contents, and clashes at any position.", "anchors": ["src/StarFile.nw:BlockCollection.merge", "src/StarFile.nw:BlockCollection.NewBlock"]}
{"id": "C99", "title": "Merging dictionaries", "statement": "Merging several dictionaries gives a dictionary with the definitions of all of them; where several define the same item, the last definition is taken in replace mode.", "quantifier": "all lists of dictionaries and all modes", "why_tests_cant": "Arbitrary numbers of dictionaries with arbitrary definitions.", "anchors": ["src/CifFile_module.nw:merge_dic", "src/StarFile.nw:BlockCollection.merge"]}
{"id": "C100", "title": "Topmost parent of a definition with several items", "statement": "In a definition of several linked items, the topmost parent is the item that is not a child of another; a definition of one item gives this item, and if no or more than one item qualifies an error is raised.", "quantifier": "all definition blocks", "why_tests_cant": "Arbitrary names and links.", "anchors": ["src/CifFile_module.nw:find_parent"]}
{"id": "C101", "title": "Views of loops show the loop", "statement": "The view of a loop that a block returns for a name lists the names of the loop of this name with the values the block has for them; a name can be read through the view, in any spelling, exactly if it is in the loop, and KeyError is raised otherwise.", "quantifier": "all blocks that can arise, loops and names", "why_tests_cant": "Arbitrary histories and spellings.", "anchors": ["src/StarFile.nw:LoopBlock.keys", "src/StarFile.nw:LoopBlock.values", "src/StarFile.nw:LoopBlock.items", "src/StarFile.nw:LoopBlock.__getitem__", "src/StarFile.nw:LoopBlock.__contains__", "src/StarFile.nw:LoopBlock.GetLoopNames"]}
{"id": "C102", "title": "Changing loops through views", "statement": "Setting an item through a view of a loop puts the column into this loop and changes no other item or loop; columns of a wrong length are refused and nothing changes. Moving an item through the view is the same as moving it through the block.", "quantifier": "all blocks that can arise, loops, names and columns", "why_tests_cant": "Arbitrary blocks and numbers of columns added.", "anchors": ["src/StarFile.nw:LoopBlock.__setitem__", "src/StarFile.nw:LoopBlock.ChangeItemOrder", "src/StarFile.nw:LoopBlock.AddToLoop"]}
{"id": "C103", "title": "Views of loops while the block changes", "statement": "However the block is changed after a view of a loop was taken, the view shows the same loop in its present state, as long as the loop exists, and never another loop.", "quantifier": "all histories of calls on the block", "why_tests_cant": "Unbounded histories of arbitrary calls.", "anchors": ["src/StarFile.nw:LoopBlock.__init__", "src/StarFile.nw:LoopBlock.keys", "src/StarFile.nw:StarBlock.CreateLoop", "src/StarFile.nw:StarBlock.RemoveItem"]}
{"id": "C104", "title": "Files of valid blocks", "statement": "A file opened with a dictionary as a file of valid blocks holds only blocks that pass all checks of the dictionary, with the contents of the file; it is refused exactly if some block fails. However blocks are added, removed and nested afterwards, this remains so, and a block that fails is refused.", "quantifier": "all files, sets of checks and histories of calls", "why_tests_cant": "Arbitrary files and checks, unbounded histories.", "anchors": ["src/CifFile_module.nw:ValidCifFile.__init__", "src/CifFile_module.nw:ValidCifFile.NewBlock", "src/CifFile_module.nw:ValidCifBlock.__init__"]}
{"id": "C105", "title": "Parsing dREL methods", "statement": "Parsing a dREL text always ends, with one syntax tree or a syntax error. The tree is the value of a derivation, in the documented grammar, of exactly the tokens of the text; every text of the grammar is accepted.", "quantifier": "all lists of tokens", "why_tests_cant": "Token lists of any length and nesting; a generated table with several hundred states.", "anchors": ["src/drel/drel_ast_yacc.py:p_input", "src/drel/drel_ast_yacc.py:p_statement", "src/drel/drel_ast_yacc.py:p_expression", "src/drel/drel_ast_yacc.py:parser"]}
{"id": "C106", "title": "Precedence and grouping of dREL operators", "statement": "An expression is read with the documented precedences: or, and, not, comparisons, sums, products, signs, powers; equal operators group to the left; brackets, calls, attributes, subscripts, slices, lists and tables contain what was written in them, in order. Every expression tree that respects the precedences is read back from its tokens, and no two trees are written alike.", "quantifier": "all expressions", "why_tests_cant": "Expressions of any depth.", "anchors": ["src/drel/drel_ast_yacc.py:p_or_test", "src/drel/drel_ast_yacc.py:p_comparison", "src/drel/drel_ast_yacc.py:p_a_expr", "src/drel/drel_ast_yacc.py:p_m_expr", "src/drel/drel_ast_yacc.py:p_u_expr", "src/drel/drel_ast_yacc.py:p_power", "src/drel/drel_ast_yacc.py:p_slicing", "src/drel/drel_ast_yacc.py:p_call"]}
{"id": "C107", "title": "Structure of dREL programs", "statement": "A program is read with all its statements in order, each body under the statement it belongs to, else and elseif with their if, and the parts of loop headings in their places.", "quantifier": "all programs", "why_tests_cant": "Programs of any length and nesting.", "anchors": ["src/drel/drel_ast_yacc.py:p_statements", "src/drel/drel_ast_yacc.py:p_if_stmt", "src/drel/drel_ast_yacc.py:p_if_else_stmt", "src/drel/drel_ast_yacc.py:p_for_stmt", "src/drel/drel_ast_yacc.py:p_loop_head", "src/drel/drel_ast_yacc.py:p_do_stmt_head", "src/drel/drel_ast_yacc.py:p_funcdef"]}
{"id": "C108", "title": "Splitting dREL texts into tokens", "statement": "A dREL text is split into the tokens that were written: words, signs, names, tags, numbers and strings, each with its text; longer signs are not split, and strings may contain anything but their quote. Splitting ends for every text, and nothing of the text is lost but blanks, comments, escaped ends of lines and ends of lines in parentheses; numbers with a base keep their value.", "quantifier": "all texts", "why_tests_cant": "Texts of any length and content; the rules of the lexer overlap.", "anchors": ["src/drel/drel_lex.py:t_REAL", "src/drel/drel_lex.py:t_LONGSTRING", "src/drel/drel_lex.py:t_SHORTSTRING", "src/drel/drel_lex.py:t_ELSEIF", "src/drel/drel_lex.py:t_ID", "src/drel/drel_lex.py:t_INITIAL_NEWLINE", "src/drel/drel_lex.py:t_COMMENT"]}
{"id": "C109", "title": "From dREL text to syntax tree", "statement": "An expression or program written as text, with braces around bodies and blanks between tokens, is read as exactly its statements and expressions; a text has at most one tree, and programs with the same text have the same statements.", "quantifier": "all expressions and programs with valid names and literals", "why_tests_cant": "Programs of any length and nesting with arbitrary names and strings.", "anchors": ["src/drel/drel_lex.py:lexer", "src/drel/drel_ast_yacc.py:parser", "src/CifFile_module.nw:CifDic.transform_drel"]}
{"id": "C110", "title": "The layout of dREL texts makes no difference", "statement": "A dREL program is read as the same syntax tree however it is laid out: with any blanks, tabs, comments, escaped ends of lines and ends of lines in parentheses between its tokens, no blanks where brackets, commas and the like separate the tokens, empty and comment lines at the start and after each line, and with && and || for and and or.", "quantifier": "all programs and all layouts of each", "why_tests_cant": "Unboundedly many layouts of programs of any length.", "anchors": ["src/drel/drel_lex.py:t_COMMENT", "src/drel/drel_lex.py:t_INITIAL_NEWLINE", "src/drel/drel_lex.py:t_ESCAPE_NEWLINE", "src/drel/drel_lex.py:t_paren_ignore", "src/drel/drel_ast_yacc.py:p_maybe_nline", "src/drel/drel_ast_yacc.py:p_newlines", "src/drel/drel_ast_yacc.py:p_or_test"]}
{"id": "C111", "title": "Reports on validations", "statement": "The report on a validated file, as text or as a web page, has a section for every block, in order, headed VALID exactly when no check of the block failed. It lists exactly the names of the block that are not in the dictionary, and has, for each check that failed, one table under the explanation of this check with one row for each failure, with its details under the headings for them. Only the headlines of valid blocks without unmatched names may be left out, on a web page with more than ten blocks.", "quantifier": "all files and dictionaries, and all validation results", "why_tests_cant": "Files have any number of blocks, failures and unmatched names in any combination.", "anchors": ["src/CifFile_module.nw:validate_report", "src/CifFile_module.nw:error_report", "src/CifFile_module.nw:html_error_report", "src/CifFile_module.nw:ValidationResult"]}
{"id": "C112", "title": "Type expressions of a dictionary", "statement": "Opening a dictionary gives each type code the regular expression listed with it, closed by `$`, in which only this is changed: between brackets, `\\{` is made to stand for a backslash and a brace, and every `\\n` is followed by `\\r`. Each code also has its own primitive code, and no other codes are entered.", "quantifier": "all lists of type codes and all texts as constructs", "why_tests_cant": "Constructs are arbitrary texts with any number of brackets, marks and lines.", "anchors": ["src/CifFile_module.nw:add_type_info", "src/CifFile_module.nw:regex_fiddle"]}
{"id": "C113", "title": "Attributes a DDLm dictionary demands and forbids", "statement": "Opening the DDLm attribute dictionary takes over its loop of validity information completely: a definition of a scope passes the check for mandatory attributes exactly when it has every attribute listed for that scope as `Mandatory`, and the check for prohibited attributes exactly when it has none listed as `Prohibited`. A category in the list, in any capitalisation, stands for all items below it, at any depth. Rows with other options and dictionaries without the loop demand nothing.", "quantifier": "all dictionaries without cycles of categories, all loops of validity information, all definitions checked", "why_tests_cant": "Loops have any number of rows and names, and categories any depth.", "anchors": ["src/CifFile_module.nw:ddlm_parse_valid", "src/CifFile_module.nw:expand_category_opt", "src/CifFile_module.nw:check_mandatory_items", "src/CifFile_module.nw:check_prohibited_items"]}
{"id": "C114", "title": "dREL methods are read independently of each other", "statement": "Opening a dictionary gives every definition the translations of exactly those of its methods that are for evaluation and are dREL programs, in order. What is made of a definition does not depend on the definitions read before it, in this or an earlier dictionary, although one parser and one lexer read them all; a method that is no program is passed over and keeps neither the other methods nor the dictionary from being read; line feeds and carriage returns with line feeds are the same.", "quantifier": "all sequences of definitions, methods, purposes and texts, read one after the other", "why_tests_cant": "The result could depend on any history of methods read before.", "anchors": ["src/CifFile_module.nw:transform_drel", "src/CifFile_module.nw:add_drel_funcs", "src/CifFile_module.nw:initialise_drel", "src/drel/drel_lex.py:t_INITIAL_OPEN_PAREN"]}
{"id": "C115", "title": "Texts laid out anew for a template keep their contents", "statement": "If a template asks for a text to be laid out anew, the characters that are not whitespace come out as they were and in the same order, words stay whole, every line is indented as in the template and has at most 70 characters, the layout ends, texts that have a layout (three blanks in a row) or a single line keep it, and writing again what has been read back changes nothing.", "quantifier": "all texts, indentations, and numbers of outputs", "why_tests_cant": "The outcome depends on the lengths of all words of any text.", "anchors": ["src/StarFile.nw:do_wrapping", "src/StarFile.nw:_formatstring", "src/StarFile.nw:process_template"]}
{"id": "C116", "title": "Items are written in the columns of a template", "statement": "If a template is given, an item that is not in a loop is written as it stands there: name and value in the same columns and the value with the same delimiter, as far as it allows that delimiter.", "quantifier": "all templates, positions of the item in them, names, and values that fit on the line", "why_tests_cant": "A search through a text of any length decides, and the columns depend on the lengths of all that stands before.", "anchors": ["src/StarFile.nw:process_template", "src/StarFile.nw:printsection", "src/StarFile.nw:CIFStringIO", "src/StarFile.nw:_formatstring"]}
{"id": "C117", "title": "Loops are written in the columns of a template", "statement": "If a template is given, each row of a loop is written as the first row stands there: every value at its column and with its delimiter, as far as the values leave room.", "quantifier": "all templates made of names and values, numbers of values, columns, and rows that fit on the line", "why_tests_cant": "Columns are found by counting through a text of any length, and each depends on all that is written before.", "anchors": ["src/StarFile.nw:process_template", "src/StarFile.nw:format_packets", "src/StarFile.nw:format_packet_item", "src/StarFile.nw:CIFStringIO"]}
{"id": "C118", "title": "A template orders and lays out a whole block", "statement": "A template gives hints for exactly the names of its block, in its order, so that any block can be written in that order with nothing left out or written twice. Each item, and each loop, is laid out by its own place in the template, whatever else is in the template; a template in which some item cannot be found is refused.", "quantifier": "all templates, blocks read from them, blocks written, and items and loops of the template", "why_tests_cant": "Hints are found by looking through a list of any length in which names of items and loops, and marks of loops, are mixed.", "anchors": ["src/StarFile.nw:process_template", "src/StarFile.nw:create_ordering", "src/StarFile.nw:printsection"]}
