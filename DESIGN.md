# Formal model of PyCIFRW in Lean 4

## Layout

* `lean/Verif/Model/*.lean`: executable model of the Python code, function by function. Each definition cites file and lines of `/repo`.
* `lean/Verif/Spec/*.lean`: small specifications, written without the model's helpers unless the helper *is* the API.
* `lean/Verif/Lemmas/*.lean`: helper lemmas.
* `lean/Verif/Props/*.lean`: the property theorems listed in `MANIFEST.json`, with an `example` beside each showing that its hypotheses
  can be met by a concrete case.
* `seeded/LOG.jsonl`: wrong programs tried against the theorems.

## General modelling decisions

* Python `str` is `List Char` (`Str`). Lone surrogates do not exist in the model.
* Python exceptions are values of `Except PyErr α`. A mutating method that raises returns the state at the point of the raise together
  with the exception, so partial effects of failing calls are visible.
* Python `dict` is an association list in insertion order with update in place. A `set` is a list; where the order in which a set is
  run through matters, it is a parameter, and theorems hold for every order.
* `str.lower()` is an abstract function (`CaseFold`): idempotent, the usual function on ASCII, and such that appending `+` commutes with
  it. The theorems about blocks, collections and dictionaries hold for every such function. The only instance in the development is
  ASCII lower-casing, used by the examples and witnesses.
* Regular expressions are data (`Rx`) with the list of match lengths in the order of Python's backtracking matcher.
* Functions that call each other without an evident bound (parsers, derivation) carry a bound on nested calls, whose exhaustion is a
  separate outcome; it is proved that the bound is not reached (`C58_terminates`, `C06_terminates`) or theorems speak of runs that end.
* Values are values: that two names can be bound to the same mutable Python object is not modelled.

## Trusted base

* Lean's kernel, with the axioms listed below.
* The reading of the Python source into the model. Nothing is executed or extracted, so that the model says what the code does rests on
  comparing the two; every definition cites its lines.
* Python's semantics of `dict`, `list`, `str`, slices, `re` as described in the comments of the model.
* The Yapps generator: the parsers modelled are what it generates from the grammars (its FIRST and FOLLOW sets were computed by hand).
* PLY: that it builds the LALR tables of the grammar, resolves conflicts by shifting (or by the first production) and runs them as in
  `Model/LR`. The tables in `Model/DrelTable` were computed by a program outside this repository; that they fit the grammar is proved.

## What is modelled

| Code | Model |
| --- | --- |
| `StarFile.nw` 1194-1398, 1461-2379: `StarList`, `LoopBlock`, `StarBlock` | `Value`, `Block`, `Shape` |
| `StarFile.nw` 217-911: `BlockCollection` | `Collection`, `WriteOut` |
| `StarFile.nw` 998-1153: `ReadStar` from the decoded text on | `ReadStar` |
| `StarFile.nw` 944-956, 1032-1097; `CifFile_module.nw` 158-160, 318-349: decoding of files, `ReadStar`, `ReadCif` and the constructors as far as they read files | `Decode` |
| `StarFile.nw` 2430-2778: `CIFStringIO`, printing of a block | `Print`, `WriteText` |
| `StarFile.nw` 2824-2917: line folding and prefixing | `Text` |
| `StarFile.nw` 2948-3098: print order, templates (names only) | `Order` |
| `StarFile.nw` 3131-3211: merging of blocks | `Block` |
| `YappsStarParser.nw` 80-567: grammars 1.0, 1.1, 2.0 and STAR2, helper functions | `Regex`, `Reader` |
| `yapps3_compiled_rt.py` 105-289: interpreted scanner and parser runtime | `Scan`, `Reader` |
| `TypeContentsParser.nw`; `CifFile_module.nw` 4143-4281: type expressions, conversion, `transpose` | `TypeContents`, `Convert`, `Shape` |
| `CifFile_module.nw` 4100-4122: numbers with uncertainties | `Number` |
| `CifFile_module.nw` 3903-4051: reports on validations | `Report` |
| `CifFile_module.nw` 2719-2744: type expressions | `TypeInfo` |
| `CifFile_module.nw` 1347-1357: validity information | `Scopes` |
| `CifFile_module.nw` 2789-2846, 2868-2875: reading the methods and functions of a dictionary | `Transform` |
| `StarFile.nw` 2743-2745, 2801-2813, 2978-2985: texts laid out anew for a template | `Wrap` |
| `StarFile.nw` 2948-2988: columns and delimiters of items in templates | `Template` |
| `StarFile.nw` 2994, 3000-3031: columns and delimiters of loops in templates | `TemplateLoop` |
| `StarFile.nw` 2989-2999, 3006-3010: headers of loops in templates, positions of names | `TemplateHeader` |
| `StarFile.nw` 2948-3031: `process_template` put together | `TemplateAll` |
| `CifFile_module.nw` 3807-3901 (`Validate`, `ValidationResult`) and the overriding methods of `ValidCifBlock`: validating files and blocks | `ValidFile` |
| `StarFile.nw` 1461-1483, 1760-1777, `CifFile_module.nw` 232-311: constructors from lists, `AddLoopItem`, `AddCifItem` | `CifBlock` |
| `StarFile.nw` 1461-1489, 1644-1652 and the methods of `StarBlock` that write objects in place: sharing and copies of blocks | `Alias` |
| `StarFile.nw` 731-779, `CifFile_module.nw` 4352-4393: merging of files and dictionaries | `FileMerge` |
| `StarFile.nw` 1244-1270, 1356-1398: views of loops | `LoopView` |
| `CifFile_module.nw` 3763-3792: `ValidCifFile` | `ValidCifFile` |
| `drel/drel_lex.py`: patterns, states and rules of the lexer | `DrelLex` |
| `drel/drel_ast_yacc.py`: grammar and values; the table-driven parser that PLY makes of it | `LR`, `DrelGrammar`, `DrelTable` |
| `CifFile_module.nw` 1885-2690, 3516-3743, 3857-3901, 4060-4077: checks, validating blocks, running the checks | `Validate` |
| `CifFile_module.nw` 1035-1325, 3446-3501: definition lookup, category tree, output order | `CifDic` |
| `CifFile_module.nw` 1059-1125, 1518-1534, 1568-1617: tables of names, keys and parents of looped categories | `CatTable` |
| `CifFile_module.nw` 599-661, 698-776, 1000-1028, 1139-1155: opening DDL1 dictionaries | `Ddl1` |
| `CifFile_module.nw` 832-888: opening DDL2 dictionaries | `Ddl2` |
| `StarFile.nw` 1305-1329, 2188-2225, 2264-2362: packets of categories | `SemPacket` |
| `CifFile_module.nw` 1157-1250, 1371-1512: editing dictionaries | `EditDic` |
| `CifFile_module.nw` 444-496, 1646-1741: imports of attributes | `Import` |
| `CifFile_module.nw` 1646-1789: imports of definitions | `FullImport` |
| `CifFile_module.nw` 2903-3351, 4310-4338; `StarFile.nw` 1532-1590: deriving values, reading through a dictionary | `Derive` |
| `drel_runtime.nw` 26-83, 179-181: operations on lists | `Drel` |
| `py_from_ast.nw` 229-502, 693-697, 765-880: translation of dREL expressions | `DrelPy` |
| `py_from_ast.nw` 229-265, 504-692, 712-760, 795-798, 885-887: translation of dREL statements | `DrelStmt` |

## What is not modelled

* The C scanner (`src/lib`), which can replace the interpreted one.
* Fetching files and URLs, names of files and URIs, the encoding of output (a caller saves the text that is written).
* PLY itself, which makes lexer and parser of dREL from the rules: the models follow its documentation. When values are derived, a translated method is an arbitrary program that reads items, derives categories and changes the block.
* Numpy arrays, except the rule for the lengths of two lists of numbers that are added. Complex numbers are a parameter.
* Floating point: a float is the exact rational its text denotes; rounding and overflow do not occur. `int()` of texts with underscores or
  digits outside ASCII is left out.
* Python's recursion limit, memory, threads.
* Printed messages, and the wording of exceptions apart from C12.
* Names with signs of regular expressions other than dots and brackets in `process_template`; the `reformat` hint is modelled on its own (C115), not as part of the output of files.
* What the regular expression of a type matches is a parameter; `regex_fiddle`, which rewrites it for Python, is modelled as a function on texts (C112).
* Lines 905-987 of `CifFile_module.nw` (links in DDL2 dictionaries): they run over an iterator that has been used up.
* The validation checks take DDL1 and DDL2 dictionaries after normalisation, except for ranges (`C78_range`).
* The tables of names, keys and parents are computed in `Model/CatTable.lean`; the checks and the translation of dREL take them as parameters.
* When a dictionary is edited, its imported definitions and the tables made on reading (aliases, categories, keys) are not part of the state.
* Finding and opening the file of an import is a parameter (`load`). After a heavy import two dictionaries share the blocks of definitions; in the model they are values.
* Changing a list in place through another name: `push_from_pullback` and `done_keys` of the checks are modelled by values.
* Mutation of a block while it is being printed or iterated over.

## The properties: what is modelled and how it is proved

Statements are in `properties.jsonl`, the theorems of each property in `MANIFEST.json`. Theorems with the suffix `_partial` prove part of
a property and say in their comment what is missing. Theorems with the suffix `_fails` prove of the model that a claim is false there.

* **C01 Line-prefix protocol round trip** (proved). Both functions on lists of characters; induction on the text. Prefixes of two or more characters on one line; C01_short_prefix_fails shows that one-character prefixes, which the writer accepts, do not round-trip. Theorems in `Props/Text.lean`.
* **C02 Line-folding protocol round trip** (proved). Well-founded recursion on the rest of the line; induction on the pieces of a line. C02_blank_after_backslash_fails shows that the side condition on lines ending in backslash and blanks is needed. Theorems in `Props/Text.lean`.
* **C03 Folded lines are short** (proved). Bound by induction over the folding of a line; the bound is attained by a witness. The bound is 139 with the default widths and is reached; the nominal maximum 80 is not kept. Theorems in `Props/Text.lean`.
* **C04 Semicolon text field round trip** (partial). Writer of `_formatstring`, token pattern and decoding of text fields; composition of C01, C02 with a lemma about the first line feed and semicolon. No field is ended early by a line feed and semicolon, for all texts. The round trip is proved for all texts and limits apart from the features named in FieldSafe; for each of those the code is wrong and a witness is proved. Theorems in `Props/RoundTrip.lean`.
* **C05 Choice of delimiter is safe** (partial). Case split over the delimiter chosen, against the token patterns of the 1.1 grammar. Every text has a representation, and it is read back unless it has one of the features named in Safe, for which the witnesses show that the code is wrong. Theorems in `Props/RoundTrip.lean`.
* **C06 Scanner takes the longest match, earliest pattern on ties** (proved). Scanner over arbitrary patterns; the loop over permitted patterns by induction. For any pattern table; grammars_ok instantiates the side conditions for the four grammars. Theorems in `Props/Scan.lean`.
* **C07 Scanner loses no text** (proved). Invariant over the history of requests to the scanner. Theorems in `Props/Scan.lean`.
* **C08 Loop construction from a flat value list** (proved). Index arithmetic on the slices of the flat list, for lists of any length. Loops with at least one name and not ending in an empty list; the witnesses show what happens otherwise. Theorems in `Props/Reader.lean`.
* **C09 Duplicate data names in a file are rejected** (proved). The parser actions as a fold into the block model; induction on the items. Theorems in `Props/Reader.lean`.
* **C10 Writing a block and reading it back** (proved). Printer, scanner and recursive descent parser composed; induction on the items of the block with an invariant on the scanner position. For blocks of texts and numbers that are safe by themselves (C04, C05), with rectangular loops that have names and rows; the witnesses show why the conditions on loops are needed, and that numbers come back as their text. With formatting hints the order is the one the hints ask for. Theorems in `Props/ReadBack.lean`, `Props/ReadBackCases.lean`.
* **C11 Line layout keeps tokens apart** (proved). Invariant of the output buffer over write calls. Texts and numbers; lists and tables of CIF 2.0 are not covered. Hints that ask for column 0 are excluded, which the witness shows to be necessary; process_template never produces them for a value. Theorems in `Props/Print.lean`.
* **C12 Input clean-up before parsing** (proved). Functions on text; characterisation by induction on lines and on marker positions. Theorems in `Props/ReadStar.lean`.
* **C13 Grammar selection** (partial). Try-list over abstract parsers which may leave changes behind when they fail. The first two clauses hold. The third is proved for parsers whose failed attempts leave the collection as it was; C13_fails shows a text that CIF 1.1 accepts but automatic detection rejects because the failed CIF 2.0 attempt leaves a block behind. Theorems in `Props/ReadStar.lean`.
* **C14 Every item is in exactly one place** (proved). StarBlock as a state machine (`Model/Block.lean`). Invariant by induction over operations. Histories start from an empty block; CreateLoop gets distinct names (C14_repeated_name_fails shows the code does not check this and then breaks the property). Theorems in `Props/Block.lean`.
* **C15 A block is a case-insensitive map** (proved). StarBlock as a state machine (`Model/Block.lean`). Refinement to a finite map keyed by lower-case names. Theorems in `Props/Block.lean`.
* **C16 Locked blocks cannot be overwritten** (proved). StarBlock as a state machine (`Model/Block.lean`). Law of one operation. Theorems in `Props/Block.lean`.
* **C17 Failed block operations change nothing** (partial). StarBlock as a state machine (`Model/Block.lean`). Law of each operation: failure implies an unchanged state. CreateLoop of unlooped single values wraps them one at a time, and a failure half way leaves some wrapped: C17_createLoop_fails proves the negation. All other failures change nothing. Theorems in `Props/Block.lean`.
* **C18 Loops stay rectangular** (proved). StarBlock as a state machine (`Model/Block.lean`). Invariant by induction over operations. C18_string_column_fails shows why the restriction to columns is needed: AddLoopName accepts a plain string with as many characters as the loop has rows. Theorems in `Props/BlockLoop.lean`.
* **C19 CreateLoop moves exactly the requested names** (partial). StarBlock as a state machine (`Model/Block.lean`). Law of one operation on the order. Everything but the requested print position holds in full. The position is counted before the named items are taken out of the order: C19_position_exact says where the loop ends up, C19_position_fails refutes the full claim, C19_position_partial covers items that were all looped. Theorems in `Props/BlockLoop.lean`.
* **C20 Removing an item** (proved). StarBlock as a state machine (`Model/Block.lean`). Law of one operation. Theorems in `Props/BlockLoop.lean`.
* **C21 Changing print order only changes the order** (proved). StarBlock as a state machine (`Model/Block.lean`). Law of one operation: the result is a permutation with the item at the place asked for. C21_loop_number_always_raises: moving a loop by its number never works. Theorems in `Props/BlockLoop.lean`.
* **C22 Packets are rows** (proved). StarBlock as a state machine (`Model/Block.lean`). Iteration unfolded by induction on rows. Theorems in `Props/BlockPacket.lean`.
* **C23 Keyed packet lookup is unambiguous** (proved). StarBlock as a state machine (`Model/Block.lean`). Counting of matching rows. C23_caseless_number_raises: with the case-insensitive option a key column of numbers makes the lookup raise an AttributeError. Theorems in `Props/BlockPacket.lean`.
* **C24 Removing and adding packets** (partial). StarBlock as a state machine (`Model/Block.lean`). Law of one operation, column by column. Whenever the call succeeds the row change is exact. Success is proved for columns whose values pass the block checks; C24_remove_read_fails and C24_add_locked_fails show calls that raise after part of the loop has changed. Theorems in `Props/BlockPacket.lean`.
* **C25 Print ordering is complete** (proved). `create_ordering` over arbitrary hints (`Model/Order.lean`); permutation of the block order. For any distinct lower-case requested names, which every template gives; C25_repeated_hint_fails shows that repeated hints, which templates cannot produce, print twice. Theorems in `Props/Order.lean`.
* **C26 Printing in two halves covers everything once** (proved). Same model; splitting of the order at a position. Holds even for unknown names. Theorems in `Props/Order.lean`.
* **C27 Data name validity** (partial). The patterns of names as predicates on characters. Exact for the ASCII character set. For the CIF 2.0 set nothing invalid is accepted; the code refuses every character beyond U+FFFF whose last hexadecimal digit is E or F (C27_fails). Theorems in `Props/BlockPacket.lean`.
* **C28 Merging blocks** (proved). StarBlock as a state machine (`Model/Block.lean`). Merge by induction over the items of the other block. The other block is rectangular, and in strict mode none of its loops consists of match-list names only. Theorems in `Props/BlockMerge.lean`.
* **C29 A block collection is a case-insensitive map** (proved). BlockCollection as a state machine (`Model/Collection.lean`). Refinement to a finite map. Theorems in `Props/Collection.lean`.
* **C30 Adding a block never loses another** (proved). BlockCollection as a state machine (`Model/Collection.lean`). Law of one operation. The claim is about collections with a standard; C30_no_standard_fails shows that without one the older block is replaced. Theorems in `Props/Collection.lean`.
* **C31 Collection bookkeeping agrees** (proved). BlockCollection as a state machine (`Model/Collection.lean`). Invariant by induction over operations. Histories of fair calls (Op.Fair): enclosing blocks named in a call exist and are not moved below themselves, and deleted or renamed blocks are visible. The _fails theorems show the code does not check this. Theorems in `Props/Collection.lean`.
* **C32 Deleting a block deletes exactly its subtree** (partial). BlockCollection as a state machine (`Model/Collection.lean`). Reachability in the parent table. Exact when the whole subtree is visible, which dictionary scoping guarantees; with instance scoping deleting a block with children raises half way (C32_hidden_fails). Theorems in `Props/Collection.lean`.
* **C33 Renaming keeps structure** (partial). BlockCollection as a state machine (`Model/Collection.lean`). Law of one operation. For visible blocks; renaming a hidden nested block raises after the table was changed (C33_hidden_fails). Theorems in `Props/Collection.lean`.
* **C34 Nesting queries agree with the parent table** (partial). BlockCollection as a state machine (`Model/Collection.lean`). Reachability in the parent table; recursion bounded by the number of blocks. Queries are exact. get_children is exact when no key has the form the code gives to root blocks; C34_get_children_fails is the counterexample. Theorems in `Props/CollectionTree.lean`.
* **C35 Extracting a sub-collection** (proved). BlockCollection as a state machine (`Model/Collection.lean`). Law of one operation. Theorems in `Props/CollectionTree.lean`.
* **C36 Merging collections** (proved). BlockCollection as a state machine (`Model/Collection.lean`). Induction over the blocks of the other collection. The _fails theorems record effects outside the claim: nested blocks becoming visible, a duplicated output order after a replacing merge, and an AttributeError when a top-level and a nested block share a name. Theorems in `Props/CollectionMerge.lean`.
* **C37 Every block is written exactly once** (proved). Output as a list of pieces (`Model/WriteOut.lean`); permutation of the blocks. At the level of whole blocks: the text of one block is a single piece. For collections built by the public operations; C37_selection_fails shows that a selection made by get_children writes nothing. With nested save frames (STAR2) siblings come in table order. Theorems in `Props/WriteOut.lean`.
* **C38 Collecting all values of a name** (proved). BlockCollection as a state machine (`Model/Collection.lean`). Induction over the visible blocks. Theorems in `Props/CollectionMerge.lean`.
* **C39 Enumeration check** (partial). The check as a function of definition, block and value (`Model/Validate.lean`); the theorem characterises its outcome. Proved when the definition lists its values in a list; a single listed value given outside a loop raises AttributeError for every value (witness). Theorems in `Props/ValidateItem.lean`.
* **C40 Range check agrees with the dictionary's range** (partial). The check as a function of definition, block and value (`Model/Validate.lean`); the theorem characterises its outcome. Proved for ranges given as lists and for DDL1 ranges; a range given outside a loop is taken apart character by character, and a number followed by other text passes for the number (witnesses). Numbers are exact rationals. Theorems in `Props/ValidateItem.lean`.
* **C41 Type check** (partial). The check as a function of definition, block and value (`Model/Validate.lean`); the theorem characterises its outcome. Proved for values without line feeds; the witnesses show a value with lines that is refused although it matches and an empty value that is let through. Theorems in `Props/ValidateItem.lean`.
* **C42 Parent-child consistency check** (partial). The check as a function of definition, block and value (`Model/Validate.lean`); the theorem characterises its outcome. Proved with optimisation off, as in Validate; validating blocks switch it on, and then wrong values are overlooked (witnesses). Theorems in `Props/ValidateBlock.lean`, `Props/ValidateRel.lean`.
* **C43 Key uniqueness check** (partial). The check as a function of definition, block and value (`Model/Validate.lean`); the theorem characterises its outcome. Soundness is proved in full; a failure is proved to be right when no key value contains a blank, and the witness shows a wrong one. Theorems in `Props/ValidateRel.lean`.
* **C44 Exclusion and dependency checks** (partial). The check as a function of definition, block and value (`Model/Validate.lean`); the theorem characterises its outcome. Exclusion proved; dependency proved for names that the dictionary writes in lower case (witness for the others). Theorems in `Props/ValidateRel.lean`.
* **C45 Mandatory and prohibited items** (proved). The check as a function of definition, block and value (`Model/Validate.lean`); the theorem characterises its outcome. The tables of mandatory and prohibited items by scope are taken as given. Theorems in `Props/ValidateLoop.lean`.
* **C46 Loop key and membership checks** (partial). The check as a function of definition, block and value (`Model/Validate.lean`); the theorem characterises its outcome. Membership proved. The key check looks in the wrong place for DDL1 and DDL2, mishandles alternates and accepts part of a compound key (witnesses). Theorems in `Props/ValidateLoop.lean`.
* **C47 Validity verdict** (proved). `run_data_checks` over arbitrary lists of checks; induction over the list. For any list of checks, with and without optimisation, whenever no check raises. Theorems in `Props/ValidateBlock.lean`.
* **C48 AddItem on a validating block** (proved). Validating block over the block model; law of AddItem and induction over histories. Items unknown to the dictionary are stored unchecked, as in the code. The last theorem shows that AddItem does not keep the whole block valid, since present items are not checked again. Theorems in `Props/ValidateBlock.lean`.
* **C49 Numbers with standard uncertainties** (proved). The pattern of numbers as a regular expression, its unique match, and the value as a rational. Numbers are exact rationals: rounding and overflow of floating point are not modelled. A leading plus sign is not understood by the code (witness). Theorems in `Props/Number.lean`.
* **C50 Type-contents expressions** (proved). Generated parser with its scanner; mutual induction over structures, both directions. The generated parser is modelled with its context-sensitive scanner; accepted texts and their structures are characterised exactly. Python's recursion limit on very deep nesting is not modelled. Theorems in `Props/TypeContents.lean`.
* **C51 Converting structured values** (partial). Structural recursion over nested lists, per type. Element by element conversion is proved for list types and lists of list types. Types nested deeper are not converted by the code, a list without a dimension is taken for a single value, and an exponent after an uncertainty is lost (witnesses). Complex numbers and Numpy arrays are parameters of the model. Theorems in `Props/Convert.lean`.
* **C52 Shape utilities** (proved). Structural recursion over nested lists. Numpy arrays are not modelled. Theorems in `Props/Shape.lean`.
* **C53 Multi-index access to lists** (proved). Structural recursion over nested lists. Slices without a step are modelled as the last index; C53_mixed_fails shows what happens when the lists on the way are not StarLists. Theorems in `Props/Shape.lean`.
* **C54 Definition lookup** (partial). Functions over a dictionary given by its blocks (`Model/CifDic.lean`). Induction over the blocks. Building the table fails exactly for equal identifiers; every definition is found in any capitalisation when no other identifier differs from it in case only. Identifiers that differ in case only are not refused and hide one definition (C54_case_fails); a DDL2 definition with several names makes the table fail (C54_list_fails). Theorems in `Props/CifDic.lean`.
* **C55 Import precedence** (partial). Attribute lookup through the cache of imports (`Model/Import.lean`); induction over the references. Heavy imports of attributes into a whole dictionary (`Props/ImportContents.lean`): refinement to the merge of the two definitions. Exact when every reference imports attributes from a registered file. A definition that also imports definitions from another file, or skips a missing one, cannot be read at all (C55_mixed_fails, C55_skipped_fails); imports of imports are not followed (C55_chain_fails); `in` and `get` do not see imported attributes (C55_contains_fails); heavy imports refuse attributes present in both (C55_heavy_clash). Theorems in `Props/Import.lean`, `Props/ImportContents.lean`.
* **C56 Category tree queries** (partial). Functions over a dictionary given by its blocks (`Model/CifDic.lean`). Reachability through parent links. Children, immediate children and expansion are exact. is_semantic_child is exact for a child written in lower case (C56_case_fails otherwise). Danglers are exactly the definitions that do not reach the Head, which includes those below a category that is not defined. Theorems in `Props/CifDicTree.lean`.
* **C57 Dictionary output contains every definition** (partial). Functions over a dictionary given by its blocks (`Model/CifDic.lean`). Permutation of the definitions by induction over the tree. Exact when categories are kept in blocks named by their identifiers (Tidy) and definitions that do not reach the Head have the form the code expects (Loose). The witnesses show lost definitions, a name that is no block and exceptions otherwise. Theorems in `Props/CifDicOrder.lean`.
* **C58 Recursive derivation is guarded** (proved). Derivation as programs run with a bound (`Model/Derive.lean`); invariant on the record of names, and a measure: names not yet on the chain. Over all dictionaries and methods whose names lie in a finite set (Closed); methods are arbitrary terminating programs that read items, derive categories and change the block. Theorems in `Props/Derive.lean`.
* **C59 Order of derivation sources** (partial). Same model; one theorem per source, each for arbitrary outcomes of the earlier sources. The order alias, method, default, failure holds for all dictionaries, blocks and outcomes of methods. The computed value of an item of a loop that is absent is dropped (C59_empty_loop_fails), and a column beside an unlooped one raises after storing (C59_no_loop_fails). When the outermost call does not say whether defaults may be used, it uses them and the calls made during it do not (C59_unsaid_fails). Theorems in `Props/DeriveOrder.lean`.
* **C60 Category construction is a join** (proved). The joining of key columns as functions on lists; characterisation of the rows. For key columns without repeated values, as keys must be. C60_repeated_fails shows what happens otherwise. Storing the built columns in the block is modelled but not covered by a theorem. Theorems in `Props/DeriveJoin.lean`.
* **C61 Aliases table and final names** (partial). Functions over a dictionary given by its blocks (`Model/CifDic.lean`). Table built by a fold over definitions. Exact for aliases given in loops and compared letter by letter. C61_single_fails: a single alias outside a loop is taken apart into letters. C61_case_fails: a name in other capitals is not recognised. Theorems in `Props/DeriveOrder.lean`.
* **C62 dREL list operators** (proved). Functions on lists (`Model/Drel.lean`). Lists of numbers (exact rationals) for sums and differences; Numpy arrays as operands are not modelled. Theorems in `Props/Drel.lean`.
* **C63 Whole files are read back** (proved). C10 for each block, and induction over blocks. Files without save frames, at least one block. Save frames: C74. Theorems in `Props/ReadBack.lean`.
* **C64 Uncertainty check** (partial). The check as a function of definition, block and value (`Model/Validate.lean`); the theorem characterises its outcome. The clause holds for DDL1 numb items; for DDL2 and DDLm the witnesses show that the check is never carried out. Theorems in `Props/ValidateItem.lean`.
* **C65 Looping and list reference checks** (partial). The check as a function of definition, block and value (`Model/Validate.lean`); the theorem characterises its outcome. References to groups of names (ending in an underscore) are never refused (witness). Theorems in `Props/ValidateItem.lean`, `Props/ValidateLoop.lean`.
* **C66 Reading an item through the dictionary** (partial). Reading through the dictionary as a function of state and derivation (`Model/Derive.lean`); one theorem per case, for arbitrary derivations, composed with C59 for methods and defaults. Everything but the last clause on unknown values holds. For an item with '?' that has only a default, the default is stored but '?' is returned (C66_default_fails); if it cannot be derived at all '?' is returned but the item is removed from the block (C66_removed_fails). Theorems in `Props/DeriveRead.lean`.
* **C67 Adding definitions** (partial). Dictionary = collection of blocks plus identifier table (`Model/EditDic.lean`), edited step by step with the state at the point of an exception. The specification `Sound` says what good order is; each step (unlocking, new block, setting attributes, renaming) is proved to preserve it and to leave other definitions alone, and the steps are composed. Failures by concrete runs. Proved for lower-case item names that are not in use and for categories with an existing parent or a Head. Capitals in an item name make it unremovable (C67_capitals_fails); a name in use hides the earlier definition (C67_hidden_fails); a missing parent or a missing Head leaves the category behind (C67_orphan_fails, C67_headless_fails); a category may become its own parent (C67_itself_fails); adding an item unlocks the dictionary for good (C67_unlocked_fails). Theorems in `Props/EditDic.lean`.
* **C68 Removing definitions** (partial). Same model as C67. A relation `Minus` (the dictionary without a set of definitions) is carried through the recursion; induction on the size of what is below. remove_definition is exact for dictionaries whose blocks are nested as their categories are (Nested). del of a definition whose block encloses others leaves their names behind (C68_stale_fails); with cyclic categories the removal does not end (C68_cycle_fails). Theorems in `Props/RemoveDic.lean`.
* **C69 Renaming and moving definitions** (partial). Same model as C67: each method is taken apart into steps that are proved to preserve the bookkeeping; renaming a category by induction over its children with an invariant on the names made so far. Proved for new names that are not in use and categories kept in blocks named like them. A name in use hides the other definition (C69_hidden_fails), the name it has already makes the definition itself disappear (C69_same_fails), the enclosing block cannot be renamed (C69_title_fails), a category may go into one below it (C69_cycle_fails), a category in a block of another name makes the move fail halfway (C69_block_fails), and the items of a renamed category are listed without their underscore (C69_underscore_fails). Theorems in `Props/RenameDic.lean`.
* **C70 Lists and tables written in CIF 2.0 are read back** (partial). Printer with its line-breaking sink and the CIF 2.0 scanner and parser composed. `Lemmas/Sink` describes what one write adds to the text; induction over values gives the words of a list or table and that they are read back (`Lemmas/WriteValue20`), induction over items, loops and blocks gives the file (`Lemmas/WriteDoc20`, `BlockRead20`, `FileRead`). Writing never fails. Reading back is proved when words cannot run together (Unglued: lists or tables only in loops of one column and names of tables that end before column 80, or all lines shorter than 79 characters). Otherwise values run together at the end of full lines (C70_glued_fails, C70_name_glued_fails). Keys with quotes, empty lists at the end of a loop and texts with triple quotes are misread (C70_key_fails, C70_last_fails, C70_triple_fails). Theorems in `Props/FrameFile.lean`, `Props/ReadBack20.lean`, `Props/ReadBack20Cases.lean`.
* **C71 Expressions of dREL methods** (partial). `Model/DrelPy` is the traversal of expressions, producing text. `Spec/PyText` reads Python expressions (tokens, precedence); `Spec/DrelMeaning` says what a dREL tree stands for; `Spec/DrelFits` and `DrelReady` list the trees, dictionaries and states treated. Each construction of the translator is shown to make a text with the right tokens that is read as the right tree at a known precedence and cannot run together with its neighbours (`Lemmas/PyLex`, `PyParse`, `PyGood`, `DrelText`, `DrelCall`, `DrelLit`); induction over trees (`DrelGood`, `DrelTotal`) gives the theorem. Proved for all expressions of any depth without the constructions for which it fails: & after |, lists outside the right side of an assignment, slices with missing parts, several slices, empty brackets, sort, names that are Python keywords, integers with leading zeros, literals with backslashes or over several lines, packets chosen inside an expression without taking an object. Theorems in `Props/DrelPy.lean`, `Props/DrelPyCases.lean`.
* **C72 Statements of dREL methods** (partial). `Model/DrelStmt` is the traversal of statements, producing text. `Spec/PyStmt` reads Python statements from lines with indentation; `Spec/DrelSteps` says what dREL statements stand for; `Spec/DrelStepFits` lists the statements treated. Texts are shown to lay out as groups of lines that are read as the right statements at every indentation (`Lemmas/PyBlock`, `PyLines`, `PyStmtText`); the tables of the translator agree with the scopes of the specification except for names lost sight of (`DrelAgree`); the text that opens a loop over a category is read as the statements that find its rows (`DrelLoop`); induction over statements (`DrelStmtGood`, `DrelStmtMain`, `DrelStmtAll`) gives the theorem. Proved for all statements of any depth without the constructions for which it fails: ranges that count downwards or whose end is an unbracketed operation binding less than +, *= and /=, other names of a category inside with, aliases after their with statement, packets copied between variables, among several values or in variables given other values later, attributes of variables as targets, strings over several lines, loops limited by a variable a, the derived item in a packet of a loop, loops nested in a later loop with an alias used before. Theorems in `Props/DrelStmt.lean`, `Props/DrelStmtCases.lean`.
* **C73 Dependencies of dREL methods** (partial). `Spec/DrelUses` collects the data names an expression and a statement refer to, given what names stand for. By induction over the same cases as C71 and C72, what the translator notes between two states is that list, up to case and the target (`Lemmas/DrelNotes`, `Lemmas/DrelStmtNotes`). Names of items taken from packets are reported in the case of the dictionary, others in lower case: so the item itself can be reported as its own dependency, and an item twice. The constructions excluded in C72 are not treated. Theorems in `Props/DrelUses.lean`.
* **C74 Files with save frames are read back** (proved). `WriteOut`, the scanner, the parser with its save frame rules, the joining of blocks and `ReadStar` composed. `Lemmas/ReadFrames` reads one save frame and a data block around it, `ReadFramesFile` joins the families of blocks, `FrameFile` is the induction over the pieces written (C37), `FrameCore` gives the text of each part (C10, C26, C70). CIF 1.1. The same for CIF 2.0 is C74_file20_partial, listed with C70. Reading stops at Ctrl-Z (C74_ctrlZ_fails), so texts with it are excluded. Theorems in `Props/FrameFile.lean`, `Props/FrameFileCases.lean`.
* **C75 Items are found by category and object** (partial). `create_cat_obj_table` with its recursive helper and `get_name_by_cat_obj`. Invariants of the additional table (`Extra`, `Covers` in `Lemmas/CatTable`) through the loops over children and categories; then the two tables are joined. Proved when looped categories are nested at most once. With deeper nesting, of several looped categories in a category only the last one passes its names on to the categories further up. Theorems in `Props/CatTable.lean`, `Props/CatTableCases.lean`.
* **C76 Keys of looped categories are collected** (partial). `create_cat_key_table`. Induction over the categories and their looped children (`Lemmas/LoopTables`); the failure for deeper nesting is a theorem about all such dictionaries. Proved when looped categories are nested at most once. For every dictionary with deeper nesting it is proved that making the table raises a TypeError, so that the dictionary cannot be read. Theorems in `Props/LoopTables.lean`.
* **C77 Parents and equivalent keys of looped categories are found** (proved). The loops that follow parents and keys carry a bound on rounds. The categories passed are different from each other as there are no cycles, so the bound is not reached; what is added at each round is what the inductive specification `Equivs` adds. A looped category below itself makes the code loop for ever; the hypothesis excludes it. Theorems in `Props/LoopTables.lean`, `Props/SemPacket.lean`.
* **C78 Definitions of DDL1 dictionaries are found** (partial). `Model/Ddl1` is the opening of a DDL1 dictionary, in the order of the code. The state of the collection is followed through the three loops: the first makes a block for each name (`Expanded`), the second works out the attributes of each (`Normed`), the third makes up categories (`Made`); then the table of definitions is filled (`Tabled`). Each is an invariant over the blocks treated so far (`Lemmas/Ddl1`, `Ddl1Coll`, `Ddl1Loops`, `Ddl1Cat`). `Lemmas/Ddl1Check` gives a decision procedure for the hypothesis `Regular`, used for the sample. Proved for files in which no block has the name of a definition, as usual in DDL1. If a block is named as its definition is, and the name has capitals, the definition is lost (C78_case_fails). Theorems in `Props/Ddl1.lean`.
* **C79 Categories of DDL1 dictionaries list what they require** (partial). As C78; the collected lists of each category are an invariant of the loop of `ddl1_cat_load` (`Holds`), writing them to the categories another (`writeCats`). Exact but for repeated items in other capitals: definitions are listed in lower case, what they name as it is written (C79_twice_fails). Without capitals no item is listed twice (C79_once). Theorems in `Props/Ddl1.lean`.
* **C80 Packets of a category are put together by key** (partial). `Model/SemPacket`: a block with a dictionary is a record of functions that read and derive items and may change the state (`Host`); `ofEngine` makes one of the model of derivation. The rows of the keys are an inductive specification (`Rows`) that follows the state; induction over it (`gather_ok`) gives the packet. Loops of a block are tables in its sense (`C80_tables`). Proved for keys that are usable once they are read (no None) and names that do not begin with two underscores. A key that is generated as None adds the row before it once more, or raises UnboundLocalError if there is none (C80_again_fails, C80_unbound_fails); items with two underscores are no attributes (C80_underscores_fails). Theorems in `Props/SemPacket.lean`, `Props/SemPacketCases.lean`.
* **C81 Missing attributes of a packet are derived** (partial). `attrOf`; looking up rows by several keys is proved once (`compound_table`) from the unique row lemma of C23. Keys are compared without regard to case here whatever their type, so the row must be the only one in this sense; otherwise a ValueError is raised for an attribute of a packet that was itself found by its key (C81_caseless_fails). Theorems in `Props/SemPacket.lean`, `Props/SemPacketCases.lean`.
* **C82 Packets are found by several keys** (partial). `multiSemantic`, with `compound_table`. That nested categories make it fail is a theorem about all blocks and categories. Proved for categories without looped categories nested in them. Without such a row an empty packet is returned and no error is raised (C82_none_fails); with a nested category that has something for its keys in the block there is always an error unless the keys of the nested category are given too (C82_nested_fails). Theorems in `Props/SemPacket.lean`.
* **C83 Definitions of DDL2 dictionaries are found** (partial). `Model/Ddl2`: `DDL2_normalise` as Python 3 runs it, where `filter` gives an iterator that can be used once. Texts as identifiers make the loops leave the dictionary as it is; the table is that of C54. That lists and aliases raise is proved for all dictionaries: the first by the table of definitions, the second since storing a copy reads `_definition.id`, which no block has. Proved for dictionaries whose definitions name one item each and that have no aliases. Under Python 3 no DDL2 dictionary with a definition that lists several names, and none with an alias, can be opened (C83_listed_fails, C83_aliases_fails, for all such dictionaries), and links are not completed (C83_links_fails). Theorems in `Props/Ddl2.lean`, `Props/Ddl2Cases.lean`.
* **C84 Reading any text comes to an end** (proved). `Lemmas/ReadEnds`: the parser state keeps at most one token that was looked at but not consumed (`Ok`), and asks for it again only with the same or fewer types (`Wide`); each rule that succeeds has moved on (`Out`). `ReadEndsRules` does the values, `ReadEndsBlocks` items, frames, blocks and files, for any invariants of the collections (`Plan`); `ReadEndsColl` gives the plan: collections being read satisfy `Loose`, which deletion and renaming keep. Fuel twice the length of the text is enough. Every rule consumes text and every repetition ends; the bounds of the model are never reached. The limit of the interpreter on nested calls is not modelled. Theorems in `Props/ReadEnds.lean`.
* **C85 Reading raises only StarError** (partial). As C84: the plan also says which errors each operation raises. Names of frames are tracked by a predicate closed under adding plus signs, so that `AttributeError` needs a frame and a block with the same name. Proved for texts in which no save frame has the name of a data block (C85_apart, C85_frameless). A save frame with the name of an earlier data block makes merge_fast raise AttributeError, which is not caught (C85_fails); nothing else is raised (C85_partial). Theorems in `Props/ReadEnds.lean`.
* **C86 Files are read as the text they encode** (proved). `Model/Decode` has a UTF-8 decoder with the rules of Python (no overlong forms, no surrogates, at most 10FFFF) and the entry of `ReadStar`. `Lemmas/Decode`: decoding one character is the inverse of `String.utf8EncodeChar` in both directions, by linear arithmetic; then induction on the text and on the number of characters. `C86_saved` joins it to C74. UTF-8 is specified by the encoder of the Lean library; the decoder of the model follows the rules of Python. Theorems in `Props/Decode.lean`.
* **C87 Permissive mode reads Latin-1 files** (partial). Streams are modelled with what is left after `read()`. Equality of the two runs for all encodings of texts; the failure is proved for all other byte sequences. On UTF-8 files permissive mode makes no difference. For every other file it reads nothing and returns None, because the stream is read a second time after it has come to its end. Theorems in `Props/Decode.lean`.
* **C88 Reading a file returns the collection** (partial). Case analysis of `ReadStar`: `None` comes from the branch for an empty text only. The byte sequences that give an empty text are characterised by C86. Proved for sources with a text that is not empty. For the others, which C88_empty_sources characterises, None is returned; ReadStar without a collection always raises AttributeError. Theorems in `Props/Decode.lean`.
* **C89 Import of definitions** (partial). `Model/FullImport` follows `ddlm_import` step by step on the model of collections and dictionaries. `Lemmas/FullImport` shows what selecting, pruning and merging the frames and making the table anew do to each definition; `Lemmas/FullImportJoin` follows each definition through the loop that moves the children, the deletion of the old head and of the request. Proved for the import of a head into a head, for dictionaries whose frames are not nested and have no names in common. The import of any other category raises IndexError (C89_category_fails, for all such dictionaries); an importing definition whose frame has another name raises StarError (C89_frame_fails); nested frames are deleted again (C89_nested_fails). Theorems in `Props/FullImport.lean`.
* **C90 Light imports** (partial). `importedFrom` describes what `lookup_imports` uses of a dictionary; the search is characterised with C56 for all names. Names are found in lower case only, which is proved for all names (C90_case_fails). Imported definitions are not listed. Theorems in `Props/FullImport.lean`.
* **C91 Flags of imports** (partial). Case analysis of `heavyRef` for all references and dictionaries. Flags are compared with case: any value but Exit passes over a missing definition (C91_spelling_fails); values of dupl other than Exit and Ignore go on with the import. Proved for heavy imports. Theorems in `Props/FullImport.lean`, `Props/ImportAll.lean`.
* **C92 Validating a file** (partial). `Model/ValidFile` follows `Validate` block by block on the model of collections, with the checks of `Model/Validate` as a parameter. Induction over the names of the blocks with an invariant (`Passed`) that says for each block done what is left of it, what is listed and how it was judged; the verdict is the specification of C47. The results are as stated, and the only errors are those of the checks. The file is not left as it was: items that are not in the dictionary are deleted from it (C92_unmatched_fails, for all files), and a dictionary stays in the scoping of dictionaries (C92_scoping_fails). Files whose names are all known keep their blocks (C92_matched). Theorems in `Props/ValidFile.lean`.
* **C93 Questions about the result of a validation** (partial). From C92 by case analysis of the two methods. Proved for single blocks under their names in lower case. The question about the whole file always raises AttributeError, and a name with capitals KeyError. Theorems in `Props/ValidFile.lean`.
* **C94 Validating blocks** (partial). From C47; the failures are proved for all blocks and dictionaries by case analysis of the overriding methods. Proved for making the block. A block with a name that is not in the dictionary is never accepted, deletion always raises an error, and so does AddToLoop. Theorems in `Props/ValidFile.lean`.
* **C95 Filling a block with lists of items and loops** (partial). `Model/CifBlock`. `update_all`: adding distinct items one after the other, by induction; then C19 for `CreateLoop`. `C95_constructor`: induction over the list; an entry that is held stays held when one with other names is added. Proved for the constructor, AddLoopItem and the nested form of AddCifItem with as many columns as names. Further columns are dropped; with too few the block stays half filled; AddCifItem stores a text as a list of its characters and always refuses (names,columns). Theorems in `Props/CifBlock.lean`.
* **C96 Blocks do not influence each other** (proved). `Model/Alias`: the methods of `Model/Block` once more over a heap of pairs and lists, with explicit addresses. `Does`: each call acts on the appearance of the block as in `Model/Block`, writes only objects of this block and takes further ones from free addresses; by induction over the history. This justifies treating blocks as values everywhere else. Theorems in `Props/Alias.lean`.
* **C97 Copies of blocks** (partial). In `Model/Alias`. `keeps_mild`: calls that change no existing loop write only new objects. The failures: the same address is written whether the call is made on the block or its copy. Independence is proved for histories that change no existing loop. A copy shares the lists of names of its loops and the stored values with the original: removing, moving or looping a looped item of the copy, or adding and removing packets, changes the original, which then omits the item from output, prints an item twice or loses packets (proved for all blocks). CifBlock.copy always raises AttributeError. Theorems in `Props/Alias.lean`.
* **C98 Merging files** (partial). `Model/FileMerge`. `mergeBlocks_ok`: an invariant over the blocks merged so far gives the entries of the result as a function of the entries of both files, using the C30 description of `NewBlock`; `mergeBlocks_fails`: the merge does not succeed if the step for one block cannot, in any state with the invariant. Proved for files without common names, with every block under its own name and after the block that encloses it; for replacing, into files without a standard and without nested blocks. In a file with a standard (all CIF files) replace mode raises for every top-level block that both have; a refused strict merge has already added blocks; blocks that come before the enclosing one are lost; files with a save frame named like a data block cannot be merged; blocks without a name are skipped. Theorems in `Props/FileMerge.lean`.
* **C99 Merging dictionaries** (partial). In `Model/FileMerge`. `merge_matched_fails`: a top-level block with the same name in both files and without the attribute to match makes every mode fail; by induction over the dictionaries for save frames. Only the outer blocks of dictionaries with save frames are merged, never the definitions; DDL1 dictionaries cannot be merged in any mode; if the first dictionary has several blocks but not on_this_dictionary the others are ignored. All proved for all dictionaries. Theorems in `Props/FileMerge.lean`.
* **C100 Topmost parent of a definition with several items** (partial). Direct from `Model/FileMerge.findParent`; the list form reduces to a filter with one result. Proved for lists of names and children. A single child given as a text is searched for parts: a parent whose name is part of the name of the child is not found. Theorems in `Props/FileMerge.lean`.
* **C101 Views of loops show the loop** (partial). `Model/LoopView`: a view is the number of a loop; all methods look the loop up in the block. Uses the invariant of blocks (C14, C15) that every looped name is stored once, in lower case. Reading is proved for names in lower case. Other spellings are never found through a view; GetLoopNames raises AttributeError for names outside the loop. Theorems in `Props/LoopView.lean`.
* **C102 Changing loops through views** (partial). In `Model/LoopView`. `C102_set_partial` follows the calls of `__setitem__`; several columns by induction, with reachability and rectangularity as invariant. Proved for new columns of the right length. With another length the call raises but the item stays stored outside the loop; an item of the loop can be given a column of any length, after which the loop is not rectangular. Theorems in `Props/LoopView.lean`.
* **C103 Views of loops while the block changes** (partial). `getLoop_step`: every call that leaves a name in its loop keeps the number of this loop, by cases over the calls; induction over the history. Proved as long as one name of the loop is neither removed nor put into another loop. Numbers of loops are used again: the view of a loop that is gone shows the next loop that is made. Theorems in `Props/LoopView.lean`.
* **C104 Files of valid blocks** (partial). `Model/ValidCifFile` on top of `ValidFile` and `Collection`. Opening: induction over the blocks shown. Histories: the invariant "every top-level block has passed" by cases over the calls, with the results about NewBlock, deletion and set_parent of C30 to C34. Opening, and all histories in which new blocks are valid and have unused names spelt as their keys. Save frames are not checked; a refused block stays in the file; a name with capitals or blanks raises KeyError after the block was stored; a block with the name of a nested block is not checked. Theorems in `Props/ValidCifFile.lean`.
* **C105 Parsing dREL methods** (partial). `Model/LR` is the loop of a table-driven parser, `Model/DrelGrammar` the productions with their values, `Model/DrelTable` the tables. `Lemmas/LR` proves soundness, termination and completeness of any table that passes three checks (computable functions on the table and some annotations); `Lemmas/DrelParser` evaluates the checks in the kernel. Soundness: the stack spells a path of the table whose last symbols are known in each state. Termination: a height that falls with each reduction. Completeness: by induction over the derivation, using items with lookahead for each state. Acceptance is proved for the texts of a grammar without the ambiguities of the one in the code. The full statement is false: the list of a for without braces swallows the beginning of the body. The tables are those of the LALR construction with conflicts resolved in favour of shifting; PLY itself is not in the repository. Theorems in `Props/DrelParser.lean`.
* **C106 Precedence and grouping of dREL operators** (partial). `Spec/DrelExpr` says how trees are written. By induction over the tree a derivation in the unambiguous grammar is built, then C105. `Spec/DrelForms` is a relation between trees and all the ways to write them, with newlines, prefixes and backquotes; the derivations are built by induction over it. The round trip is proved for all trees in canonical form and for all the ways to write them that are given in Spec/DrelForms. Slices with a step and no finish are read as having the step for finish; a number after a name is read as an attribute without its first character. Theorems in `Props/DrelForms.lean`, `Props/DrelLayout.lean`, `Props/DrelParser.lean`.
* **C107 Structure of dREL programs** (partial). `Spec/DrelProgram` likewise for lines and bodies. `Spec/DrelForms` adds bodies without braces, newlines around braces, types of arguments and the other forms, again by induction over the relation. Proved for programs whose bodies are in braces or are a single line, except a plain if, and for and do with a simple statement as their body, which are not always accepted. A body in braces on one line is a syntax error. Theorems in `Props/DrelForms.lean`, `Props/DrelLayout.lean`, `Props/DrelParser.lean`.
* **C108 Splitting dREL texts into tokens** (partial). `Model/DrelLex` has the patterns of the lexer as regular expressions with the order of matches of the re module, the two states and the order of rules. `Spec/DrelText` says how tokens are written and (`Reading`) what a text consists of. For each form of token the rules before its own are shown not to match and its own to match just the token; then by induction over the tokens. Every rule matches at least one character, so rounds are bounded by the length of the text. Reading back is proved for all lists of tokens without long strings and numbers with a base, and without if after else. Two long strings in a text are read as one token; a quote ends a short string even if escaped; else before a word that begins with if is read as else if. Theorems in `Props/DrelLex.lean`.
* **C109 From dREL text to syntax tree** (proved). The tokens of every tree with valid names and literals can be written (induction over trees), so C108 gives the tokens and C106 and C107 the tree. The composition of C106, C107 and C108 on the model of lexer and parser; names, tags and literals are those of the specification Spec/DrelText. Theorems in `Props/DrelLex.lean`.
* **C110 The layout of dREL texts makes no difference** (proved). `Spec/DrelLayout` says how the tokens of a program may be laid out in a text (`Laid`) and respelled (`Respelled`). Each kind of token is shown to end at every separator and what is between tokens to be passed over, by induction over the layout; derivations of the unambiguous grammar are carried over to the respelled tokens, by induction over the derivation, since every production with such a token has a twin with the same value. For the programs of C107; operators are followed by a blank or another separator. Theorems in `Props/DrelForms.lean`, `Props/DrelLayout.lean`.
* **C111 Reports on validations** (partial). `Spec/Report` describes a report as a list of sections with tables, each with its layout; the table of a check has the failures selected by this check. The dictionary of failures by check that the code builds is shown to be this list of tables (induction over the failures), the explanations are compared one by one, and the layouts are equal as texts. That nothing is lost or doubled is proved of the specification itself (a permutation), and for validated files the rows are traced back to the run of the checks (C47, C92). Fails for DDLm dictionaries as soon as the looping check fails (no explanation, KeyError), and where the rows of a table differ in kind (headings of the first row only). How values are printed is an argument of the model. Theorems in `Props/Report.lean`.
* **C112 Type expressions of a dictionary** (partial). `Model/TypeInfo`: the two patterns of `regex_fiddle` as `Rx` with groups, matched with backtracking in the order of preference, and `expand`. The first success is shown to be the last mark between brackets (greedy repetitions give lengths in descending order); for regular texts the result is that of replacing the marks everywhere (`Spec/TypeInfo`). The tables by induction over the list of types. Proved for expressions on one line with at most one mark of each kind, between brackets. False of the code for several marks (only the last is changed), marks outside brackets (changed), marks directly after the bracket (not changed), several lines (the rest is lost), and a single type that is not looped. What re.compile makes of the text is an argument. Theorems in `Props/TypeInfo.lean`.
* **C113 Attributes a DDLm dictionary demands and forbids** (partial). `Model/Scopes`: `ddlm_parse_valid` over the packets of the loop. Expansion of any list of names from C56 (`expand_means`), the tables by induction over the rows (an entry is what the last row for scope and option says), packets from columns by `packets_eq`; put together with C45 for the verdict. Proved for loops in which no scope and option occur twice. False of the code for a scope that is not listed while another is (KeyError), for information that is not looped (KeyError on opening), for repeated rows (only the last counts) and for a single name given as text (taken apart). Nothing of this is read when the dictionary is opened without dREL. Theorems in `Props/Scopes.lean`.
* **C114 dREL methods are read independently of each other** (partial). `Model/Transform`: the loops of `transform_drel` and `add_drel_funcs` with the state of the lexer, which is passed from text to text; the lexer stops where the parser does. Every production of the grammar has as many closing as opening parentheses, so by soundness (C105) a text that is accepted leaves the lexer as it was; exceptions reset it. The rest by induction over methods and definitions. False of the code after a function with an error, which leaves the shared lexer inside parentheses, so that the first method of the next dictionary is lost; for functions whose category is written in other capitals; and for methods without a purpose. The translation into Python (C89 and others) is an argument. Theorems in `Props/Transform.lean`.
* **C115 Texts laid out anew for a template keep their contents** (partial). `Model/Wrap`: `do_wrapping`, the hint and its origin, together with the methods of `textwrap.TextWrapper` that the default settings use, including the pattern that separates chunks; the classes of letters and digits are arguments, and turns of the loop are counted. Non-blank characters: no step drops a chunk that has any. Lines: the sum of the lengths of the chunks. Words: without hyphens, chunks are alternately words and gaps, an invariant of the loop. Ending: the sum of lengths and number of chunks decreases. False of the code: words that do not fit on a line, or have hyphens, are cut; the blank lines between paragraphs are lost; every output puts one more line end before the text; indentations above 70 make the layout of a paragraph that starts with whitespace run for ever; a template indented by tabs raises AttributeError. Theorems in `Props/Wrap.lean`.
* **C116 Items are written in the columns of a template** (partial). `Model/Template`: the search of `process_template` for an item, with the regular expression unfolded for names that have no signs but dots and brackets. The search skips lines that do not begin with something like the name (induction on the text before). Columns: the three writes of an item are followed through the model of the sink. False of the code: with a single blank between name and value the value goes to twice its column; the name is used as a regular expression, so that dots match anything and names with an index in brackets raise AttributeError; values on the next line get a wrong column; lines of earlier texts, and comments, are taken for the item or the value. Theorems in `Props/Template.lean`.
* **C117 Loops are written in the columns of a template** (partial). `Model/TemplateLoop`: the text of the values, the regular expression for values unfolded into a scan, and the two iterators over values and line starts. The pair `last_end`, `next_end` is related to the last line start before a position (induction on the line starts), and that to the number of characters since the last line end (induction on the text). Rows: the writes of a row are followed through the model of the sink. `Model/TemplateHeader`: `loop_regex` up to the values and `name_regex`, as functions on the text from a line start, and the search for the first line that matches (induction on the text before it); the whole branch for loops of `process_template` is put together from these. False of the code: values at the start of a line are put two columns beyond the end of the line before; with one blank between values the second goes to a tab stop; values with underscores end the row, with StopIteration if names are left; values in triple double quotes are taken apart. Headers with their names in the line of loop_, with comments, or with values after the last name raise AttributeError; a name gets the column of an earlier name it is a prefix of. Theorems in `Props/TemplateHeader.lean`, `Props/TemplateLoop.lean`.
* **C118 A template orders and lays out a whole block** (partial). `Model/TemplateAll`: the loop of `process_template` over the order of the block. Names of hints by induction on that order; the first hint for an item is its own because the names of a block are distinct and in lower case (invariant of blocks) and none is `loop`; with this the theorems of C25 and C116 apply to whole templates. False of the code for the position of loop_, which is the same for all loops of a block; for items and loops, what C116 and C117 say. Theorems in `Props/TemplateAll.lean`.

## Axioms

`#print axioms` of the 653 theorems of `MANIFEST.json`:

* `none`: Alias.C97_same.
* `propext`: Block.C17_addItem, CifDic.C54_imported, Coll.C32_missing, Coll.C33_refused, Coll.C34_get_parent, Drel.C114_lines, Drel.C62_append_raises, Drel.C62_remove, Drel.C62_remove_raises, Shape.C52_no_columns_fails, Shape.C52_tables_fail, Shape.C53_mixed_fails, Shape.C53_single, Validate.C93_whole_fails, Validate.C94_loop_fails.
* `propext, Quot.sound`: Alias.C97_move_fails, Block.C16_locked, Block.C16_new_name, Block.C27_fails, C01_accepts, C01_lines_prefixed, C01_prefix_roundtrip, C01_prefix_transparent, C02_long_is_folded, C03_bound_reached, C03_line_bound, C03_line_bound_gen, C03_unfolded_is_short, CifDic.C75_split, Coll.C29_case, Drel.C62_append, Scanner.C06_again, SemPacket.C82_nested_fails, Shape.C52_not_none, Shape.C52_stringiness, Shape.C53_reach, Wrap.C115_ends, Wrap.C115_lines, Wrap.C115_long_fails, Wrap.C115_untouched.
* `propext, Classical.choice, Quot.sound`: the other 612.

No axiom is added by the development; there is no `sorry`, `native_decide`, `bv_decide`, `implemented_by` or `unsafe` in it.

## Disagreements found between the claims and the code

Each is a theorem about the model (suffix `_fails` unless another name is given); the notes in `MANIFEST.json` say which part of the
property it concerns.

Texts and files
* A prefix of one character is accepted but the field does not come back (C01_short_prefix_fails).
* A line ending in a backslash and blanks is joined with the next one when unfolded (C02_blank_after_backslash_fails).
* Folded lines can have 139 characters, not 80 (C03_bound_reached).
* Text fields whose first line looks like a comment, a folding or prefix header, or which contain carriage returns change when read back
  (C04_comment_fails, C04_folded_comment_fails, C04_return_fails, C04_header_fails).
* Texts like `stop_`, or with carriage returns or form feeds, are written bare or quoted so that they are not read back (C05_stop_fails,
  C05_return_fails, C05_form_feed_fails).
* A loop without names or ending in an empty list is misread (C08_no_names_fails, C08_empty_list_fails).
* Loops without rows or names are written so that the file cannot be read; numbers come back as texts (C10_no_rows_fails,
  C10_no_names_fails, C10_number_is_text).
* A hint for column 0 glues tokens together (C11_column_zero_fails).
* Lists and tables in CIF 2.0: values run together at the end of a full line in a loop with lists and texts, and a table with the long name
  before it; keys are always written between single quotes; an empty list at the end of a loop is lost; requested triple quotes are used
  for texts that hold them (C70_glued_fails, C70_name_glued_fails, C70_key_fails, C70_last_fails, C70_triple_fails).
* Automatic detection rejects CIF 1.1 text when the CIF 2.0 attempt has left a block behind (C13_fails).
* A save frame with the name of an earlier data block makes reading raise `AttributeError` (C85_fails).
* Permissive mode reads nothing of a Latin-1 file (C87_nothing_fails, C87_fails). For a source without text `ReadCif` returns `None`, and
  `ReadStar` without a collection to read into raises `AttributeError` (C88_empty_fails, C88_default_fails).

Blocks
* CreateLoop with a repeated name breaks the bookkeeping (C14_repeated_name_fails); when it fails half way, single values stay wrapped
  (C17_createLoop_fails); the position is counted before names are removed (C19_position_fails).
* AddLoopName takes a text for a column (C18_string_column_fails). Moving a loop by number always raises (C21_loop_number_always_raises).
* Case-insensitive keyed lookup raises on numbers (C23_caseless_number_raises).
* RemoveKeyedPacket and AddPacket can raise after changing part of the loop (C24_remove_read_fails, C24_add_locked_fails).
* AddCifItem stores a text as the list of its characters and always refuses `(names,columns)` (C95_text_fails, C95_flat_fails). AddLoopItem
  drops columns without a name and leaves the block half filled when one is missing (C95_extra_fails, C95_missing_fails).
* Repeated hints print an item twice (C25_repeated_hint_fails).
* Valid names with characters beyond U+FFFF ending in E or F are refused (C27_fails).

Collections
* Without a standard an older block is replaced (C30_no_standard_fails). A missing parent or a cycle is accepted
  (C31_missing_parent_fails, C31_cycle_fails).
* Deleting or renaming hidden blocks raises half way (C32_hidden_fails, C33_hidden_fails).
* get_children confuses keys with its own marker (C34_get_children_fails), and what it returns is written as nothing (C37_selection_fails).
* Merging makes nested blocks visible, duplicates the order, or raises AttributeError (C36_visible_fails, C36_replace_order_fails,
  C36_nested_clash_fails).

Validation
* Single values outside loops are taken apart into characters (C39_single_fails, C40_unlooped_fails, C61_single_fails).
* Text after a number is ignored by the range check (C40_suffix_fails). Values with several lines are refused, empty ones accepted
  (C41_lines_fail, C41_empty_fails).
* With optimisation on, wrong child values are overlooked (C42_optimised_fails, C42_verdict_fails).
* Keys are compared after joining with blanks (C43_join_fails). Dependency names in capitals are never found (C44_case_fails).
* The key check looks in the wrong place for DDL1 and DDL2, mishandles alternates and compound keys (C46_ddl1_fails, C46_ddl2_fails,
  C46_alternate_fails, C46_compound_fails).
* AddItem can invalidate items that are there already (C48_later_invalid).
* Validate deletes items that are not in the dictionary from the file it is given, and leaves a dictionary in another scoping
  (C92_unmatched_fails, C92_scoping_fails). Its result cannot be asked about the whole file, nor about names with capitals
  (C93_whole_fails, C93_spelling_fails). A validating block refuses unknown names, deletions and AddToLoop (C94_unmatched_fails,
  C94_delete_fails, C94_loop_fails).
* The uncertainty check is never made for DDL2 and DDLm (C64_ddl2_fails, C64_ddlm_fails). Group references are never refused
  (C65_group_fails).

Types and values
* A leading plus sign is not understood (C49_plus_fails). Container names of type expressions are lost and the empty text is refused
  (C50_container_lost, C50_empty_refused).
* Exponents after uncertainties are lost; letters, points and imaginary numbers are misread; nested types and lists without dimension are
  not converted (C51_exponent_fails, C51_letter_fails, C51_point_fails, C51_imag_fails, C51_nested_fails, C51_dimension_fails).
* transpose loses an empty row structure; tables are not looked into (C52_no_columns_fails, C52_tables_fail); plain lists on the way end
  multi-index access (C53_mixed_fails).

Dictionaries
* Identifiers that differ in case hide each other; a list of identifiers is refused (C54_case_fails, C54_list_fails).
* Definitions with mixed or skipped imports cannot be read; imports are not followed further; `in` does not see them (C55_mixed_fails,
  C55_skipped_fails, C55_chain_fails, C55_contains_fails).
* Full imports of categories always fail, and those into definitions whose frame has another name; nested frames get lost (C89_category_fails,
  C89_frame_fails, C89_nested_fails). Light imports are found in lower case only (C90_case_fails). The flags of imports are compared with case
  (C91_spelling_fails).
* Category queries compare capitals; cycles and missing Heads are not handled (C56_case_fails, C56_cycle_fails, C56_no_head_fails).
* Output can lose definitions or raise (C57_lost_fails, C57_name_fails, C57_nested_fails, C57_point_fails).
* The value computed for an absent loop is dropped or stored with an exception (C59_empty_loop_fails, C59_no_loop_fails); without a choice on
  defaults the outermost call uses them and nested ones do not (C59_unsaid_fails).
* Reading an unknown value that has a default returns `?` but stores the default; if nothing can be derived the item disappears
  (C66_default_fails, C66_removed_fails).
* Repeated key values lose rows of a join (C60_repeated_fails). Aliases in other capitals are not recognised (C61_case_fails).
* Adding definitions: capitals in an item name, names in use, missing parents, missing Heads, a category as its own parent, and locking are
  mishandled (C67_capitals_fails, C67_hidden_fails, C67_orphan_fails, C67_headless_fails, C67_itself_fails, C67_unlocked_fails).
- Removing and renaming definitions: `del` of an enclosing definition leaves the names of the enclosed ones behind; a new name that is
  in use hides a definition, even the renamed one itself; the dictionary's own name cannot be changed; moves into a category below or
  into a category kept in a block of another name; items of a renamed category lose their underscore (C68_stale_fails, C69_hidden_fails,
  C69_same_fails, C69_title_fails, C69_cycle_fails, C69_block_fails, C69_underscore_fails).
* Looped categories nested more than once: `collect_keys` calls itself without its second argument, so that every such dictionary raises a
  TypeError when it is read (C76_nested_fails); of several looped categories in a category only the last one passes its names on to the
  categories further up (C75_deep_fails).
* DDL2 dictionaries with a definition that lists several names or with aliases cannot be opened, and links between parents and children are
  not completed (C83_listed_fails, C83_aliases_fails, C83_links_fails).
* DDL1 dictionaries: a definition in a block with the same name is lost if the name has capitals (C78_case_fails); items named by
  `_list_uniqueness` with capitals stand in the key of their category twice (C79_twice_fails); a category `category_overview` is made up
  whenever a category is defined.
* Packets of categories: a generated key that is `None` adds the row before it again or raises `UnboundLocalError`; names with two
  underscores are dropped; derived attributes are looked up without regard to case whatever the type of the key; asking by several keys
  returns an empty packet when there is no row and raises for categories with others nested in them (C80_again_fails, C80_unbound_fails,
  C80_underscores_fails, C81_caseless_fails, C82_none_fails, C82_nested_fails).

Translation of dREL
* `a | b & c` is grouped differently; lists are written without brackets outside assignments; `a[1::2]` becomes `a[1:2]`; `a[:3]`, `a[:]`,
  `a[1:2,3]` and `()` raise; `sort` has no value; keywords of Python and integers with leading zeros make unreadable texts; the category of a
  chosen packet leaks to the next attribute (C71_union_fails, C71_list_fails, C71_step_fails, C71_raises_fails, C71_sort_fails,
  C71_words_fails, C71_packet_fails).
* Ranges that count downwards lose their last values, and one is added to the last operand of an end such as `a | b`; `*=` and `/=` raise;
  `_cat.obj` inside `With k as cat` is the whole column; aliases outlive their `with` statement; the category of a packet is not forgotten
  when its variable is given another value, not passed on to another variable, and known too early among several values; `x.b = 1` makes an
  unreadable text; strings of several lines are indented; a loop limited by a variable `a` compares row numbers with themselves; the item
  derived is not taken from the packet of a loop; a loop inside the second loop with the same alias has the same index (C72_downwards_fails, C72_end_fails, C72_operator_fails, C72_with_fails,
  C72_alias_fails, C72_stale_fails, C72_several_fails, C72_copied_fails, C72_attribute_fails, C72_string_fails,
  C72_limit_fails, C72_own_fails, C72_index_fails).
- The dependencies of a method: an item taken from a packet is reported as the dictionary writes it, while the item the method is for is
  left out in lower case only; so a method can depend on its own item, and an item can be reported twice (C73_itself_fails,
  C73_twice_fails).
- A copy of a block shares the lists of its loops and its values with the block: changes to loops of one change the other
  (C97_remove_fails, C97_loop_fails, C97_loop_name_fails, C97_move_fails, C97_packet_fails, C97_add_packet_fails).
- Merging files in replace mode raises for any common top-level block of files with a standard, so DDL1 dictionaries cannot be merged; of
  dictionaries with save frames only the outer blocks are merged (C98_replace_fails, C99_ddl1_fails, C99_frames_fails, C99_several_fails). Refused
  merges leave blocks behind, and blocks without a name, or before the block that encloses them, are lost (C98_atomic_fails, C98_unnamed_fails,
  C98_order_fails); a file with a save frame named like a data block cannot be merged (C98_renamed_fails).
- `find_parent` does not find a parent whose name is part of the name of a single child (C100_text_fails).
- Views of loops find only names in lower case, can make loops ragged, store columns they refuse, and show another loop when the number of a loop
  is used again (C101_case_fails, C101_names_fails, C102_ragged_fails, C102_length_fails, C103_reused_fails).
- A file of valid blocks can hold invalid ones: save frames are not checked, refused blocks stay, and a block with the name of a nested one is
  taken without checks; names with capitals or blanks raise KeyError (C104_hidden_fails, C104_invalid_fails, C104_nested_fails, C104_spelling_fails).
- The dREL grammar is ambiguous: without braces the list of a `for` swallows the start of the body (C105_complete_fails); `p[a::t]` is read as
  `p[a:t]` (C106_step_fails); `x 1.5` is read as an attribute `.5` of `x` (C106_number_fails); `if (a) { b = c }` on one line is a syntax error
  (C107_line_fails).
- In dREL texts two long strings, with all that is between them, are one token (C108_long_fails); an escaped quote ends a short string (C108_escape_fails);
  `else` before a line or a word that begins with `if` becomes `else if` (C108_else_fails).
- The report on a validation raises KeyError when the looping check of DDLm dictionaries fails: `info_table` has no entry for it, nor for `validate_item_esd_ddlm` (C111_looped_fails); the headings of a table suit its first row only, so that a wrong value can stand under `Parent` (C111_headings_fails).

* of several marks in a type expression only the last is repaired, marks outside brackets are changed as well, further lines are dropped together with the closing `$`, and a single type that is not looped is taken apart into characters (C112_twice_fails, C112_outside_fails, C112_first_fails, C112_lines_fails, C112_single_fails).

* a definition whose scope is not listed in the validity information cannot be checked as soon as another scope is, and validity information that is not looped makes opening the dictionary fail (C113_unlisted_fails, C113_unlooped_fails, C113_repeated_fails, C113_text_fails).

* a dREL function with a syntax error inside parentheses makes opening its dictionary fail and leaves the lexer, which is shared by all dictionaries, inside parentheses: the first method of the next dictionary is then lost (C114_functions_fails). A function whose category is not written `function` in small letters is taken for a method (C114_category_fails), and a method without purpose makes opening fail (C114_purpose_fails).

* a text laid out anew for a template has long and hyphenated words cut (C115_long_fails, C115_hyphen_fails), loses the blank lines between its paragraphs (C115_paragraphs_fails) and gets one more line end at its beginning at every output (C115_grows_fails, C115_outputs_fails). With an indentation above 70 the layout may run for ever (C115_endless_fails), and a template indented by tabs raises AttributeError (C115_tab_fails).

* the columns of a template are not always kept: with one blank between name and value the value is written at twice its column (C116_single_fails), a value on the next line gets a column beyond its own (C116_nextline_fails), comments are taken for values (C116_comment_fails), lines of earlier texts for items (C116_text_fails), dots in names match anything (C116_dot_fails) and names with brackets raise AttributeError (C116_bracket_fails).

* for loops, a template value at the start of a line is put two columns beyond the end of the line before (C117_start_fails), values one blank apart go to tab stops (C117_single_fails), a value with an underscore before another character ends the values, with StopIteration if names are left (C117_underscore_fails), and triple double quotes are taken apart (C117_triple_fails).
* the header of a loop in a template must have `loop_` and the names in lines of their own: a first name that begins no line (C117_oneline_fails), a comment (C117_comment_fails) or values after the last name (C117_sameline_fails) raise AttributeError; a name is taken to stand where an earlier name that begins like it does (C117_prefix_fails).
* `loop_` is written in the same column for all loops of a block, that of the first loop of the template (C118_loops_fails).

Seen in the code but not expressed in the model: strict merging of blocks is not atomic; `match_att` is ignored in replace mode; `CifBlock.copy`
and `BlockCollection` copying (StarFile.nw 374-385) always raise; `makebc` keeps unknown names in the order.
