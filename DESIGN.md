# Formal model of cldf/csvw in Lean 4 — design

## 1. What is here

* `properties.jsonl` – the semantic properties (C01 …), in terms of the public API.
* `lean/Verif/Py/*` – the Python primitives the code uses (string methods, ordered dicts, JSON values, `decimal`).
* `lean/Verif/Model/*` – the model of `/repo/src/csvw`, function by function, each definition citing file and lines.
* `lean/Verif/Spec/*` – small specifications, independent of the model's helpers, used to state the properties.
* `lean/Verif/Lemmas/*` – helper lemmas (no property is stated there).
* `lean/Verif/Props/*` – the property theorems, with the non-vacuity examples beside them.
* `MANIFEST.json` – property → theorems; `seeded/LOG.jsonl` – mutation experiments.

Conventions: a Python `str` is `List Char` (`Str`); exceptions are values (`Except PyErr α`, written `Res α`); warnings are
not modelled except where a property is about a log; dicts are association lists in insertion order; loops are
structural recursion or folds; external calls are parameters about which nothing is assumed unless a theorem's hypothesis says so.

When the unchanged code violates a property one would expect, the model follows the code. The property is then stated with the exact
condition under which it holds, and the negation is proved with a concrete witness (theorem name contains `_violated`). Partial
theorems would have the suffix `_partial`; there is none at present.

## 2. Per property: what is modelled, and how it is proved

(Modules of `lean/Verif/Model` unless stated otherwise. Names of theorems are in namespace `Csvw.Props`.)

| id | property | model | proof | theorems | negations proved |
|----|----------|-------|-------|----------|------------------|
| C01 | Default writer/reader round-trip | CsvLib (`_csv` of CPython 3.11), Dsv | simulation of the reader automaton over the written text; induction over rows, cells and characters | C01_default_roundtrip, C01_bom_is_dropped | – |
| C02 | Dialect writer/reader round-trip | CsvLib, Dsv, Dialect | as C01, generic in delimiter, quote character and terminator | C02_dialect_roundtrip | – |
| C03 | Escape-character dialect round-trip | CsvLib, Dsv.escapeDoubled | as C01 with an escape character; both versions of `_csv` are modelled (`CsvVer`) | C03_escapechar_roundtrip_old_csv, C03_escapechar_effect_new_csv, C03_escapechar_roundtrip_no_backslash, dialect_roundtrip | C03_violated_new_csv |
| C04 | No silent corruption with quoting disabled | CsvLib with QUOTE_NONE | case analysis of the writer, then as C01 | C04_noquote_no_corruption, C04_noquote_error_iff | – |
| C05 | Reader yields exactly the non-skipped rows, trimmed | Dsv.nextGo, isSkipped, trimming | the reader's loop equals a filter/map specification; induction over raw rows | C05_reader_yields_nonskipped, C05_reader_without_dialect, C05_trimming_unique | – |
| C06 | Reader comments are exactly the comment/skipped rows | Dsv.nextGo, isComment | as C05 | C06_comments_exact, C06_comment_text, C06_not_both | – |
| C07 | Line numbers of rows | Dsv line counter, openText | invariant of the counter; induction over records | C07_line_numbers_increasing, C07_number_exact, C07_number_exact_without_dialect, C07_line_number_is_end_of_row, C07_line_number_is_start | C07_violated_multiline, C07_violated_carriage_return |
| C08 | Dict reader maps every row completely | Dsv.dictItem | induction over zipped lists, dict lemmas | C08_dict_row_complete, C08_all_fieldnames_are_keys, C08_one_dict_per_nonblank_row | – |
| C09 | Dict rows written with a single header | Dsv.writerowsFrom | induction over calls; composed with C01 | C09_single_header, C09_read_back, C09_dict_roundtrip | C09_violated_key_order |
| C10 | rewrite never leaves a half-written file | Dsv.rewrite/addRows as traces of file system operations | invariant over every prefix of the trace | C10_rewrite_atomic, C10_add_rows_atomic, C10_filter_atomic, C10_exception_leaves_target, C10_nothing_lost | C10_violated_cross_device |
| C11 | rewrite applies the visitor to every row | Dsv.rewriteLoop | induction over rows; composed with C01/C02 | C11_rewrite_applies_visitor, C11_rewrite_function, C11_identity_unchanged, C11_success_means_all_visited, C11_rewrite_with_dialect, C11_rewrite_with_plain_dialect | C11_violated_skip_rows |
| C12 | filter_rows_as_dict keeps the matching rows and counts the removed ones | Dsv.dictFilter | invariant of the filter's state | C12_filter_exact, C12_filter_with_dialect, C12_filter_count | C12_violated_blank_rows |
| C13 | add_rows appends | Dsv.addRows | composition of reading and writing | C13_add_rows_appends, C13_add_rows_twice | – |
| C14 | Dialect properties are always valid | Dialect.converter and validators over JSON values | case analysis over JSON | C14_dialect_valid, C14_raises_only | C14_violated_quoteChar_list |
| C15 | Dialect serialization round-trip | Dialect.asdict, updated | per-property analysis | C15_asdict_roundtrip, C15_asdict_omits_exactly_defaults, C15_constructed_is_constructible, C15_updated_changes_exactly | – |
| C16 | Normalized names are valid Python identifiers | Names.slug, normalizeName | character-class invariants; keyword analysis | C16_normalized_is_identifier, C16_slug_chars, C16_ascii, C16_keyword_iff, C16_not_keyword, C16_slug, C16_slug_spaces | C16_violated_keyword, C16_violated_control |
| C17 | boolean round-trip and exclusivity | Datatypes.boolDerived etc. | case analysis | C17_format_read, C17_format_roundtrip, C17_default_read, C17_default_roundtrip | – |
| C18 | Bounded integer types accept exactly their range | Datatypes integer types | numeral lemmas | C18_numeral, C18_numeral_iff, C18_leading_zeros, C18_bounded_exact, C18_returned_in_range, C18_lexical_chars, C59_integer_iff | C18_lexical_violated, C18_large_violated, C18_inf_violated |
| C19 | integer round-trip | Datatypes.integer, number formatting | numeral lemmas | C19_roundtrip_iff, C19_roundtrip_small | C19_violated |
| C20 | decimal round-trip | Datatypes.decimal, Py/Decimal (parsing, printing, rounding) | digit-list lemmas | C20_roundtrip_iff, C20_roundtrip_nonpos | C20_violated, C20_violated_strings, C20_digits_violated |
| C21 | decimal with groupChar/decimalChar round-trip | as C20 with groupChar/decimalChar | grouping as list surgery | C21_roundtrip_iff, C21_common_formats, C21_group_iff, C21_decimalChar | C21_violated |
| C22 | hexBinary round-trip | Binary (binascii) | induction over bytes | C22_roundtrip, C22_canonical, C22_accepts | – |
| C23 | base64Binary round-trip | Binary (base64) | induction over triples of bytes | C23_roundtrip, C23_ignored_chars | – |
| C24 | normalizedString normal form | Datatypes.normToPython | idempotence of normalisation | C24_normal_form, C24_idempotent, C24_unchanged, C24_value | – |
| C25 | String formats are matched against the whole value | Datatypes.stringToPython, regex external | case analysis | C25_accepts_iff, C25_whole_value, C25_invalid_regex, C25_no_format, C25_formatted | C25_violated |
| C26 | Datatype.read returns only values satisfying the constraints | Datatype.validate, read | case analysis; order of Decimal, DateTime | C26_read_iff, C26_integer_iff, C26_decimal_iff, C26_decimal_all, C26_datetime_iff, C26_datetime_example, C26_length_iff, C26_json_iff, C26_uri_iff, C26_any_iff, C26_unchecked, C26_duration_example | C26_uri_violated, C26_duration_violated |
| C27 | Contradictory datatype constraints are rejected at construction, except through zero | Datatype.construct | case analysis | C27_lengths, C27_lengths_valueError, C27_length_type, C27_bound_type, C27_bound_string, C27_integer_iff, C27_decimal, C27_decimal_example, C27_datetime, C27_datetime_example, C27_decimal_iff, C27_integers_iff, C27_datetime_iff | C27_length_type_violated, C27_bound_type_violated, C27_zero_violated, C27_minimum_maximum_violated, C27_both_violated |
| C28 | Number pattern validation | NumberPattern | induction over patterns and numbers | C28_is_valid_iff, C28_is_valid_false, C28_read_valid, C28_read_conforms, C28_digits, C28_conforms_read, C28_exponent_iff, C28_exponent_read, C28_semicolons, C28_exponent_separators | C28_min_violated, C28_padding_violated, C28_underscore_violated, C28_percent_violated, C28_exponent_violated |
| C29 | Date format round-trip | DateFormat.formatAndRegex, parseRx, babel formatting of the patterns | digit lemmas; matching of generated regexes | C29_formatted, C29_read, C29_roundtrip, C29_accepted, C29_trailing | C29_trailing_violated |
| C30 | Inherited properties come from the nearest ancestor | Description.inherit, inherit_null | induction over the chain | C30_nearest, C30_none, C30_null_nearest, C30_null_default | C30_violated_null, C30_violated_default, C30_violated_default_case |
| C31 | Scalar cell round-trip | Column.read, write | case analysis, composed with C17–C24 | C31_written, C31_roundtrip, C31_none, C31_none_index_error, C31_of_datatype, C31_plain, C31_string, C31_boolean, C31_integer, C31_decimal, C31_binary, C31_date | C31_violated_empty, C31_violated_none |
| C32 | List-valued cell round-trip | Column.read, write with separator | split/join lemmas | C32_written, C32_roundtrip, C32_empty, C32_char | C32_violated_separator, C32_violated_null, C32_violated_empty, C32_violated_single_none |
| C33 | Required columns never yield null (except json null) | Column.read | case analysis | C33_required, C33_not_null, C33_rejected | C33_violated_json |
| C34 | Schema invariants | Table.Schema.construct | list lemmas | C34_accepted_iff, C34_error, C34_invariants, C34_primary_key | – |
| C35 | Every row dict has every declared column | Table.iterdicts | invariant of the dict built for a row | C35_keys, C35_none | – |
| C36 | Column order in the data file is irrelevant in strict mode, and decisive in non-strict mode | Table.iterdicts | permutation argument | C36_order, C36_nonstrict, C36_short_rows | C36_violated_nonstrict |
| C37 | Table write/read round-trip | Table.write, iterdicts | composition of C02, C31, C32 | C37_roundtrip, C37_same | – |
| C38 | With a log, invalid rows are skipped and valid rows are kept | Table.iterdicts with log | induction over rows | C38_one, C38_log, C38_log_abort, C38_nolog, C38_valid_iff, C38_no_raise | C38_violated |
| C39 | check_primary_key is exact | Table.checkPrimaryKey | invariant of the set of keys | C39_iff, C39_log, C39_nolog, C39_none, C39_hasKey, C39_unusable, C39_missing, C39_sound | C39_violated_list |
| C40 | check_referential_integrity is exact | TableGroup.checkReferentialIntegrity | sorting/grouping is a partition; induction | C40_iff, C40_log, C40_nolog, C40_strict, C40_strict_null, C40_null_item, C40_sound, C40_nolog_false, C40_sound_example, C40_strict_nolog | C40_violated_missing_table, C40_violated_title |
| C41 | validate_schema is exact | TableGroup.validateSchema | induction over foreign keys | C41_exact | C41_violated |
| C42 | Strict writing rejects unknown fields | Table.write | case analysis | C42_known, C42_unknown, C42_first, C42_ignored | – |
| C43 | Database tables are created in dependency order | Db.schema | invariant of the ordering loop | C43_order, C43_tables, C43_exact, C43_references, C43_association, C43_example | – |
| C44 | Which table groups have a database schema | Db.schema | termination of the loop iff acyclic and at most 100 rounds | C44_accepted, C44_rejected, C44_acyclic, C44_example | C44_violated, C44_violated_example |
| C45 | Composite foreign keys keep their column pairing in SQL | Db.addForeignKey | sorting of pairs vs. columns | C45_iff, C45_single, C45_example | C45_violated |
| C46 | List-valued string columns round-trip through the database | Db.stored, loaded | split/join lemmas | C46_iff, C46_char, C46_none | C46_violated |
| C47 | Database rows store each value under its own column | Db.writeTable | induction over rows | C47_same_keys, C47_exact, C47_example | C47_violated, C47_violated_case |
| C48 | Many-to-many relations round-trip through the database | Db.writeRefs, selectManyToMany | invariant of association tables; split/join | C48_read, C48_schema, C48_example, C48_association_columns, C48_columns, C48_no_list | C48_violated_space, C48_violated_integer, C48_violated_empty |
| C49 | Frictionless data packages become the table group they describe | Frictionless | case analysis over fields, induction over resources | C49_tables, C49_tabular, C49_package, C49_lengths, C49_bounds, C49_format | C49_required_violated |
| C50 | JSON-LD simplification | JsonLd.toJson | structural induction on JSON | C50_simplified, C50_simple, C50_unchanged, C50_idempotent | C50_number_violated, C50_nested_violated, C50_type_violated |
| C51 | Row triples are grouped without loss | JsonLd.groupTriples | induction over triples | C51_properties, C51_no_loss, C51_single_values, C51_lists, C51_id | C51_order_violated, C51_subject_violated |
| C52 | partition_properties partitions | Common.partition | induction over items | C52_partition, C52_exactly_one, C52_succeeds_iff | – |
| C53 | NaturalLanguage round-trip | Common.NatLang | induction over languages | C53_roundtrip, C53_stored, C53_add | C53_violated_add |
| C54 | Metadata round-trip | Metadata, Metadata2: fromvalue/asdict | composition per class | C54_datatype, C54_column, C54_schema, C54_table, C54_group, C54_dialects, C54_integer_bound | C54_violated_dialect |
| C55 | Common properties validation | Common.commonObjOk | structural induction on JSON | C55_accepts_iff, C55_error, C55_result, C55_unchanged, C55_idempotent | C55_violated_inside_id, C55_violated_type_list |
| C56 | Metadata discovery precedence | Locate | case analysis over the answers of the world | C56_url, C56_sound, C56_link, C56_file | C56_violated_file, C56_violated_link, C56_violated_json |
| C57 | is_valid is true only without any problem | Csvw.isValid | composition of C38, C39, C40 | C57_iff, C57_again, C57_cells, C57_keys, C57_references, C57_warned, C57_example, C57_example_cell, C57_duplicate_raises, C57_special, C57_special_items, C57_formats | C57_violated_infinity |
| C58 | Rows read from the database equal the rows written | Db.write, readTable | refinement to lists of rows | C58_read, C58_string, C58_integer, C58_boolean, C58_hexBinary, C58_decimal, C58_text, C58_time, C58_strings, C58_example | C58_violated_nan |
| C59 | Lexical space of decimal and integer cells | Datatypes.decToPython, Dec parsing | automaton-free characterisation of the lexical space | C59_decimal_iff, C59_decimal_exact, C59_decimal_rejected, C59_scientific, C59_special, C59_integer_iff, C59_example | – |
| C60 | Which date and time formats are accepted | DateFormat.formatAndRegex | case analysis over split formats | C60_datetime_formats, C60_stamp_formats, C60_time_formats, C60_date_fallback, C60_example | – |
| C61 | Reading date-times and times with a format | DateFormat.parseRx | matching of generated regexes | C61_time, C61_time_tz, C61_datetime, C61_datetime_tz, C61_midnight, C61_example | C61_violated_timezone_lost |
| C62 | Date-times without format round-trip through ISO 8601 | DateFormat.isoparse, isoformat | digit lemmas | C62_iso_roundtrip, C62_stamp_default, C62_example | C62_violated_stamp_without_timezone |
| C63 | Writing rows given as sequences assigns values to columns by position | Table.write with sequences | zip lemmas | C63_sequences, C63_short, C63_short_error, C63_example | – |
| C64 | JSON of a dataset lists all rows of all tables | ToJson | induction over tables and rows | C64_tables, C64_described, C64_minimal, C64_titles, C64_titles_example, C64_id, C64_example | C64_comment_violated |
| C65 | A row of a plain table describes one object with its non-null cells | ToJson.describes, JsonLd.formatValue | induction over cells | C65_object, C65_literal, C65_list | C65_inherited_datatype_violated, C65_virtual_violated, C65_inherited_separator_violated, C65_list_violated |
| C66 | Framing nests objects which are referenced once and loses none | JsonLd.frame | reference counting; reachability | C66_frame, C66_no_loss | C66_cycle_violated |
| C67 | Date-times survive conversion to JSON | JsonLd.isoFor, stampText | digit lemmas | C67_datetime, C67_date, C67_date_roundtrip | C67_fraction_violated |
| C68 | Which metadata a dataset can be opened with | Open.Opened.init | case analysis | C68_init, C68_no_context, C68_no_tables, C68_tables, C68_table, C68_names, C68_url_required, C68_url_error, C68_no_metadata, C68_example, C68_example_tables, C68_example_group | – |
| C69 | add_foreign_key appends a foreign key or rejects it | Open.Table.addForeignKey | case analysis | C69_added, C69_unknown, C69_example | – |
| C70 | Database.write is all or nothing and respects existing files | Db.writeFile, writeDb, writeMemory | case analysis over outcomes | C70_no_force, C70_written, C70_failed, C70_failed_iff, C70_memory, C70_memory_failed, C70_example | C70_violated_lost |
| C71 | Rows as named tuples | NamedTuple | induction over rows; composed with C16 | C71_tuples, C71_tuples_fieldnames, C71_bad_header, C71_underscore, C71_iterrows | – |
| C72 | Valid data can be loaded into the database | Db.write with constraints, association tables | invariant: all tables so far valid; induction over tables and rows | C72_load, C72_engine, C72_example, C72_example_loaded, C72_bounds_create, C72_bounds_check | C72_violated_int, C72_violated_base64, C72_violated_list, C72_violated_datetime, C72_violated_time, C72_violated_key, C72_violated_zero, C72_violated_case, C72_violated_reserved, C72_violated_nan |
| C73 | URI templates in JSON output | ToJson.fromCol, describes, JsonLd.groupTriples | iff with a relational specification; induction over cells | C73_triples, C73_graph, C73_example | C73_lost_violated |
| C74 | A description written and read again describes the data in the same way | `asdict`/`fromvalue` for groups (Metadata2), the reading functions of Table and TableGroup | a normal form of descriptions (empty common values dropped): rereading preserves it (C54), every function of the tables depends on it only | C74_reread | C74_violated_empty |
| C75 | A data set written to files is read back | files as maps from paths to text or zip archives; writing as sequence of operations (Model/Files) | the operations for the data files leave each text stored (induction over the tables), then C74 for the metadata and C37 for the rows | C75_roundtrip, C75_same | – |
| C76 | Interrupted and failing TableGroup.write | the sequence of operations on files, and its prefixes | targets of operations: data files before the metadata file; induction over the items | C76_interrupted, C76_failed, C76_rows | C76_violated_data, C76_violated_directory, C76_violated_metadata |
| C77 | Copying a data set | `shutil.copy` as operations on files, evaluated on the disk as it is when they run | induction over the tables, with sources disjoint from targets; then C74 | C77_copy | C77_violated_missing, C77_violated_base, C77_violated_zip |
| C78 | URI templates are expanded relative to the location of the table | Model/Expand: Link.resolve as used by expand, QNames, abbreviation; template engine and urljoin external | the namespace table is prefix-free (checked by the kernel), hence first match = only match; case analysis of the kind of base | C78_qname, C78_abbreviated, C78_not_abbreviated, C78_file, C78_url, C78_invalid, C78_example, C78_group | C78_violated_variables, C78_violated_colon, C78_violated_names, C78_violated_context, C78_violated_no_url |
| C79 | Warnings about descriptions | Model/Warn: for each converter, whether a warning is issued for a JSON value | Spec/Clean: what a clean description looks like, by items of the JSON objects; equivalence proved level by level (datatype, column, schema, dialect, table, group); Spec/CleanKept: everything given is kept | C79_group, C79_table, C79_schema, C79_column, C79_datatype, C79_dialect, C79_kept, C79_kept_table, C79_example | C79_violated_unnamed, C79_violated_transformation, C79_violated_schema, C79_violated_datatype |
| C80 | csvwvalidate | `csvwvalidate` as composition of Opened.init, Warn.init and Dataset.isValid | C79 for the description (`@base` makes no difference), C57 for the data; case analysis of exceptions | C80_ok, C80_status, C80_error, C80_problems, C80_no_context, C80_no_tables, C80_kept, C80_example, C80_example_cell, C80_example_problem, C80_located, C80_passed_over | C80_violated_duplicate, C80_violated_list, C80_violated_reference |
| C81 | Data files reach the database unchanged (write_from_tg, csvw2sqlite) | `Model/ToDb.lean` (`writeFromTg`, `csvw2sqlite`) on top of `Model/Db.lean`, `Model/Files.lean` and `Model/Table.lean` | the keys of row dicts in order (`Lemmas/RowKeys.lean`) are the same for all rows of aligned files; then C47, C48, C58 and C70 apply; witnesses by evaluation | C81_stored, C81_read, C81_read_links, C81_command, C81_unchanged, C81_failed, C81_example, C81_example_aligned, C81_complete, C81_command_complete, C81_replaced, C81_example_complete, C81_example_extra | C81_violated_short, C81_violated_name |
| C82 | The Markdown documentation covers the whole dataset | `Model/Markdown.lean` (`qname2url`, `metadata2markdown`, `csvw2markdown`); `Spec/Markdown.lean` says what each line contains; `str` of floats and objects, `json.dumps` and the class `\w` are parameters | sections by inversion of the monadic code, item by item; success by equivalence; rows by a predicate on cells which all parts have; escaping by a prefix-free code; witnesses by evaluation | C82_sections, C82_succeeds, C82_links, C82_property, C82_property_group, C82_qname, C82_row, C82_html, C82_escape, C82_command, C82_example, C82_example_ok, C82_image | C82_violated_qname, C82_violated_dialect, C82_violated_format, C82_violated_zero, C82_violated_inherited, C82_violated_image, C82_violated_regex, C82_violated_newline, C82_violated_anchor |
| C83 | The commands describe, convert and publish a whole dataset | `Model/Commands.lean` (the three commands); the answer of `frictionless` and `json.dump` are parameters | composition of C49 (frictionless), C54 (written descriptions can be read), C64 (JSON), C68 (opening) and C81 (database); `Lemmas/Commands.lean` shows that a written group still declares the namespace | C83_reopen, C83_describe_args, C83_describe, C83_describe_plain, C83_json, C83_datasette_meta, C83_datasette, C83_datasette_table, C83_datasette_exists, C83_datasette_failed, C83_example_describe, C83_example_reopen, C83_example_datasette, C83_example_datasette_table | C83_violated_no_tables, C83_violated_json_order |
| C84 | A table reads the same alone and in a group | `Model/Single.lean` (`FTable`, `baseAfter`, `readAfter`): the base after n uses of `tablegroup`, and reading with it | inheritance from a group without inherited properties is inheritance without it, carried through every function of `iterdicts`; the base by induction on the number of uses; witness by evaluation | C84_values, C84_unchanged, C84_example | C84_violated_base, C84_violated_example |
| C85 | What can be read and passes the checks can be converted to SQLite | Table groups, reading from disk, schema generation, write_from_tg and csvw2sqlite as in C72/C81; Spec/Convert says which descriptions and data are meant. | Composition of C44 (schema accepted), C57/C40/C39 (checks), C72 (loadable data is loaded, SQL engine abstract but enforcing exactly the constraints of CREATE TABLE) and C81 (stored in the right columns); Spec/Convert says which descriptions and data; the proof shows that values read by a column satisfy the CHECK/NOT NULL constraints generated for it. | C85_converts, C85_checked, C85_command, C85_example, C85_valid, C85_valid_example | C85_violated_required |
| C86 | The SQL statements mean what they are made for | Model/Sql.lean: the text of every statement (quoted, ColSpec.check/sql, TableSpec.sql, insert, select, select_many_to_many). Spec/SqlText.lean: tokens of SQLite (quoted names, texts, numbers, words, symbols, comments) as a relation, and a parser for the statements. Python's text of values other than numbers is a parameter. | Lexing lemmas for each kind of token with whatever follows; the clauses of a statement are balanced, so that commas separate them; induction over names, conditions and clauses. Lex is functional (lex_unique). | C86_create, C86_written, C86_insert, C86_select, C86_links, C86_example, C86_written_example | C86_violated_backtick, C86_violated_quote |
| C87 | Data reported valid is read alike | Model/Table (iterdicts with strict and log flags), Model/Csvw (is_valid), Model/Files (TableGroup.read). | By induction over cells and rows: a step of the lenient reading without warning is a step of the strict one and vice versa, if all cells have a described column; with the header given by the names of the columns both modes assign columns by position. | C87_read, C87_lax, C87_group, C87_example, C85_valid_example | C87_violated_order, C87_violated_missing |
| C88 | What the library writes it reports as valid | Model/Table (write, iterdicts), Model/TableGroup, Model/Csvw (is_valid). | Composition of C37 (what is written is read back), C87 (lenient and strict reading agree), C39 and C40; that no warning is issued by induction over cells. | C88_group, C88_table, C88_quiet, C88_quiet_plain, C88_example, C40_strict_nolog, C88_group_like | C88_violated_titles |
| C89 | A linked schema or dialect is read like one written out | `Model/Links`: `get_json`, `Schema.fromvalue` for strings, dialect links in `__attrs_post_init__`, `from_url`, `CSVW.__init__` with links (web and JSON parser arbitrary). Specification: `Spec/Links` (documents with links written out, base URLs). | Replacing the value of an own property changes only that value in the partition of properties (induction over the document); then the converters agree on link and object. Documents without links reduce to `Metadata2`/`Open`. | C89_schema, C89_dialect, C89_table, C89_open, C89_plain, C89_open_plain, C89_example | C89_violated_context, C89_violated_dialect, C89_violated_local |
| C90 | Descriptions read without warnings are written so that they are read without warnings | Model/Warn (all warnings while descriptions are read) and the asdict functions of Model/Metadata, Metadata2. | Lemmas/Rewarn–Rewarn4: each property written is shown to be silent, from the value being silent (or normalised) when read; by induction over columns and tables; C90_violated_infinite shows the exception. | C90_group, C90_table, C90_schema, C90_clean, C90_example | C90_violated_infinite |
| C91 | csvwvalidate accepts what TableGroup.write writes | Model/Files (TableGroup.write), Model/Open, Model/Csvw, Model/Warn (csvwvalidate). Served: the program sees the files of the disk. | Composition of C54/C83 (rereading), C74 (the same data), C75 (files), C88 (written rows are valid) and C90 (no warnings). | C91_validate, C91_served, C91_example | – |
| C92 | Descriptions are written completely and unambiguously | `TableGroup.asdict`, `Table.asdict`, `Schema.asdict`, `Column.asdict`, `Datatype.asdict` as in C54, where the items of the `OrderedDict` are put one after the other without removing duplicates, so that collisions would be visible. | `GoodParts` (keys of the three parts differ in `@` and `:`); `DistinctKeys` is preserved by `valid_common_property`, converters, `NaturalLanguage`, the cleaning of `@context`, and `Dialect`; structural induction over the descriptions. | C92_group, C92_table, C92_schema, C92_column, C92_datatype, C92_group_kept, C92_table_kept, C92_column_kept, C92_clean, C92_example | – |
| C93 | A table described on its own and its data survive writing to files | Model/SingleFile (`Table.to_file`, `Table.from_file`, `Table.write` with `base`), Model/Single (bases and groups of single tables), Model/Open, Model/Csvw, Model/Warn (csvwvalidate). | C54 for tables and normal forms (C74); operations on files (C75); C84 for the group; `integrity_holds` (C88) for the group with the one table; C90 and C68 for csvwvalidate. | C93_reread, C93_files, C93_validate, C88_self, C93_example, C93_example_files | C93_violated_metadata |
| C94 | Data in zip archives and behind URLs are read as from files, except for newlines in cells | Model/Newlines.lean: universal newlines of TextIOWrapper, and the byte order mark; Model/Files.lean: Disk.read uses it for zip archives and URLs; Model/CsvLib.lean: csv.reader; Model/Table.lean: iterdicts. | Simulation of csv.reader on the translated text, with a character at a time, where a carriage return with a following line feed is one step; invariant on the states which can be reached. For C94_same: a carriage return read into a field stays in the record (contamination invariant, Lemmas/Breaks.lean), so in a text without carriage returns in cells each of them ends a record or is skipped, as a line feed is. | C94_cells, C94_same, C94_read, written_asRead | C94_violated_newline, C94_violated_bom, C94_violated_escape |
| C95 | Lists of lines are read like the file they are the lines of, except for line breaks in cells | `Source.enter`, `readSource`, `iterrowsOf` (Model/Lines.lean): what `__enter__` hands to `csv.reader` for a path, a list of strings, a list of bytes; iterrows over it. | Simulation of the parser of `csv.reader` over the lines without and with their ends, with the line breaks removed from the fields (Lemmas/Lines.lean), lifted from characters to lines, records and rows; the stream's line splitting agrees with the relation `LinesOf` of the specification. For C95_same: a line break read into a field stays in the record (Lemmas/Breaks.lean), so each of them ends a record, as the end of the line does. | C95_lines, C95_kept, C95_encoded, C95_cells, C95_same | C95_violated_newline, C95_violated_bom, C95_violated_bom_line, C95_violated_escape |
| C96 | Data files can have any encoding which has their characters | `Codecs` (lookup, encode, decode) as a parameter; `Dsv.writeBytes`/`readBytes`, `Table.writeBytes`/`returnBytes`/`iterBytes`/`iterWrapped`: which encoding each of them uses (Model/Encoding) | bytes are read as the text (from the laws `Lossless` and `Utf8Sig` of codecs in Spec/Encoding), then C37 and C94 | C96_roundtrip, C96_dsv, C96_file, C96_zip, C96_writes, C96_text, C96_returned, C96_example, C96_lines, C96_keyword, C96_keyword_text | C96_violated_zip, C96_violated_returned, C96_violated_name, C96_violated_lines |
| C97 | The keyword argument lineterminator of UnicodeReader cannot change data | Model/Terminators: io.open(newline=lt) as division of the text into lines which end only with lt, given to the csv.reader automaton (Model/CsvLib) and UnicodeReader.__next__. | Lines of lt are concatenations of the lines of universal newline mode (Lemmas/Coarse: Pieces); the automaton raises an error on a line break which is followed by more text outside quotes, and treats line breaks in quotes as data, so a run without error is the run on the pieces, by induction on the pieces. C97_uniform: both divisions are equal. Written files (Lemmas/CoarseRt): the text of a row is one row for the automaton whatever follows it, so between its lines the automaton never is at the start of a record, and dividing it into fewer lines does not change states; induction over the rows. | C97_same, C97_uniform, C97_written, C97_written_dialect, C97_rewrite, C97_rewrite_success, C97_rewrite_atomic, C97_other | C97_violated_blank |

## 3. Trusted base

* Lean 4.33.0's kernel. The theorems depend on no other axioms than `propext`, `Classical.choice` and `Quot.sound` (some on fewer);
  no own axioms, no compiled evaluation (`decide +kernel` is evaluation by the kernel).
* The fidelity of `lean/Verif/Model` and `lean/Verif/Py` to `/repo` (read as text) and to the Python 3.11 standard library: by
  inspection. Each definition cites the lines it models; simplifications are stated there and listed in section 5.
* The specifications in `lean/Verif/Spec` say what the English properties mean.

## 4. What is modelled

| source | model |
|--------|-------|
| `dsv.py` (all: `UnicodeWriter`, `UnicodeReader`, `UnicodeReaderWithLineNumber`, `UnicodeDictReader`, `NamedTupleReader`, `iterrows`, `rewrite`, `add_rows`, `filter_rows_as_dict`, `DictFilter`) | `CsvLib` (CPython's `_csv` reader automaton and writer), `Dsv`, `NamedTuple`, `Terminators` (keyword `lineterminator`) |
| `dsv_dialects.py` (`convert_encoding`, `Dialect`) | `Dialect`, `Encoding` (`ENCODING_MAP`, `python_encoding`, with the codecs in `dsv.py` and `metadata.py`) |
| `utils.py` (`is_url`, `converter`, `attr_defaults`, `attr_asdict`, `normalize_name`, `slug`) | `Dialect`, `Metadata`, `Names`, `Locate` |
| `datatypes.py` (all datatypes; `dt_format_and_regex`; `NumberPattern`) | `Values`, `Datatypes`, `DateFormat`, `NumberPattern`, `Binary`, `Py/Decimal` |
| `metadata.py` (`DescriptionBase`, `Datatype`, `NaturalLanguage`, `Description`, `Column`, `Reference`, `ForeignKey`, `Schema`, `TableLike`, `Table`, `TableGroup`, `CSVW`) | `Common`, `Datatype`, `Description`, `Column`, `Table`, `TableGroup`, `Metadata`, `Metadata2`, `Csvw`, `Locate`, `Open`, `ToJson`, `Files`, `Expand`, `Links` |
| `metadata.py`: which warnings are issued while descriptions are read; `__main__.py` (`csvwvalidate`) | `Warn` |
| `jsonld.py` (all) | `JsonLd` |
| `db.py` (`ColSpec`, `TableSpec`, `schema`, `Database.read`, `Database.write`, `insert`) | `Db`; SQLite as lists of rows |
| `db.py` (the text of the SQL statements: `quoted`, `ColSpec.sql`, `TableSpec.sql`, `insert`, `select`, `select_many_to_many`) | `Sql` |
| `db.py` (`write_from_tg`), `__main__.py` (`csvw2sqlite`) | `ToDb` |
| `frictionless.py` (all) | `Frictionless` |
| `utils.py` (`qname2url`, `metadata2markdown`), `__main__.py` (`csvw2markdown`) | `Markdown` |
| `__main__.py` (`csvwdescribe`, `csvw2json`, `csvw2datasette`), `metadata.py` (`CSVW.tablegroup`) | `Commands`, `Single` |

Not modelled: `__main__.py`'s parsing of the command line (all commands are modelled as functions of their arguments),
logging, the texts of warnings, network access
(the answers are a parameter, `Locate.World`), the `_version`/`__init__` modules.

## 5. Parameters and simplifications

External functions (structures `Ext`, `MExt`, `SqlExt`, `JExt`, `OpenExt`, `Names.Unicode`, `Locate.World`, `Env.eq`): nothing is
assumed about them, except in hypotheses of theorems.

* Datatypes: `re` matching of user-supplied patterns (their success, not the regexes generated by the code, which are modelled),
  floats as tokens, `isodate` durations, `rfc3986` references, `json`, `jsonschema`; `babel`'s formatting for patterns other than
  the supported ones; `dateutil.parser.parse` (`dateutil.isoparse` is modelled, except for week and ordinal dates). Formats which are
  no strings are treated only as far as they raise. `str(int)`'s limit of 4300 digits is not modelled. `lower()` of U+0130 (whose length
  changes) is not considered.
* `_csv`: CPython 3.11 (and, as `CsvVer`, the change in the treatment of escape characters); field size limit as in the default. Files are read without newline translation (`newline=''`).
  Text files are decoded by Python (universal newlines as opened by the code); encodings (codecs as a parameter, with laws as hypotheses) only in `Encoding` (C96); elsewhere files have text as content, apart from dropping the BOM.
* File system: no symbolic links, paths are equal or denote different files; text files and (in `Files`) zip archives; operations with atomic `rename`; a crash may occur after any prefix of operations; data arrives in arbitrary pieces. Content of zip archives and URLs goes through `TextIOWrapper` with newline translation (`Newlines`); `dialect.encoding` is then assumed to be a codec which Python knows and which keeps a byte order mark.
* Metadata: links to schemas and dialects only in `Links` (C89), elsewhere `notImplemented`; INVALID templates in `asdict` (but see C76), `omit_defaults=False` of `Datatype.asdict`,
  transformations with common properties, `@id` of tables which are no strings, `tags.check` for non-strings, list-valued `name` and
  `virtual`, `titles: []` (which raises IndexError when the header is asked for), column references which contain other values than
  strings. The order in which several errors in one description are found is that of the code where it matters for the exception
  type and simplified elsewhere.
* Python's `==`/`hash` of cell values in primary and foreign keys is a parameter (`Table.PyEq` and `Env.eq`).
* JSON-LD: `rdflib`'s graph and its serialisation (`JExt.graph`) and template expansion (`JExt.expand`) are external.
  Durations and `pathlib.Path` values have no further structure.
* Frictionless: malformed packages (fields which are no objects etc.) give `notImplemented`; the first `trueValues`/`falseValues` must be
  strings; `json.dumps` is external.
* Database: a database is a list of tables, a table a list of rows; names of tables and columns are compared without regard to the case of ASCII
  letters, as SQLite does (`foldName`; the column names of an INSERT are always the ones of the table), what the statements mean is C86, tables with names
  which have a backtick or NUL are not modelled (`notImplemented`), nor are limits such as the number of columns; constraints are `SqlExt.refuse`, whose meaning for C72 is given in `Spec/SqlConstraints`; NULL in an `INTEGER PRIMARY KEY`
  (which SQLite replaces by a row id) and infinite bounds in CHECK constraints are not considered; `group_concat` concatenates in the
  order of insertion; transactions as in `Db.writeDb`.
* `namedtuple` by its documented checks, for ASCII identifiers.

## 6. Testing the theorems

`seeded/LOG.jsonl` has one line per edit of the model in a scratch copy: which definition was edited and how, which claim this breaks,
which theorems and lemmas failed to build, and which theorems were added or tightened when the edit had survived. Edits which still
survive are equivalent to the original on all inputs, or only change the kind of an error (see their notes).
