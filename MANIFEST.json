{
 "claims": [
  {
   "property": "C01",
   "status": "proved",
   "theorems": [
    "Csvw.Props.C01_default_roundtrip",
    "Csvw.Props.C01_bom_is_dropped"
   ],
   "note": "Full statement, for all rows within the documented limits; C01_bom_is_dropped shows the BOM restriction is needed."
  },
  {
   "property": "C02",
   "status": "proved",
   "theorems": [
    "Csvw.Props.C02_dialect_roundtrip"
   ],
   "note": "All delimiters/quote characters/terminators; old csv versions need CRLF (hypothesis nl)."
  },
  {
   "property": "C03",
   "status": "proved",
   "theorems": [
    "Csvw.Props.C03_escapechar_roundtrip_old_csv",
    "Csvw.Props.C03_escapechar_effect_new_csv",
    "Csvw.Props.C03_escapechar_roundtrip_no_backslash",
    "Csvw.Props.dialect_roundtrip",
    "Csvw.Props.C03_violated_new_csv"
   ],
   "note": "Exact effect for both csv versions: old csv round-trips; with new csv each backslash is doubled, i.e. the round-trip fails iff a cell contains a backslash (witness C03_violated_new_csv). dialect_roundtrip: with C02, for all dialects with a quote character."
  },
  {
   "property": "C04",
   "status": "proved",
   "theorems": [
    "Csvw.Props.C04_noquote_no_corruption",
    "Csvw.Props.C04_noquote_error_iff"
   ],
   "note": ""
  },
  {
   "property": "C05",
   "status": "proved",
   "theorems": [
    "Csvw.Props.C05_reader_yields_nonskipped",
    "Csvw.Props.C05_reader_without_dialect",
    "Csvw.Props.C05_trimming_unique"
   ],
   "note": ""
  },
  {
   "property": "C06",
   "status": "proved",
   "theorems": [
    "Csvw.Props.C06_comments_exact",
    "Csvw.Props.C06_comment_text",
    "Csvw.Props.C06_not_both"
   ],
   "note": ""
  },
  {
   "property": "C07",
   "status": "proved",
   "theorems": [
    "Csvw.Props.C07_line_numbers_increasing",
    "Csvw.Props.C07_number_exact",
    "Csvw.Props.C07_number_exact_without_dialect",
    "Csvw.Props.C07_line_number_is_end_of_row",
    "Csvw.Props.C07_line_number_is_start",
    "Csvw.Props.C07_violated_multiline",
    "Csvw.Props.C07_violated_carriage_return"
   ],
   "note": "Exact number for every dialect and every sequence of rows; relation to the text lines for files in the default format. The documentation's claim (line where the row starts) is false for multi-line cells and CR: negation witnesses."
  },
  {
   "property": "C08",
   "status": "proved",
   "theorems": [
    "Csvw.Props.C08_dict_row_complete",
    "Csvw.Props.C08_all_fieldnames_are_keys",
    "Csvw.Props.C08_one_dict_per_nonblank_row"
   ],
   "note": ""
  },
  {
   "property": "C09",
   "status": "proved",
   "theorems": [
    "Csvw.Props.C09_single_header",
    "Csvw.Props.C09_read_back",
    "Csvw.Props.C09_dict_roundtrip",
    "Csvw.Props.C09_violated_key_order"
   ],
   "note": "Single header for any format and any number of calls; what is read back (default format) for dicts with as many entries as the first, in any key order. That dicts with equal keys in another order round-trip is false (C09_violated_key_order)."
  },
  {
   "property": "C10",
   "status": "proved",
   "theorems": [
    "Csvw.Props.C10_rewrite_atomic",
    "Csvw.Props.C10_add_rows_atomic",
    "Csvw.Props.C10_filter_atomic",
    "Csvw.Props.C10_exception_leaves_target",
    "Csvw.Props.C10_nothing_lost",
    "Csvw.Props.C10_violated_cross_device"
   ],
   "note": "All crash points and all bufferings. Atomicity for one file system; for two the weaker guarantee C10_nothing_lost and the negation witness C10_violated_cross_device."
  },
  {
   "property": "C11",
   "status": "proved",
   "theorems": [
    "Csvw.Props.C11_rewrite_applies_visitor",
    "Csvw.Props.C11_rewrite_function",
    "Csvw.Props.C11_identity_unchanged",
    "Csvw.Props.C11_success_means_all_visited",
    "Csvw.Props.C11_rewrite_with_dialect",
    "Csvw.Props.C11_rewrite_with_plain_dialect",
    "Csvw.Props.C11_violated_skip_rows"
   ],
   "note": "Default format and every dialect of the family of C02 including skipping/trimming/comments (then reading yields the rows specified by YieldSpec). With skipRows the identity visitor does not preserve the rows read (witness)."
  },
  {
   "property": "C12",
   "status": "proved",
   "theorems": [
    "Csvw.Props.C12_filter_exact",
    "Csvw.Props.C12_filter_with_dialect",
    "Csvw.Props.C12_filter_count",
    "Csvw.Props.C12_violated_blank_rows"
   ],
   "note": "Exact effect and count, default format and dialects of the family of C02. The documented count (number of rows removed) is wrong for files with blank rows (witness)."
  },
  {
   "property": "C13",
   "status": "proved",
   "theorems": [
    "Csvw.Props.C13_add_rows_appends",
    "Csvw.Props.C13_add_rows_twice"
   ],
   "note": ""
  },
  {
   "property": "C14",
   "status": "proved",
   "theorems": [
    "Csvw.Props.C14_dialect_valid",
    "Csvw.Props.C14_raises_only",
    "Csvw.Props.C14_violated_quoteChar_list"
   ],
   "note": "Exact rule for each of the 13 properties, and when construction raises; the one exception to the English statement (a list as quoteChar, which has no validator) is shown by C14_violated_quoteChar_list."
  },
  {
   "property": "C15",
   "status": "proved",
   "theorems": [
    "Csvw.Props.C15_asdict_roundtrip",
    "Csvw.Props.C15_asdict_omits_exactly_defaults",
    "Csvw.Props.C15_constructed_is_constructible",
    "Csvw.Props.C15_updated_changes_exactly"
   ],
   "note": ""
  },
  {
   "property": "C16",
   "status": "proved",
   "theorems": [
    "Csvw.Props.C16_normalized_is_identifier",
    "Csvw.Props.C16_slug_chars",
    "Csvw.Props.C16_ascii",
    "Csvw.Props.C16_keyword_iff",
    "Csvw.Props.C16_not_keyword",
    "Csvw.Props.C16_violated_keyword",
    "Csvw.Props.C16_violated_control",
    "Csvw.Props.C16_slug",
    "Csvw.Props.C16_slug_spaces"
   ],
   "note": "Identifier shape for every string and any Unicode database; exact result for every ASCII string, with iff for the keyword defect. The claim 'never a keyword' is false (class!) and control characters raise AssertionError: witnesses."
  },
  {
   "property": "C17",
   "status": "proved",
   "theorems": [
    "Csvw.Props.C17_format_read",
    "Csvw.Props.C17_format_roundtrip",
    "Csvw.Props.C17_default_read",
    "Csvw.Props.C17_default_roundtrip"
   ],
   "note": "default tokens and any format 'T|F' with distinct tokens; exact set of accepted strings"
  },
  {
   "property": "C18",
   "status": "proved",
   "theorems": [
    "Csvw.Props.C18_numeral",
    "Csvw.Props.C18_numeral_iff",
    "Csvw.Props.C18_leading_zeros",
    "Csvw.Props.C18_bounded_exact",
    "Csvw.Props.C18_returned_in_range",
    "Csvw.Props.C18_lexical_chars",
    "Csvw.Props.C59_integer_iff",
    "Csvw.Props.C18_lexical_violated",
    "Csvw.Props.C18_large_violated",
    "Csvw.Props.C18_inf_violated"
   ],
   "note": "Exact acceptance for all texts (with C59). The stricter claim (no other lexical form accepted, unbounded size) is false: witnesses."
  },
  {
   "property": "C19",
   "status": "proved",
   "theorems": [
    "Csvw.Props.C19_roundtrip_iff",
    "Csvw.Props.C19_roundtrip_small",
    "Csvw.Props.C19_violated"
   ],
   "note": "Exact characterisation (iff). The unrestricted round-trip is false (witness)."
  },
  {
   "property": "C20",
   "status": "proved",
   "theorems": [
    "Csvw.Props.C20_roundtrip_iff",
    "Csvw.Props.C20_roundtrip_nonpos",
    "Csvw.Props.C20_violated",
    "Csvw.Props.C20_violated_strings",
    "Csvw.Props.C20_digits_violated"
   ],
   "note": "Exact characterisation (iff) for all numbers of the default context. The unrestricted round-trip is false (witnesses)."
  },
  {
   "property": "C21",
   "status": "proved",
   "theorems": [
    "Csvw.Props.C21_roundtrip_iff",
    "Csvw.Props.C21_common_formats",
    "Csvw.Props.C21_group_iff",
    "Csvw.Props.C21_decimalChar",
    "Csvw.Props.C21_violated"
   ],
   "note": "Exact characterisation (iff). The unrestricted round-trip is false (witnesses)."
  },
  {
   "property": "C22",
   "status": "proved",
   "theorems": [
    "Csvw.Props.C22_roundtrip",
    "Csvw.Props.C22_canonical",
    "Csvw.Props.C22_accepts"
   ],
   "note": ""
  },
  {
   "property": "C23",
   "status": "proved",
   "theorems": [
    "Csvw.Props.C23_roundtrip",
    "Csvw.Props.C23_ignored_chars"
   ],
   "note": ""
  },
  {
   "property": "C24",
   "status": "proved",
   "theorems": [
    "Csvw.Props.C24_normal_form",
    "Csvw.Props.C24_idempotent",
    "Csvw.Props.C24_unchanged",
    "Csvw.Props.C24_value"
   ],
   "note": "Also: any format is ignored (theorems hold for every format)."
  },
  {
   "property": "C25",
   "status": "proved",
   "theorems": [
    "Csvw.Props.C25_accepts_iff",
    "Csvw.Props.C25_whole_value",
    "Csvw.Props.C25_violated",
    "Csvw.Props.C25_invalid_regex",
    "Csvw.Props.C25_no_format",
    "Csvw.Props.C25_formatted"
   ],
   "note": "Exact acceptance condition; the stricter expectation (whole value always) fails for values ending in a line feed (C25_violated). Regex matching itself is external."
  },
  {
   "property": "C26",
   "status": "proved",
   "theorems": [
    "Csvw.Props.C26_read_iff",
    "Csvw.Props.C26_integer_iff",
    "Csvw.Props.C26_decimal_iff",
    "Csvw.Props.C26_decimal_all",
    "Csvw.Props.C26_datetime_iff",
    "Csvw.Props.C26_datetime_example",
    "Csvw.Props.C26_length_iff",
    "Csvw.Props.C26_json_iff",
    "Csvw.Props.C26_uri_iff",
    "Csvw.Props.C26_any_iff",
    "Csvw.Props.C26_unchecked",
    "Csvw.Props.C26_uri_violated",
    "Csvw.Props.C26_duration_violated",
    "Csvw.Props.C26_duration_example"
   ],
   "note": "Every base type is covered: ordered types exactly (order of numbers with infinities, instants), length types exactly, json, any; booleans and durations are returned unchecked and anyURI has length 5 (deviations from CSVW proved as C26_uri_violated, C26_duration_violated). Float comparison external."
  },
  {
   "property": "C27",
   "status": "proved",
   "theorems": [
    "Csvw.Props.C27_lengths",
    "Csvw.Props.C27_lengths_valueError",
    "Csvw.Props.C27_length_type",
    "Csvw.Props.C27_length_type_violated",
    "Csvw.Props.C27_bound_type",
    "Csvw.Props.C27_bound_string",
    "Csvw.Props.C27_bound_type_violated",
    "Csvw.Props.C27_integer_iff",
    "Csvw.Props.C27_decimal",
    "Csvw.Props.C27_decimal_example",
    "Csvw.Props.C27_datetime",
    "Csvw.Props.C27_datetime_example",
    "Csvw.Props.C27_zero_violated",
    "Csvw.Props.C27_minimum_maximum_violated",
    "Csvw.Props.C27_both_violated",
    "Csvw.Props.C27_decimal_iff",
    "Csvw.Props.C27_integers_iff",
    "Csvw.Props.C27_datetime_iff"
   ],
   "note": "Exact (iff) for integers of all types, decimals, dates and times; deviations from CSVW (0 counts as absent, minimum > maximum accepted, length 0 or false bounds on wrong types) are proved as *_violated."
  },
  {
   "property": "C28",
   "status": "proved",
   "theorems": [
    "Csvw.Props.C28_is_valid_iff",
    "Csvw.Props.C28_is_valid_false",
    "Csvw.Props.C28_read_valid",
    "Csvw.Props.C28_read_conforms",
    "Csvw.Props.C28_digits",
    "Csvw.Props.C28_conforms_read",
    "Csvw.Props.C28_exponent_iff",
    "Csvw.Props.C28_exponent_read",
    "Csvw.Props.C28_semicolons",
    "Csvw.Props.C28_min_violated",
    "Csvw.Props.C28_padding_violated",
    "Csvw.Props.C28_underscore_violated",
    "Csvw.Props.C28_percent_violated",
    "Csvw.Props.C28_exponent_violated",
    "Csvw.Props.C28_exponent_separators"
   ],
   "note": "Exact iff for is_valid, for plain numbers and patterns and for patterns/numbers with exponent, percent/permille sign and negative pattern; every accepted number conforms (all numeric types), conforming plain numbers are read as decimals. Deviations from the CSVW reading of patterns are stated in the property and proved as _violated witnesses."
  },
  {
   "property": "C29",
   "status": "proved",
   "theorems": [
    "Csvw.Props.C29_formatted",
    "Csvw.Props.C29_read",
    "Csvw.Props.C29_roundtrip",
    "Csvw.Props.C29_accepted",
    "Csvw.Props.C29_trailing",
    "Csvw.Props.C29_trailing_violated"
   ],
   "note": "babel's formatting of these patterns and dateutil's isoparse are modelled. That trailing text is accepted is proved (C29_trailing, C29_trailing_violated)."
  },
  {
   "property": "C30",
   "status": "proved",
   "theorems": [
    "Csvw.Props.C30_nearest",
    "Csvw.Props.C30_none",
    "Csvw.Props.C30_null_nearest",
    "Csvw.Props.C30_null_default",
    "Csvw.Props.C30_violated_null",
    "Csvw.Props.C30_violated_default",
    "Csvw.Props.C30_violated_default_case"
   ],
   "note": "Nearest-ancestor rule for chains of any length; the exceptions are proved."
  },
  {
   "property": "C31",
   "status": "proved",
   "theorems": [
    "Csvw.Props.C31_written",
    "Csvw.Props.C31_roundtrip",
    "Csvw.Props.C31_none",
    "Csvw.Props.C31_none_index_error",
    "Csvw.Props.C31_of_datatype",
    "Csvw.Props.C31_plain",
    "Csvw.Props.C31_string",
    "Csvw.Props.C31_boolean",
    "Csvw.Props.C31_integer",
    "Csvw.Props.C31_decimal",
    "Csvw.Props.C31_binary",
    "Csvw.Props.C31_date",
    "Csvw.Props.C31_violated_empty",
    "Csvw.Props.C31_violated_none"
   ],
   "note": "For every column and every value which its datatype round-trips; the remaining cases (empty serialization or None with a default set) fail and are proved to."
  },
  {
   "property": "C32",
   "status": "proved",
   "theorems": [
    "Csvw.Props.C32_written",
    "Csvw.Props.C32_roundtrip",
    "Csvw.Props.C32_empty",
    "Csvw.Props.C32_char",
    "Csvw.Props.C32_violated_separator",
    "Csvw.Props.C32_violated_null",
    "Csvw.Props.C32_violated_empty",
    "Csvw.Props.C32_violated_single_none"
   ],
   "note": "Exact sufficient condition for all lists and separators of any length; outside it the round trip fails (witnesses C32_violated_*)."
  },
  {
   "property": "C33",
   "status": "proved",
   "theorems": [
    "Csvw.Props.C33_required",
    "Csvw.Props.C33_not_null",
    "Csvw.Props.C33_rejected",
    "Csvw.Props.C33_violated_json"
   ],
   "note": "All columns and cells; json null exception proved as C33_violated_json."
  },
  {
   "property": "C34",
   "status": "proved",
   "theorems": [
    "Csvw.Props.C34_accepted_iff",
    "Csvw.Props.C34_error",
    "Csvw.Props.C34_invariants",
    "Csvw.Props.C34_primary_key"
   ],
   "note": "exact acceptance condition and invariants of the schema's constructor, and the primary key's columns"
  },
  {
   "property": "C35",
   "status": "proved",
   "theorems": [
    "Csvw.Props.C35_keys",
    "Csvw.Props.C35_none"
   ],
   "note": "Every dict yielded by strict and non-strict reading has exactly the keys of the columns of the schema and of the data; absent cells are None."
  },
  {
   "property": "C36",
   "status": "proved",
   "theorems": [
    "Csvw.Props.C36_order",
    "Csvw.Props.C36_nonstrict",
    "Csvw.Props.C36_short_rows",
    "Csvw.Props.C36_violated_nonstrict"
   ],
   "note": "Strict reading with distinct headers and full rows (short rows: C36_short_rows shows the hypothesis is needed); non-strict mode characterised by C36_nonstrict, with witness C36_violated_nonstrict."
  },
  {
   "property": "C37",
   "status": "proved",
   "theorems": [
    "Csvw.Props.C37_roundtrip",
    "Csvw.Props.C37_same"
   ],
   "note": "For dialects with a quote character which is doubled or escaped (EscapesKept: with escaping, and csv.writer of Python 3.10 and later, no cell may contain the escape character, see C03), and C02's conditions on dialect and cells, distinct column headers, and values which round-trip through their columns (C31, C32). Virtual columns are added to the rows read."
  },
  {
   "property": "C38",
   "status": "proved",
   "theorems": [
    "Csvw.Props.C38_one",
    "Csvw.Props.C38_log",
    "Csvw.Props.C38_log_abort",
    "Csvw.Props.C38_nolog",
    "Csvw.Props.C38_valid_iff",
    "Csvw.Props.C38_no_raise",
    "Csvw.Props.C38_violated"
   ],
   "note": "Exact, with and without log; other exceptions than ValueError abort even with a log (C38_log_abort; witness: INF in an integer column, C38_violated)."
  },
  {
   "property": "C39",
   "status": "proved",
   "theorems": [
    "Csvw.Props.C39_iff",
    "Csvw.Props.C39_log",
    "Csvw.Props.C39_nolog",
    "Csvw.Props.C39_none",
    "Csvw.Props.C39_hasKey",
    "Csvw.Props.C39_unusable",
    "Csvw.Props.C39_missing",
    "Csvw.Props.C39_sound",
    "Csvw.Props.C39_violated_list"
   ],
   "note": "C39_iff is exact without hypotheses, for any interpretation of Python's ==; the other theorems give the results in the remaining cases. List-valued key columns raise TypeError (C39_violated_list), nonexistent ones KeyError (C39_missing)."
  },
  {
   "property": "C40",
   "status": "proved",
   "theorems": [
    "Csvw.Props.C40_iff",
    "Csvw.Props.C40_log",
    "Csvw.Props.C40_nolog",
    "Csvw.Props.C40_strict",
    "Csvw.Props.C40_strict_null",
    "Csvw.Props.C40_null_item",
    "Csvw.Props.C40_sound",
    "Csvw.Props.C40_nolog_false",
    "Csvw.Props.C40_sound_example",
    "Csvw.Props.C40_violated_missing_table",
    "Csvw.Props.C40_violated_title",
    "Csvw.Props.C40_strict_nolog"
   ],
   "note": "C40_iff is exact without hypotheses. Deviations from the expectation that a log always leads to a boolean: a missing table or a reference by title raises KeyError (C40_violated_\u2026); null items of list-valued keys are looked up, too (C40_null_item)."
  },
  {
   "property": "C41",
   "status": "proved",
   "theorems": [
    "Csvw.Props.C41_exact",
    "Csvw.Props.C41_violated"
   ],
   "note": "Exact. A column without own datatype (strings) is not compared: C41_violated. Foreign keys without resource, and invalid property URLs, raise AttributeError."
  },
  {
   "property": "C42",
   "status": "proved",
   "theorems": [
    "Csvw.Props.C42_known",
    "Csvw.Props.C42_unknown",
    "Csvw.Props.C42_first",
    "Csvw.Props.C42_ignored"
   ],
   "note": "ValueErrors (and other exceptions) of non-strict writing also occur in strict writing."
  },
  {
   "property": "C43",
   "status": "proved",
   "theorems": [
    "Csvw.Props.C43_order",
    "Csvw.Props.C43_tables",
    "Csvw.Props.C43_exact",
    "Csvw.Props.C43_references",
    "Csvw.Props.C43_association",
    "Csvw.Props.C43_example"
   ],
   "note": "Order and exactness of the list of tables, in terms of the table specs and of the metadata. IsSqlTable/hdist: no two different tables have the same name."
  },
  {
   "property": "C44",
   "status": "proved",
   "theorems": [
    "Csvw.Props.C44_accepted",
    "Csvw.Props.C44_rejected",
    "Csvw.Props.C44_acyclic",
    "Csvw.Props.C44_violated",
    "Csvw.Props.C44_violated_example",
    "Csvw.Props.C44_example"
   ],
   "note": "C44_accepted and C44_rejected are stated on the metadata only; C44_violated: more than 100 tables are always rejected (the unrestricted claim 'every acyclic group is accepted' is false of the code)."
  },
  {
   "property": "C45",
   "status": "proved",
   "theorems": [
    "Csvw.Props.C45_iff",
    "Csvw.Props.C45_single",
    "Csvw.Props.C45_violated",
    "Csvw.Props.C45_example"
   ],
   "note": "Exact characterisation; C45_violated shows the pairing being changed (the unrestricted claim is false of the code)."
  },
  {
   "property": "C46",
   "status": "proved",
   "theorems": [
    "Csvw.Props.C46_iff",
    "Csvw.Props.C46_char",
    "Csvw.Props.C46_none",
    "Csvw.Props.C46_violated"
   ],
   "note": "iff characterisation; defects in C46_violated"
  },
  {
   "property": "C47",
   "status": "proved",
   "theorems": [
    "Csvw.Props.C47_same_keys",
    "Csvw.Props.C47_exact",
    "Csvw.Props.C47_violated",
    "Csvw.Props.C47_example",
    "Csvw.Props.C47_violated_case"
   ],
   "note": "positive part, exact general behaviour, and the defects (other key order; table names which only differ by case)"
  },
  {
   "property": "C48",
   "status": "proved",
   "theorems": [
    "Csvw.Props.C48_read",
    "Csvw.Props.C48_schema",
    "Csvw.Props.C48_example",
    "Csvw.Props.C48_violated_space",
    "Csvw.Props.C48_violated_integer",
    "Csvw.Props.C48_violated_empty",
    "Csvw.Props.C48_association_columns",
    "Csvw.Props.C48_columns",
    "Csvw.Props.C48_no_list"
   ],
   "note": "round trip for words as keys; the association table's columns; violated for whitespace, integers, empty key"
  },
  {
   "property": "C49",
   "status": "proved",
   "theorems": [
    "Csvw.Props.C49_tables",
    "Csvw.Props.C49_tabular",
    "Csvw.Props.C49_package",
    "Csvw.Props.C49_required_violated",
    "Csvw.Props.C49_lengths",
    "Csvw.Props.C49_bounds",
    "Csvw.Props.C49_format"
   ],
   "note": "required is lost: C49_required_violated. Malformed packages (fields which are no objects etc.) are outside the model."
  },
  {
   "property": "C50",
   "status": "proved",
   "theorems": [
    "Csvw.Props.C50_simplified",
    "Csvw.Props.C50_simple",
    "Csvw.Props.C50_unchanged",
    "Csvw.Props.C50_idempotent",
    "Csvw.Props.C50_number_violated",
    "Csvw.Props.C50_nested_violated",
    "Csvw.Props.C50_type_violated"
   ],
   "note": "Doc is the class of JSON-LD documents; the _violated theorems show accepted metadata outside it (numbers as @value raise TypeError)."
  },
  {
   "property": "C51",
   "status": "proved",
   "theorems": [
    "Csvw.Props.C51_properties",
    "Csvw.Props.C51_no_loss",
    "Csvw.Props.C51_single_values",
    "Csvw.Props.C51_lists",
    "Csvw.Props.C51_id",
    "Csvw.Props.C51_order_violated",
    "Csvw.Props.C51_subject_violated"
   ],
   "note": "C51_order_violated: mixed lists and single values are reordered; C51_subject_violated: lists are merged across different subjects."
  },
  {
   "property": "C52",
   "status": "proved",
   "theorems": [
    "Csvw.Props.C52_partition",
    "Csvw.Props.C52_exactly_one",
    "Csvw.Props.C52_succeeds_iff"
   ],
   "note": "partition_properties on JSON objects with arbitrary externals; exact success condition, every key lands in exactly one part"
  },
  {
   "property": "C53",
   "status": "proved",
   "theorems": [
    "Csvw.Props.C53_roundtrip",
    "Csvw.Props.C53_stored",
    "Csvw.Props.C53_add",
    "Csvw.Props.C53_violated_add"
   ],
   "note": "NaturalLanguage construct/asdict round trip in every language; add() exactly characterised; add() with a falsy language (documented as und) shown to store under None"
  },
  {
   "property": "C54",
   "status": "proved",
   "theorems": [
    "Csvw.Props.C54_datatype",
    "Csvw.Props.C54_column",
    "Csvw.Props.C54_schema",
    "Csvw.Props.C54_table",
    "Csvw.Props.C54_group",
    "Csvw.Props.C54_dialects",
    "Csvw.Props.C54_integer_bound",
    "Csvw.Props.C54_violated_dialect"
   ],
   "note": "Round trip for datatypes, columns, schemas, tables and groups, exact relation in Spec/Metadata.lean; C54_dialects is the exact condition for dialects, C54_violated_dialect shows the code loses an explicit default dialect. Schemas/dialects given by URL, transformations with common properties and non-string @id of tables are not modelled (notImplemented in the model)."
  },
  {
   "property": "C55",
   "status": "proved",
   "theorems": [
    "Csvw.Props.C55_accepts_iff",
    "Csvw.Props.C55_error",
    "Csvw.Props.C55_result",
    "Csvw.Props.C55_unchanged",
    "Csvw.Props.C55_idempotent",
    "Csvw.Props.C55_violated_inside_id",
    "Csvw.Props.C55_violated_type_list"
   ],
   "note": "Exact. Objects inside @id/@language values and members of @type lists are not checked (C55_violated_\u2026)."
  },
  {
   "property": "C56",
   "status": "proved",
   "theorems": [
    "Csvw.Props.C56_url",
    "Csvw.Props.C56_sound",
    "Csvw.Props.C56_link",
    "Csvw.Props.C56_file",
    "Csvw.Props.C56_violated_file",
    "Csvw.Props.C56_violated_link",
    "Csvw.Props.C56_violated_json"
   ],
   "note": "Exact for regular documents; soundness without hypotheses. Unchecked local metadata, broken documents behind a Link header and JSON documents which are no objects deviate from CSVW (C56_violated_\u2026)."
  },
  {
   "property": "C57",
   "status": "proved",
   "theorems": [
    "Csvw.Props.C57_iff",
    "Csvw.Props.C57_again",
    "Csvw.Props.C57_cells",
    "Csvw.Props.C57_keys",
    "Csvw.Props.C57_references",
    "Csvw.Props.C57_warned",
    "Csvw.Props.C57_example",
    "Csvw.Props.C57_example_cell",
    "Csvw.Props.C57_duplicate_raises",
    "Csvw.Props.C57_special",
    "Csvw.Props.C57_violated_infinity",
    "Csvw.Props.C57_special_items",
    "Csvw.Props.C57_formats"
   ],
   "note": "Exact characterisation of True (C57_iff) and its consequences for cells, keys and references, without hypotheses. Duplicate keys and missing references raise ValueError instead of giving False (C57_duplicate_raises), which the statement leaves open."
  },
  {
   "property": "C58",
   "status": "proved",
   "theorems": [
    "Csvw.Props.C58_read",
    "Csvw.Props.C58_string",
    "Csvw.Props.C58_integer",
    "Csvw.Props.C58_boolean",
    "Csvw.Props.C58_hexBinary",
    "Csvw.Props.C58_decimal",
    "Csvw.Props.C58_text",
    "Csvw.Props.C58_time",
    "Csvw.Props.C58_strings",
    "Csvw.Props.C58_example",
    "Csvw.Props.C58_violated_nan"
   ],
   "note": "per datatype and for whole tables"
  },
  {
   "property": "C59",
   "status": "proved",
   "theorems": [
    "Csvw.Props.C59_decimal_iff",
    "Csvw.Props.C59_decimal_exact",
    "Csvw.Props.C59_decimal_rejected",
    "Csvw.Props.C59_scientific",
    "Csvw.Props.C59_special",
    "Csvw.Props.C59_integer_iff",
    "Csvw.Props.C59_example"
   ],
   "note": "Exact characterisation for all texts and separators (no 'pattern'; patterns are C28). Unicode digits are covered through Python's numeric-digit mapping (Dec.asciiNumeric)."
  },
  {
   "property": "C60",
   "status": "proved",
   "theorems": [
    "Csvw.Props.C60_datetime_formats",
    "Csvw.Props.C60_stamp_formats",
    "Csvw.Props.C60_time_formats",
    "Csvw.Props.C60_date_fallback",
    "Csvw.Props.C60_example"
   ],
   "note": "exact characterisation of the accepted formats"
  },
  {
   "property": "C61",
   "status": "proved",
   "theorems": [
    "Csvw.Props.C61_time",
    "Csvw.Props.C61_time_tz",
    "Csvw.Props.C61_datetime",
    "Csvw.Props.C61_datetime_tz",
    "Csvw.Props.C61_midnight",
    "Csvw.Props.C61_violated_timezone_lost",
    "Csvw.Props.C61_example"
   ],
   "note": "times (with and without timezone), date-times in all 14x2x4 patterns; babel and dateutil.parser.parse are external"
  },
  {
   "property": "C62",
   "status": "proved",
   "theorems": [
    "Csvw.Props.C62_iso_roundtrip",
    "Csvw.Props.C62_stamp_default",
    "Csvw.Props.C62_violated_stamp_without_timezone",
    "Csvw.Props.C62_example"
   ],
   "note": ""
  },
  {
   "property": "C63",
   "status": "proved",
   "theorems": [
    "Csvw.Props.C63_sequences",
    "Csvw.Props.C63_short",
    "Csvw.Props.C63_short_error",
    "Csvw.Props.C63_example"
   ],
   "note": "rows given as sequences are the positional dicts; short rows raise"
  },
  {
   "property": "C64",
   "status": "proved",
   "theorems": [
    "Csvw.Props.C64_tables",
    "Csvw.Props.C64_described",
    "Csvw.Props.C64_minimal",
    "Csvw.Props.C64_titles",
    "Csvw.Props.C64_titles_example",
    "Csvw.Props.C64_id",
    "Csvw.Props.C64_example",
    "Csvw.Props.C64_comment_violated"
   ],
   "note": "C64_described shows the hypothesis on common properties for all descriptions; C64_titles: titles of rows; C64_id: @id and notes of tables; C64_example is a concrete dataset. Defect: comments in the data replace the metadata's rdfs:comment."
  },
  {
   "property": "C65",
   "status": "proved",
   "theorems": [
    "Csvw.Props.C65_object",
    "Csvw.Props.C65_literal",
    "Csvw.Props.C65_list",
    "Csvw.Props.C65_inherited_datatype_violated",
    "Csvw.Props.C65_virtual_violated",
    "Csvw.Props.C65_inherited_separator_violated",
    "Csvw.Props.C65_list_violated"
   ],
   "note": "C65_literal: which literals. External: Decimal to float, isnan/isinf, resolve. Defects proved: inherited datatypes and separators are not used, suppressed virtual columns are shown, lists are not converted."
  },
  {
   "property": "C66",
   "status": "proved",
   "theorems": [
    "Csvw.Props.C66_frame",
    "Csvw.Props.C66_no_loss",
    "Csvw.Props.C66_cycle_violated"
   ],
   "note": "Defect: cycles of single references (also self references) vanish from the output."
  },
  {
   "property": "C67",
   "status": "proved",
   "theorems": [
    "Csvw.Props.C67_datetime",
    "Csvw.Props.C67_date",
    "Csvw.Props.C67_date_roundtrip",
    "Csvw.Props.C67_fraction_violated"
   ],
   "note": "Column with its own datatype dateTime without format, resp. date. Defect C67_fraction_violated: zeros are stripped from the timezone, so that +01:30 is read back as +01:03. The literal for base time is not covered."
  },
  {
   "property": "C68",
   "status": "proved",
   "theorems": [
    "Csvw.Props.C68_init",
    "Csvw.Props.C68_no_context",
    "Csvw.Props.C68_no_tables",
    "Csvw.Props.C68_tables",
    "Csvw.Props.C68_table",
    "Csvw.Props.C68_names",
    "Csvw.Props.C68_url_required",
    "Csvw.Props.C68_url_error",
    "Csvw.Props.C68_no_metadata",
    "Csvw.Props.C68_example",
    "Csvw.Props.C68_example_tables",
    "Csvw.Props.C68_example_group"
   ],
   "note": "Exact iff for success, with errors for the namespace and tables. The document is the one of C56 if located. Defect shown by C68_example: a primary key may refer to the name which was removed."
  },
  {
   "property": "C69",
   "status": "proved",
   "theorems": [
    "Csvw.Props.C69_added",
    "Csvw.Props.C69_unknown",
    "Csvw.Props.C69_example"
   ],
   "note": ""
  },
  {
   "property": "C70",
   "status": "proved",
   "theorems": [
    "Csvw.Props.C70_no_force",
    "Csvw.Props.C70_written",
    "Csvw.Props.C70_failed",
    "Csvw.Props.C70_failed_iff",
    "Csvw.Props.C70_memory",
    "Csvw.Props.C70_memory_failed",
    "Csvw.Props.C70_violated_lost",
    "Csvw.Props.C70_example"
   ],
   "note": "SQLite transactions as modelled in Model/Db (statements before commit are undone by an exception). Noted defect: a failing write with force destroys the rows of the old file (C70_violated_lost)."
  },
  {
   "property": "C71",
   "status": "proved",
   "theorems": [
    "Csvw.Props.C71_tuples",
    "Csvw.Props.C71_tuples_fieldnames",
    "Csvw.Props.C71_bad_header",
    "Csvw.Props.C71_underscore",
    "Csvw.Props.C71_iterrows"
   ],
   "note": "collections.namedtuple is modelled by its documented checks (identifier, keyword, underscore, duplicates)."
  },
  {
   "property": "C72",
   "status": "proved",
   "theorems": [
    "Csvw.Props.C72_load",
    "Csvw.Props.C72_engine",
    "Csvw.Props.C72_example",
    "Csvw.Props.C72_example_loaded",
    "Csvw.Props.C72_violated_int",
    "Csvw.Props.C72_violated_base64",
    "Csvw.Props.C72_violated_list",
    "Csvw.Props.C72_violated_datetime",
    "Csvw.Props.C72_violated_time",
    "Csvw.Props.C72_violated_key",
    "Csvw.Props.C72_violated_zero",
    "Csvw.Props.C72_bounds_create",
    "Csvw.Props.C72_bounds_check",
    "Csvw.Props.C72_violated_case",
    "Csvw.Props.C72_violated_reserved",
    "Csvw.Props.C72_violated_nan"
   ],
   "note": "list-valued columns and list-valued foreign keys (association tables) included; ReadsIntegers: the engine converts the text of an integer key to the integer when comparing; C72_violated_* are the failures."
  },
  {
   "property": "C73",
   "status": "proved",
   "theorems": [
    "Csvw.Props.C73_triples",
    "Csvw.Props.C73_graph",
    "Csvw.Props.C73_lost_violated",
    "Csvw.Props.C73_example"
   ],
   "note": "C73_triples: which triples are made for a row, as an iff; C73_graph: contents of the graph and arrangement of output; template expansion and rdflib are external functions. C73_lost_violated: the defect."
  },
  {
   "property": "C74",
   "status": "proved",
   "theorems": [
    "Csvw.Props.C74_reread",
    "Csvw.Props.C74_violated_empty"
   ],
   "note": "descriptions read from JSON; violated for empty values of inherited properties"
  },
  {
   "property": "C75",
   "status": "proved",
   "theorems": [
    "Csvw.Props.C75_roundtrip",
    "Csvw.Props.C75_same"
   ],
   "note": "JSON text is assumed to be read as written"
  },
  {
   "property": "C76",
   "status": "proved",
   "theorems": [
    "Csvw.Props.C76_interrupted",
    "Csvw.Props.C76_failed",
    "Csvw.Props.C76_rows",
    "Csvw.Props.C76_violated_data",
    "Csvw.Props.C76_violated_directory",
    "Csvw.Props.C76_violated_metadata"
   ],
   "note": "the old content of the data file concerned is not preserved (violated)"
  },
  {
   "property": "C77",
   "status": "proved",
   "theorems": [
    "Csvw.Props.C77_copy",
    "Csvw.Props.C77_violated_missing",
    "Csvw.Props.C77_violated_base",
    "Csvw.Props.C77_violated_zip"
   ],
   "note": "violated for missing directories, @base and zipped data"
  },
  {
   "property": "C78",
   "status": "proved",
   "theorems": [
    "Csvw.Props.C78_qname",
    "Csvw.Props.C78_abbreviated",
    "Csvw.Props.C78_not_abbreviated",
    "Csvw.Props.C78_file",
    "Csvw.Props.C78_url",
    "Csvw.Props.C78_invalid",
    "Csvw.Props.C78_example",
    "Csvw.Props.C78_violated_variables",
    "Csvw.Props.C78_violated_colon",
    "Csvw.Props.C78_violated_names",
    "Csvw.Props.C78_violated_context",
    "Csvw.Props.C78_group",
    "Csvw.Props.C78_violated_no_url"
   ],
   "note": "with qualifications shown to be necessary (C78_violated_\u2026); uritemplate and urljoin are external functions"
  },
  {
   "property": "C79",
   "status": "proved",
   "theorems": [
    "Csvw.Props.C79_group",
    "Csvw.Props.C79_table",
    "Csvw.Props.C79_schema",
    "Csvw.Props.C79_column",
    "Csvw.Props.C79_datatype",
    "Csvw.Props.C79_dialect",
    "Csvw.Props.C79_kept",
    "Csvw.Props.C79_kept_table",
    "Csvw.Props.C79_example",
    "Csvw.Props.C79_violated_unnamed",
    "Csvw.Props.C79_violated_transformation",
    "Csvw.Props.C79_violated_schema",
    "Csvw.Props.C79_violated_datatype"
   ],
   "note": "Warnings as a predicate of the JSON value, equivalent to the clean descriptions of Spec/Clean; what is kept in Spec/CleanKept. Witnesses: several unnamed columns are reported as duplicates, transformations with the required properties are reported, schemas which are lists are ignored silently. Conditional on the document being read without exception."
  },
  {
   "property": "C80",
   "status": "proved",
   "theorems": [
    "Csvw.Props.C80_ok",
    "Csvw.Props.C80_status",
    "Csvw.Props.C80_error",
    "Csvw.Props.C80_problems",
    "Csvw.Props.C80_no_context",
    "Csvw.Props.C80_no_tables",
    "Csvw.Props.C80_kept",
    "Csvw.Props.C80_example",
    "Csvw.Props.C80_example_cell",
    "Csvw.Props.C80_example_problem",
    "Csvw.Props.C80_violated_duplicate",
    "Csvw.Props.C80_violated_list",
    "Csvw.Props.C80_violated_reference",
    "Csvw.Props.C80_located",
    "Csvw.Props.C80_passed_over"
   ],
   "note": "Exit status of the command, from the model of opening and is_valid. Witnesses: JSON lists and foreign keys without reference raise AttributeError and KeyError, which are not caught; duplicate keys give status 2 instead of 1."
  },
  {
   "property": "C81",
   "status": "proved",
   "theorems": [
    "Csvw.Props.C81_stored",
    "Csvw.Props.C81_read",
    "Csvw.Props.C81_read_links",
    "Csvw.Props.C81_command",
    "Csvw.Props.C81_unchanged",
    "Csvw.Props.C81_failed",
    "Csvw.Props.C81_violated_short",
    "Csvw.Props.C81_violated_name",
    "Csvw.Props.C81_example",
    "Csvw.Props.C81_example_aligned",
    "Csvw.Props.C81_complete",
    "Csvw.Props.C81_command_complete",
    "Csvw.Props.C81_replaced",
    "Csvw.Props.C81_example_complete",
    "Csvw.Props.C81_example_extra"
   ],
   "note": "From CSV text to database rows and back. C81_violated_short and C81_violated_name are defects of the code (columns swapped if the first data row is short; reserved table names)."
  },
  {
   "property": "C82",
   "status": "proved",
   "theorems": [
    "Csvw.Props.C82_sections",
    "Csvw.Props.C82_succeeds",
    "Csvw.Props.C82_links",
    "Csvw.Props.C82_property",
    "Csvw.Props.C82_property_group",
    "Csvw.Props.C82_qname",
    "Csvw.Props.C82_row",
    "Csvw.Props.C82_html",
    "Csvw.Props.C82_escape",
    "Csvw.Props.C82_command",
    "Csvw.Props.C82_example",
    "Csvw.Props.C82_example_ok",
    "Csvw.Props.C82_violated_qname",
    "Csvw.Props.C82_violated_dialect",
    "Csvw.Props.C82_violated_format",
    "Csvw.Props.C82_violated_zero",
    "Csvw.Props.C82_violated_inherited",
    "Csvw.Props.C82_violated_image",
    "Csvw.Props.C82_violated_regex",
    "Csvw.Props.C82_violated_newline",
    "Csvw.Props.C82_violated_anchor",
    "Csvw.Props.C82_image"
   ],
   "note": "Sections, rows, links, properties and success conditions of the documentation; defects: no dialect, object formats, zero bounds, inherited datatypes, images given as text, bars and newlines, equal anchors, repeated prefixes."
  },
  {
   "property": "C83",
   "status": "proved",
   "theorems": [
    "Csvw.Props.C83_reopen",
    "Csvw.Props.C83_describe_args",
    "Csvw.Props.C83_describe",
    "Csvw.Props.C83_describe_plain",
    "Csvw.Props.C83_json",
    "Csvw.Props.C83_datasette_meta",
    "Csvw.Props.C83_datasette",
    "Csvw.Props.C83_datasette_table",
    "Csvw.Props.C83_datasette_exists",
    "Csvw.Props.C83_datasette_failed",
    "Csvw.Props.C83_example_describe",
    "Csvw.Props.C83_violated_no_tables",
    "Csvw.Props.C83_example_reopen",
    "Csvw.Props.C83_example_datasette",
    "Csvw.Props.C83_example_datasette_table",
    "Csvw.Props.C83_violated_json_order"
   ],
   "note": "csvwdescribe, csvw2json and csvw2datasette; the answer of frictionless and the SQL engine are parameters. C83_violated_no_tables: a document without tables cannot be opened. C83_violated_json_order: csvw2json identifies columns by position, csvw2datasette by name."
  },
  {
   "property": "C84",
   "status": "proved",
   "theorems": [
    "Csvw.Props.C84_values",
    "Csvw.Props.C84_unchanged",
    "Csvw.Props.C84_violated_base",
    "Csvw.Props.C84_example",
    "Csvw.Props.C84_violated_example"
   ],
   "note": "Unless the context has a @base: C84_violated_base, C84_violated_example."
  },
  {
   "property": "C85",
   "status": "proved",
   "theorems": [
    "Csvw.Props.C85_converts",
    "Csvw.Props.C85_checked",
    "Csvw.Props.C85_command",
    "Csvw.Props.C85_example",
    "Csvw.Props.C85_violated_required",
    "Csvw.Props.C85_valid",
    "Csvw.Props.C85_valid_example"
   ],
   "note": "C85_converts: for all groups and data described by GroupConvertible (Spec/Convert); C85_checked: with uniqueness of keys and existence of references replaced by the results of check_primary_key and check_referential_integrity; C85_command: csvw2sqlite; C85_example: a group with primary, foreign and list-valued foreign keys meets the hypotheses; C85_violated_required: the condition that required is not inherited is necessary. C85_valid: the same for a dataset for which is_valid returns True."
  },
  {
   "property": "C86",
   "status": "proved",
   "theorems": [
    "Csvw.Props.C86_create",
    "Csvw.Props.C86_written",
    "Csvw.Props.C86_insert",
    "Csvw.Props.C86_select",
    "Csvw.Props.C86_links",
    "Csvw.Props.C86_example",
    "Csvw.Props.C86_written_example",
    "Csvw.Props.C86_violated_backtick",
    "Csvw.Props.C86_violated_quote"
   ],
   "note": "Text of the statements modelled in Model/Sql.lean; Spec/SqlText.lean has SQLite's tokens and the part of the grammar which is used. C86_written ties the texts to the database model: every table of a database which was written has been created by a statement which means its specification. Backticks in names and apostrophes in contexts are deviations (C86_violated_*)."
  },
  {
   "property": "C87",
   "status": "proved",
   "theorems": [
    "Csvw.Props.C87_read",
    "Csvw.Props.C87_lax",
    "Csvw.Props.C87_group",
    "Csvw.Props.C87_example",
    "Csvw.Props.C87_violated_order",
    "Csvw.Props.C87_violated_missing",
    "Csvw.Props.C85_valid_example"
   ],
   "note": "Full statement proved. For other headers it does not hold: when validating, cells are assigned to columns by position without looking at the header (for columns with a name), by default they are assigned by name: a file with swapped columns is reported valid but read with swapped values (C87_violated_order), and a file which lacks a required column may be reported valid although reading it raises ValueError (C87_violated_missing)."
  },
  {
   "property": "C88",
   "status": "proved",
   "theorems": [
    "Csvw.Props.C88_group",
    "Csvw.Props.C88_table",
    "Csvw.Props.C88_quiet",
    "Csvw.Props.C88_quiet_plain",
    "Csvw.Props.C88_example",
    "Csvw.Props.C88_violated_titles",
    "Csvw.Props.C40_strict_nolog",
    "Csvw.Props.C88_group_like"
   ],
   "note": "Full statement proved; which cells are read without warning is Quiet, with C88_quiet, C88_quiet_plain for columns without format. Does not hold for columns without name (C88_violated_titles): their header is written as _col.1, which is_valid warns about."
  },
  {
   "property": "C89",
   "status": "proved",
   "theorems": [
    "Csvw.Props.C89_schema",
    "Csvw.Props.C89_dialect",
    "Csvw.Props.C89_table",
    "Csvw.Props.C89_open",
    "Csvw.Props.C89_plain",
    "Csvw.Props.C89_open_plain",
    "Csvw.Props.C89_example",
    "Csvw.Props.C89_violated_context",
    "Csvw.Props.C89_violated_dialect",
    "Csvw.Props.C89_violated_local"
   ],
   "note": "Linked documents are any JSON objects; deviations are theorems named _violated. Simplification: a schema link which cannot be followed raises at once in the model (the library raises at the first use of the schema)."
  },
  {
   "property": "C90",
   "status": "proved",
   "theorems": [
    "Csvw.Props.C90_group",
    "Csvw.Props.C90_table",
    "Csvw.Props.C90_schema",
    "Csvw.Props.C90_clean",
    "Csvw.Props.C90_example",
    "Csvw.Props.C90_violated_infinite"
   ],
   "note": "asdict of descriptions which are read without warnings is read without warnings: groups, tables, schemas; in terms of clean descriptions (C79); infinite bounds excepted, with a counterexample."
  },
  {
   "property": "C91",
   "status": "proved",
   "theorems": [
    "Csvw.Props.C91_validate",
    "Csvw.Props.C91_served",
    "Csvw.Props.C91_example"
   ],
   "note": "End to end: read without warnings, written with rows satisfying the keys, validated with status 0. The files are seen by the program as the disk has them (Served)."
  },
  {
   "property": "C92",
   "status": "proved",
   "theorems": [
    "Csvw.Props.C92_group",
    "Csvw.Props.C92_table",
    "Csvw.Props.C92_schema",
    "Csvw.Props.C92_column",
    "Csvw.Props.C92_datatype",
    "Csvw.Props.C92_group_kept",
    "Csvw.Props.C92_table_kept",
    "Csvw.Props.C92_column_kept",
    "Csvw.Props.C92_clean",
    "Csvw.Props.C92_example"
   ],
   "note": "Collisions would be visible in the model: items are concatenated. PropertiesKept.order: the order in which the properties are written."
  },
  {
   "property": "C93",
   "status": "proved",
   "theorems": [
    "Csvw.Props.C93_reread",
    "Csvw.Props.C93_files",
    "Csvw.Props.C93_validate",
    "Csvw.Props.C93_violated_metadata",
    "Csvw.Props.C88_self",
    "Csvw.Props.C93_example",
    "Csvw.Props.C93_example_files"
   ],
   "note": "C93_reread: the new description describes data in the same way. C93_files: files written in either order are read back. C93_validate: csvwvalidate exits with 0 (C88_self: is_valid for a table with foreign keys to itself). C93_violated_metadata: an invalid URI template makes to_file fail after the old content was lost. C93_example, C93_example_files: a table with a self-referencing foreign key meets the hypotheses."
  },
  {
   "property": "C94",
   "status": "proved",
   "theorems": [
    "Csvw.Props.C94_cells",
    "Csvw.Props.C94_same",
    "Csvw.Props.C94_read",
    "Csvw.Props.written_asRead",
    "Csvw.Props.C94_violated_newline",
    "Csvw.Props.C94_violated_bom",
    "Csvw.Props.C94_violated_escape"
   ],
   "note": "C94_cells: the cells with newlines translated, without escape character (C94_violated_escape: not with one). C94_same, C94_read: without carriage returns in cells the source does not matter, with or without escape character. written_asRead: rows which were written. Does not hold for cells with carriage returns (C94_violated_newline) or a byte order mark (C94_violated_bom)."
  },
  {
   "property": "C95",
   "status": "proved",
   "theorems": [
    "Csvw.Props.C95_lines",
    "Csvw.Props.C95_kept",
    "Csvw.Props.C95_encoded",
    "Csvw.Props.C95_cells",
    "Csvw.Props.C95_same",
    "Csvw.Props.C95_violated_newline",
    "Csvw.Props.C95_violated_bom",
    "Csvw.Props.C95_violated_bom_line",
    "Csvw.Props.C95_violated_escape"
   ],
   "note": "LinesOf (Spec/Lines.lean) relates a text to its lines without and with their ends; C95_lines: every text has them. C95_kept, C95_encoded, C95_same for all texts and formats, C95_cells without escape character; the violated theorems show what happens outside of the hypotheses."
  },
  {
   "property": "C96",
   "status": "proved",
   "theorems": [
    "Csvw.Props.C96_roundtrip",
    "Csvw.Props.C96_dsv",
    "Csvw.Props.C96_file",
    "Csvw.Props.C96_zip",
    "Csvw.Props.C96_writes",
    "Csvw.Props.C96_text",
    "Csvw.Props.C96_returned",
    "Csvw.Props.C96_violated_zip",
    "Csvw.Props.C96_violated_returned",
    "Csvw.Props.C96_violated_name",
    "Csvw.Props.C96_example",
    "Csvw.Props.C96_lines",
    "Csvw.Props.C96_violated_lines",
    "Csvw.Props.C96_keyword",
    "Csvw.Props.C96_keyword_text"
   ],
   "note": "C96_roundtrip (tables: files, zip archives and URLs), C96_dsv (UnicodeWriter and UnicodeReader), from C96_file, C96_zip (bytes are read as the text), C96_writes (when writing succeeds), C96_text (utf-8 files, with or without byte order mark), C96_returned (fname=None). C96_keyword, C96_keyword_text: encoding as keyword argument. C96_lines: lists of encoded lines. C96_violated_zip, C96_violated_returned, C96_violated_name, C96_violated_lines: the exceptions. C96_example: the hypotheses are met by utf-8 (with Lean core encoder and decoder), utf-8-sig and latin-1."
  },
  {
   "property": "C97",
   "status": "proved",
   "theorems": [
    "Csvw.Props.C97_same",
    "Csvw.Props.C97_uniform",
    "Csvw.Props.C97_written",
    "Csvw.Props.C97_written_dialect",
    "Csvw.Props.C97_rewrite",
    "Csvw.Props.C97_rewrite_success",
    "Csvw.Props.C97_rewrite_atomic",
    "Csvw.Props.C97_other",
    "Csvw.Props.C97_violated_blank"
   ],
   "note": "C97_violated_blank: blank rows may be different, and files with other line breaks may raise csv.Error with the argument. C97_same is for '\\n' and '\\r\\n'."
  }
 ]
}