{"id": "C01", "title": "Default writer/reader round-trip", "statement": "Any list of rows of strings written with UnicodeWriter() and read back with UnicodeReader() (no dialect) is returned unchanged: same rows, same cells, same order, whatever quotes, delimiters, CR/LF or blank cells they contain (cells up to the csv module's field limit, file not starting with U+FEFF).", "quantifier": "all lists of rows, all row lengths including 0, all cell contents up to the field limit", "why_tests_cant": "The space of cell contents (quotes, delimiters, CR, LF in every combination and position) is infinite and the failure cases are adversarial combinations.", "anchors": ["src/csvw/dsv.py:UnicodeWriter", "src/csvw/dsv.py:UnicodeReader"]}
{"id": "C02", "title": "Dialect writer/reader round-trip", "statement": "For every Dialect with a quote character, doubleQuote on, no comment prefix, no skipping and no trimming, rows written with UnicodeWriter(dialect=d) are read back unchanged by UnicodeReader(dialect=d), for every delimiter/quote character and line terminator CRLF, LF or CR.", "quantifier": "all dialects of that family, all rows and cells", "why_tests_cant": "Ranges over all delimiter/quote characters as well as all data.", "anchors": ["src/csvw/dsv_dialects.py:Dialect.as_python_formatting_parameters", "src/csvw/dsv.py:UnicodeWriter", "src/csvw/dsv.py:UnicodeReader"]}
{"id": "C03", "title": "Escape-character dialect round-trip", "statement": "With doubleQuote=False (backslash escaping) writing and re-reading returns the rows unchanged for all cells; where cells contain the escape character the exact effect is determined by the csv module's version.", "quantifier": "all rows and cells; both behaviours of csv.writer (escapes / does not escape the escape character)", "why_tests_cant": "Interaction of two escaping layers over all strings; single examples pass while others are corrupted.", "anchors": ["src/csvw/dsv.py:UnicodeWriter.__init__", "src/csvw/dsv_dialects.py:Dialect.escape_character"]}
{"id": "C04", "title": "No silent corruption with quoting disabled", "statement": "With quoteChar=None, writing a row either raises an error or produces text which reads back as exactly the same row; a row is never silently altered.", "quantifier": "all rows and cells", "why_tests_cant": "Needs every combination of special characters in unquoted cells.", "anchors": ["src/csvw/dsv.py:UnicodeWriter", "src/csvw/dsv_dialects.py:Dialect.as_python_formatting_parameters"]}
{"id": "C05", "title": "Reader yields exactly the non-skipped rows, trimmed", "statement": "Iterating a UnicodeReader with a dialect yields, in order, exactly those csv rows that are not comment rows, not blank rows (when skipBlankRows) and not within the first skipRows lines, each cell trimmed per `trim` and the first skipColumns cells dropped.", "quantifier": "all dialect settings and all sequences of raw rows", "why_tests_cant": "Loop with three interacting skip conditions and a running line counter; correctness is about all row sequences.", "anchors": ["src/csvw/dsv.py:UnicodeReader.__next__", "src/csvw/dsv_dialects.py:Dialect.trimmer"]}
{"id": "C06", "title": "Reader comments are exactly the comment/skipped rows", "statement": "After reading to the end, reader.comments holds, in order, one entry for each row that starts with commentPrefix or is a non-blank row among the first skipRows lines, with its line number and stripped text, and nothing else; no row is both yielded and recorded as comment.", "quantifier": "all dialect settings and all row sequences", "why_tests_cant": "Side-effect collected across a stateful loop.", "anchors": ["src/csvw/dsv.py:UnicodeReader.__next__"]}
{"id": "C07", "title": "Line numbers of rows", "statement": "UnicodeReaderWithLineNumber reports strictly increasing numbers; the number reported with a row is exactly 1 + the number of csv rows before it (skipped, comment or data) + the number of line feeds inside the cells of these rows and of the row itself. For a file written in the default format this is the text line where the row ends, hence the line where it starts if no cell has a line feed. (The documented claim, that it is always the line where the row starts, is false: witnesses for multi-line cells and for carriage returns.)", "quantifier": "all inputs, including multi-line cells, comments and skipped rows", "why_tests_cant": "Depends on all distributions of newlines in cells and skipped rows.", "anchors": ["src/csvw/dsv.py:UnicodeReaderWithLineNumber", "src/csvw/dsv.py:UnicodeReader._next_row"]}
{"id": "C08", "title": "Dict reader maps every row completely", "statement": "Each dict from UnicodeDictReader has every field name as key; cell j is the value of field name j; missing cells get restval; surplus cells go, all of them and in order, under restkey; blank rows are skipped.", "quantifier": "all headers without duplicates, all row lengths", "why_tests_cant": "All relations between header length and row length.", "anchors": ["src/csvw/dsv.py:UnicodeDictReader.item", "src/csvw/dsv.py:UnicodeDictReader.__next__"]}
{"id": "C09", "title": "Dict rows written with a single header", "statement": "UnicodeWriter.writerows called any number of times with dict rows writes the header (keys of the first dict) exactly once, before all data rows. Reading with UnicodeDictReader gives for each dict the keys of the first dict paired by position with the values of the dict (None as empty string); so dicts with the same keys in the same order are read back unchanged, whereas dicts with the same keys in another order are read back with exchanged values (witness).", "quantifier": "all sequences of writerows calls", "why_tests_cant": "History-dependent (the counter _rows_written persists between calls).", "anchors": ["src/csvw/dsv.py:UnicodeWriter.writerows"]}
{"id": "C10", "title": "rewrite never leaves a half-written file", "statement": "At every crash point or visitor/reader exception during rewrite/add_rows/filter_rows_as_dict with the temporary file on the file system of the target, the target file holds either its complete old content or its complete new content; an exception leaves it alone on any file systems. With the temporary file on another file system (shutil.move copies) the target can be left incomplete (witness), but then the temporary file still holds the complete new content.", "quantifier": "all files, visitors, and every prefix of the sequence of file operations", "why_tests_cant": "Requires interrupting at each step.", "anchors": ["src/csvw/dsv.py:rewrite", "src/csvw/dsv.py:add_rows"]}
{"id": "C11", "title": "rewrite applies the visitor to every row", "statement": "After rewrite(fname, visitor) the rows of the file are exactly r' = visitor(i, r) for the i-th old row, omitting those for which the visitor returned None; with the default format (and dialects without skipping, trimming or comment rows) reading gives exactly these rows, and the identity visitor leaves the rows unchanged; a dialect with skipRows, skipColumns, trim or comments is applied to them again when reading, so that e.g. rewriting with the identity loses lines (witness). If rewrite succeeds, the old content was read completely and the visitor succeeded on every row.", "quantifier": "all files, visitors", "why_tests_cant": "Quantifies over functions and files.", "anchors": ["src/csvw/dsv.py:rewrite"]}
{"id": "C12", "title": "filter_rows_as_dict keeps the matching rows and counts the removed ones", "statement": "After filter_rows_as_dict(fname, f) the header and exactly the non-blank rows for which f is true remain in order, and the returned number is the number of non-blank rows for which f is false; this is the number of rows removed if there are no blank rows (blank rows are removed without being counted: witness).", "quantifier": "all files and predicates", "why_tests_cant": "Includes blank and ragged rows.", "anchors": ["src/csvw/dsv.py:filter_rows_as_dict", "src/csvw/dsv.py:DictFilter"]}
{"id": "C13", "title": "add_rows appends", "statement": "After add_rows(fname, *rows) the file reads back as its previous rows followed by the new rows (or just the new rows if it did not exist); successive calls concatenate.", "quantifier": "all files and sequences of calls", "why_tests_cant": "History of calls over arbitrary contents.", "anchors": ["src/csvw/dsv.py:add_rows"]}
{"id": "C14", "title": "Dialect properties are always valid", "statement": "Constructing a Dialect from arbitrary JSON property values either raises or gives an object whose counts are non-negative ints, flags are bools, delimiter/encoding strings and trim one of the four keywords; a value of the wrong type is replaced by the documented default with a warning and valid values are kept.", "quantifier": "all JSON values for every property", "why_tests_cant": "All types and values per property (bool-is-int, lists, None).", "anchors": ["src/csvw/dsv_dialects.py:Dialect", "src/csvw/utils.py:converter"]}
{"id": "C15", "title": "Dialect serialization round-trip", "statement": "Dialect(**d.asdict()) == d for every valid dialect, with defaults omitted or not; updated(**kw) changes exactly the given properties.", "quantifier": "all dialects", "why_tests_cant": "Omission of defaults must be invertible for each combination.", "anchors": ["src/csvw/dsv_dialects.py:Dialect.asdict", "src/csvw/utils.py:attr_asdict"]}
{"id": "C16", "title": "Normalized names are valid Python identifiers", "statement": "utils.normalize_name(s), if it returns, is a non-empty string of ASCII letters, digits and underscores not starting with a digit; slug(s) has only ASCII letters and digits: those of s decomposed, without marks (in lower case, if wanted), in order, and it raises AssertionError iff there is a control character; with remove_whitespace=False runs of whitespace become one space. For every ASCII string s, with dashes, dots and spaces read as underscores: a keyword is returned with an underscore appended; otherwise AssertionError is raised iff s has a control character that is not whitespace, and else the letters, digits and underscores of s are returned, with an underscore in front unless they begin with a letter or underscore. So the result is not a keyword, except if s is none but its letters, digits and underscores form one (class! gives class: witness).", "quantifier": "all strings and any Unicode database (shape of the result); all ASCII strings (exact result)", "why_tests_cant": "All strings.", "anchors": ["src/csvw/utils.py:normalize_name", "src/csvw/utils.py:slug"]}
{"id": "C17", "title": "boolean round-trip and exclusivity", "statement": "For datatype boolean (default or format 'T|F' with distinct tokens) read(formatted(b)) == b; read accepts exactly the listed tokens and maps them to the right value, rejecting every other string with ValueError.", "quantifier": "all format strings and all cell strings", "why_tests_cant": "All strings.", "anchors": ["src/csvw/datatypes.py:boolean"]}
{"id": "C18", "title": "Bounded integer types accept exactly their range", "statement": "For each integer datatype (without format and constraints): any value returned by read is an int within the documented range of the datatype; the decimal numeral of n (of up to 4300 digits) is read as n iff n is within the range and has at most 28 significant digits (for the types with two bounds: iff n is in the range, whatever its size); a numeral of less than 29 digits out of range raises ValueError; leading zeros and + are accepted. Which other texts are accepted is exactly determined: x is read as n iff datatype decimal reads x as a number equal to n and n is in range (C59 gives the texts). (So other lexical forms than numerals are accepted, and large numerals of unbounded types are rounded: witnesses.)", "quantifier": "all strings, all integers, all 13 integer datatypes", "why_tests_cant": "Unbounded integers and strings.", "anchors": ["src/csvw/datatypes.py:integer.to_python", "src/csvw/datatypes.py:unsignedByte"]}
{"id": "C19", "title": "integer round-trip", "statement": "For datatype integer without format, read(formatted(n)) == n iff n has at most 28 significant digits and at most 4300 digits (Python's limit for formatting ints); in particular for all n below 10^28 in absolute value. (Not for every int: reading rounds to the 28 digits of the default decimal context, witness 10^28+1.)", "quantifier": "all integers", "why_tests_cant": "Unbounded; fails only past a size no test uses.", "anchors": ["src/csvw/datatypes.py:decimal.to_python", "src/csvw/datatypes.py:decimal.to_string"]}
{"id": "C20", "title": "decimal round-trip", "statement": "For datatype decimal without format, read(formatted(d)) == d for a finite Decimal d = ±c·10^e iff e <= 0, or d is zero, or c has exactly two digits. (Numbers with positive exponent and other coefficients are formatted wrongly, numbers of more than 28 digits are rounded: witnesses.)", "quantifier": "all finite decimals of at most 28 digits (the precision of the default decimal context) with exponents from -1000026 to 999972", "why_tests_cant": "Exponent/coefficient combinations; correct for common shapes only.", "anchors": ["src/csvw/datatypes.py:decimal.to_string", "src/csvw/datatypes.py:decimal.to_python"]}
{"id": "C21", "title": "decimal with groupChar/decimalChar round-trip", "statement": "For datatype decimal with format {groupChar: g, decimalChar: d}, read(formatted(x)) == x for x = ±c·10^-k iff (g or d is the comma, or |x| < 1000) and (g is not the point, or x is zero or |x| >= 10^-6); with groupChar only: iff (g is the comma or |x| < 1000) and (g is not the point, or x is zero or an integer given without decimals); with decimalChar only: always. (So {groupChar: space} does not round-trip 1000: witness.)", "quantifier": "all decimals of at most 28 digits with non-positive exponent; all group/decimal characters other than digits, signs, e and E, either given or absent", "why_tests_cant": "Combination of presence/absence of the two characters and all values.", "anchors": ["src/csvw/datatypes.py:decimal.to_string"]}
{"id": "C22", "title": "hexBinary round-trip", "statement": "read(formatted(b)) == b for all bytes b; formatted(read(s)) is s with letters upper-cased for every accepted s; odd-length or non-hex strings raise ValueError.", "quantifier": "all byte strings; all strings", "why_tests_cant": "Unbounded strings.", "anchors": ["src/csvw/datatypes.py:hexBinary"]}
{"id": "C23", "title": "base64Binary round-trip", "statement": "read(formatted(b)) == b for all bytes b (despite line breaks inserted every 76 characters).", "quantifier": "all byte strings", "why_tests_cant": "Length-dependent padding and line breaking.", "anchors": ["src/csvw/datatypes.py:base64Binary"]}
{"id": "C24", "title": "normalizedString normal form", "statement": "Reading a normalizedString gives a string without CR, LF, TAB, without leading/trailing whitespace; reading is idempotent and leaves already normalized strings unchanged.", "quantifier": "all strings", "why_tests_cant": "All strings.", "anchors": ["src/csvw/datatypes.py:normalizedString"]}
{"id": "C25", "title": "String formats are matched against the whole value", "statement": "A string cell with a valid regex format (and within the length limits) is accepted iff the regex matches the whole value, or the value ends in a line feed and the regex matches everything before it; so it must match the whole of every value not ending in a line feed. An invalid regex is ignored. (Full match for all values fails: format \"a\" accepts \"a\\n\".)", "quantifier": "all regexes and all strings", "why_tests_cant": "All strings; the anchor has an exception.", "anchors": ["src/csvw/datatypes.py:string"]}
{"id": "C26", "title": "Datatype.read returns only values satisfying the constraints", "statement": "Datatype.read(s) returns v iff v is the value parsed from s and v satisfies the constraints of the datatype: all bounds for numeric, date and time types (numbers with infinities; instants for date-times, which are not comparable if only one has a timezone), the lengths for strings, binary values and JSON documents (characters, bytes, items, members). For anyURI the length compared is always 5, and bounds of durations are never checked.", "quantifier": "all datatypes with constraints, all strings", "why_tests_cant": "All combinations of the nine constraints and values.", "anchors": ["src/csvw/metadata.py:Datatype.validate", "src/csvw/metadata.py:Datatype.read"]}
{"id": "C27", "title": "Contradictory datatype constraints are rejected at construction, except through zero", "statement": "Constructing a Datatype with contradictory lengths raises ValueError. For an integer datatype it succeeds iff there are no nonzero lengths, no inclusive and exclusive bound on one side and no empty interval, where a bound of 0 counts as absent and minimum/maximum are never compared; the same checks hold for decimal bounds, and for date/time bounds they hold without exception. On a type not supporting them, nonzero lengths and bounds which count as true are rejected.", "quantifier": "all constraint values and base types", "why_tests_cant": "All constraint values, including falsy ones such as 0.", "anchors": ["src/csvw/metadata.py:Datatype.__attrs_post_init__"]}
{"id": "C28", "title": "Number pattern validation", "statement": "For every numeric datatype with a number pattern as format (digit groups of # and 0, fraction digits, and optionally exponent digits, a percent or permille sign and a negative pattern), a number which read accepts has at least the required and at most the allowed number of fraction digits, at most the allowed number of exponent digits, a last digit group of exactly the size given in the pattern and other groups of the secondary size (the first may be shorter), and at least as many significant integer digits as there are 0 at the end of the last group; NumberPattern.is_valid is true exactly for the numbers with these properties; a format with two ; accepts nothing. (Leading zeros are not counted, 0 before the last group are ignored, required digits are ignored for percent patterns without decimal point, and exponent digits count as integer digits in numbers without decimal point.)", "quantifier": "all patterns, numbers, numeric datatypes", "why_tests_cant": "All patterns and strings.", "anchors": ["src/csvw/datatypes.py:NumberPattern"]}
{"id": "C29", "title": "Date format round-trip", "statement": "For each of the 14 supported date patterns, formatting a date and reading it back gives the same date; a text of the form of the pattern is read as its date, or rejected if there is no such date; every accepted text begins (after whitespace) with a text of the form. Text after the date is ignored rather than rejected, except for yyyy-MM-dd and yyyyMMdd.", "quantifier": "all valid dates, all 14 date patterns, all strings", "why_tests_cant": "All dates and patterns.", "anchors": ["src/csvw/datatypes.py:dt_format_and_regex", "src/csvw/datatypes.py:dateTime._parse"]}
{"id": "C30", "title": "Inherited properties come from the nearest ancestor", "statement": "column.inherit(p) is the value of the nearest of column, schema, table, table group which has one, for every inheritable property except default and lang, which are never inherited (their class default on the column wins), and null, where an explicit [\"\"] counts as unset.", "quantifier": "all inheritable properties, all chains of descriptions", "why_tests_cant": "Chains of any length and all properties, including those whose unset value is not None.", "anchors": ["src/csvw/metadata.py:Description.inherit", "src/csvw/metadata.py:Description.inherit_null"]}
{"id": "C31", "title": "Scalar cell round-trip", "statement": "For a column without separator, Column.read(Column.write(v)) == v for every value v which the datatype round-trips (strings, booleans, integers, decimals, binary values, dates shown) and whose serialization is not empty when a default is set and not one of the null markers; None round-trips if the column is not required, has null markers and no default.", "quantifier": "all columns, datatypes with round-trip, values", "why_tests_cant": "All interactions of null, default, required, datatype.", "anchors": ["src/csvw/metadata.py:Column.read", "src/csvw/metadata.py:Column.write"]}
{"id": "C32", "title": "List-valued cell round-trip", "statement": "For a column with separator, Column.read(Column.write(vs)) == vs for every non-empty list of values (or None) whose serializations followed by the separator do not contain the separator earlier and whose joined text is neither empty nor a null marker; in particular for one-character separators outside null markers and items which are neither empty nor null markers nor contain it. The empty list round-trips in columns without default which are not required.", "quantifier": "all lists and separators", "why_tests_cant": "Lists of any length with None items.", "anchors": ["src/csvw/metadata.py:Column.read", "src/csvw/metadata.py:Column.write"]}
{"id": "C33", "title": "Required columns never yield null (except json null)", "statement": "If Column.read succeeds on a required column, then the cell (the default for an empty cell) was not a null marker and the returned value is not None, unless the datatype is json (the document null gives None); a null marker in a required column raises ValueError.", "quantifier": "all columns and cells", "why_tests_cant": "All null lists/defaults.", "anchors": ["src/csvw/metadata.py:Column.read"]}
{"id": "C34", "title": "Schema invariants", "statement": "A successfully constructed Schema has pairwise different names for its non-virtual named columns, all virtual columns after all non-virtual ones, and columns numbered from 1.", "quantifier": "all column lists", "why_tests_cant": "All column lists.", "anchors": ["src/csvw/metadata.py:Schema.__attrs_post_init__"]}
{"id": "C35", "title": "Every row dict has every declared column", "statement": "Each dict yielded by Table.iterdicts contains a key for every non-virtual column of the schema; columns not present in the data have value None.", "quantifier": "all schemas, all data files", "why_tests_cant": "All header/row shapes.", "anchors": ["src/csvw/metadata.py:Table.iterdicts"]}
{"id": "C36", "title": "Column order in the data file is irrelevant in strict mode, and decisive in non-strict mode", "statement": "In strict mode, permuting the columns of a data file with header (header and all rows consistently; distinct headers, full rows) changes neither the rows and values read for each column nor whether an exception occurs. In non-strict mode columns are matched by position: the texts of the header cells play no role (for rows with a cell per header cell), so a permutation does change the values.", "quantifier": "all permutations, tables, rows", "why_tests_cant": "All permutations.", "anchors": ["src/csvw/metadata.py:Table.iterdicts", "src/csvw/metadata.py:Schema.get_column"]}
{"id": "C37", "title": "Table write/read round-trip", "statement": "Rows written with Table.write are returned by Table.iterdicts as the same dicts, for schemas whose columns round-trip.", "quantifier": "all schemas, row lists", "why_tests_cant": "Whole pipeline over all data.", "anchors": ["src/csvw/metadata.py:Table.write", "src/csvw/metadata.py:Table.iterdicts"]}
{"id": "C38", "title": "With a log, invalid rows are skipped and valid rows are kept", "statement": "With a log, Table.iterdicts does not raise because of cells rejected with ValueError; it yields exactly the rows without errors, in order, with the values they have in strict reading; a row with any other exception ends the iteration with it after the valid rows before. Without a log it raises the exception of the first invalid row after having yielded the rows before it. A row is valid iff all its cells are.", "quantifier": "all data and schemas", "why_tests_cant": "All patterns of invalid rows and of error kinds.", "anchors": ["src/csvw/metadata.py:Table.iterdicts", "src/csvw/metadata.py:log_or_raise"]}
{"id": "C39", "title": "check_primary_key is exact", "statement": "check_primary_key returns True, with or without log, iff the data can be read and its valid rows have hashable values in all primary key columns and no two of them agree on all of these. Otherwise: with a log it returns False for duplicates and raises KeyError/TypeError for rows without usable key; without a log it raises ValueError for duplicates. A table without primary key passes.", "quantifier": "all tables and primary keys (single and composite)", "why_tests_cant": "All rows.", "anchors": ["src/csvw/metadata.py:Table.check_primary_key"]}
{"id": "C40", "title": "check_referential_integrity is exact", "statement": "check_referential_integrity returns True, with or without log, iff the schema is valid, all foreign keys can be checked (tables exist, data readable, columns referenced by header, hashable values) and every non-null foreign key value (each item of list-valued single keys, null items included) of every table occurs as key in the referenced table. For checkable groups the result with a log is False otherwise, and ValueError is raised without. In strict mode null keys raise ValueError and duplicate referenced keys give False.", "quantifier": "all table groups, foreign keys and data", "why_tests_cant": "Sorting and grouping of foreign keys must lose none; all data.", "anchors": ["src/csvw/metadata.py:TableGroup.check_referential_integrity", "src/csvw/metadata.py:TableGroup.foreign_keys"]}
{"id": "C41", "title": "validate_schema is exact", "statement": "validate_schema raises ValueError iff some foreign key references a missing table or column, has different numbers of columns on its two sides, or pairs two columns which both have an own datatype, with different bases (columns without own datatype are not compared). (All foreign keys have a resource; in non-strict mode property URLs are valid.)", "quantifier": "all table groups", "why_tests_cant": "All schemas.", "anchors": ["src/csvw/metadata.py:TableGroup.validate_schema"]}
{"id": "C42", "title": "Strict writing rejects unknown fields", "statement": "Table.write(strict=True) raises ValueError iff some row dict has a key that is not a column; otherwise unknown keys are ignored and the output does not depend on them or on key order.", "quantifier": "all schemas and rows", "why_tests_cant": "All rows.", "anchors": ["src/csvw/metadata.py:Table.write"]}
{"id": "C43", "title": "Database tables are created in dependency order", "statement": "The list of tables for the SQL schema consists of one table per table name of the group and per list-valued foreign key (association tables named {table}_{referenced table}), and each table comes after all tables its foreign keys reference (except itself); an association table comes after both tables it relates. (Of several tables with the same name, one is created.)", "quantifier": "all table groups", "why_tests_cant": "All dependency graphs.", "anchors": ["src/csvw/db.py:schema"]}
{"id": "C44", "title": "Which table groups have a database schema", "statement": "Creating the DB schema of a group with at most 100 tables (counting association tables) succeeds if its foreign keys are expressible (they reference tables of the group; list-valued ones relate tables with single-column primary keys) and acyclic, and association tables have fresh names; it fails if they are cyclic. Groups with more than 100 tables are always rejected, even without foreign keys (the ordering loop stops after 100 passes).", "quantifier": "all table groups of any size", "why_tests_cant": "Size-dependent (iteration bound).", "anchors": ["src/csvw/db.py:schema"]}
{"id": "C45", "title": "Composite foreign keys keep their column pairing in SQL", "statement": "The foreign keys of a table (other than list-valued, schema-referencing and dropped self-referential ones) become SQL foreign keys one by one, in order, with the same columns on both sides. The FOREIGN KEY clause pairs each referencing column with the referenced column it is paired with in the metadata if and only if the pairing respects the code point order of the column names (always so for single-column keys); otherwise the pairing is changed, since both sides are sorted independently.", "quantifier": "all foreign keys of any length", "why_tests_cant": "Orderings of column names.", "anchors": ["src/csvw/db.py:TableSpec.from_table_metadata"]}
{"id": "C46", "title": "List-valued string columns round-trip through the database", "statement": "A list of strings written to a separator column of string type is read back as the same list exactly if it is empty, or it is not [\"\"] and its items can be told apart after joining (the separator does not occur in the last item, and in any other item followed by the separator it occurs at the end only; for a one-character separator: no item contains it). [] is read back as [] and None as None. [\"\"] is read back as [] and \"a;b\" as two items: known defect of the code, stated and proved.", "quantifier": "all lists of strings and all non-empty separators", "why_tests_cant": "All lists.", "anchors": ["src/csvw/db.py:Database.write", "src/csvw/db.py:Database.read"]}
{"id": "C47", "title": "Database rows store each value under its own column", "statement": "If all row dicts of a table have the same keys in the same order, Database.write stores each value in the column named by its key, and NULL in the columns without key. In general values are stored by position: the n-th value of a row goes to the column named by the n-th key of the first row, and all rows must have as many values (so a dict with another key order has its values stored in other columns: known defect, stated and proved). Tables whose names only differ by case are one table for SQLite: the rows of both end up in the first (known defect, stated and proved).", "quantifier": "all tables, all lists of row dicts, all name translations without clashes (also not by names which only differ by case)", "why_tests_cant": "Key orders varying between rows.", "anchors": ["src/csvw/db.py:Database.write"]}
{"id": "C48", "title": "Many-to-many relations round-trip through the database", "statement": "For rows with pairwise different, non-empty string primary keys, and list-valued foreign keys whose items are non-empty strings without whitespace, Database.read gives for every row and every list-valued foreign key the list written, with order and repetitions ([] for None and for missing values), next to the values of the other columns. Keys with whitespace are truncated, references from rows with integer primary keys are lost, and rows with an empty primary key cannot be written (known defects, stated and proved).", "quantifier": "all tables, rows, keys, lists, number of list-valued foreign keys, also several to the same table", "why_tests_cant": "All key strings.", "anchors": ["src/csvw/db.py:Database.select_many_to_many", "src/csvw/db.py:Database.write"]}
{"id": "C49", "title": "Frictionless data packages become the table group they describe", "statement": "Converting a frictionless data package gives a table group with one table per resource which is a CSV file with a schema, in order; the table has the path as URL, one column per field in order, with the name, title, description, type and format of the field, and the primary key, null values, foreign keys and dialect of the resource. minLength, maxLength, minimum and maximum are enforced when cells are read; the constraint required is lost (defect: no column of the group is ever required). The description of the package becomes common properties of the group.", "quantifier": "all data packages which can be converted", "why_tests_cant": "All combinations of properties, any number of resources, fields and keys.", "anchors": ["src/csvw/frictionless.py:convert_column_spec", "src/csvw/frictionless.py:convert_table_schema", "src/csvw/frictionless.py:convert_foreignKey", "src/csvw/frictionless.py:convert_dialect", "src/csvw/frictionless.py:DataPackage"]}
{"id": "C50", "title": "JSON-LD simplification", "statement": "For JSON-LD documents (where @value, and the @id of mere references, is a string, and no object has both @type and rdf:type), jsonld.to_json leaves no {\"@value\": x} or {\"@id\": x} object, renames rdf:type to @type, keeps all other keys and all items of lists in order (lists with one item are replaced by it if asked), and is idempotent. For other accepted values (numbers as @value) it raises TypeError.", "quantifier": "all JSON-LD documents of any depth; both flatten modes", "why_tests_cant": "Nested structures of any depth.", "anchors": ["src/csvw/jsonld.py:to_json"]}
{"id": "C51", "title": "Row triples are grouped without loss", "statement": "group_triples for a row without cell-level aboutUrl produces one object whose properties are those of the triples in the order of their first occurrence; the value of a property has exactly the values of its triples (in order if all are single values or all are lists).", "quantifier": "all lists of triples", "why_tests_cant": "All lists with repeated properties.", "anchors": ["src/csvw/jsonld.py:group_triples"]}
{"id": "C52", "title": "partition_properties partitions", "statement": "DescriptionBase.partition_properties puts every key of a description in exactly one of common properties (contains ':'), @-properties, or own properties; strict mode drops only unknown own properties, each with a warning.", "quantifier": "all JSON objects", "why_tests_cant": "All keys.", "anchors": ["src/csvw/metadata.py:DescriptionBase.partition_properties"]}
{"id": "C53", "title": "NaturalLanguage round-trip", "statement": "NaturalLanguage(v).asdict() read back gives an equal object, for strings, arrays and language maps.", "quantifier": "all values", "why_tests_cant": "All nested values.", "anchors": ["src/csvw/metadata.py:NaturalLanguage"]}
{"id": "C54", "title": "Metadata round-trip", "statement": "Datatype, column, schema, table and table group descriptions read from JSON (with distinct keys) survive asdict -> fromvalue, with or without omission of defaults: the description read again has the same properties, columns with the same numbers, keys and tables; only the order of common and @-properties may change, and properties with empty array or object values become absent. Precondition: bounds of datatypes can be formatted and parsed back, no invalid URI templates. Tables keep the dialect they are read with, except a table with the default dialect in a group which has a dialect: there the code loses the table dialect (proved as violation).", "quantifier": "all JSON descriptions which can be read, all values of omit_defaults", "why_tests_cant": "Each combination of set/unset properties, nested to any depth, with any number of columns and tables.", "anchors": ["src/csvw/metadata.py:DescriptionBase.asdict", "src/csvw/metadata.py:DescriptionBase.fromvalue", "src/csvw/metadata.py:Schema", "src/csvw/metadata.py:TableLike", "src/csvw/metadata.py:TableGroup", "src/csvw/utils.py:attr_asdict"]}
{"id": "C55", "title": "Common properties validation", "statement": "valid_common_property accepts a JSON value iff every nested object outside the values of @id and @language obeys the JSON-LD restrictions as implemented (@-keys, @value alone or with one of @type/@language, no blank node ids, no blank node as @type), raises only ValueError otherwise, and returns it with non-string @ids replaced by null and invalid @languages left out, otherwise unchanged; validation is idempotent.", "quantifier": "all JSON values", "why_tests_cant": "All nestings.", "anchors": ["src/csvw/metadata.py:valid_common_property"]}
{"id": "C56", "title": "Metadata discovery precedence", "statement": "For a data URL, CSVW.locate_metadata uses the Link header's metadata if it describes the data, else the first location (site-wide configuration or defaults, in order) whose metadata describes it, else a minimal description (provided the documents are regular); metadata not describing the data is never used, whatever the servers answer. For a local file the metadata file next to it is used if it exists, without checking that it describes the data.", "quantifier": "all server responses", "why_tests_cant": "All combinations of responses.", "anchors": ["src/csvw/metadata.py:CSVW.locate_metadata"]}
{"id": "C57", "title": "is_valid is true only without any problem", "statement": "CSVW.is_valid returns True iff neither loading, reading any table non-strictly, primary key checks nor referential integrity checks issue a warning or fail.", "quantifier": "all data sets", "why_tests_cant": "All problem combinations.", "anchors": ["src/csvw/metadata.py:CSVW.is_valid"]}
{"id": "C58", "title": "Rows read from the database equal the rows written", "statement": "Database.read gives for each table the rows written, with the same values in the same order, if every value is one which is read as it is written: strings, integers which fit into 64 bits (others raise OverflowError), Booleans, hexBinary, None; decimals as far as float conversion preserves them (NaN is stored as NULL and read as None, a signaling NaN raises ValueError); values of other datatypes exactly if the plain text of the value is parsed as the value again; times cannot be stored at all (AttributeError).", "quantifier": "all tables, all rows, all values of each datatype, all conversions of the database engine", "why_tests_cant": "All values of all datatypes and all rows.", "anchors": ["src/csvw/db.py:Database.write", "src/csvw/db.py:Database.read", "src/csvw/db.py:TYPE_MAP"]}
{"id": "C59", "title": "Lexical space of decimal and integer cells", "statement": "A cell text is read as a finite decimal exactly if it contains no e or E (whatever the format), no two adjacent group characters, is none of INF, -INF, NaN, and - after group characters are dropped, the decimal character is replaced by a point and a percent or permille sign is taken off - has the form [+-] digits [. digits] with at least one digit; its value is that numeral (scaled by 1/100 or 1/1000). Without a format and up to 28 digits the value is exact. INF, -INF and NaN are read as the infinities and not-a-number. A cell of an integer datatype is read as n exactly if the same text is read by decimal as a number equal to n and n is in the range of the datatype. All other texts raise ValueError or are not read.", "quantifier": "every cell text, every groupChar and decimalChar, every integer datatype", "why_tests_cant": "The lexical space and its complement are infinite; the claim is an equivalence over all strings and separators.", "anchors": ["src/csvw/datatypes.py: decimal.to_python, integer.to_python", "src/csvw/metadata.py: Datatype.read"]}
{"id": "C60", "title": "Which date and time formats are accepted", "statement": "Creating a Datatype with base dateTime, dateTimeStamp or time and a string format succeeds exactly if the format consists of one of the 14 date patterns and/or one of the 4 time patterns with optional fractions (.S…), joined by a blank or T, followed by an optional timezone marker of one to three x or X (mandatory for dateTimeStamp); any other format raises ValueError. For base date every format is accepted, and an unsupported one behaves like yyyy-MM-dd.", "quantifier": "all strings given as format, for each of the four base types", "why_tests_cant": "the set of formats is infinite in both directions; tests try a handful of accepted and rejected formats", "anchors": ["src/csvw/datatypes.py: dt_format_and_regex, dateTime.derived_description, date.derived_description, dateTimeStamp.derived_description, _time.derived_description"]}
{"id": "C61", "title": "Reading date-times and times with a format", "statement": "With a format made of a date pattern, a separator and a time pattern with n places for fractions of seconds (or only such a time pattern, for base time), a text of that form is read as the date-time it denotes (fractions truncated to microseconds; a time gets the current date), and rejected with ValueError if a field is out of range or the fraction has more than n digits. With yyyy-MM-dd or yyyyMMdd as date pattern the text is read as ISO 8601: any number of fraction digits is accepted if the pattern has seconds, hour 24 means the start of the next day, and a timezone after the text is taken over. With the other date patterns and no timezone marker a timezone after the text is ignored.", "quantifier": "all date patterns, separators, time patterns, numbers of fraction digits, and all texts of that form", "why_tests_cant": "there are infinitely many texts and formats; tests check a few dates", "anchors": ["src/csvw/datatypes.py: dateTime.to_python, dateTime._parse, _time.to_python, with_tz, dt_format_and_regex"]}
{"id": "C62", "title": "Date-times without format round-trip through ISO 8601", "statement": "For a Datatype with base dateTime and no format, every date-time (year 1–9999, microseconds, with or without a timezone offset of whole minutes) is written as its ISO 8601 text, and reading this text gives the same date-time. A dateTimeStamp without format reads the ISO 8601 text of every date-time — also of those without timezone.", "quantifier": "all date-times in the range of datetime.datetime", "why_tests_cant": "there are about 10^17 date-times; round-trip tests use a few", "anchors": ["src/csvw/datatypes.py: dateTime.to_python, dateTime.to_string, dateTimeStamp.derived_description"]}
{"id": "C63", "title": "Writing rows given as sequences assigns values to columns by position", "statement": "Table.write given rows as lists or tuples writes exactly what it writes for the dicts which assign the i-th value to the i-th non-virtual column (surplus values are ignored), and a row with fewer values than non-virtual columns makes the call raise (IndexError, when everything before can be written); it is never written as a truncated or padded row.", "quantifier": "every table description with distinct column names, every mixture of rows given as sequences and dicts, every dialect", "why_tests_cant": "ranges over all table descriptions, row lengths and positions of the short row", "anchors": ["src/csvw/metadata.py:Table.write"]}
{"id": "C64", "title": "JSON of a dataset lists all rows of all tables", "statement": "CSVW.to_json() gives an object whose tables are, in order, those without suppressOutput; each has its URL and, in order, an object for every row which is read from the data file, with consecutive rownum from 1, the URL with the line number in the source, and the objects which the row describes; in minimal mode the result lists the first described object of every row of these tables.", "quantifier": "all descriptions, data files and external functions", "why_tests_cant": "All numbers of tables, rows and kinds of data.", "anchors": ["src/csvw/metadata.py:CSVW.to_json", "src/csvw/metadata.py:CSVW._table_to_json", "src/csvw/metadata.py:CSVW._row_to_json"]}
{"id": "C65", "title": "A row of a plain table describes one object with its non-null cells", "statement": "For a table without URI templates and virtual columns, the JSON for a row is one object: a property for each cell in order, except for null values, suppressed columns and empty lists of columns with a separator of their own; the name is the one of the column, the value is the cell as JSON-LD literal.", "quantifier": "all such tables, rows with distinct names and external functions", "why_tests_cant": "All combinations of columns, nulls and values.", "anchors": ["src/csvw/metadata.py:CSVW._describes", "src/csvw/jsonld.py:Triple.from_col", "src/csvw/jsonld.py:group_triples"]}
{"id": "C66", "title": "Framing nests objects which are referenced once and loses none", "statement": "frame() of a graph keeps the objects which are not referenced exactly once, in order, with each reference to an object referenced exactly once merged with this object, at all depths; if such references form no cycle, every object is found in the result with all its properties.", "quantifier": "all lists of objects with distinct @ids", "why_tests_cant": "All reference graphs of any size and depth.", "anchors": ["src/csvw/jsonld.py:frame"]}
{"id": "C67", "title": "Date-times survive conversion to JSON", "statement": "In JSON a date-time is the ISO 8601 text (UTC as Z, fractions without trailing zeros), from which the datatype reads the same date-time, unless it has both a fraction of a second and a timezone whose text ends in 0; a date is given as ISO date (with timezone) whatever the format of the column.", "quantifier": "all valid date-times with any timezone offset", "why_tests_cant": "All dates, fractions and offsets.", "anchors": ["src/csvw/jsonld.py:format_value"]}
{"id": "C68", "title": "Which metadata a dataset can be opened with", "statement": "CSVW(url, md_url) succeeds exactly if the metadata (the document md_url or url if it is JSON, else what is located) is an object whose @context mentions the CSVW namespace, and it is a valid table description (without tables property) or a table group description whose tables property is a nonempty array (at a URL, with valid foreign keys). A missing namespace and an empty or non-array tables property raise ValueError; a table description without url is rejected. The tables are the objects of the tables array in order; column names beginning with _ or containing whitespace are removed and nothing else about the columns changes; no_metadata is true exactly if the metadata has only @context and url.", "quantifier": "all documents, URLs and answers of the network and file system", "why_tests_cant": "Ranges over all JSON documents", "anchors": ["src/csvw/metadata.py: CSVW.__init__, TableLike.from_file, TableLike.from_url, Table.__attrs_post_init__"]}
{"id": "C69", "title": "add_foreign_key appends a foreign key or rejects it", "statement": "table.add_foreign_key(colref, resource, ref_colref) appends exactly one foreign key with these columns (single names count as lists of one), changing nothing else, if every column in colref is the name of a column of the table; otherwise it raises ValueError and adds nothing.", "quantifier": "all tables, column references and resources", "why_tests_cant": "Ranges over all schemas and references", "anchors": ["src/csvw/metadata.py: Table.add_foreign_key, ForeignKey.fromdict, Reference"]}
{"id": "C70", "title": "Database.write is all or nothing and respects existing files", "statement": "Without force, write raises ValueError and leaves an existing database file untouched. Otherwise the file contains exactly what writing the rows into an empty database gives (independent of what it contained), or, if writing raises an exception at whatever point, tables without any row. In memory, rows of earlier calls are kept in order and new ones added after them; a failing call adds and removes no row.", "quantifier": "all schemas, rows, contents of the file, and all rows or statements at which the engine or the conversion may fail", "why_tests_cant": "Ranges over all failure points and earlier contents", "anchors": ["src/csvw/db.py: Database.write, Database.connection, insert"]}
{"id": "C71", "title": "Rows as named tuples", "statement": "Reading with NamedTupleReader (or iterrows(namedtuples=True)): if the normalized field names begin with a letter, are no keywords and are pairwise different, one tuple is yielded for each non-blank row, in order, whose fields are the normalized names in header order and whose j-th value is the j-th cell (restval for missing cells, surplus cells ignored); otherwise no tuple is yielded and the first non-blank row raises (ValueError if all names can be normalized). In particular empty field names and names beginning with a digit, which normalize_name \"repairs\" with a leading underscore, always make reading fail.", "quantifier": "all files, headers, restkey/restval and any Unicode database", "why_tests_cant": "the tuples must be right for every header and every row length", "anchors": ["src/csvw/dsv.py:NamedTupleReader", "src/csvw/dsv.py:iterrows", "src/csvw/utils.py:normalize_name"]}
{"id": "C72", "title": "Valid data can be loaded into the database", "statement": "If the tables of a schema are created with names which differ not only by case and the rows given to Database.write are valid (same keys in every row; values which the datatype of the column accepts; required columns present and not null; primary keys unique and not null; foreign keys referencing the primary key of an earlier table, or of the table itself for rows not after the row, by columns of the same datatype; list-valued foreign keys from a table with a primary key of one column, whose values are neither 0 nor empty, to existing rows), then no CREATE TABLE statement fails and no row is refused by NOT NULL, CHECK, PRIMARY KEY and FOREIGN KEY constraints: write succeeds. This holds for columns, list-valued or not, which have no bounds or lengths, and for columns which are not list-valued and are integer with bounds, or strings or hexBinary with lengths. It is violated for bounds of int and similar types (compared as text), lengths of base64Binary and of list-valued columns (checked for the stored text), bounds of dateTime (malformed SQL), values of datatype time (formatting fails), NaN in required columns of decimal numbers (stored as NULL), references to columns which are no primary key, columns whose names only differ by case, and a primary key 0 or '' in a table with a list-valued foreign key (an assertion fails). For a column with bounds the table can be created iff these are numbers or the datatype is date or datetime, in which case values are compared with the SQL function of that name.", "quantifier": "all schemas, name translations, data and SQL engines which refuse exactly the rows violating constraints", "why_tests_cant": "CHECK constraints are generated for every combination of datatype and bound, and must accept every valid value", "anchors": ["src/csvw/db.py:Database.write", "src/csvw/db.py:ColSpec.check", "src/csvw/db.py:TableSpec.sql", "src/csvw/db.py:insert"]}
{"id": "C73", "title": "URI templates in JSON output", "statement": "In CSVW.to_json the objects for a row are made from: the subject given by the aboutUrl of the schema or its ancestors; one triple for each cell shown (not null, not empty list, not suppressed, not of a virtual column) and one for each virtual column, whose property is the expanded propertyUrl (of the column or the nearest ancestor which sets it) or else the name, whose value is the expanded valueUrl or else the formatted cell, and whose subject is the expanded aboutUrl of the column itself. If some cell has a subject of its own, the graph consists of exactly the triples with own subjects and (if the row has a subject) those about the row, and the output is its framed and simplified objects, the object of the row first. If the row has no subject and the graph has exactly one object, the properties of the row are merged into this object. Violated: if the row has no subject and the graph has several objects, the properties of the row are lost.", "quantifier": "all tables, rows, templates, inheritance chains and any behaviour of template expansion and RDF serialisation", "why_tests_cant": "the triples depend on inheritance through three levels for three templates, for every row and every mix of cells with and without own subject", "anchors": ["src/csvw/metadata.py:CSVW._describes", "src/csvw/jsonld.py:Triple.from_col", "src/csvw/jsonld.py:group_triples"]}
{"id": "C74", "title": "A description written and read again describes the data in the same way", "statement": "If a table group description was read from JSON with distinct keys, and its values can be written (no invalid URI templates, no empty values of inherited properties), then asdict() gives JSON which can be read again, and the new description treats data in the same way: for each table iterdicts, write and check_primary_key give the same results for every text and all rows, and so do validate_schema, check_referential_integrity and is_valid for the group. Violated for empty inherited properties: required: [] shadows an inherited value, but is dropped when the description is written.", "quantifier": "all table group descriptions read from JSON, with any number of tables and columns, all data texts, all lists of rows", "why_tests_cant": "A test compares the JSON or a few rows; the claim is about what the reread description does with every possible file.", "anchors": ["src/csvw/metadata.py DescriptionBase.asdict 473-500, fromvalue 469", "src/csvw/metadata.py Description.inherit 736-757", "src/csvw/metadata.py TableGroup 1474"]}
{"id": "C75", "title": "A data set written to files is read back", "statement": "TableGroup.write(p, **data), zipped or not, for a description as in C74 without @base, existing directories and different files, succeeds; TableGroup.from_file(p).read() then gives, for each table, the rows iterdicts reads from the text Table.write gives for its rows; if the rows have the columns as keys and can be stored (C37), exactly data, if no cell contains a carriage return or the data are not zipped (C94).", "quantifier": "all table group descriptions, all data, all paths, all contents of the disk before, zipped or not, strict or not, all buffering", "why_tests_cant": "A round trip of a fixture says nothing about other descriptions, dialects, cell contents or files which exist already.", "anchors": ["src/csvw/metadata.py TableGroup.write 1505-1521, read 1499-1503", "src/csvw/metadata.py TableLike.to_file 1106-1118, from_file 1081-1090, base 1120-1137", "src/csvw/metadata.py Table.write 1226-1278, iterdicts 1330-1358", "src/csvw/metadata.py Link.resolve 300-311"]}
{"id": "C76", "title": "Interrupted and failing TableGroup.write", "statement": "At whatever point TableGroup.write is interrupted: files other than the metadata file and the data files named are as before, and the metadata file is as before unless all data files named are complete. If the rows of a table cannot be written, or there is no such table, the exception is raised, the data files of tables before are complete, and those of tables after and the metadata file are never changed; the data file of the table itself holds the rows before the first bad one. Violated for old content: a failing write loses what the data file contained; if the directory of the metadata file does not exist, files in the directory above are replaced before the exception; an invalid URI template makes write destroy the metadata file.", "quantifier": "all descriptions, rows, disks, all points of interruption (prefixes of the sequence of operations on files), all buffering", "why_tests_cant": "Tests do not interrupt a write at every point, nor make every row of every table fail.", "anchors": ["src/csvw/metadata.py TableGroup.write 1505-1521", "src/csvw/metadata.py Table.write 1226-1278", "src/csvw/metadata.py TableLike.to_file 1106-1118"]}
{"id": "C77", "title": "Copying a data set", "statement": "TableGroup.copy(dest) of a table group read from a file (description as in C74, without @base), if dest is a directory and the new files are different from the old data files, succeeds: reading the data set from dest, with a new object or the same one, gives the same result (rows or exception) as before, and no other file is changed. Violated: if dest does not exist, data files are written to its parent before an exception is raised; with @base the copy refers to the old location; zipped data cannot be copied.", "quantifier": "all descriptions, all data files (also malformed ones), all disks and directories", "why_tests_cant": "A test copies one fixture into an empty directory; the claim is about all data and everything else on the disk.", "anchors": ["src/csvw/metadata.py TableGroup.copy 1523-1535", "src/csvw/metadata.py Link.resolve 300-311", "src/csvw/metadata.py TableLike.base 1120-1137"]}
{"id": "C78", "title": "URI templates are expanded relative to the location of the table", "statement": "Expanding an aboutUrl/propertyUrl/valueUrl template for a row: a template which is a QName `prefix:name` with one of the known namespaces gives the URL of the namespace followed by the name (or, where QNames are wanted, the QName again), whatever the row. Any other template is expanded with the values of the row and the result is resolved against the location of the data: against the URL of the table if it has one, otherwise (a local file) a URL is left as it is and anything else becomes a path relative to the directory of the data file. Where QNames are wanted, a URL in one of the known namespaces is abbreviated, and any other string is left as it is. An invalid template gives the location of the data. The qualifications are necessary: variables in QNames are not expanded, what follows a second colon is lost, tables with columns called self, _row or _name cannot be expanded at all, and @base in the @context of a group is not used for its tables.", "quantifier": "all templates, rows, base locations, table URLs and file systems; any external template engine and URL join", "why_tests_cant": "The namespaces overlap in their text (http://www.w3.org/ns/… is a common stem of many), so that first-match prefix search is only right because the list is prefix-free; templates, rows and locations are unbounded.", "anchors": ["src/csvw/metadata.py: NAMESPACES, Link.resolve, TableLike.base, TableLike.expand"]}
{"id": "C79", "title": "Warnings about descriptions", "statement": "Reading a JSON description (of a table group, table, schema, column, datatype or dialect) issues no warning if and only if the description is clean: every object has only the properties defined for its kind, common properties are well-formed at every depth (@id strings, @language tags), every value has the type required for its property, datatypes are known and their formats fit, column names do not start with _ and have no whitespace, headers of non-virtual columns are different, primary keys refer to named columns, encodings are known. If no warning is issued, the resulting object has all the given properties with the given values: nothing is dropped and no default replaces a given value.", "quantifier": "all JSON documents with distinct keys which can be read without exception, all regular expression compilers, language tag checkers, codec registries", "why_tests_cant": "the warnings are issued by two dozen converters at arbitrary depth of arbitrary documents; a test checks one property of one document", "anchors": ["src/csvw/utils.py: converter", "src/csvw/metadata.py: DescriptionBase.partition_properties, valid_common_property, valid_id_property, Datatype, Description, Column, Schema, dialect_props, valid_transformations, TableLike, converter_tables, converter_foreignKeys"]}
{"id": "C80", "title": "csvwvalidate", "statement": "The command csvwvalidate exits with status 0 if and only if the metadata is found without warning, the data set can be opened, its description is clean, every table is read without exception or warning and passes the check of its primary key, and references are intact. Problems of the description give status 1 without looking at the data; the status is 2 if and only if ValueError is raised, in particular for documents without the context of CSVW or with an empty list of tables. If the data set is opened without warning, the description object has all the given properties with the given values.", "quantifier": "all URLs, documents, file systems and web servers, all data", "why_tests_cant": "the verdict must be right for all documents and data, including the combination of many checks at different places", "anchors": ["src/csvw/__main__.py: csvwvalidate", "src/csvw/metadata.py: CSVW.__init__, CSVW.is_valid, CSVW.locate_metadata"]}
{"id": "C81", "title": "Data files reach the database unchanged (write_from_tg, csvw2sqlite)", "statement": "If Database(tg, fname).write_from_tg() (or the command csvw2sqlite) succeeds, then for every table of the group the database has a table with its (translated) name and one row per data row of the CSV file, in file order, in which every column holds the value which the file has in the column of this name (and Database.read returns these rows); provided no data row of the file is shorter than the header row, or the header lists the columns in the order of the schema. Without _skip_extra no cell of a file is left out: a column which the metadata does not describe is an error. What csvw2sqlite writes does not depend on what was in the file before. If a file cannot be read, the database is not touched; after any failure it is untouched or holds only empty tables. Violations: if the first data row is short and the file has another column order than the schema, the values of later rows are stored under the wrong columns; tables named self, force, _exists_ok or _skip_extra cannot be written.", "quantifier": "all table groups, disks and data files, all contents of the database before, all name translators which keep table names distinct (also when case is ignored)", "why_tests_cant": "The order in which row dicts have their keys depends on the header, on the schema and on how many cells each row has; tests use files whose columns are in schema order and whose rows are complete.", "anchors": ["src/csvw/db.py: Database.write_from_tg, Database.write, Database.read, schema", "src/csvw/metadata.py: TableGroup.read, Table.iterdicts", "src/csvw/__main__.py: csvw2sqlite"]}
{"id": "C82", "title": "The Markdown documentation covers the whole dataset", "statement": "metadata2markdown (and the command csvw2markdown) produces, whenever it succeeds, a text which consists of the title, description, image and table of all non-empty common properties of the dataset, followed by one section per table, in order, with an anchor, the properties of the table, its dialect if it differs from the default, and exactly one row per column, in order, with name (linked to its property URL), datatype (with choices or regular expression, bounds and separator) and description, primary key and reference; every reference to a table of the dataset is a link to the anchor of its section; each row has exactly three cells if the texts have no bars; qualified names are linked to the URL they stand for; values inside objects are escaped without loss. It succeeds exactly if all tables have a dialect, descriptions and formats are texts, and table names have no control characters. Known defects are stated as theorems.", "quantifier": "all table groups (with any number of tables, columns, keys, properties of any nesting), all states of the file system, all qualified names and all texts", "why_tests_cant": "Tests render two or three fixed datasets; completeness, order, the correspondence of links and anchors and the shape of rows must hold for every description", "anchors": ["src/csvw/utils.py:metadata2markdown", "src/csvw/utils.py:qname2url", "src/csvw/utils.py:slug", "src/csvw/__main__.py:csvw2markdown"]}
{"id": "C83", "title": "The commands describe, convert and publish a whole dataset", "statement": "csvwdescribe asks frictionless for a description of exactly the given files (a single file without wildcard as CSV file, otherwise a package; with the delimiter, if given) and prints a description of a group with one table per described CSV file which has a schema; the document can be read again, gives the same group, and can be opened as CSVW dataset if there is such a file. csvw2json prints an object for every table which is not suppressed, with an object for each row. csvw2datasette, if it succeeds, leaves a new database with all rows of all tables in their columns and a metadata file with exactly the title, description and license of the dataset; an existing database is never touched; after an error the metadata is as before and the database is as before or newly made with empty tables. Known defects (a description without CSV files cannot be opened) are stated as theorems.", "quantifier": "all lists of files, delimiters and answers of frictionless, all documents, file systems, data files and states of the output directory", "why_tests_cant": "Tests run each command on one or two fixtures; that no file, table or row is lost, that output stays readable and existing databases survive must hold for every dataset and every failure", "anchors": ["src/csvw/__main__.py:csvwdescribe", "src/csvw/__main__.py:csvw2datasette", "src/csvw/__main__.py:csvw2json", "src/csvw/frictionless.py:DataPackage.to_tablegroup", "src/csvw/metadata.py:CSVW"]}
{"id": "C84", "title": "A table reads the same alone and in a group", "statement": "Using CSVW.tablegroup (as is_valid and the conversions do) for a table which is described on its own does not change what is read from it: the same file, the same rows, exceptions and warnings, however often it is used - if the context of the description has no @base. With a @base in the context of a local description, the base of the table moves to another directory each time.", "quantifier": "all tables, dialects, schemas, data texts, file systems, and any number of uses", "why_tests_cant": "Tests read a table once; independence of the history of calls must hold for every number of uses and every text", "anchors": ["src/csvw/metadata.py:CSVW.tablegroup", "src/csvw/metadata.py:TableLike.base", "src/csvw/metadata.py:Table.iterdicts"]}
{"id": "C85", "title": "What can be read and passes the checks can be converted to SQLite", "statement": "Let the data of a table group be readable (TableGroup.read() raises nothing). If the group can be expressed in SQL (no virtual columns, column names which differ not only by case, constraints which SQL knows, foreign keys which reference primary keys, by columns of the same datatypes and with names sorted compatibly, no cycles of foreign keys, at most 100 tables) and the values are ones SQLite can store, and primary keys are non-null and unique and foreign keys are null or refer to existing rows - in particular if check_primary_key() returns True for every table and check_referential_integrity() returns True - then Database(tg, fname).write_from_tg(_force=True) and csvw2sqlite raise nothing, and afterwards the database has one table per table with, in order, one row per data row which holds its values. No constraint in the generated SQL (NOT NULL, CHECK, PRIMARY KEY, FOREIGN KEY) refuses data which is valid according to the description.", "quantifier": "all table groups, with any number of tables, columns and foreign keys (single, composite and list-valued), all contents of the data files, all previous contents of the database", "why_tests_cant": "every combination of datatype, constraint, key and data must pass through schema creation, row conversion, and the constraints enforced by SQLite; tests cover a few fixtures", "anchors": ["src/csvw/db.py: Database.write_from_tg, Database.write, TableSpec.from_table_metadata, ColSpec.check, schema", "src/csvw/metadata.py: TableGroup.read, Table.check_primary_key, TableGroup.check_referential_integrity", "src/csvw/__main__.py: csvw2sqlite"]}
{"id": "C86", "title": "The SQL statements mean what they are made for", "statement": "Every SQL statement which csvw.db builds as text, read by the lexical rules and the grammar of SQLite, means what it is built for: the CREATE TABLE statement of a table specification creates a table of the (translated) name with exactly the columns, types, NOT NULL and CHECK constraints, primary key and foreign keys (with ON DELETE CASCADE) of the specification; the INSERT statement inserts into the given columns of the given table, with one parameter for each column; SELECT reads all columns of the table; the statement for an association table groups the values of the second column and the contexts by the first column, for all rows or those of the given context. Provided that names have no backtick, and contexts and the texts of bounds for dates no apostrophe (otherwise, statements can mean something else).", "quantifier": "all table specifications (any number of columns, keys and constraints), all names, bounds and contexts (with the restriction on quotes), all name translations", "why_tests_cant": "The statements are assembled from names and values which come from metadata; tests only execute a few of them.", "anchors": ["src/csvw/db.py:quoted", "src/csvw/db.py:insert", "src/csvw/db.py:select", "src/csvw/db.py:ColSpec.check", "src/csvw/db.py:ColSpec.sql", "src/csvw/db.py:TableSpec.sql", "src/csvw/db.py:Database.select_many_to_many"]}
{"id": "C87", "title": "Data reported valid is read alike", "statement": "If CSVW.is_valid returns True and the header of a data file consists of the names of the (non-virtual) columns in order (or the dialect has no header), then reading the rows of the table as done by default (strict) raises no exception and issues no warning, with or without a log, and gives the same rows, with the same line numbers, as the lenient reading done by is_valid and to_json; hence TableGroup.read succeeds and returns for each table the rows is_valid has seen. Conversely, if the default reading raises no exception, then the lenient reading raises none and gives the same rows.", "quantifier": "all datasets (tables, groups), all contents of data files, all schemas, dialects, with and without log", "why_tests_cant": "relates two modes of reading which take different paths through the code, for all contents of data files; tests compare them for a few files only", "anchors": ["src/csvw/metadata.py:Table.iterdicts", "src/csvw/metadata.py:CSVW.is_valid", "src/csvw/metadata.py:Column.read", "src/csvw/metadata.py:TableGroup.read"]}
{"id": "C88", "title": "What the library writes it reports as valid", "statement": "If the rows of all tables of a group are written to the data files with Table.write, where columns have distinct names, values are written so that they are read back without warning (C31, C32), the dialect has a quote character, primary keys are present and unique, foreign keys are not null and reference existing unique keys, then CSVW.is_valid returns True for the dataset (if loading the description gave no warning). The same holds for a single table without foreign keys. It suffices that the data files are read like the text written, as zip archives of cells without carriage returns are.", "quantifier": "all table groups, all rows, all dialects with quoting, strict and lenient writing", "why_tests_cant": "composition of writing, two modes of reading and three checks for all data; tests validate a few files", "anchors": ["src/csvw/metadata.py:Table.write", "src/csvw/metadata.py:CSVW.is_valid", "src/csvw/metadata.py:Table.iterdicts", "src/csvw/metadata.py:Table.check_primary_key", "src/csvw/metadata.py:TableGroup.check_referential_integrity"]}
{"id": "C89", "title": "A linked schema or dialect is read like one written out", "statement": "A metadata document for a table group (or a table) opened from a URL, in which tables give their `tableSchema` by a link (relative or absolute) or the group gives its `dialect` by a link, yields exactly the description (or the exception) of the document in which every link is replaced by the JSON object it points to; documents without links are taken as they are, except that the location is added as base. (Deviations which are proved: a base in the `@context` is ignored for schema links; links to dialects of single tables, and relative schema links in local metadata files, are not resolved.)", "quantifier": "every metadata document with any number of tables and links, every URL, every answer of the web server, every way of joining URLs", "why_tests_cant": "tests use a few documents with fixed links; the claim concerns any document, any mixture of linked and inline schemas, all other properties, and any content of the linked documents, including content which makes reading fail", "anchors": ["src/csvw/metadata.py: TableLike.from_url, TableLike.__attrs_post_init__, TableLike.base, Schema.fromvalue, dialect_props, get_json, Link.resolve, CSVW.__init__"]}
{"id": "C90", "title": "Descriptions read without warnings are written so that they are read without warnings", "statement": "If a description of a table group (or of a table or a schema) is read without any warning, then what asdict or to_file gives for it, with or without defaults, is again a description that can be read, describes the same, and is read without any warning; provided its values can be written (C54) and no bound of a decimal datatype is infinite.", "quantifier": "all JSON descriptions with distinct keys which are read without warnings, all tables, schemas, columns, datatypes, dialects and common properties in them, both values of omit_defaults", "why_tests_cant": "every kind of value of every property may be normalised while reading or dropped while writing; only for all descriptions together is it certain that no normal form is one the reader complains about", "anchors": ["src/csvw/metadata.py: Description.fromvalue, DescriptionBase.asdict, Datatype.asdict, Schema.__attrs_post_init__, TableLike.__attrs_post_init__", "src/csvw/utils.py: attr_asdict, converter"]}
{"id": "C91", "title": "csvwvalidate accepts what TableGroup.write writes", "statement": "If a table group is read without warnings from a metadata document which mentions the CSVW namespace, and is written with rows whose values can be written and satisfy the primary and foreign keys (and without carriage returns in cells, if zipped), then TableGroup.write succeeds, and csvwvalidate for the metadata file which was written, with the data files which were written (zipped or not), exits with status 0.", "quantifier": "all metadata documents, all rows for their tables which can be written and satisfy the keys, all disks with the necessary directories, all buffer sizes, zipped or not", "why_tests_cant": "the statement joins writing, serialisation of the description, opening, warnings, reading of the data, primary keys and referential integrity; a test shows it for one data set", "anchors": ["src/csvw/metadata.py: TableGroup.write, Table.write, CSVW.__init__, CSVW.is_valid, TableGroup.check_referential_integrity", "src/csvw/__main__.py: csvwvalidate"]}
{"id": "C92", "title": "Descriptions are written completely and unambiguously", "statement": "If a table group, a table, a schema, a column or a datatype is read from JSON in which no object has the same key twice, then what asdict gives (and what to_file and write put into a file) is JSON in which no object, at any depth, has the same key twice: @-properties, common properties and attributes do not overwrite each other. For groups, tables and columns: every @-property of the document and every common property (with the value left by validation) is in the written object, unless its value is empty; no @-property or common property is added; the @-properties come first, then the common properties, each in the order of their names, then the attributes.", "quantifier": "all JSON documents with distinct keys, all nested properties, with and without defaults", "why_tests_cant": "the claim is about all names and all nested values of properties, known or not; a test shows it for a few documents", "anchors": ["src/csvw/metadata.py: DescriptionBase.asdict, partition_properties, TableGroup, Table, Schema, Column, Datatype.asdict", "src/csvw/utils.py: attr_asdict"]}
{"id": "C93", "title": "A table described on its own and its data survive writing to files", "statement": "For a Table which is not in a group, read from JSON: to_file(p) together with write(rows, base=p.parent) (or write(rows) if the description came from p), zipped or not and in either order, succeed; Table.from_file(p) then gives a table which describes any data in the same way (rows, errors, primary key, writing, is_valid), and whose iterdicts() gives the rows which iterdicts gives for the text write returns (with newlines translated if zipped, C94), also after the table was put into a group by CSVW.tablegroup. If the description was read without warnings from a document which mentions the CSVW namespace, and the rows satisfy the primary key and the foreign keys (which can only refer to the table itself; and cells have no carriage returns, if zipped), csvwvalidate for the metadata file exits with status 0. (Violated in one case: if the description has an invalid URI template, which is accepted with a warning, to_file raises TypeError after the old metadata was lost.)", "quantifier": "all table descriptions which can be read from JSON, all rows for them which can be written, all disks with the necessary directories, all buffer sizes, zipped or not, both orders", "why_tests_cant": "it is a statement about all descriptions, rows and disks, and combines serialisation, locations, writing and reading", "anchors": ["src/csvw/metadata.py: Table.write, TableLike.to_file, TableLike.from_file, TableLike.base, Table.iterdicts, CSVW.tablegroup, CSVW.is_valid", "src/csvw/__main__.py: csvwvalidate"]}
{"id": "C94", "title": "Data in zip archives and behind URLs are read as from files, except for newlines in cells", "statement": "Table.iterdicts reads data from a file, from a zip archive in place of the file, or from a URL. For a dialect without escape character, the cells read from the content of a zip archive or URL are the cells read from a file with the same content, with the newlines \\r\\n and \\r in cells replaced by \\n. If no cell contains a carriage return, and there is no byte order mark, everything is the same: rows, line numbers, warnings, exceptions. So rows written with Table.write, zipped or not, are read in the same way if their cells have no carriage returns. Violated for other cells: a value x\\r\\ny written to a zip archive is read as x\\ny; and a byte order mark is dropped only from files.", "quantifier": "all texts which can be parsed as CSV, all tables, all dialects (delimiter and quote character no newlines; for the cells of texts with carriage returns in cells: without escape character), all disks, strict or not", "why_tests_cant": "depends on where newlines are in the data: in line ends, in quoted cells, at the ends of cells; tests zip a few small files only", "anchors": ["src/csvw/metadata.py:Table.iterdicts", "src/csvw/metadata.py:Table.write", "src/csvw/dsv.py:UnicodeReader"]}
{"id": "C95", "title": "Lists of lines are read like the file they are the lines of, except for line breaks in cells", "statement": "UnicodeReader, UnicodeDictReader, NamedTupleReader and iterrows accept a list of lines (strings or bytes) instead of a path. Lines with their ends are read like the file they are the lines of: rows, line numbers, comments, dicts, tuples, exceptions; also the encoded lines, if no line but the first begins with a byte order mark. Lines without their ends (as str.splitlines gives them): everything is the same as for the file if no cell contains a line break; otherwise, without escape character, the cells are those of the file, without the line breaks in them. Violated otherwise: two lines of a quoted cell are joined without anything between them, silently; a byte order mark is not dropped from a list of strings, and it is dropped from every line of a list of bytes.", "quantifier": "all texts, all ways to split them into lines, all formats and dialects (for lines without ends: delimiter, quote and escape character no line breaks)", "why_tests_cant": "depends on where line breaks are: between rows, inside of quotes, of which kind, at the end of the text; tests read a few lists of simple lines", "anchors": ["src/csvw/dsv.py:UnicodeReader", "src/csvw/dsv.py:iterrows", "src/csvw/dsv.py:UnicodeDictReader", "src/csvw/dsv.py:NamedTupleReader"]}
{"id": "C96", "title": "Data files can have any encoding which has their characters", "statement": "Rows which can be written (as in C37; for UnicodeWriter with a dialect, as in C03; with the keyword argument encoding, as in C01) and are written to a file whose encoding (dialect.encoding, where UTF-8-BOM means utf-8-sig) is any lossless codec, are read back by iterdicts (UnicodeReader with this dialect) as they were written; writing fails only if writing the text fails or a character does not exist in the encoding. A byte order mark at the beginning of a utf-8 file is dropped (with the keyword argument encoding, also for other spellings of utf-8). If the file was put into a zip archive (or is served at a URL), the same holds for cells without carriage returns. A list of encoded lines is read like the list of the lines (for utf-8: if none begins with a byte order mark). The bytes which write(fname=None) returns are those of the file, for utf-8. (Violated: zip archives with UTF-8-BOM cannot be read; write(fname=None) returns utf-8 whatever the encoding is; a byte order mark is not dropped if the encoding of a dialect is spelled UTF-8; and it is dropped from every line of a list of encoded lines.)", "quantifier": "all lossless codecs, all tables with separate columns and all rows for them, all dialects with quoting, all texts and files", "why_tests_cant": "it is a statement about all codecs, dialects and rows; tests use utf-8 and a few characters", "anchors": ["src/csvw/dsv.py: UnicodeWriter.__init__, UnicodeWriter.__enter__, UnicodeWriter.read, UnicodeReader.__init__, UnicodeReader.__enter__", "src/csvw/dsv_dialects.py: ENCODING_MAP, convert_encoding, Dialect.python_encoding", "src/csvw/metadata.py: Table.write, Table.iterdicts"]}
{"id": "C97", "title": "The keyword argument lineterminator of UnicodeReader cannot change data", "statement": "If UnicodeReader(path, lineterminator=\"\\n\") or \"\\r\\n\" reads a file to the end without exception (no dialect, i.e. the keyword arguments delimiter, quotechar, escapechar, doublequote, skipinitialspace, strict with one-line characters), then reading the file without lineterminator also ends without exception and gives the same rows except for blank rows: cells are never changed, whatever line breaks they contain. If all line breaks of the file (in cells too) are the given string \"\\n\", \"\\r\" or \"\\r\\n\", reading with and without the argument is the same for all dialects, exceptions included. A file which UnicodeWriter has written (by default, or with a dialect with doubleQuote) is read back completely with its own line terminator as lineterminator, whatever line breaks its cells contain. rewrite(fname, visitor, lineterminator=lt), with lt one of the three line breaks, leaves a file from which exactly the results of the visitor for the rows read before are read, with and without the argument; if it returns, all rows have been read and visited; and the file is never half-written. Any other non-empty string raises ValueError before anything is read.", "quantifier": "every file content, every csv format with one-character delimiter/quotechar/escapechar which are not line breaks, every lineterminator string", "why_tests_cant": "The lines which csv.reader gets are different for each position of a line break inside or outside quotes; that the automaton of csv.reader nevertheless gives the same cells for each division into lines needs an induction over the text.", "anchors": ["src/csvw/dsv.py: UnicodeReader.__init__, UnicodeReader.__enter__, UnicodeWriter.__init__, rewrite"]}
