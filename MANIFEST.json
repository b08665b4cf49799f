{
 "claims": [
  {
   "property": "C01",
   "status": "proved",
   "theorems": [
    "Verif.Props.C01_big_endian_reads",
    "Verif.Props.C01_all_buffers"
   ],
   "note": "Value and the exact panic condition."
  },
  {
   "property": "C02",
   "status": "proved",
   "theorems": [
    "Verif.Props.C02_compressed_roundtrip",
    "Verif.Props.C02_compressed_truncated"
   ],
   "note": "Round trip in any context; every truncation."
  },
  {
   "property": "C03",
   "status": "proved",
   "theorems": [
    "Verif.Props.C03_size_is_encoded_length",
    "Verif.Props.C03_decoder_consumes_size"
   ],
   "note": ""
  },
  {
   "property": "C04",
   "status": "partial",
   "theorems": [
    "Verif.Props.C04_cursor_and_high_word_partial",
    "Verif.Props.C04_iff",
    "Verif.Props.C04_false",
    "Verif.Props.C04_panics_at_end"
   ],
   "note": "False of the code: the low word is read too far to the right. Cursor and high word proved."
  },
  {
   "property": "C05",
   "status": "partial",
   "theorems": [
    "Verif.Props.C05_below_2_32_partial",
    "Verif.Props.C05_iff",
    "Verif.Props.C05_false",
    "Verif.Props.C05_high_word_lost"
   ],
   "note": "False of the code from 2^32 on: the high word is dropped."
  },
  {
   "property": "C06",
   "status": "proved",
   "theorems": [
    "Verif.Props.C06_signed_integers",
    "Verif.Props.C17_type_codes"
   ],
   "note": ""
  },
  {
   "property": "C07",
   "status": "partial",
   "theorems": [
    "Verif.Props.C07_widths_1_2_4_8_partial",
    "Verif.Props.C07_iff",
    "Verif.Props.C07_false",
    "Verif.Props.C07_width3",
    "Verif.Props.C07_widths567_panic"
   ],
   "note": "False of the code for widths 3, 5, 6, 7."
  },
  {
   "property": "C08",
   "status": "proved",
   "theorems": [
    "Verif.Props.C08_date",
    "Verif.Props.C08_date_text",
    "Verif.Props.C17_type_codes"
   ],
   "note": ""
  },
  {
   "property": "C09",
   "status": "partial",
   "theorems": [
    "Verif.Props.C09_datetime_partial",
    "Verif.Props.C09_iff",
    "Verif.Props.C09_false",
    "Verif.Props.C09_through_decoder",
    "Verif.Props.C17_type_codes"
   ],
   "note": "False of the code for bit-packed years outside 1991..2099."
  },
  {
   "property": "C10",
   "status": "proved",
   "theorems": [
    "Verif.Props.C10_time",
    "Verif.Props.C17_type_codes"
   ],
   "note": ""
  },
  {
   "property": "C11",
   "status": "partial",
   "theorems": [
    "Verif.Props.C11_timestamp_12_hour_partial",
    "Verif.Props.C11_iff",
    "Verif.Props.C11_same_text_partial",
    "Verif.Props.C11_false"
   ],
   "note": "False of the code: 12-hour clock without am/pm."
  },
  {
   "property": "C12",
   "status": "proved",
   "theorems": [
    "Verif.Props.C12_binary_columns",
    "Verif.Props.C17_type_codes"
   ],
   "note": ""
  },
  {
   "property": "C13",
   "status": "partial",
   "theorems": [
    "Verif.Props.C13_escape_roundtrip_partial",
    "Verif.Props.C13_iff",
    "Verif.Props.C13_injective",
    "Verif.Props.C13_zero_time",
    "Verif.Props.C13_false"
   ],
   "note": "True for every string but one, which the code empties."
  },
  {
   "property": "C14",
   "status": "partial",
   "theorems": [
    "Verif.Props.C14_char_partial",
    "Verif.Props.C14_trims",
    "Verif.Props.C14_ascii_partial",
    "Verif.Props.C14_false",
    "Verif.Props.C17_type_codes"
   ],
   "note": "Exact condition, in terms of the UTF-8 encodings of the white space characters, and what is returned in every case; false of the code for values with leading white space."
  },
  {
   "property": "C15",
   "status": "proved",
   "theorems": [
    "Verif.Props.C15_fixedLengthInt",
    "Verif.Props.C15_fixedLengthInt_roundtrip",
    "Verif.Props.C15_unsigned",
    "Verif.Props.C15_signed"
   ],
   "note": ""
  },
  {
   "property": "C16",
   "status": "proved",
   "theorems": [
    "Verif.Props.C16_float_bits",
    "Verif.Props.C17_type_codes"
   ],
   "note": ""
  },
  {
   "property": "C17",
   "status": "partial",
   "theorems": [
    "Verif.Props.C17_value_iff_supported_partial",
    "Verif.Props.C17_false",
    "Verif.Props.C17_type_codes"
   ],
   "note": "Exact set of types; false for DECIMAL and GEOMETRY."
  },
  {
   "property": "C18",
   "status": "proved",
   "theorems": [
    "Verif.Props.C18_file_pages",
    "Verif.Props.C18_no_duplicates",
    "Verif.Props.C18_none_lost",
    "Verif.Props.C18_page_bytes"
   ],
   "note": ""
  },
  {
   "property": "C19",
   "status": "proved",
   "theorems": [
    "Verif.Props.C19_headers",
    "Verif.Props.C19_short"
   ],
   "note": ""
  },
  {
   "property": "C20",
   "status": "partial",
   "theorems": [
    "Verif.Props.C20_compact_rows_partial",
    "Verif.Props.C20_iff",
    "Verif.Props.C20_row_columns",
    "Verif.Props.C20_false",
    "Verif.Props.C20_false_varbinary",
    "Verif.Props.C20_false_char"
   ],
   "note": "Exact over table definitions: all rows of a table are decoded right iff every column type is one the code reads correctly; false for latin1 VARCHAR, VARBINARY above 255 bytes, CHAR in other single-byte character sets, and latin1 CHAR(0) and BINARY(0)."
  },
  {
   "property": "C21",
   "status": "partial",
   "theorems": [
    "Verif.Props.C21_redundant_rows_partial",
    "Verif.Props.C21_iff",
    "Verif.Props.C21_nulls_ignored",
    "Verif.Props.C21_false",
    "Verif.Props.C21_false_varchar"
   ],
   "note": "Rows without NULL proved; exact over table definitions: all rows of a table are decoded right iff no column is nullable and none is a latin1 VARCHAR.  The NULL flag is ignored by the code, latin1 VARCHAR rows are rejected."
  },
  {
   "property": "C22",
   "status": "partial",
   "theorems": [
    "Verif.Props.C22_visits",
    "Verif.Props.C22_once",
    "Verif.Props.C22_compact_page_partial",
    "Verif.Props.C22_redundant_page_partial",
    "Verif.Props.C22_rows_partial",
    "Verif.Props.C22_false"
   ],
   "note": "The records visited are exactly the linked ones, in order, once; the rows are right for readable column types; false for latin1 VARCHAR."
  },
  {
   "property": "C23",
   "status": "partial",
   "theorems": [
    "Verif.Props.C23_visits",
    "Verif.Props.C23_once",
    "Verif.Props.C23_compact_page_partial",
    "Verif.Props.C23_redundant_page_partial",
    "Verif.Props.C23_rows_partial",
    "Verif.Props.C23_false"
   ],
   "note": "As C22, for the free list."
  },
  {
   "property": "C24",
   "status": "partial",
   "theorems": [
    "Verif.Props.C24_acyclic_partial",
    "Verif.Props.C24_bounded",
    "Verif.Props.C24_hang_is_forever",
    "Verif.Props.C24_iff",
    "Verif.Props.C24_false"
   ],
   "note": "False of the code: a cycle of links loops forever. Ends on every page on which the links from the first record do not lead into a cycle; exact condition: C24_iff."
  },
  {
   "property": "C25",
   "status": "partial",
   "theorems": [
    "Verif.Props.C25_pages_partial",
    "Verif.Props.C25_only_outside",
    "Verif.Props.C25_inside_partial",
    "Verif.Props.C25_compact_partial",
    "Verif.Props.C25_redundant_partial",
    "Verif.Props.C25_false",
    "Verif.Props.C25_record_false",
    "Verif.Props.C25_stale_row",
    "Verif.Props.C25_flag_leaks"
   ],
   "note": "False of the code: a damaged record with a column beyond the end of the page prints a value of the page before (C25_false). A page without such columns and without NULLs in binary columns prints the same after any other pages; a record agrees in all columns within the page."
  },
  {
   "property": "C26",
   "status": "proved",
   "theorems": [
    "Verif.Props.C26_selected_pages",
    "Verif.Props.C26_selection",
    "Verif.Props.C82_in_place",
    "Verif.Props.C27_success_iff"
   ],
   "note": "For whole files: pages that are not selected have no influence (C82_in_place), and a run succeeds only if every selected page can be decoded (C27_success_iff)."
  },
  {
   "property": "C27",
   "status": "partial",
   "theorems": [
    "Verif.Props.C27_sound_files_partial",
    "Verif.Props.C27_success_iff",
    "Verif.Props.C27_bad_page",
    "Verif.Props.C27_bad_first_page",
    "Verif.Props.C27_low_record",
    "Verif.Props.C27_false"
   ],
   "note": "The concatenation is proved for files whose selected pages can all be decoded, and the run succeeds exactly for those; false of the code otherwise: one damaged page ends the program."
  },
  {
   "property": "C28",
   "status": "partial",
   "theorems": [
    "Verif.Props.C28_unknown_table_partial",
    "Verif.Props.C28_never_an_error",
    "Verif.Props.C28_false"
   ],
   "note": "False of the code: no error is returned. Nothing is printed; the exact condition under which the program aborts is proved."
  },
  {
   "property": "C29",
   "status": "proved",
   "theorems": [
    "Verif.Props.C29_lookup",
    "Verif.Props.C29_unknown",
    "Verif.Props.C29_order",
    "Verif.Props.C29_by_id",
    "Verif.Props.C29_needs_unique"
   ],
   "note": "For dictionaries in which no two tables have the same database and table name; without that the result depends on the order (C29_needs_unique)."
  },
  {
   "property": "C30",
   "status": "partial",
   "theorems": [
    "Verif.Props.C30_file_partial",
    "Verif.Props.C30_first_column_partial",
    "Verif.Props.C30_generated",
    "Verif.Props.C30_insertion",
    "Verif.Props.C30_user_columns",
    "Verif.Props.C30_each_table",
    "Verif.Props.C30_panics",
    "Verif.Props.C30_false"
   ],
   "note": "Inserting the hidden columns is correct for every column list and iteration order; the full statement fails because the step before it (C31) loses or reorders user columns unless the key is the first column."
  },
  {
   "property": "C31",
   "status": "partial",
   "theorems": [
    "Verif.Props.C31_file_exact",
    "Verif.Props.C31_first_column_partial",
    "Verif.Props.C31_no_key",
    "Verif.Props.C31_index_order",
    "Verif.Props.C31_total",
    "Verif.Props.C31_single",
    "Verif.Props.C31_leading",
    "Verif.Props.C31_behind",
    "Verif.Props.C31_iff",
    "Verif.Props.C31_loses",
    "Verif.Props.C31_false",
    "Verif.Props.C31_false_composite"
   ],
   "note": "True if and only if the key is empty or is the first column (C31_iff, for every key); the exact result is proved for keys of one column and for keys made of leading columns, and a key column further behind always costs a column (C31_loses)."
  },
  {
   "property": "C32",
   "status": "partial",
   "theorems": [
    "Verif.Props.C56_loads",
    "Verif.Props.C32_mixed_partial",
    "Verif.Props.C32_dropped",
    "Verif.Props.C32_dropped_load",
    "Verif.Props.C32_pages_partial",
    "Verif.Props.C32_exact",
    "Verif.Props.C32_iff",
    "Verif.Props.C32_from_root",
    "Verif.Props.C32_no_root",
    "Verif.Props.C32_header",
    "Verif.Props.C32_false"
   ],
   "note": "C32_false: a system file with a page of SYS_TABLES in front of the root, whose table is not loaded. Pages of an index that come before its root page in the file are dropped: exactly the pages kept, and exactly when all are."
  },
  {
   "property": "C33",
   "status": "partial",
   "theorems": [
    "Verif.Props.C33_file_partial",
    "Verif.Props.C33_definitions_partial",
    "Verif.Props.C33_rows",
    "Verif.Props.C33_null_count",
    "Verif.Props.C33_iff",
    "Verif.Props.C33_false"
   ],
   "note": "True for all rows except the binary flag, which is only set for BLOB columns."
  },
  {
   "property": "C34",
   "status": "proved",
   "theorems": [
    "Verif.Props.C34_file",
    "Verif.Props.C63_unknown_table",
    "Verif.Props.C34_indexes",
    "Verif.Props.C34_error"
   ],
   "note": "C34_file and C63_unknown_table: from the bytes of the system file; C34_indexes and C34_error: for the rows."
  },
  {
   "property": "C35",
   "status": "partial",
   "theorems": [
    "Verif.Props.C35_replace_partial",
    "Verif.Props.C35_iff",
    "Verif.Props.C35_bit_iff",
    "Verif.Props.C35_false",
    "Verif.Props.C35_zero_time",
    "Verif.Props.C35_bit_null",
    "Verif.Props.C35_backtick",
    "Verif.Props.C17_type_codes"
   ],
   "note": "Every statement is read back by an independent SQL reader as the original row, except for values the code changes: the string NULL, the zero time, BIT values above 1, NULL in BIT, backticks in names."
  },
  {
   "property": "C36",
   "status": "proved",
   "theorems": [
    "Verif.Props.C36_one_value_per_column",
    "Verif.Props.C36_values",
    "Verif.Props.C36_no_internal",
    "Verif.Props.C36_one_line_per_row"
   ],
   "note": ""
  },
  {
   "property": "C37",
   "status": "partial",
   "theorems": [
    "Verif.Props.C37_only_replace_partial",
    "Verif.Props.C37_two_kinds",
    "Verif.Props.C37_page_exact",
    "Verif.Props.C37_no_script",
    "Verif.Props.C37_lines",
    "Verif.Props.C37_false",
    "Verif.Props.C17_type_codes"
   ],
   "note": "True, however the run ends, for tables without DECIMAL columns. Exact otherwise: there is one line test MYSQL_TYPE_NEWDECIMAL for each DECIMAL value that is not NULL (C37_page_exact), and no other line than these and REPLACE statements for any file (C37_two_kinds); output that begins with such a line cannot be executed (C37_no_script)."
  },
  {
   "property": "C38",
   "status": "proved",
   "theorems": [
    "Verif.Props.C38_file",
    "Verif.Props.C38_stream",
    "Verif.Props.C38_parse",
    "Verif.Props.C38_roundtrip",
    "Verif.Props.C55_files"
   ],
   "note": "C55_files: the same from the command line to the decoder."
  },
  {
   "property": "C39",
   "status": "partial",
   "theorems": [
    "Verif.Props.C39_iff",
    "Verif.Props.C39_lengths_partial",
    "Verif.Props.C39_trailer_read",
    "Verif.Props.C39_header_panic",
    "Verif.Props.C39_false"
   ],
   "note": "False of the code: exact set of data lengths for which the program aborts, and true for the others."
  },
  {
   "property": "C40",
   "status": "proved",
   "theorems": [
    "Verif.Props.C40_terminates",
    "Verif.Props.C40_iterations",
    "Verif.Props.C40_progress",
    "Verif.Props.C40_files",
    "Verif.Props.C40_fields_loop",
    "Verif.Props.C40_update_vector_loop",
    "Verif.Props.C40_index_loop",
    "Verif.Props.C40_copy_loop"
   ],
   "note": "Every loop, for every stream."
  },
  {
   "property": "C41",
   "status": "partial",
   "theorems": [
    "Verif.Props.C41_record_partial",
    "Verif.Props.C41_sequence_partial",
    "Verif.Props.C41_rename",
    "Verif.Props.C41_comp_sec_delete_mark",
    "Verif.Props.C41_dummy",
    "Verif.Props.C41_null_update",
    "Verif.Props.C41_log_end",
    "Verif.Props.C41_false"
   ],
   "note": "Proved for sequences of all documented records except file renames, MLOG_COMP_REC_SEC_DELETE_MARK, dummy records, updates in place that set a column to NULL, and undo records with numbers from 2^32; for the first four the exact wrong cursor is proved. Up to five bytes must follow the three records whose last 64-bit number is read too far to the right (Rec.ahead); the others may end the log."
  },
  {
   "property": "C42",
   "status": "partial",
   "theorems": [
    "Verif.Props.C42_update_partial",
    "Verif.Props.C42_stream_partial",
    "Verif.Props.C42_log_partial",
    "Verif.Props.C42_exact",
    "Verif.Props.C42_binary",
    "Verif.Props.C42_no_key",
    "Verif.Props.C42_datetime_key",
    "Verif.Props.C42_false"
   ],
   "note": "For a whole log of documented records one statement per update record of a selected table is proved, with exactly the recorded values, for all column types the decoders get right. False of the code for binary and BIT columns, tables without primary key, DATETIME keys; the exact output is proved for these."
  },
  {
   "property": "C43",
   "status": "partial",
   "theorems": [
    "Verif.Props.C43_exact",
    "Verif.Props.C43_one_name_partial",
    "Verif.Props.C43_false"
   ],
   "note": "For the whole command and all files. With both names given a table of another database with the same table name is printed (C43_exact); witness: the table t of the database zoo is asked for, the statement for shop.t is printed."
  },
  {
   "property": "C44",
   "status": "partial",
   "theorems": [
    "Verif.Props.C44_one_column_partial",
    "Verif.Props.C44_value_iff",
    "Verif.Props.C44_more_columns",
    "Verif.Props.C44_injection",
    "Verif.Props.C44_quote",
    "Verif.Props.C44_empty_key",
    "Verif.Props.C44_false"
   ],
   "note": "True for one updated column and values without quotes and backslashes. With two or more columns the statement is read as assigning the first only, for all values; values are not escaped."
  },
  {
   "property": "C45",
   "status": "partial",
   "theorems": [
    "Verif.Props.C45_exact",
    "Verif.Props.C45_confined_partial",
    "Verif.Props.C45_false"
   ],
   "note": "True unless a column of the record is not found in the dictionary, or the record reaches the end of the stream: exact cursor in every case."
  },
  {
   "property": "C46",
   "status": "partial",
   "theorems": [
    "Verif.Props.C46_undo_iff",
    "Verif.Props.C46_undo_partial",
    "Verif.Props.C46_update_in_place",
    "Verif.Props.C46_types_partial",
    "Verif.Props.C46_false",
    "Verif.Props.C46_false_run"
   ],
   "note": "The program aborts exactly when the two-byte length of an undo record is cut off by the end of the stream."
  },
  {
   "property": "C47",
   "status": "partial",
   "theorems": [
    "Verif.Props.C47_accepted",
    "Verif.Props.C47_step",
    "Verif.Props.C47_skip_partial",
    "Verif.Props.C47_handled",
    "Verif.Props.C47_group_end",
    "Verif.Props.C47_checkpoint",
    "Verif.Props.C47_false"
   ],
   "note": "True except in the last 10 bytes of the stream."
  },
  {
   "property": "C48",
   "status": "partial",
   "theorems": [
    "Verif.Props.C48_printed_partial",
    "Verif.Props.C48_last_printed_partial",
    "Verif.Props.C48_undo_cut_partial",
    "Verif.Props.C48_cut_value",
    "Verif.Props.C48_complete_aborts",
    "Verif.Props.C48_datetime_lost",
    "Verif.Props.C48_false"
   ],
   "note": "The statements of the complete records have been printed however the parsing ends; a cut undo record does not abort it. False of the code for other records, and a cut inside an old value prints a wrong statement."
  },
  {
   "property": "C49",
   "status": "proved",
   "theorems": [
    "Verif.Props.C49_undo_record",
    "Verif.Props.C49_other_types",
    "Verif.Props.C49_step",
    "Verif.Props.C49_stream",
    "Verif.Props.C49_no_tables",
    "Verif.Props.C49_other_kinds"
   ],
   "note": ""
  },
  {
   "property": "C50",
   "status": "proved",
   "theorems": [
    "Verif.Props.C50_case_insensitive",
    "Verif.Props.C50_levels",
    "Verif.Props.C50_unknown",
    "Verif.Props.C50_written",
    "Verif.Props.C50_monotone"
   ],
   "note": ""
  },
  {
   "property": "C51",
   "status": "proved",
   "theorems": [
    "Verif.Props.C51_dictionary_error",
    "Verif.Props.C51_dictionary_panic",
    "Verif.Props.C51_operation",
    "Verif.Props.C51_every_file",
    "Verif.Props.C51_data_error"
   ],
   "note": "Loading the dictionary is proved to print nothing."
  },
  {
   "property": "C52",
   "status": "partial",
   "theorems": [
    "Verif.Props.C52_own_file_partial",
    "Verif.Props.C52_iff",
    "Verif.Props.C52_false"
   ],
   "note": "The index id is not checked: exact condition, and true for files with pages of the table only."
  },
  {
   "property": "C53",
   "status": "partial",
   "theorems": [
    "Verif.Props.C53_unmarked_partial",
    "Verif.Props.C53_marked_printed",
    "Verif.Props.C53_command_iff",
    "Verif.Props.C53_command_marked",
    "Verif.Props.C53_false"
   ],
   "note": "The delete mark is not checked: exact condition, and true for pages without marked records. C53_command_iff: the same for the whole command; C53_command_marked: a file with a marked record, whose row is printed."
  },
  {
   "property": "C54",
   "status": "partial",
   "theorems": [
    "Verif.Props.C54_local_rows_partial",
    "Verif.Props.C54_mark_ignored",
    "Verif.Props.C54_false",
    "Verif.Props.C54_redundant",
    "Verif.Props.C54_redundant_false"
   ],
   "note": "False of the code for every externally stored column: in COMPACT records the local part is printed as the value, in REDUNDANT records the value of the row before (or no row at all)."
  },
  {
   "property": "C55",
   "status": "partial",
   "theorems": [
    "Verif.Props.C55_names",
    "Verif.Props.C55_files",
    "Verif.Props.C55_statements_partial",
    "Verif.Props.C55_dictionary_error",
    "Verif.Props.C55_dictionary_panic",
    "Verif.Props.C55_log_error",
    "Verif.Props.C55_false"
   ],
   "note": "The files, the filter and the errors for all inputs; the statements for the logs of C42. False of the code otherwise: what C41 and C42 miss, and a log that ends with the record for the reuse of an undo log aborts the command (C55_false)."
  },
  {
   "property": "C56",
   "status": "partial",
   "theorems": [
    "Verif.Props.C56_dictionary_partial",
    "Verif.Props.C56_exact",
    "Verif.Props.C56_loads",
    "Verif.Props.C56_unique_key",
    "Verif.Props.C56_false"
   ],
   "note": "From the bytes of the file to the table definitions, for all trees in which the root comes first; stored column order for all tables whose primary key is their first column or whose clustered index is generated. For all other tables false of the code (C56_exact: stored order if and only if the key is generated or the first column). The other tables of the file may have any primary key."
  },
  {
   "property": "C57",
   "status": "partial",
   "theorems": [
    "Verif.Props.C57_command_partial",
    "Verif.Props.C57_written_partial",
    "Verif.Props.C57_written_pages_partial",
    "Verif.Props.C57_values_iff",
    "Verif.Props.C57_false"
   ],
   "note": "From the bytes of both files to the values in the printed statements, for tables whose key comes first, pages that belong to the table and hold no marked records, and values that the tool decodes and prints correctly (Restored). False of the code otherwise; witness: a VARCHAR with the text NULL. C57_values_iff: whatever values such a table holds (bit-packed DATETIME values in the years 1991 to 2099), its rows are printed as stored if and only if all values are restored."
  },
  {
   "property": "C58",
   "status": "partial",
   "theorems": [
    "Verif.Props.C58_command_partial",
    "Verif.Props.C58_lines",
    "Verif.Props.C58_false"
   ],
   "note": "From the bytes of the system file and the log files to the values in the printed statements: C56, C38, C42 and C44 composed. Missing: what these miss; witness for the negation: an old value with a quote."
  },
  {
   "property": "C59",
   "status": "proved",
   "theorems": [
    "Verif.Props.C59_data",
    "Verif.Props.C59_redo",
    "Verif.Props.C59_key",
    "Verif.Props.C59_identity",
    "Verif.Props.C59_described",
    "Verif.Props.C59_needs_one_clustered"
   ],
   "note": "For all orders of all iterations; the condition is needed (also C29_needs_unique) and holds of the dictionaries of C56. The iteration over the indexes made for each undo record is C59_key."
  },
  {
   "property": "C60",
   "status": "partial",
   "theorems": [
    "Verif.Props.C60_data_partial",
    "Verif.Props.C60_redo_partial",
    "Verif.Props.C60_data_system",
    "Verif.Props.C60_redo_system",
    "Verif.Props.C60_false",
    "Verif.Props.C60_false_data",
    "Verif.Props.C60_false_redo"
   ],
   "note": "False of the code: a cycle of record links on a page of the system file loops forever in both commands. They end when the links from the first record of the pages read do not lead into a cycle, in particular on intact system files, whatever the log files contain."
  },
  {
   "property": "C61",
   "status": "partial",
   "theorems": [
    "Verif.Props.C61_printed",
    "Verif.Props.C61_report",
    "Verif.Props.C61_wrong_table",
    "Verif.Props.C61_below_2_32_partial",
    "Verif.Props.C61_aborts",
    "Verif.Props.C61_false",
    "Verif.Props.C61_column_type",
    "Verif.Props.C61_no_structure"
   ],
   "note": "Every header field is right. Of the table id only the low 32 bits are printed (C05). For record numbers from 2^32 on the table id is read at the wrong place (C61_printed, for all numbers); C61_wrong_table: the high word of the record number is printed as the table id."
  },
  {
   "property": "C62",
   "status": "partial",
   "theorems": [
    "Verif.Props.C62_after_partial",
    "Verif.Props.C62_definitions_partial",
    "Verif.Props.C62_files_partial",
    "Verif.Props.C62_false",
    "Verif.Props.C62_dictionary_false"
   ],
   "note": "False of the code: the values of the last row stay in the columns of the dictionary, and a damaged record of the next file prints them (C62_false). However a run ends, everything else of the dictionary is unchanged, and a file with sound pages prints the same after any other files."
  },
  {
   "property": "C63",
   "status": "proved",
   "theorems": [
    "Verif.Props.C63_missing_root",
    "Verif.Props.C63_no_dictionary",
    "Verif.Props.C63_unknown_table"
   ],
   "note": "C63_unknown_table is for files in the format of SystemFile (C56); C63_missing_root and C63_no_dictionary for all files."
  },
  {
   "property": "C64",
   "status": "partial",
   "theorems": [
    "Verif.Props.C64_reach_partial",
    "Verif.Props.C64_abort",
    "Verif.Props.C64_no_long_index_partial",
    "Verif.Props.C64_tight",
    "Verif.Props.C64_false"
   ],
   "note": "True for all streams but one case: a compact insert record with more index fields than the rest of the stream can hold ends the parsing with an error. Aborts come only in the last 16 bytes (C64_abort), and the bound is attained."
  },
  {
   "property": "C65",
   "status": "partial",
   "theorems": [
    "Verif.Props.C65_first_argument",
    "Verif.Props.C65_options_partial",
    "Verif.Props.C65_option_first",
    "Verif.Props.C65_value_removed",
    "Verif.Props.C65_shop",
    "Verif.Props.C65_shop_redo",
    "Verif.Props.C65_false"
   ],
   "note": "True of lines that begin with recovery. False otherwise: FromDataFile calls flag.Parse, which ends the program with status 2 when the first argument is an option (exactly then). Also false when a value before the operation has its name. cobra, pflag and flag are modelled from their sources as known, they are not in the repository."
  },
  {
   "property": "C66",
   "status": "partial",
   "theorems": [
    "Verif.Props.C66_status_partial",
    "Verif.Props.C66_unreadable",
    "Verif.Props.C66_false"
   ],
   "note": "False of the code: the status is 0 whenever the system file cannot be opened; exact condition for every status."
  },
  {
   "property": "C67",
   "status": "partial",
   "theorems": [
    "Verif.Props.C67_cut",
    "Verif.Props.C67_prefix_iff",
    "Verif.Props.C67_cut_partial",
    "Verif.Props.C67_beginning",
    "Verif.Props.C67_short_file",
    "Verif.Props.C67_wrong_statement",
    "Verif.Props.C67_false"
   ],
   "note": "False of the code: the missing bytes of the last block are read as zeros, so an old value cut in the log is restored with NUL bytes (C67_wrong_statement). Exact result for every cut and, for the beginning, for every content."
  },
  {
   "property": "C68",
   "status": "partial",
   "theorems": [
    "Verif.Props.C68_zeros",
    "Verif.Props.C68_page_partial",
    "Verif.Props.C68_rows_partial",
    "Verif.Props.C68_printed_page",
    "Verif.Props.C68_recovered_page",
    "Verif.Props.C68_wrong_row",
    "Verif.Props.C68_false"
   ],
   "note": "False of the code: the missing bytes of the last page are read as zeros, so the first record behind the cut gives a row that was never stored (C68_wrong_row). Proved for cuts behind the last record of a page; exact result for compact pages cut in front of a record."
  },
  {
   "property": "C69",
   "status": "partial",
   "theorems": [
    "Verif.Props.C69_unchecked",
    "Verif.Props.C69_runs",
    "Verif.Props.C69_right_partial",
    "Verif.Props.C69_wrong_sums",
    "Verif.Props.C69_false"
   ],
   "note": "False of the code: the trailers are not looked at. Exact: of the headers and trailers of a file only the data lengths count."
  },
  {
   "property": "C70",
   "status": "partial",
   "theorems": [
    "Verif.Props.C70_stream",
    "Verif.Props.C70_skipped_partial",
    "Verif.Props.C70_forged",
    "Verif.Props.C70_false"
   ],
   "note": "False of the code: the place of the first record in a block is not used. Exact stream; proved if no byte of the rest of the overwritten record is the type of a record; a rest that looks like records is printed."
  },
  {
   "property": "C71",
   "status": "partial",
   "theorems": [
    "Verif.Props.C71_page",
    "Verif.Props.C71_unchecked",
    "Verif.Props.C71_tearable",
    "Verif.Props.C71_whole_partial",
    "Verif.Props.C71_false"
   ],
   "note": "False of the code: neither checksums nor LSNs are compared. Exact: checksums, LSNs, neighbours, space ids and trailers do not matter."
  },
  {
   "property": "C72",
   "status": "partial",
   "theorems": [
    "Verif.Props.C72_restores_partial",
    "Verif.Props.C72_program_partial",
    "Verif.Props.C72_iff",
    "Verif.Props.C72_false",
    "Verif.Props.exec_printed"
   ],
   "note": "False of the code: a name NULL comes back as NULL. Exact as to the values (C72_iff): whatever a table holds (bit-packed DATETIME values in the years 1991 to 2099), its rows come back if and only if all values are restored; a server in strict mode is supposed. Proved for the files of C57 from the bytes of standard output to the rows of the table; ENUM and SET columns count as numbers here (C89)."
  },
  {
   "property": "C73",
   "status": "partial",
   "theorems": [
    "Verif.Props.C73_exact",
    "Verif.Props.C73_versions",
    "Verif.Props.C73_adds_partial",
    "Verif.Props.C73_false"
   ],
   "note": "False of the code: REPLACE overwrites a row whose key is in use again, and of several versions the oldest remains. Exact result for all tables; proved if all keys are different."
  },
  {
   "property": "C74",
   "status": "partial",
   "theorems": [
    "Verif.Props.C74_once_partial",
    "Verif.Props.C74_reverse_partial",
    "Verif.Props.C74_program_partial",
    "Verif.Props.C74_last",
    "Verif.Props.C74_iff",
    "Verif.Props.C74_twice",
    "Verif.Props.C74_false"
   ],
   "note": "False of the code: statements are printed in the order of the log, so a column that was updated twice gets the value before its last update (C74_last). Proved for the logs of C58 if no column of a row was updated twice, and without that for the opposite order. C74_iff is exact for these logs: the printed order restores the tables if and only if each column held the same value before its first update and before its last one."
  },
  {
   "property": "C75",
   "status": "partial",
   "theorems": [
    "Verif.Props.C75_exact_partial",
    "Verif.Props.C75_lost",
    "Verif.Props.C75_renamed",
    "Verif.Props.C75_redo_lost",
    "Verif.Props.C75_redo_silent",
    "Verif.Props.C75_false"
   ],
   "note": "False of the code: names are compared and printed in the encoded form. Exact: the rows are printed if and only if both names consist of letters, digits and _. Names with other than ASCII characters are left out."
  },
  {
   "property": "C76",
   "status": "partial",
   "theorems": [
    "Verif.Props.C76_exact_partial",
    "Verif.Props.C76_width",
    "Verif.Props.C76_false"
   ],
   "note": "False of the code: the mark is not looked at, so each statement has a value for each virtual column, read from bytes that belong to something else. Exact for tables with rows: the stored values are printed if and only if there is no virtual column."
  },
  {
   "property": "C77",
   "status": "partial",
   "theorems": [
    "Verif.Props.C77_printed",
    "Verif.Props.C77_iff",
    "Verif.Props.C77_whole_partial",
    "Verif.Props.C77_false"
   ],
   "note": "False of the code: the fraction is never printed, and a negative time with a fraction is printed one second too far from zero. Exact: the value is printed if and only if its fraction is zero."
  },
  {
   "property": "C78",
   "status": "partial",
   "theorems": [
    "Verif.Props.C78_exact_partial",
    "Verif.Props.C78_iff",
    "Verif.Props.C78_false"
   ],
   "note": "False of the code: 16384 bytes are always read as one page. Exact: the rows of the first page of each 16384 bytes are printed, so all rows are printed if and only if the other pages have none. Larger pages (32768, 65536) are left out."
  },
  {
   "property": "C79",
   "status": "partial",
   "theorems": [
    "Verif.Props.C79_exact",
    "Verif.Props.C79_iff",
    "Verif.Props.C79_ascending_partial",
    "Verif.Props.C79_numbers",
    "Verif.Props.C79_false"
   ],
   "note": "False of the code: blocks are read in the order of the file and their numbers are not compared. Exact: the statements of the newer blocks are printed first; proved if the blocks stand in the order of their numbers."
  },
  {
   "property": "C80",
   "status": "partial",
   "theorems": [
    "Verif.Props.C80_lost",
    "Verif.Props.C80_redo_lost",
    "Verif.Props.C80_renamed_partial",
    "Verif.Props.C80_false"
   ],
   "note": "False of the code: names are compared with those of the dictionary entries. Given the name of the table nothing is printed; given that of the partition each statement is for a table of that name. Given the name of the table the redo command prints no statement either (C80_redo_lost)."
  },
  {
   "property": "C81",
   "status": "proved",
   "theorems": [
    "Verif.Props.C81_lines",
    "Verif.Props.C81_command",
    "Verif.Props.C81_no_more"
   ],
   "note": "For every data file and every outcome. The names must not contain backticks (C75 covers them). The client must use a character set in which the bytes of quotes and backslashes are no part of other characters, such as utf8 or latin1."
  },
  {
   "property": "C82",
   "status": "proved",
   "theorems": [
    "Verif.Props.C82_in_place",
    "Verif.Props.C82_other_pages",
    "Verif.Props.C82_appended"
   ],
   "note": "For every file. Pages that are added among others must have numbers of their own: of several pages with one number only the first is read (C18)."
  },
  {
   "property": "C83",
   "status": "partial",
   "theorems": [
    "Verif.Props.C83_division_partial",
    "Verif.Props.C83_same_memory",
    "Verif.Props.C83_records_partial",
    "Verif.Props.C83_false"
   ],
   "note": "False of the code: FLOAT, DOUBLE and DECIMAL values at the end of the log are read from the reserved memory behind it. Proved for all logs if the tables have no columns of these types, for all tables if the log is followed (C42), and for all logs if the reserved memory is the same."
  },
  {
   "property": "C84",
   "status": "proved",
   "theorems": [
    "Verif.Props.C84_log",
    "Verif.Props.C84_command"
   ],
   "note": "For every log and every choice of names; which statements are suppressed is the exact condition of C43."
  },
  {
   "property": "C85",
   "status": "partial",
   "theorems": [
    "Verif.Props.C85_success",
    "Verif.Props.C85_sound_partial",
    "Verif.Props.C85_command_partial",
    "Verif.Props.C85_rows_partial",
    "Verif.Props.C85_restores_partial",
    "Verif.Props.C85_false"
   ],
   "note": "False of the code: a page that cannot be decoded ends the run, so the rows of the pages behind it are lost. Whether a run succeeds never depends on the order; proved for files whose pages are sound, and for the tables of C57 up to the rows in the table after the output has been executed."
  },
  {
   "property": "C86",
   "status": "proved",
   "theorems": [
    "Verif.Props.C86_again",
    "Verif.Props.C86_in_use_last",
    "Verif.Props.C86_files_again",
    "Verif.Props.C86_files_in_use_last"
   ],
   "note": "For all files and all outcomes, if the output can be executed; C86_files_again and C86_files_in_use_last: for the files of C57 it can, from the bytes of the files to the rows of the table."
  },
  {
   "property": "C87",
   "status": "partial",
   "theorems": [
    "Verif.Props.C87_load",
    "Verif.Props.C87_in_place_partial",
    "Verif.Props.C87_appended_partial",
    "Verif.Props.C87_abort",
    "Verif.Props.C87_harmless",
    "Verif.Props.C87_harmful",
    "Verif.Props.C87_false"
   ],
   "note": "False of the code: ParseDictPage never looks at the type of a page, so a page of a BLOB in which the bytes 66 to 73 happen to be the number 1 is decoded as a page of SYS_TABLES; C87_false is a correct system file in which the data of such a BLOB make both commands abort. Proved: all pages in which these bytes are not one of the ids 1 to 4 (and which are not numbered 7) have no influence, whatever their type."
  },
  {
   "property": "C88",
   "status": "partial",
   "theorems": [
    "Verif.Props.C88_iff",
    "Verif.Props.C88_year_partial",
    "Verif.Props.C88_zero",
    "Verif.Props.C88_false"
   ],
   "note": "False of the code: the year 0000 is stored as 0 and decoded as 1900. Exact: all others are right."
  },
  {
   "property": "C89",
   "status": "partial",
   "theorems": [
    "Verif.Props.C89_iff",
    "Verif.Props.C89_names_partial",
    "Verif.Props.C89_false"
   ],
   "note": "False of the code: the number of the member is printed as a string, and a server looks for a member with this text first; with ENUM('2','1') the two values change places. Exact condition for the files of C57; proved if no member is a number."
  },
  {
   "property": "C90",
   "status": "partial",
   "theorems": [
    "Verif.Props.C90_contained_partial",
    "Verif.Props.C90_injects",
    "Verif.Props.C90_drops",
    "Verif.Props.C90_false"
   ],
   "note": "False of the code: old values and keys are printed as they are, so that a value with a quote leaves its literal; any SQL text can be brought into the output in this way. Proved for followed logs whose values hold no quote and no backslash, or hold them in pairs, with any number of columns."
  },
  {
   "property": "C91",
   "status": "partial",
   "theorems": [
    "Verif.Props.C91_exact",
    "Verif.Props.C91_iff",
    "Verif.Props.C91_restores_partial",
    "Verif.Props.C91_lost",
    "Verif.Props.C91_false"
   ],
   "note": "False of the code: the output does not set the SQL mode NO_AUTO_VALUE_ON_ZERO, so a server stores the next value of its counter for a 0; of a table with the rows 0 and 1 only one row is left (C91_lost). Exact: the rows come back if and only if none has 0 (or NULL) there."
  },
  {
   "property": "C92",
   "status": "partial",
   "theorems": [
    "Verif.Props.C92_date_iff",
    "Verif.Props.C92_datetimeOld_iff",
    "Verif.Props.C92_datetime_iff",
    "Verif.Props.C92_zero_datetime_iff",
    "Verif.Props.C92_zero_timestamp",
    "Verif.Props.C92_read_partial",
    "Verif.Props.C92_false"
   ],
   "note": "False of the code: the zero TIMESTAMP is printed as an instant of 1970, and a zero DATETIME of MySQL 5.6 and later as digits of the bytes behind it unless these are zero (C92_zero_datetime_iff); years below 100 are printed with two digits and get a century. Exact condition for each type."
  },
  {
   "property": "C93",
   "status": "partial",
   "theorems": [
    "Verif.Props.C93_iff",
    "Verif.Props.C93_instant_partial",
    "Verif.Props.C93_overlap",
    "Verif.Props.C93_false"
   ],
   "note": "False of the code: the 12-hour clock (C11), and clock readings that occur twice when the clock is put back; of two such instants at most one comes back, whatever is done with the text (C93_overlap). Exact condition for every instant."
  },
  {
   "property": "C94",
   "status": "partial",
   "theorems": [
    "Verif.Props.C94_plain_iff",
    "Verif.Props.C94_charset_partial",
    "Verif.Props.C94_leaves",
    "Verif.Props.C94_false"
   ],
   "note": "False of the code: with NO_BACKSLASH_ESCAPES a string is read back if and only if nothing in it is escaped (C94_plain_iff); in GBK and the like a byte that can begin a character followed by a quote leaves the literal (C94_leaves). Proved for strings in which no such byte stands in front of an escaped character."
  },
  {
   "property": "C95",
   "status": "partial",
   "theorems": [
    "Verif.Props.C95_record_partial",
    "Verif.Props.C95_compact_partial",
    "Verif.Props.C95_redundant_partial",
    "Verif.Props.C95_column_iff",
    "Verif.Props.C95_datetime_iff",
    "Verif.Props.C95_bit_aborts",
    "Verif.Props.C95_false"
   ],
   "note": "False of the code: eight bytes are read for each DATETIME, also if it is stored in five to seven, and the bytes of the next column decide what is printed for a date outside of the years 1991 to 2099 (C95_datetime_iff); a BIT column in five to seven bytes aborts the program (C95_bit_aborts). Proved for pages whose columns have all other types, and exact over the types (C95_column_iff)."
  },
  {
   "property": "C96",
   "status": "partial",
   "theorems": [
    "Verif.Props.C96_exact",
    "Verif.Props.C96_never",
    "Verif.Props.C96_null_iff",
    "Verif.Props.C96_distinct_partial",
    "Verif.Props.C96_false"
   ],
   "note": "False of the code: the packed bytes are printed as they are. Never true: no value of any DECIMAL column is printed so that the server takes it for the stored number (C96_never), also if it passes over text behind a number; one number is printed as NULL (C96_null_iff). Proved: different numbers are printed differently, so nothing is lost. White space in front of a number is that of ASCII."
  },
  {
   "property": "C97",
   "status": "partial",
   "theorems": [
    "Verif.Props.C97_shifted",
    "Verif.Props.C97_iff",
    "Verif.Props.C97_equal_partial",
    "Verif.Props.C97_false"
   ],
   "note": "False of the code: SYS_FIELDS.POS, which holds the prefix length, is never read. What is printed is the prefix and then all values but the last, each in the column after its own (C97_shifted); this is right exactly for rows whose values are all equal and no longer than the prefix (C97_iff). For tables whose columns are NOT NULL VARCHAR columns of the same length; the statement has the same domain. Keys of whole columns are C57."
  },
  {
   "property": "C98",
   "status": "partial",
   "theorems": [
    "Verif.Props.C98_seen",
    "Verif.Props.C98_never",
    "Verif.Props.C98_unchanged",
    "Verif.Props.C98_others_partial",
    "Verif.Props.C98_false"
   ],
   "note": "False of the code: the old value is assigned to the column after the updated one, in the rows whose key column equals the prefix (C98_seen, with the effect of the output on every state of the tables). The row is never restored (C98_never: only if there was nothing to restore); if all values of the key column are longer than the prefix, the output changes nothing (C98_unchanged). True for tables with other keys, though the log has updates of such tables (C98_others_partial). Missing: updates of the last column, for which no column is found and the tool loses its place in the log (C45)."
  },
  {
   "property": "C99",
   "status": "partial",
   "theorems": [
    "Verif.Props.C99_never",
    "Verif.Props.C99_iff",
    "Verif.Props.C99_none_partial",
    "Verif.Props.C99_false"
   ],
   "note": "False of the code: it never writes DEFAULT. Whatever the files hold, no statement for a table with a generated column is one that the server runs (C99_never); for the tables of C57 the statements are run if and only if no column is generated (C99_iff)."
  },
  {
   "property": "C100",
   "status": "partial",
   "theorems": [
    "Verif.Props.C100_iff",
    "Verif.Props.C100_none_partial",
    "Verif.Props.C100_false"
   ],
   "note": "False of the code: the hidden column is printed like the others, so each statement has one value too many. For the tables of C57, a line gives the values of the user's columns if and only if the table has no hidden column (C100_iff)."
  },
  {
   "property": "C101",
   "status": "partial",
   "theorems": [
    "Verif.Props.C101_iff",
    "Verif.Props.C101_update_never",
    "Verif.Props.C101_flags_partial",
    "Verif.Props.C101_null",
    "Verif.Props.C101_false"
   ],
   "note": "False of the code: decimal digits are printed between b' and '. In REPLACE statements exactly the values 0 and 1 of columns that do not take 5 to 7 bytes are right (C101_iff); in UPDATE statements no value is (C101_update_never); NULL is printed as bNULL (C101_null)."
  },
  {
   "property": "C102",
   "status": "partial",
   "theorems": [
    "Verif.Props.C102_iff",
    "Verif.Props.C102_freed_partial",
    "Verif.Props.C102_false"
   ],
   "note": "False of the code: only the free lists are walked, so a row that is delete-marked and not purged is never recovered. C102_iff: the claim holds exactly if no linked record is delete-marked."
  },
  {
   "property": "C103",
   "status": "proved",
   "theorems": [
    "Verif.Props.C103_appended",
    "Verif.Props.C103_cut",
    "Verif.Props.C103_copies"
   ],
   "note": "For all files, no assumption about their content; an aborted or looping run is not changed by what is appended."
  },
  {
   "property": "C104",
   "status": "proved",
   "theorems": [
    "Verif.Props.C104_other_tables"
   ],
   "note": "For dictionaries in which names and ids are unique and which the tool loads (UsualKeys); the data file is arbitrary."
  },
  {
   "property": "C105",
   "status": "partial",
   "theorems": [
    "Verif.Props.C105_iff",
    "Verif.Props.C105_one_partial",
    "Verif.Props.C105_mixed",
    "Verif.Props.C105_false"
   ],
   "note": "False as stated: a row with a string in UTF-8 and one in a set of one byte for each character, neither of them ASCII, is stored by its statement in no session (C105_mixed, C105_false). Exact condition per row and session in C105_iff; a table with one character set, or whose other strings are ASCII, is restored by a session with that character set (C105_one_partial)."
  },
  {
   "property": "C106",
   "status": "partial",
   "theorems": [
    "Verif.Props.C106_never",
    "Verif.Props.C106_null_partial",
    "Verif.Props.C106_false"
   ],
   "note": "False for every value: the data command prints a binary string, which the server refuses for JSON, and the redo command the hexadecimal digits of the binary form, which are no JSON text (C106_never, by induction on JSON texts). Only NULL is printed right (C106_null_partial)."
  },
  {
   "property": "C107",
   "status": "partial",
   "theorems": [
    "Verif.Props.C107_renamed",
    "Verif.Props.C107_dropped_partial",
    "Verif.Props.C107_false"
   ],
   "note": "Delete marks of the dictionary are not looked at. C107_dropped_partial: dropped tables whose ids and names no other row has make no difference. C107_renamed: if the last row with the id of a table has another name, none of its rows is printed and the command aborts. C107_false: shop.t renamed to shop.a."
  },
  {
   "property": "C108",
   "status": "partial",
   "theorems": [
    "Verif.Props.C108_exact",
    "Verif.Props.C108_iff",
    "Verif.Props.C108_keys",
    "Verif.Props.C108_new_partial",
    "Verif.Props.C108_false"
   ],
   "note": "False of the code: REPLACE deletes the row with the key of the new one, so rows that refer to it are deleted, set to NULL, or the script ends with an error. Exact result (C108_exact) and exact condition (C108_iff, C108_keys); true if no printed key is in the table (C108_new_partial)."
  },
  {
   "property": "C109",
   "status": "partial",
   "theorems": [
    "Verif.Props.C109_iff",
    "Verif.Props.C109_assigned_partial",
    "Verif.Props.C109_false"
   ],
   "note": "False: an update of another column that left such a column as it was is undone by a statement that sets it to the time of the restoration (C109_false). True if every update changed all these columns of its table (C109_assigned_partial). For one update, exactly: restored iff already undone or the columns not updated hold the time of the restoration (C109_iff)."
  },
  {
   "property": "C110",
   "status": "partial",
   "theorems": [
    "Verif.Props.C110_iff",
    "Verif.Props.C110_once_partial",
    "Verif.Props.C110_reverse_partial",
    "Verif.Props.C110_false"
   ],
   "note": "False: a row that was updated, and then updated again by a transaction that was rolled back, is not restored (C110_false). Exact condition for all histories: C110_iff. True if no column of a row was updated twice, rolled back or not (C110_once_partial), and always if the lines are executed from the last to the first (C110_reverse_partial)."
  },
  {
   "property": "C111",
   "status": "partial",
   "theorems": [
    "Verif.Props.C111_iff",
    "Verif.Props.C111_other_columns_partial",
    "Verif.Props.C111_reverse_partial",
    "Verif.Props.C111_false"
   ],
   "note": "False: if row 8 got the name that row 7 had before, the first statement gives it to row 7 again and is refused (C111_false). Exact condition: C111_iff. True if no column of a UNIQUE index was updated (C111_other_columns_partial), and always if the lines are executed from the last to the first (C111_reverse_partial)."
  },
  {
   "property": "C112",
   "status": "partial",
   "theorems": [
    "Verif.Props.C112_any_state_partial",
    "Verif.Props.C112_false"
   ],
   "note": "False: an old value with a quote in it can set other columns, even the key (C112_false). True of the logs of C58; each changed column gets the old value of the last change of it in the log (C112_any_state_partial, which also has that executing the output again changes nothing)."
  },
  {
   "property": "C113",
   "status": "partial",
   "theorems": [
    "Verif.Props.C113_exact",
    "Verif.Props.C113_always",
    "Verif.Props.C113_false",
    "Verif.Props.C113_inline_partial"
   ],
   "note": "False: the length field of an off-page value has UNIV_EXTERN_STORAGE_FIELD added and is taken for NULL's (C113_false). Exactly what is printed if it is the last old value (C113_exact); whatever follows, a printed statement sets the first off-page column to NULL (C113_always). True of the logs of C58, which have no off-page values (C113_inline_partial)."
  },
  {
   "property": "C114",
   "status": "partial",
   "theorems": [
    "Verif.Props.C114_exact",
    "Verif.Props.C114_renamed_partial",
    "Verif.Props.C114_rebuilt",
    "Verif.Props.C114_false"
   ],
   "note": "False: a rebuilt table has another number, and its earlier updates are left out without a message on the standard output (C114_false; C114_rebuilt: always). True for tables that were renamed or dropped, for the logs of C58 (C114_renamed_partial; C114_exact has the lines)."
  },
  {
   "property": "C115",
   "status": "partial",
   "theorems": [
    "Verif.Props.C115_never",
    "Verif.Props.C115_kept_partial",
    "Verif.Props.C115_false"
   ],
   "note": "False: nothing is printed for the two undo records, and no output ever changes a key (C115_false; C115_never: on any tables). True for the rows whose keys were not changed, for the logs of C58 (C115_kept_partial)."
  },
  {
   "property": "C116",
   "status": "partial",
   "theorems": [
    "Verif.Props.C116_exact",
    "Verif.Props.C116_stops",
    "Verif.Props.C116_others_partial",
    "Verif.Props.C116_iff",
    "Verif.Props.C116_false"
   ],
   "note": "False: the condition is `DB_ROW_ID`='<nil>', a column that no statement can name, so the whole script stops with an error, in either order of the lines and whatever rows the tables have (C116_false, C116_stops; C116_exact: the lines). True exactly if no selected table without a primary key was updated, for the logs of C58 (C116_others_partial, C116_iff)."
  },
  {
   "property": "C117",
   "status": "partial",
   "theorems": [
    "Verif.Props.C117_iff",
    "Verif.Props.C117_copies_partial",
    "Verif.Props.C117_ignored",
    "Verif.Props.C117_false"
   ],
   "note": "False: the extent descriptors are not read, so the rows of free pages are printed too (C117_ignored: the output does not depend on pages that are not index pages; C117_false: a row that is on a free page only). True exactly if each row of a free page is followed by a row with its key or is the same as a row in use (C117_iff), for instance right after two pages have been merged (C117_copies_partial)."
  },
  {
   "property": "C118",
   "status": "partial",
   "theorems": [
    "Verif.Props.C118_read",
    "Verif.Props.C118_one_page_partial",
    "Verif.Props.C118_same_order_partial",
    "Verif.Props.C118_false"
   ],
   "note": "False: the columns of a table are taken in the order in which their rows are met; the positions that the rows have are not used. If the page with the second column comes first, the values are decoded with each other's types (C118_false: the row (1, 1) is printed as (-2147483647, 2147483649)). Proved if the columns of each table are on one page, and so are its indexes and the columns of each index (C118_one_page_partial), or if they are met in the same order (C118_same_order_partial); C118_read: what is read in general."
  },
  {
   "property": "C119",
   "status": "partial",
   "theorems": [
    "Verif.Props.C119_pages",
    "Verif.Props.C119_shadowed",
    "Verif.Props.C119_numbers_partial",
    "Verif.Props.C119_before_partial",
    "Verif.Props.C119_false"
   ],
   "note": "False: of several pages with the same number only the first is read, whatever tablespace it belongs to, so a copy in the buffer hides the page with the same number behind the buffer (C119_false: a page of a table with number 192 hides the rows of SYS_TABLES, after which the data command only prints 'Table ID have not found' for all tables and the redo command prints nothing). C119_pages: what is read exactly; C119_shadowed: hidden pages have no influence; true if each page in the buffer has the number of a page before it, or is not of the dictionary and does not have the number of a page of the dictionary behind it (C119_numbers_partial, C119_before_partial)."
  },
  {
   "property": "C120",
   "status": "proved",
   "theorems": [
    "Verif.Props.C120_data",
    "Verif.Props.C120_unread",
    "Verif.Props.C120_redo"
   ],
   "note": "Counts statements; the lines `test MYSQL_TYPE_NEWDECIMAL` of a run that never ends are not bounded."
  },
  {
   "property": "C121",
   "status": "partial",
   "theorems": [
    "Verif.Props.C121_first_partial",
    "Verif.Props.C121_all_lost",
    "Verif.Props.C121_false"
   ],
   "note": "False: only the file given is read, so pages of the dictionary in further files are missing (C121_false: the page with the rows of SYS_TABLES is the first of the second file). If an index in the first file belongs to a table whose row is in a further file, neither command recovers anything, also not of the other tables (C121_all_lost). True if no page of the further files belongs to the dictionary (C121_first_partial)."
  },
  {
   "property": "C122",
   "status": "partial",
   "theorems": [
    "Verif.Props.C122_iff",
    "Verif.Props.C122_rejected_partial",
    "Verif.Props.C122_no_value",
    "Verif.Props.C122_operation",
    "Verif.Props.C122_false"
   ],
   "note": "False: the value of OpType is not checked; every value but RecoveryData has the same effect (C122_operation), and with a misspelt one the program runs and ends with status 0 (C122_false). Unknown and missing options are rejected with status 2 (C122_iff: these lines exactly), as are options without a value."
  },
  {
   "property": "C123",
   "status": "partial",
   "theorems": [
    "Verif.Props.C123_exact",
    "Verif.Props.C123_iff",
    "Verif.Props.C123_restores_partial",
    "Verif.Props.C123_lost",
    "Verif.Props.C123_false"
   ],
   "note": "False: the script has nothing that disables triggers, so they are executed a second time (C123_lost: a second record in the other table, a changed row, an aborted script). It holds if and only if the triggers leave every row of the file as it is and write nothing for it (C123_iff). Only INSERT triggers with one other table are modelled; a trigger sees the new row only."
  },
  {
   "property": "C124",
   "status": "partial",
   "theorems": [
    "Verif.Props.C124_exact",
    "Verif.Props.C124_iff",
    "Verif.Props.C124_quiet_partial",
    "Verif.Props.C124_lost",
    "Verif.Props.C124_false"
   ],
   "note": "False: the script has nothing that disables triggers (C124_lost: the undone update is recorded as an update; a trigger that refuses the change ends the script). For one update it holds if and only if the triggers leave the restored row as it is and write nothing for it (C124_iff). Only UPDATE triggers that see the old and the new row and write to one other table are modelled."
  },
  {
   "property": "C125",
   "status": "proved",
   "theorems": [
    "Verif.Props.C125_data",
    "Verif.Props.C125_restored",
    "Verif.Props.C125_redo",
    "Verif.Props.C125_undone"
   ],
   "note": "C125_data and C125_redo are about all files; C125_restored is about the files of C57 and C125_undone about the logs of C58, whose rows are restored (C72) and whose updates are undone (C74) also after an interruption. The condition on keys is needed (keys_needed)."
  },
  {
   "property": "C126",
   "status": "partial",
   "theorems": [
    "Verif.Props.C126_exact",
    "Verif.Props.C126_one_database_partial",
    "Verif.Props.C126_false"
   ],
   "note": "False: if a table is named, the name of the database is ignored (C43), so that the tables with this name in all databases are changed; C126_exact says so for every state, and C126_false is of a log in which zoo.t is asked for and shop.t is changed. True if no table of another database with this name was updated."
  }
 ]
}
