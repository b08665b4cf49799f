#!/usr/bin/env python3
"""Writes MANIFEST.json.  One entry per property: status, theorem names, note."""
import json, os

P, Q = "proved", "partial"
N = "Verif.Props."
C = [
 ("C01", P, "C01_big_endian_reads C01_all_buffers", "Value and the exact panic condition."),
 ("C02", P, "C02_compressed_roundtrip C02_compressed_truncated", "Round trip in any context; every truncation."),
 ("C03", P, "C03_size_is_encoded_length C03_decoder_consumes_size", ""),
 ("C04", Q, "C04_cursor_and_high_word_partial C04_iff C04_false C04_panics_at_end", "False of the code: the low word is read too far to the right. Cursor and high word proved."),
 ("C05", Q, "C05_below_2_32_partial C05_iff C05_false C05_high_word_lost", "False of the code from 2^32 on: the high word is dropped."),
 ("C06", P, "C06_signed_integers C17_type_codes", ""),
 ("C07", Q, "C07_widths_1_2_4_8_partial C07_iff C07_false C07_width3 C07_widths567_panic", "False of the code for widths 3, 5, 6, 7."),
 ("C08", P, "C08_date C08_date_text C17_type_codes", ""),
 ("C09", Q, "C09_datetime_partial C09_iff C09_false C09_through_decoder C17_type_codes", "False of the code for bit-packed years outside 1991..2099."),
 ("C10", P, "C10_time C17_type_codes", ""),
 ("C11", Q, "C11_timestamp_12_hour_partial C11_iff C11_same_text_partial C11_false", "False of the code: 12-hour clock without am/pm."),
 ("C12", P, "C12_binary_columns C17_type_codes", ""),
 ("C13", Q, "C13_escape_roundtrip_partial C13_iff C13_injective C13_zero_time C13_false", "True for every string but one, which the code empties."),
 ("C14", Q, "C14_char_partial C14_trims C14_ascii_partial C14_false C17_type_codes", "Exact condition, in terms of the UTF-8 encodings of the white space characters, and what is returned in every case; false of the code for values with leading white space."),
 ("C15", P, "C15_fixedLengthInt C15_fixedLengthInt_roundtrip C15_unsigned C15_signed", ""),
 ("C16", P, "C16_float_bits C17_type_codes", ""),
 ("C17", Q, "C17_value_iff_supported_partial C17_false C17_type_codes", "Exact set of types; false for DECIMAL and GEOMETRY."),
 ("C18", P, "C18_file_pages C18_no_duplicates C18_none_lost C18_page_bytes", ""),
 ("C19", P, "C19_headers C19_short", ""),
 ("C20", Q, "C20_compact_rows_partial C20_iff C20_row_columns C20_false C20_false_varbinary C20_false_char", "Exact over table definitions: all rows of a table are decoded right iff every column type is one the code reads correctly; false for latin1 VARCHAR, VARBINARY above 255 bytes, CHAR in other single-byte character sets, and latin1 CHAR(0) and BINARY(0)."),
 ("C21", Q, "C21_redundant_rows_partial C21_iff C21_nulls_ignored C21_false C21_false_varchar", "Rows without NULL proved; exact over table definitions: all rows of a table are decoded right iff no column is nullable and none is a latin1 VARCHAR.  The NULL flag is ignored by the code, latin1 VARCHAR rows are rejected."),
 ("C22", Q, "C22_visits C22_once C22_compact_page_partial C22_redundant_page_partial C22_rows_partial C22_false", "The records visited are exactly the linked ones, in order, once; the rows are right for readable column types; false for latin1 VARCHAR."),
 ("C23", Q, "C23_visits C23_once C23_compact_page_partial C23_redundant_page_partial C23_rows_partial C23_false", "As C22, for the free list."),
 ("C24", Q, "C24_acyclic_partial C24_bounded C24_hang_is_forever C24_iff C24_false", "False of the code: a cycle of links loops forever. Ends on every page on which the links from the first record do not lead into a cycle; exact condition: C24_iff."),
 ("C25", Q, "C25_pages_partial C25_only_outside C25_inside_partial C25_compact_partial C25_redundant_partial C25_false C25_record_false C25_stale_row C25_flag_leaks", "False of the code: a damaged record with a column beyond the end of the page prints a value of the page before (C25_false). A page without such columns and without NULLs in binary columns prints the same after any other pages; a record agrees in all columns within the page."),
 ("C26", P, "C26_selected_pages C26_selection C82_in_place C27_success_iff", "For whole files: pages that are not selected have no influence (C82_in_place), and a run succeeds only if every selected page can be decoded (C27_success_iff)."),
 ("C27", Q, "C27_sound_files_partial C27_success_iff C27_bad_page C27_bad_first_page C27_low_record C27_false", "The concatenation is proved for files whose selected pages can all be decoded, and the run succeeds exactly for those; false of the code otherwise: one damaged page ends the program."),
 ("C28", Q, "C28_unknown_table_partial C28_never_an_error C28_false", "False of the code: no error is returned. Nothing is printed; the exact condition under which the program aborts is proved."),
 ("C29", P, "C29_lookup C29_unknown C29_order C29_by_id C29_needs_unique", "For dictionaries in which no two tables have the same database and table name; without that the result depends on the order (C29_needs_unique)."),
 ("C30", Q, "C30_file_partial C30_first_column_partial C30_generated C30_insertion C30_user_columns C30_each_table C30_panics C30_false", "Inserting the hidden columns is correct for every column list and iteration order; the full statement fails because the step before it (C31) loses or reorders user columns unless the key is the first column."),
 ("C31", Q, "C31_file_exact C31_first_column_partial C31_no_key C31_index_order C31_total C31_single C31_leading C31_behind C31_iff C31_loses C31_false C31_false_composite", "True if and only if the key is empty or is the first column (C31_iff, for every key); the exact result is proved for keys of one column and for keys made of leading columns, and a key column further behind always costs a column (C31_loses)."),
 ("C32", Q, "C56_loads C32_mixed_partial C32_dropped C32_dropped_load C32_pages_partial C32_exact C32_iff C32_from_root C32_no_root C32_header C32_false", "C32_false: a system file with a page of SYS_TABLES in front of the root, whose table is not loaded. Pages of an index that come before its root page in the file are dropped: exactly the pages kept, and exactly when all are."),
 ("C33", Q, "C33_file_partial C33_definitions_partial C33_rows C33_null_count C33_iff C33_false", "True for all rows except the binary flag, which is only set for BLOB columns."),
 ("C34", P, "C34_file C63_unknown_table C34_indexes C34_error", "C34_file and C63_unknown_table: from the bytes of the system file; C34_indexes and C34_error: for the rows."),
 ("C35", Q, "C35_replace_partial C35_iff C35_bit_iff C35_false C35_zero_time C35_bit_null C35_backtick C17_type_codes", "Every statement is read back by an independent SQL reader as the original row, except for values the code changes: the string NULL, the zero time, BIT values above 1, NULL in BIT, backticks in names."),
 ("C36", P, "C36_one_value_per_column C36_values C36_no_internal C36_one_line_per_row", ""),
 ("C37", Q, "C37_only_replace_partial C37_two_kinds C37_page_exact C37_no_script C37_lines C37_false C17_type_codes", "True, however the run ends, for tables without DECIMAL columns. Exact otherwise: there is one line test MYSQL_TYPE_NEWDECIMAL for each DECIMAL value that is not NULL (C37_page_exact), and no other line than these and REPLACE statements for any file (C37_two_kinds); output that begins with such a line cannot be executed (C37_no_script)."),
 ("C38", P, "C38_file C38_stream C38_parse C38_roundtrip C55_files", "C55_files: the same from the command line to the decoder."),
 ("C39", Q, "C39_iff C39_lengths_partial C39_trailer_read C39_header_panic C39_false", "False of the code: exact set of data lengths for which the program aborts, and true for the others."),
 ("C40", P, "C40_terminates C40_iterations C40_progress C40_files C40_fields_loop C40_update_vector_loop C40_index_loop C40_copy_loop", "Every loop, for every stream."),
 ("C41", Q, "C41_record_partial C41_sequence_partial C41_rename C41_comp_sec_delete_mark C41_dummy C41_null_update C41_log_end C41_false", "Proved for sequences of all documented records except file renames, MLOG_COMP_REC_SEC_DELETE_MARK, dummy records, updates in place that set a column to NULL, and undo records with numbers from 2^32; for the first four the exact wrong cursor is proved. Up to five bytes must follow the three records whose last 64-bit number is read too far to the right (Rec.ahead); the others may end the log."),
 ("C42", Q, "C42_update_partial C42_stream_partial C42_log_partial C42_exact C42_binary C42_no_key C42_datetime_key C42_false", "For a whole log of documented records one statement per update record of a selected table is proved, with exactly the recorded values, for all column types the decoders get right. False of the code for binary and BIT columns, tables without primary key, DATETIME keys; the exact output is proved for these."),
 ("C43", Q, "C43_exact C43_one_name_partial C43_false", "For the whole command and all files. With both names given a table of another database with the same table name is printed (C43_exact); witness: the table t of the database zoo is asked for, the statement for shop.t is printed."),
 ("C44", Q, "C44_one_column_partial C44_value_iff C44_more_columns C44_injection C44_quote C44_empty_key C44_false", "True for one updated column and values without quotes and backslashes. With two or more columns the statement is read as assigning the first only, for all values; values are not escaped."),
 ("C45", Q, "C45_exact C45_confined_partial C45_false", "True unless a column of the record is not found in the dictionary, or the record reaches the end of the stream: exact cursor in every case."),
 ("C46", Q, "C46_undo_iff C46_undo_partial C46_update_in_place C46_types_partial C46_false C46_false_run", "The program aborts exactly when the two-byte length of an undo record is cut off by the end of the stream."),
 ("C47", Q, "C47_accepted C47_step C47_skip_partial C47_handled C47_group_end C47_checkpoint C47_false", "True except in the last 10 bytes of the stream."),
 ("C48", Q, "C48_printed_partial C48_last_printed_partial C48_undo_cut_partial C48_cut_value C48_complete_aborts C48_datetime_lost C48_false", "The statements of the complete records have been printed however the parsing ends; a cut undo record does not abort it. False of the code for other records, and a cut inside an old value prints a wrong statement."),
 ("C49", P, "C49_undo_record C49_other_types C49_step C49_stream C49_no_tables C49_other_kinds", ""),
 ("C50", P, "C50_case_insensitive C50_levels C50_unknown C50_written C50_monotone", ""),
 ("C51", P, "C51_dictionary_error C51_dictionary_panic C51_operation C51_every_file C51_data_error", "Loading the dictionary is proved to print nothing."),
 ("C52", Q, "C52_own_file_partial C52_iff C52_false", "The index id is not checked: exact condition, and true for files with pages of the table only."),
 ("C53", Q, "C53_unmarked_partial C53_marked_printed C53_command_iff C53_command_marked C53_false", "The delete mark is not checked: exact condition, and true for pages without marked records. C53_command_iff: the same for the whole command; C53_command_marked: a file with a marked record, whose row is printed."),
 ("C54", Q, "C54_local_rows_partial C54_mark_ignored C54_false C54_redundant C54_redundant_false", "False of the code for every externally stored column: in COMPACT records the local part is printed as the value, in REDUNDANT records the value of the row before (or no row at all)."),
 ("C55", Q, "C55_names C55_files C55_statements_partial C55_dictionary_error C55_dictionary_panic C55_log_error C55_false", "The files, the filter and the errors for all inputs; the statements for the logs of C42. False of the code otherwise: what C41 and C42 miss, and a log that ends with the record for the reuse of an undo log aborts the command (C55_false)."),
 ("C56", Q, "C56_dictionary_partial C56_exact C56_loads C56_unique_key C56_false", "From the bytes of the file to the table definitions, for all trees in which the root comes first; stored column order for all tables whose primary key is their first column or whose clustered index is generated. For all other tables false of the code (C56_exact: stored order if and only if the key is generated or the first column). The other tables of the file may have any primary key."),
 ("C57", Q, "C57_command_partial C57_written_partial C57_written_pages_partial C57_values_iff C57_false", "From the bytes of both files to the values in the printed statements, for tables whose key comes first, pages that belong to the table and hold no marked records, and values that the tool decodes and prints correctly (Restored). False of the code otherwise; witness: a VARCHAR with the text NULL. C57_values_iff: whatever values such a table holds (bit-packed DATETIME values in the years 1991 to 2099), its rows are printed as stored if and only if all values are restored."),
 ("C58", Q, "C58_command_partial C58_lines C58_false", "From the bytes of the system file and the log files to the values in the printed statements: C56, C38, C42 and C44 composed. Missing: what these miss; witness for the negation: an old value with a quote."),
 ("C59", P, "C59_data C59_redo C59_key C59_identity C59_described C59_needs_one_clustered", "For all orders of all iterations; the condition is needed (also C29_needs_unique) and holds of the dictionaries of C56. The iteration over the indexes made for each undo record is C59_key."),
 ("C60", Q, "C60_data_partial C60_redo_partial C60_data_system C60_redo_system C60_false C60_false_data C60_false_redo", "False of the code: a cycle of record links on a page of the system file loops forever in both commands. They end when the links from the first record of the pages read do not lead into a cycle, in particular on intact system files, whatever the log files contain."),
 ("C61", Q, "C61_printed C61_report C61_wrong_table C61_below_2_32_partial C61_aborts C61_false C61_column_type C61_no_structure", "Every header field is right. Of the table id only the low 32 bits are printed (C05). For record numbers from 2^32 on the table id is read at the wrong place (C61_printed, for all numbers); C61_wrong_table: the high word of the record number is printed as the table id."),
 ("C62", Q, "C62_after_partial C62_definitions_partial C62_files_partial C62_false C62_dictionary_false", "False of the code: the values of the last row stay in the columns of the dictionary, and a damaged record of the next file prints them (C62_false). However a run ends, everything else of the dictionary is unchanged, and a file with sound pages prints the same after any other files."),
 ("C63", P, "C63_missing_root C63_no_dictionary C63_unknown_table", "C63_unknown_table is for files in the format of SystemFile (C56); C63_missing_root and C63_no_dictionary for all files."),
 ("C64", Q, "C64_reach_partial C64_abort C64_no_long_index_partial C64_tight C64_false", "True for all streams but one case: a compact insert record with more index fields than the rest of the stream can hold ends the parsing with an error. Aborts come only in the last 16 bytes (C64_abort), and the bound is attained."),
 ("C65", Q, "C65_first_argument C65_options_partial C65_option_first C65_value_removed C65_shop C65_shop_redo C65_false", "True of lines that begin with recovery. False otherwise: FromDataFile calls flag.Parse, which ends the program with status 2 when the first argument is an option (exactly then). Also false when a value before the operation has its name. cobra, pflag and flag are modelled from their sources as known, they are not in the repository."),
 ("C66", Q, "C66_status_partial C66_unreadable C66_false", "False of the code: the status is 0 whenever the system file cannot be opened; exact condition for every status."),
 ("C67", Q, "C67_cut C67_prefix_iff C67_cut_partial C67_beginning C67_short_file C67_wrong_statement C67_false", "False of the code: the missing bytes of the last block are read as zeros, so an old value cut in the log is restored with NUL bytes (C67_wrong_statement). Exact result for every cut and, for the beginning, for every content."),
 ("C68", Q, "C68_zeros C68_page_partial C68_rows_partial C68_printed_page C68_recovered_page C68_wrong_row C68_false", "False of the code: the missing bytes of the last page are read as zeros, so the first record behind the cut gives a row that was never stored (C68_wrong_row). Proved for cuts behind the last record of a page; exact result for compact pages cut in front of a record."),
 ("C69", Q, "C69_unchecked C69_runs C69_right_partial C69_wrong_sums C69_false", "False of the code: the trailers are not looked at. Exact: of the headers and trailers of a file only the data lengths count."),
 ("C70", Q, "C70_stream C70_skipped_partial C70_forged C70_false", "False of the code: the place of the first record in a block is not used. Exact stream; proved if no byte of the rest of the overwritten record is the type of a record; a rest that looks like records is printed."),
 ("C71", Q, "C71_page C71_unchecked C71_tearable C71_whole_partial C71_false", "False of the code: neither checksums nor LSNs are compared. Exact: checksums, LSNs, neighbours, space ids and trailers do not matter."),
 ("C72", Q, "C72_restores_partial C72_program_partial C72_iff C72_false exec_printed", "False of the code: a name NULL comes back as NULL. Exact as to the values (C72_iff): whatever a table holds (bit-packed DATETIME values in the years 1991 to 2099), its rows come back if and only if all values are restored; a server in strict mode is supposed. Proved for the files of C57 from the bytes of standard output to the rows of the table; ENUM and SET columns count as numbers here (C89)."),
 ("C73", Q, "C73_exact C73_versions C73_adds_partial C73_false", "False of the code: REPLACE overwrites a row whose key is in use again, and of several versions the oldest remains. Exact result for all tables; proved if all keys are different."),
 ("C74", Q, "C74_once_partial C74_reverse_partial C74_program_partial C74_last C74_iff C74_twice C74_false", "False of the code: statements are printed in the order of the log, so a column that was updated twice gets the value before its last update (C74_last). Proved for the logs of C58 if no column of a row was updated twice, and without that for the opposite order. C74_iff is exact for these logs: the printed order restores the tables if and only if each column held the same value before its first update and before its last one."),
 ("C75", Q, "C75_exact_partial C75_lost C75_renamed C75_redo_lost C75_redo_silent C75_false", "False of the code: names are compared and printed in the encoded form. Exact: the rows are printed if and only if both names consist of letters, digits and _. Names with other than ASCII characters are left out."),
 ("C76", Q, "C76_exact_partial C76_width C76_false", "False of the code: the mark is not looked at, so each statement has a value for each virtual column, read from bytes that belong to something else. Exact for tables with rows: the stored values are printed if and only if there is no virtual column."),
 ("C77", Q, "C77_printed C77_iff C77_whole_partial C77_false", "False of the code: the fraction is never printed, and a negative time with a fraction is printed one second too far from zero. Exact: the value is printed if and only if its fraction is zero."),
 ("C78", Q, "C78_exact_partial C78_iff C78_false", "False of the code: 16384 bytes are always read as one page. Exact: the rows of the first page of each 16384 bytes are printed, so all rows are printed if and only if the other pages have none. Larger pages (32768, 65536) are left out."),
 ("C79", Q, "C79_exact C79_iff C79_ascending_partial C79_numbers C79_false", "False of the code: blocks are read in the order of the file and their numbers are not compared. Exact: the statements of the newer blocks are printed first; proved if the blocks stand in the order of their numbers."),
 ("C80", Q, "C80_lost C80_redo_lost C80_renamed_partial C80_false", "False of the code: names are compared with those of the dictionary entries. Given the name of the table nothing is printed; given that of the partition each statement is for a table of that name. Given the name of the table the redo command prints no statement either (C80_redo_lost)."),
 ("C81", P, "C81_lines C81_command C81_no_more", "For every data file and every outcome. The names must not contain backticks (C75 covers them). The client must use a character set in which the bytes of quotes and backslashes are no part of other characters, such as utf8 or latin1."),
 ("C82", P, "C82_in_place C82_other_pages C82_appended", "For every file. Pages that are added among others must have numbers of their own: of several pages with one number only the first is read (C18)."),
 ("C83", Q, "C83_division_partial C83_same_memory C83_records_partial C83_false", "False of the code: FLOAT, DOUBLE and DECIMAL values at the end of the log are read from the reserved memory behind it. Proved for all logs if the tables have no columns of these types, for all tables if the log is followed (C42), and for all logs if the reserved memory is the same."),
 ("C84", P, "C84_log C84_command", "For every log and every choice of names; which statements are suppressed is the exact condition of C43."),
 ("C85", Q, "C85_success C85_sound_partial C85_command_partial C85_rows_partial C85_restores_partial C85_false", "False of the code: a page that cannot be decoded ends the run, so the rows of the pages behind it are lost. Whether a run succeeds never depends on the order; proved for files whose pages are sound, and for the tables of C57 up to the rows in the table after the output has been executed."),
 ("C86", P, "C86_again C86_in_use_last C86_files_again C86_files_in_use_last", "For all files and all outcomes, if the output can be executed; C86_files_again and C86_files_in_use_last: for the files of C57 it can, from the bytes of the files to the rows of the table."),
 ("C87", Q, "C87_load C87_in_place_partial C87_appended_partial C87_abort C87_harmless C87_harmful C87_false", "False of the code: ParseDictPage never looks at the type of a page, so a page of a BLOB in which the bytes 66 to 73 happen to be the number 1 is decoded as a page of SYS_TABLES; C87_false is a correct system file in which the data of such a BLOB make both commands abort. Proved: all pages in which these bytes are not one of the ids 1 to 4 (and which are not numbered 7) have no influence, whatever their type."),
 ("C88", Q, "C88_iff C88_year_partial C88_zero C88_false", "False of the code: the year 0000 is stored as 0 and decoded as 1900. Exact: all others are right."),
 ("C89", Q, "C89_iff C89_names_partial C89_false", "False of the code: the number of the member is printed as a string, and a server looks for a member with this text first; with ENUM('2','1') the two values change places. Exact condition for the files of C57; proved if no member is a number."),
 ("C90", Q, "C90_contained_partial C90_injects C90_drops C90_false", "False of the code: old values and keys are printed as they are, so that a value with a quote leaves its literal; any SQL text can be brought into the output in this way. Proved for followed logs whose values hold no quote and no backslash, or hold them in pairs, with any number of columns."),
 ("C91", Q, "C91_exact C91_iff C91_restores_partial C91_lost C91_false", "False of the code: the output does not set the SQL mode NO_AUTO_VALUE_ON_ZERO, so a server stores the next value of its counter for a 0; of a table with the rows 0 and 1 only one row is left (C91_lost). Exact: the rows come back if and only if none has 0 (or NULL) there."),
 ("C92", Q, "C92_date_iff C92_datetimeOld_iff C92_datetime_iff C92_zero_datetime_iff C92_zero_timestamp C92_read_partial C92_false", "False of the code: the zero TIMESTAMP is printed as an instant of 1970, and a zero DATETIME of MySQL 5.6 and later as digits of the bytes behind it unless these are zero (C92_zero_datetime_iff); years below 100 are printed with two digits and get a century. Exact condition for each type."),
 ("C93", Q, "C93_iff C93_instant_partial C93_overlap C93_false", "False of the code: the 12-hour clock (C11), and clock readings that occur twice when the clock is put back; of two such instants at most one comes back, whatever is done with the text (C93_overlap). Exact condition for every instant."),
 ("C94", Q, "C94_plain_iff C94_charset_partial C94_leaves C94_false", "False of the code: with NO_BACKSLASH_ESCAPES a string is read back if and only if nothing in it is escaped (C94_plain_iff); in GBK and the like a byte that can begin a character followed by a quote leaves the literal (C94_leaves). Proved for strings in which no such byte stands in front of an escaped character."),
 ("C95", Q, "C95_record_partial C95_compact_partial C95_redundant_partial C95_column_iff C95_datetime_iff C95_bit_aborts C95_false", "False of the code: eight bytes are read for each DATETIME, also if it is stored in five to seven, and the bytes of the next column decide what is printed for a date outside of the years 1991 to 2099 (C95_datetime_iff); a BIT column in five to seven bytes aborts the program (C95_bit_aborts). Proved for pages whose columns have all other types, and exact over the types (C95_column_iff)."),
 ("C96", Q, "C96_exact C96_never C96_null_iff C96_distinct_partial C96_false", "False of the code: the packed bytes are printed as they are. Never true: no value of any DECIMAL column is printed so that the server takes it for the stored number (C96_never), also if it passes over text behind a number; one number is printed as NULL (C96_null_iff). Proved: different numbers are printed differently, so nothing is lost. White space in front of a number is that of ASCII."),
 ("C97", Q, "C97_shifted C97_iff C97_equal_partial C97_false", "False of the code: SYS_FIELDS.POS, which holds the prefix length, is never read. What is printed is the prefix and then all values but the last, each in the column after its own (C97_shifted); this is right exactly for rows whose values are all equal and no longer than the prefix (C97_iff). For tables whose columns are NOT NULL VARCHAR columns of the same length; the statement has the same domain. Keys of whole columns are C57."),
 ("C98", Q, "C98_seen C98_never C98_unchanged C98_others_partial C98_false", "False of the code: the old value is assigned to the column after the updated one, in the rows whose key column equals the prefix (C98_seen, with the effect of the output on every state of the tables). The row is never restored (C98_never: only if there was nothing to restore); if all values of the key column are longer than the prefix, the output changes nothing (C98_unchanged). True for tables with other keys, though the log has updates of such tables (C98_others_partial). Missing: updates of the last column, for which no column is found and the tool loses its place in the log (C45)."),
 ("C99", Q, "C99_never C99_iff C99_none_partial C99_false", "False of the code: it never writes DEFAULT. Whatever the files hold, no statement for a table with a generated column is one that the server runs (C99_never); for the tables of C57 the statements are run if and only if no column is generated (C99_iff)."),
 ("C100", Q, "C100_iff C100_none_partial C100_false", "False of the code: the hidden column is printed like the others, so each statement has one value too many. For the tables of C57, a line gives the values of the user's columns if and only if the table has no hidden column (C100_iff)."),
 ("C101", Q, "C101_iff C101_update_never C101_flags_partial C101_null C101_false", "False of the code: decimal digits are printed between b' and '. In REPLACE statements exactly the values 0 and 1 of columns that do not take 5 to 7 bytes are right (C101_iff); in UPDATE statements no value is (C101_update_never); NULL is printed as bNULL (C101_null)."),
 ("C102", Q, "C102_iff C102_freed_partial C102_false", "False of the code: only the free lists are walked, so a row that is delete-marked and not purged is never recovered. C102_iff: the claim holds exactly if no linked record is delete-marked."),
 ("C103", P, "C103_appended C103_cut C103_copies", "For all files, no assumption about their content; an aborted or looping run is not changed by what is appended."),
 ("C104", P, "C104_other_tables", "For dictionaries in which names and ids are unique and which the tool loads (UsualKeys); the data file is arbitrary."),
 ("C105", Q, "C105_iff C105_one_partial C105_mixed C105_false", "False as stated: a row with a string in UTF-8 and one in a set of one byte for each character, neither of them ASCII, is stored by its statement in no session (C105_mixed, C105_false). Exact condition per row and session in C105_iff; a table with one character set, or whose other strings are ASCII, is restored by a session with that character set (C105_one_partial)."),
 ("C106", Q, "C106_never C106_null_partial C106_false", "False for every value: the data command prints a binary string, which the server refuses for JSON, and the redo command the hexadecimal digits of the binary form, which are no JSON text (C106_never, by induction on JSON texts). Only NULL is printed right (C106_null_partial)."),
 ("C107", Q, "C107_renamed C107_dropped_partial C107_false", "Delete marks of the dictionary are not looked at. C107_dropped_partial: dropped tables whose ids and names no other row has make no difference. C107_renamed: if the last row with the id of a table has another name, none of its rows is printed and the command aborts. C107_false: shop.t renamed to shop.a."),
 ("C108", Q, "C108_exact C108_iff C108_keys C108_new_partial C108_false", "False of the code: REPLACE deletes the row with the key of the new one, so rows that refer to it are deleted, set to NULL, or the script ends with an error. Exact result (C108_exact) and exact condition (C108_iff, C108_keys); true if no printed key is in the table (C108_new_partial)."),
 ("C109", Q, "C109_iff C109_assigned_partial C109_false", "False: an update of another column that left such a column as it was is undone by a statement that sets it to the time of the restoration (C109_false). True if every update changed all these columns of its table (C109_assigned_partial). For one update, exactly: restored iff already undone or the columns not updated hold the time of the restoration (C109_iff)."),
 ("C110", Q, "C110_iff C110_once_partial C110_reverse_partial C110_false", "False: a row that was updated, and then updated again by a transaction that was rolled back, is not restored (C110_false). Exact condition for all histories: C110_iff. True if no column of a row was updated twice, rolled back or not (C110_once_partial), and always if the lines are executed from the last to the first (C110_reverse_partial)."),
 ("C111", Q, "C111_iff C111_other_columns_partial C111_reverse_partial C111_false", "False: if row 8 got the name that row 7 had before, the first statement gives it to row 7 again and is refused (C111_false). Exact condition: C111_iff. True if no column of a UNIQUE index was updated (C111_other_columns_partial), and always if the lines are executed from the last to the first (C111_reverse_partial)."),
 ("C112", Q, "C112_any_state_partial C112_false", "False: an old value with a quote in it can set other columns, even the key (C112_false). True of the logs of C58; each changed column gets the old value of the last change of it in the log (C112_any_state_partial, which also has that executing the output again changes nothing)."),
 ("C113", Q, "C113_exact C113_always C113_false C113_inline_partial", "False: the length field of an off-page value has UNIV_EXTERN_STORAGE_FIELD added and is taken for NULL's (C113_false). Exactly what is printed if it is the last old value (C113_exact); whatever follows, a printed statement sets the first off-page column to NULL (C113_always). True of the logs of C58, which have no off-page values (C113_inline_partial)."),
 ("C114", Q, "C114_exact C114_renamed_partial C114_rebuilt C114_false", "False: a rebuilt table has another number, and its earlier updates are left out without a message on the standard output (C114_false; C114_rebuilt: always). True for tables that were renamed or dropped, for the logs of C58 (C114_renamed_partial; C114_exact has the lines)."),
 ("C115", Q, "C115_never C115_kept_partial C115_false", "False: nothing is printed for the two undo records, and no output ever changes a key (C115_false; C115_never: on any tables). True for the rows whose keys were not changed, for the logs of C58 (C115_kept_partial)."),
 ("C116", Q, "C116_exact C116_stops C116_others_partial C116_iff C116_false", "False: the condition is `DB_ROW_ID`='<nil>', a column that no statement can name, so the whole script stops with an error, in either order of the lines and whatever rows the tables have (C116_false, C116_stops; C116_exact: the lines). True exactly if no selected table without a primary key was updated, for the logs of C58 (C116_others_partial, C116_iff)."),
 ("C117", Q, "C117_iff C117_copies_partial C117_ignored C117_false", "False: the extent descriptors are not read, so the rows of free pages are printed too (C117_ignored: the output does not depend on pages that are not index pages; C117_false: a row that is on a free page only). True exactly if each row of a free page is followed by a row with its key or is the same as a row in use (C117_iff), for instance right after two pages have been merged (C117_copies_partial)."),
 ("C118", Q, "C118_read C118_one_page_partial C118_same_order_partial C118_false", "False: the columns of a table are taken in the order in which their rows are met; the positions that the rows have are not used. If the page with the second column comes first, the values are decoded with each other's types (C118_false: the row (1, 1) is printed as (-2147483647, 2147483649)). Proved if the columns of each table are on one page, and so are its indexes and the columns of each index (C118_one_page_partial), or if they are met in the same order (C118_same_order_partial); C118_read: what is read in general."),
 ("C119", Q, "C119_pages C119_shadowed C119_numbers_partial C119_before_partial C119_false", "False: of several pages with the same number only the first is read, whatever tablespace it belongs to, so a copy in the buffer hides the page with the same number behind the buffer (C119_false: a page of a table with number 192 hides the rows of SYS_TABLES, after which the data command only prints 'Table ID have not found' for all tables and the redo command prints nothing). C119_pages: what is read exactly; C119_shadowed: hidden pages have no influence; true if each page in the buffer has the number of a page before it, or is not of the dictionary and does not have the number of a page of the dictionary behind it (C119_numbers_partial, C119_before_partial)."),
 ("C120", P, "C120_data C120_unread C120_redo", "Counts statements; the lines `test MYSQL_TYPE_NEWDECIMAL` of a run that never ends are not bounded."),
 ("C121", Q, "C121_first_partial C121_all_lost C121_false", "False: only the file given is read, so pages of the dictionary in further files are missing (C121_false: the page with the rows of SYS_TABLES is the first of the second file). If an index in the first file belongs to a table whose row is in a further file, neither command recovers anything, also not of the other tables (C121_all_lost). True if no page of the further files belongs to the dictionary (C121_first_partial)."),
 ("C122", Q, "C122_iff C122_rejected_partial C122_no_value C122_operation C122_false", "False: the value of OpType is not checked; every value but RecoveryData has the same effect (C122_operation), and with a misspelt one the program runs and ends with status 0 (C122_false). Unknown and missing options are rejected with status 2 (C122_iff: these lines exactly), as are options without a value."),
 ("C123", Q, "C123_exact C123_iff C123_restores_partial C123_lost C123_false", "False: the script has nothing that disables triggers, so they are executed a second time (C123_lost: a second record in the other table, a changed row, an aborted script). It holds if and only if the triggers leave every row of the file as it is and write nothing for it (C123_iff). Only INSERT triggers with one other table are modelled; a trigger sees the new row only."),
 ("C124", Q, "C124_exact C124_iff C124_quiet_partial C124_lost C124_false", "False: the script has nothing that disables triggers (C124_lost: the undone update is recorded as an update; a trigger that refuses the change ends the script). For one update it holds if and only if the triggers leave the restored row as it is and write nothing for it (C124_iff). Only UPDATE triggers that see the old and the new row and write to one other table are modelled."),
 ("C125", P, "C125_data C125_restored C125_redo C125_undone", "C125_data and C125_redo are about all files; C125_restored is about the files of C57 and C125_undone about the logs of C58, whose rows are restored (C72) and whose updates are undone (C74) also after an interruption. The condition on keys is needed (keys_needed)."),
 ("C126", Q, "C126_exact C126_one_database_partial C126_false", "False: if a table is named, the name of the database is ignored (C43), so that the tables with this name in all databases are changed; C126_exact says so for every state, and C126_false is of a log in which zoo.t is asked for and shop.t is changed. True if no table of another database with this name was updated."),
]
claims = [{"property": i, "status": s, "theorems": [N + t for t in ts.split()], "note": n} for i, s, ts, n in C]
out = os.path.join(os.path.dirname(os.path.abspath(__file__)), "..", "MANIFEST.json")
json.dump({"claims": claims}, open(out, "w"), indent=1)
open(out, "a").write("\n")
