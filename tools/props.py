import json
U="recovery/utils/utils.go"; I="recovery/ibdata/parse.go"; F="recovery/ibdata/format.go"; R="recovery/redo/parse.go"; M="recovery/redo/mlog.go"
P=[]
def p(title, statement, quant, why, anchors):
    P.append(dict(id="C%02d"%(len(P)+1), title=title, statement=statement, quantifier=quant, why_tests_cant=why, anchors=anchors))

p("Fixed-width big-endian reads",
  "Reading a 1, 2, 3, 4, 7 or 8 byte big-endian unsigned integer from a buffer returns exactly the integer that was stored there, whatever bytes follow, and fails (Go index panic) exactly when the buffer is shorter than the width.",
  "every value below 256^w, every width w in {1,2,3,4,7,8}, every trailing context, every buffer that is too short",
  "2^64 values times arbitrary context bytes; tests sample a handful.",
  [U+": MatchReadFrom1, MatchReadFrom2, MatchReadFrom3, MatchReadFrom4, MatchReadFrom7, MatchReadFrom8, UtUllCreate"])
p("Compressed 32-bit integers round-trip",
  "Decoding an InnoDB compressed unsigned integer at any position of any buffer returns the integer that was encoded and the number of bytes its encoding occupies; on a truncated buffer the 5-byte form reports an error and the shorter forms panic, never returning a wrong value.",
  "every integer below 2^32, every prefix and suffix of the buffer, every truncation point",
  "The five encoding classes have boundaries at 0x80, 0x4000, 0x200000 and 0x10000000; correctness between and around them for all contexts cannot be enumerated.",
  [U+": MatchParseCompressed"])
p("Compressed size agrees with the encoding",
  "The size function for compressed integers returns exactly the number of bytes InnoDB uses to encode the integer, and the decoder consumes exactly that many bytes for every canonical encoding.",
  "every unsigned 64-bit integer (sizes), every canonical encoding in any context",
  "Unbounded value range; a single wrong boundary desynchronises the redo stream.",
  [U+": MatchGetCompressedSize, MatchParseCompressed"])
p("64-bit 'compressed' integers (compressed high word, plain low word)",
  "Decoding a 64-bit integer stored as a compressed high word followed by a 4-byte low word returns that integer and advances the cursor by exactly the length of the encoding.",
  "every 64-bit integer, every position and every surrounding context",
  "The low-word read position depends on the size class of the high word; all classes and contexts are needed to see whether the value is right.",
  [U+": MatchUllReadComPressed", M+": mlogUndoHdrReuse, mlogRecClustDeleteMark"])
p("64-bit 'much compressed' integers",
  "Decoding a 64-bit 'much compressed' integer (undo number, table id) returns the integer that was encoded, and the companion size function returns the length of its encoding.",
  "every 64-bit integer and every trailing context",
  "The 0xFF-prefixed form only occurs for values of 2^32 and above, which fixtures never contain.",
  [U+": MatchUllReadMuchCompressed, MachUllGetMuchCompressedSize", M+": mlogUndoInsert"])
p("Signed integer columns decode to the stored number",
  "A TINYINT, SMALLINT, MEDIUMINT, INT or BIGINT column value stored by InnoDB (big-endian with inverted sign bit) is decoded to exactly the stored signed number, for the whole range of the type including both extremes.",
  "every width in {1,2,3,4,8} and every integer in the width's range",
  "2^64 values; sign handling differs per width.",
  [U+": GetIntValue, ParseData"])
p("Unsigned integer columns decode to the stored number",
  "An unsigned integer (or BIT / fixed binary number) of 1 to 8 bytes is decoded to exactly the stored number and decoding never aborts the program.",
  "every width 1..8 and every unsigned value of that width",
  "Every width has its own mask and shift; the full value range is needed.",
  [U+": GetUintValue, ParseData"])
p("DATE columns",
  "A DATE column is printed as the stored year, month and day.",
  "every year below 2^14, month below 16 and day below 32, any following bytes",
  "Millions of calendar dates with bit-packed fields.",
  [U+": ParseDate"])
p("DATETIME columns",
  "A DATETIME column, stored in either the pre-5.6 decimal-packed or the 5.6 bit-packed format, is printed as the stored date and time.",
  "every valid date and time in either storage format, any fractional-second bytes and following bytes",
  "The format is guessed from the value itself, so the property requires that no value of one format is ever mistaken for the other.",
  [U+": GetTimeFormat, ParseDateTime"])
p("TIME columns",
  "A TIME column without fractional seconds is printed as the stored signed hours, minutes and seconds.",
  "every sign, hour below 1024, minute and second below 64, any following bytes",
  "Negative times are stored in complement form; all values of 2^23 magnitude must be covered.",
  [U+": ParseTime"])
p("TIMESTAMP columns",
  "A TIMESTAMP column is printed as a string that identifies the stored instant: two different stored seconds never print the same, and the printed clock reading is the instant's 24-hour clock reading.",
  "every 32-bit timestamp and every time-zone offset",
  "Needs all pairs of instants.",
  [U+": ParseTimeStamp"])
p("Binary columns are emitted losslessly as hex",
  "For BINARY, VARBINARY and BLOB columns the emitted hexadecimal text, fed back through SQL unhex(), restores exactly the stored bytes.",
  "every byte string of any length",
  "Unbounded strings.",
  [U+": ParseBlob, ParseData", F+": makeReplaceIntoStatement"])
p("String escaping is lossless and quote-safe",
  "The text produced by the SQL escaper, placed between single quotes, is read back by MySQL's string-literal lexer as exactly the original byte string and the literal ends exactly at the closing quote, including for strings that are not valid UTF-8.",
  "every byte string of any length (valid UTF-8 or not) and every following SQL text",
  "Unbounded strings; the escaper iterates over runes while positions are byte offsets.",
  [U+": EscapeValue"])
p("CHAR padding",
  "For a CHAR column the trailing pad spaces are removed and every other character of the stored value is kept.",
  "every stored byte string",
  "Unbounded strings with arbitrary leading and trailing white space.",
  [U+": ParseData (DATA_MYSQL)"])
p("Little-endian helpers",
  "The little-endian helpers return the stored little-endian number: the variable-length reader for up to 8 bytes, and the 16/24/32/64-bit readers with correct sign extension for the signed variants.",
  "every byte string / every value of each width",
  "Unbounded length and full value ranges.",
  [U+": FixedLengthInt, ParseBinaryInt8, ParseBinaryUint8, ParseBinaryInt16, ParseBinaryUint16, ParseBinaryInt24, ParseBinaryUint24, ParseBinaryInt32, ParseBinaryUint32, ParseBinaryInt64, ParseBinaryUint64"])
p("FLOAT and DOUBLE columns keep their bit pattern",
  "A FLOAT or DOUBLE column is decoded to exactly the IEEE bit pattern that was stored (including NaN payloads, infinities and negative zero).",
  "every 32-bit and 64-bit pattern, any following bytes",
  "2^64 patterns.",
  [U+": ParseFloat, ParseDouble, ParseBinaryFloat32, ParseBinaryFloat64"])
p("No stored value silently becomes NULL",
  "Decoding a column that holds a value never reports the absence of a value: the decoder returns a value for every column type a table can have, and it never returns an error.",
  "every InnoDB main type, MySQL type, data and flag combination",
  "The type-code cross product times data is unbounded; the default branch is silent.",
  [U+": ParseData", F+": makeReplaceIntoStatement"])
p("A data file is read as its sequence of pages, first copy of each page number wins",
  "Reading a tablespace file yields, in file order, every 16 KiB page whose page number did not occur earlier in the file; no page number is yielded twice, none is lost, and a trailing partial page is read as if zero-padded.",
  "every file content of any length",
  "Unbounded file sizes and duplicate patterns.",
  [I+": parseFile", U+": ReadNextBytes"])
p("Page header fields are read from their documented positions",
  "For every page the file header and index page header fields (space id, page number, previous/next, LSN, type, heap top, free list head, garbage bytes, record count, max trx id, level, index id) are the values stored at InnoDB's documented offsets.",
  "every 16 KiB page image",
  "All page contents.",
  [I+": parseFilHeader, parsePageHeader, parseSysPageHeader"])
p("COMPACT row decoding",
  "A row stored in InnoDB COMPACT format, whatever its mix of NULL, fixed and variable-length columns, is decoded to exactly the stored bytes of every column, with NULL columns reported as NULL.",
  "every table definition, every row content, every position of the record in the page, every other page content",
  "Unbounded number of columns, NULL bitmaps and length encodings read backwards from the record origin.",
  [I+": ibRecInitOffsetsNew, parseRecords, checkFieldSize", U+": RecGetNthField, RecGetNthFieldOffs, RecOffsNthSize, GetFixedLength"])
p("REDUNDANT row decoding",
  "A row stored in InnoDB REDUNDANT format (1-byte or 2-byte field ends) is decoded to exactly the stored bytes of every column, with NULL columns reported as NULL.",
  "every number of columns, row content and position",
  "Unbounded number of columns; two different field-end encodings.",
  [I+": ibRecInitOffsetsOld, parseRecords", U+": Rec1GetFieldEndInfo, Rec2GetFieldEndInfo, RecGet1byteOffsFlag"])
p("Printing a page yields every linked record once, in order",
  "In print mode, for a page whose records are linked from the infimum to the supremum record, exactly the linked records are returned, each once and in chain order.",
  "every chain length and every placement (forward or backward jumps) of records in the page",
  "Unbounded chains and 16-bit relative links with wrap-around.",
  [I+": parsePage"])
p("Recovering a page yields every record of its free list",
  "In recovery mode exactly the records on the page's free list are returned, each once, in list order, ending at the record whose link is zero.",
  "every free-list length and placement",
  "Unbounded chains.",
  [I+": parsePage, ParseDataPage"])
p("The page walk always terminates",
  "Parsing any page image finishes: it returns (or fails) after a bounded number of records, also when the record links of a damaged page form a cycle.",
  "every page image",
  "Non-termination cannot be observed by a finite test; all link graphs matter.",
  [I+": parsePage"])
p("Each output row depends only on its own record",
  "The values printed for a record are a function of that record's bytes and the table definition; no value of a previously parsed record can appear in it.",
  "every page and every sequence of records, in particular damaged records whose field lengths point outside the page",
  "Interference needs particular pairs of records; the decoder reuses one mutable column array.",
  [I+": parseRecords, ParseDataPage"])
p("Page selection",
  "When printing, exactly the leaf pages of type INDEX whose PAGE_MAX_TRX_ID is zero are decoded; when recovering, exactly those that also have a non-empty free list (head between 1 and 16384) and a non-zero garbage counter.",
  "every page header content and both modes",
  "Conjunction of overlapping conditions over 16/64-bit header fields.",
  [I+": ParseDataPage"])
p("One damaged page does not affect the others",
  "The statements printed for a data file are the concatenation, in page order, of the statements of each selected page; a damaged page never prevents the rows of another page from being printed.",
  "every file, every set of damaged pages",
  "All ways a page can be damaged.",
  [I+": ParseDataPage, parsePage"])
p("Unknown table is an error",
  "Asking for rows of a table that is not in the dictionary returns an error and prints nothing.",
  "every dictionary, database name, table name and data file",
  "All dictionaries and files.",
  [I+": ParseDataPage, getTableColumnsFromDict"])
p("Table lookup is independent of map iteration order",
  "Looking up a table's columns (or the table) by database and table name returns that table's definition regardless of Go's randomised map iteration order.",
  "every dictionary and every iteration order",
  "Go map order is random: n! schedules.",
  [I+": getTableColumnsFromDict, getTableFromDict", M+": getTableByTableID"])
p("Internal columns are placed where InnoDB stores them",
  "After loading the dictionary, the column list of a table with a primary key has DB_TRX_ID and DB_ROLL_PTR directly after the primary-key columns, a table with a generated clustered index has DB_ROW_ID, DB_TRX_ID, DB_ROLL_PTR in front, and all user columns keep their relative order.",
  "every dictionary content and every iteration order over tables and indexes",
  "Unbounded column lists.",
  [I+": addInternalColumns, addColumns, addInternalColumn"])
p("Primary-key columns are moved to the front",
  "After loading the dictionary, a table's column list is a rearrangement of its columns in which the primary-key columns come first, in index order, followed by the remaining columns in table order.",
  "every table definition and every primary key (any columns, any order, composite)",
  "Unbounded column and key lists.",
  [I+": movePrimaryKeyFirst, moveColumns2First"])
p("All pages of the dictionary tables are used",
  "Loading the dictionary decodes every page of the file that belongs to one of the four SYS_* clustered indexes, wherever it lies in the file.",
  "every page order",
  "All permutations of page positions.",
  [I+": ParseDictPage"])
p("Dictionary rows determine the table definitions",
  "Each SYS_TABLES row defines a table (id, database and table name split at '/', space id); each SYS_COLUMNS row of a known table appends one column whose NULL-ability, signedness, MySQL type and binary flag are the documented PRTYPE bits; the table's nullable-column count equals the number of its nullable columns.",
  "every multiset and order of dictionary rows",
  "Unbounded histories of rows; counts are invariants over the history.",
  [I+": getAllTables, getAllColumns"])
p("Indexes and index fields attach to the right table",
  "Each SYS_INDEXES row of a known table is recorded under that table and index id, every SYS_FIELDS row is recorded under its index in file order, and an index row of an unknown table makes dictionary loading report an error.",
  "every multiset and order of dictionary rows",
  "Unbounded histories.",
  [I+": getAllIndexes, getAllFields"])
p("REPLACE statements restore the row",
  "The REPLACE statement printed for a row, read by a SQL parser, names the requested database and table and lists, in order, exactly the row's column values: NULL for NULL, the original string for text, the original bytes for binary columns, the original number for BIT.",
  "every row and every column value",
  "Unbounded values; injection safety is a universally quantified property.",
  [F+": makeReplaceIntoStatement", U+": EscapeValue"])
p("Internal columns never appear in statements",
  "A REPLACE statement contains one value per user column and none for DB_ROW_ID, DB_TRX_ID and DB_ROLL_PTR; exactly one statement is printed per row.",
  "every list of rows with any columns",
  "Unbounded rows.",
  [F+": makeReplaceIntoStatement"])
p("Standard output of a data-file run contains only SQL statements",
  "Everything printed to standard output while printing or recovering a table is a REPLACE statement.",
  "every data file and table definition",
  "All column type combinations.",
  [I+": ParseDataPage", U+": ParseData"])
p("Redo log payload extraction",
  "From redo log files written as 512-byte blocks the payload bytes are extracted in order and concatenated across files: the result is exactly the log byte stream, with block headers, trailers and the four header blocks removed.",
  "every log stream length, every split into blocks and files",
  "Unbounded streams, block-boundary alignments.",
  [R+": ParseRedoLogs, readRedoBlockHeader, readRedoLogFileHeader, readRedoLogFileCheckpoint"])
p("Malformed redo block headers do not crash the tool",
  "A redo log block with an impossible data length is rejected or skipped; it does not abort the program.",
  "every 16-bit data length and block content",
  "All 65536 lengths times contents.",
  [R+": ParseRedoLogs"])
p("Redo parsing always terminates",
  "Parsing any redo byte stream terminates: every iteration consumes at least one byte and every inner loop is bounded by the stream length.",
  "every byte stream",
  "Termination over all inputs.",
  [R+": parseRedoBlockData", M+": all mlog* functions"])
p("Redo record framing stays in sync",
  "For a redo stream consisting of records in InnoDB's documented formats the parser consumes each record exactly: after any number of records its cursor is at the start of the next one.",
  "every sequence of records of every type with arbitrary bodies",
  "Unbounded sequences and bodies of about 50 record types.",
  [R+": parseRedoBlockData", M+": all mlog* functions", U+": ParseIndex, ParseInsertRecord"])
p("Update undo records become UPDATE statements with the old values",
  "For each undo record of an update of an existing row of a selected table, one UPDATE statement is printed that sets each recorded column to its recorded old value (NULL for NULL) and identifies the row by its recorded primary-key values.",
  "every table, key value, set of updated columns and their old values, every log context",
  "Unbounded records and contexts.",
  [M+": mlogUndoInsert, getPrimaryKey, getColumnsByName, getColumnByPos", R+": makeSQL"])
p("Redo name filter",
  "With database and/or table names given, an UPDATE statement is printed only if the table's database and table names equal the given (non-empty) names; with no names given all are printed.",
  "every combination of filter names and table names",
  "All string pairs; interaction of four branches.",
  [M+": mlogUndoInsert"])
p("UPDATE statements are valid and quote-safe",
  "The UPDATE statement, read by a SQL parser, assigns exactly the recorded columns and has exactly the recorded key conditions, whatever the column values contain.",
  "every set of columns and values",
  "Injection-safety quantifies over all strings.",
  [R+": makeSQL"])
p("A damaged undo record is confined to itself",
  "Whatever the body of an undo record contains, after processing it the cursor is at the end of that record as given by its length field, so the following records are still parsed.",
  "every undo record body, dictionary and surrounding stream",
  "All bodies and all panic points.",
  [M+": mlogUndoInsert"])
p("Recovered handlers never abort the program",
  "Processing an undo record or an update-in-place record never aborts the program, whatever its body contains.",
  "every body, position and stream",
  "All panic points.",
  [M+": mlogUndoInsert, mlogRecUpdateInPlace"])
p("Record types accepted are record types handled; unknown bytes are skipped one at a time",
  "A record-type byte is accepted if and only if it is one of the handled InnoDB types; otherwise exactly one byte is skipped and parsing resumes at the next byte.",
  "every type byte and stream",
  "Agreement of two long case lists and resynchronisation for all streams.",
  [R+": validateLogHeader, parseRedoBlockData"])
p("A truncated redo log does not crash the tool",
  "If the log stream ends in the middle of a record, parsing stops normally or with an error; it does not abort the program, and statements for the complete records before it have been printed.",
  "every stream and every truncation point",
  "All truncation points of all streams.",
  [R+": parseRedoBlockData", M+": all mlog* functions"])
p("Only update undo records produce output",
  "Redo records other than undo records of updates of existing rows, and undo records of inserts, deletes or unknown tables, never produce an UPDATE statement; each undo record produces at most one.",
  "every stream, state and dictionary",
  "All streams.",
  [M+": mlogUndoInsert", R+": parseRedoBlockData"])
p("Log level selection",
  "The log level name is matched case-insensitively, an unknown name means INFO, and a more verbose level never suppresses a message that a less verbose one writes.",
  "every level string",
  "All strings.",
  ["recovery/logs/logs.go: InitLogs, Debug, Info, Warn, Error, Trace, Fatal"])
p("Command-line operation selection",
  "The data-file command recovers deleted rows if and only if the operation type is RecoveryData; otherwise it prints the existing rows. A dictionary error is printed and no rows are printed.",
  "every operation-type string and input files",
  "All strings and files.",
  ["cmd/db-recovery/command.go: FromDataFile, FromRedoFile"])
p("Only rows of the requested table are printed",
  "Rows printed for a table come only from pages of that table's clustered index.",
  "every data file, in particular shared tablespaces containing several tables",
  "All files and index ids.",
  [I+": ParseDataPage"])
p("Print mode shows exactly the non-deleted rows",
  "Print mode prints a row only if its record is not delete-marked.",
  "every page and record header",
  "All record headers.",
  [I+": parsePage, parseRecords"])
p("Off-page (externally stored) columns",
  "A column whose value is partly stored on overflow pages is either restored completely or reported as not restorable; a truncated prefix is never printed as if it were the value.",
  "every row with externally stored columns",
  "All rows and lengths.",
  [I+": ibRecInitOffsetsNew, ibRecInitOffsetsOld", U+": RecGetNthFieldOffs"])
p("Recovery from redo logs, whole command",
  "FromRedoFile reads the comma-separated log files in order as one log and prints exactly the UPDATE statements of the undo records of updates of the selected table or database, in order; a dictionary that cannot be loaded prints nothing, a log file that cannot be opened prints exactly the error.",
  "every system file, every list of file names, every content of the log files, every database and table name",
  "All file lists and contents.",
  ["cmd/db-recovery/command.go: FromRedoFile", R+": NewParse, ParseRedoLogs"])
p("Dictionary loaded from a system file",
  "ParseDictPage on a system tablespace whose dictionary trees hold given SYS_TABLES, SYS_COLUMNS, SYS_INDEXES and SYS_FIELDS rows loads exactly the tables of SYS_TABLES, each with its stored columns in the order of the clustered index (hidden columns included) and its indexes with their fields, returns no error and prints nothing.",
  "every well-formed system file, with any number of pages in each tree",
  "All files with the given trees.",
  [I+": ParseDictPage, getAllTables, getAllColumns, getAllIndexes, getAllFields, movePrimaryKeyFirst, addInternalColumns"])
p("Recovery from data files, whole command",
  "FromDataFile, given a system tablespace that describes a table and the data file of that table, prints one REPLACE statement for every row of the table (every deleted row on the free lists with RecoveryData), in the order of the pages and of the record lists, each with exactly the values of the row, and nothing else.",
  "every system file, data file, table, column types, rows",
  "From the bytes of two files to the values MySQL reads in the printed statements.",
  ["cmd/db-recovery/command.go: FromDataFile", I+": ParseDictPage, ParseDataPage, parsePage, parseRecords", "recovery/ibdata/format.go: makeReplaceIntoStatement"])
p("Recovery from redo logs, from files to statements",
  "FromRedoFile, given a system tablespace that describes the tables and log files that hold a log, prints one UPDATE statement for every undo record of an update of a row of a table asked for, in order, and nothing else; read by a SQL parser, the statement assigns exactly the old values of the changed columns and its conditions are exactly the values of the primary key.",
  "every system file, log, division of the log into files and blocks, table, column types, values",
  "From the bytes of several files to the values MySQL reads in the printed statements.",
  ["cmd/db-recovery/command.go: FromRedoFile", I+": ParseDictPage", R+": ParseRedoLogs, parseRedoBlockData, makeSQL", "recovery/redo/mlog.go: mlogUndoInsert"])
p("Independence of the iteration order of maps",
  "Go iterates over a map in an order chosen anew for every loop. What FromDataFile and FromRedoFile print, and whether they end, abort or hang, does not depend on these orders, for dictionaries in which no table has two indexes named like a clustered index and (FromDataFile) no two tables have the names asked for.",
  "every file, every order of every iteration over the map of tables and the maps of indexes",
  "Otherwise two runs on the same files could give different results; without the condition they do.",
  [I+": getAllFields, movePrimaryKeyFirst, addInternalColumns, getTableColumnsFromDict", "recovery/redo/mlog.go: getPrimaryKey", "cmd/db-recovery/command.go: FromDataFile, FromRedoFile"])
p("The commands come to an end",
  "FromDataFile and FromRedoFile end on all files.",
  "every system file, data file and list of log files",
  "A program that never ends recovers nothing and reports nothing.",
  ["cmd/db-recovery/command.go: FromDataFile, FromRedoFile", I+": ParseDictPage, ParseDataPage, parsePage", R+": ParseRedoLogs"])
p("Undo pages",
  "ParseUndoPageHeader reports the fields of the undo page, segment and log headers at their documented positions and the table id of the first undo record.",
  "every undo page with a record at TRX_UNDO_LOG_START",
  "All header fields, record numbers and table ids. (No command calls the function yet.)",
  ["recovery/ibdata/todo.go: ParseUndoPageHeader, getColumnType, RecoveryTableStruct"])
p("Several data files with one dictionary",
  "A data file read with a Parse that has read other data files before prints the same statements as if it were read first; ParseDataPage leaves the dictionary as it was.",
  "every data file, database and table name, mode and dictionary",
  "Files are read one after the other with one Parse; values of one file must not get into the rows of another.",
  [I+": ParseDataPage, getTableColumnsFromDict, parsePage"])
p("Errors in loading the dictionary",
  "If ParseDictPage does not abort on a readable file, it returns the error for the first of SYS_TABLES, SYS_COLUMNS, SYS_INDEXES for which no root page named in the dictionary header has the index id; if all three have one, an index row with an unknown table id gives an error naming the last such id; then a missing root page of SYS_FIELDS; otherwise there is no error. Without root page of SYS_TABLES it never aborts. FromDataFile then prints exactly the error and FromRedoFile nothing.",
  "every system file",
  "Files that are no system tablespace, tablespaces with missing pages, dictionaries with an index of an unknown table.",
  [I+": ParseDictPage, getAllTables, getAllColumns, getAllIndexes, getAllFields", "cmd/db-recovery/command.go: FromDataFile, FromRedoFile"])
p("Damage inside the log does not end the parsing",
  "Whatever the bytes of a redo stream, its parsing ends - normally, with an error or by aborting - only when the cursor is less than 17 bytes before the end of the stream or behind it.",
  "every redo stream, dictionary and filter",
  "Logs are read after a crash; a damaged record must not hide the statements of all the records behind it.",
  [R+": parseRedoBlockData", M+": all handlers", U+": ParseIndex, ParseInsertRecord, MatchParseCompressed, MatchUllReadComPressed"])
p("Options of the command line",
  "The operation named on the command line runs with the values of its options - of those given more than once the last -, wherever on the line they stand.",
  "every command line recovery FromDataFile or recovery FromRedoFile with options of the operation in the forms --name=value and --name value, before recovery, between the two words and after them",
  "The help text presents OpType, LogPath and LogLevel as global flags; command-line tools take those before the subcommand.",
  ["cmd/db-recovery/main.go: main", "cmd/db-recovery/command.go: NewRootCommand, NewFromDataFileCommand, NewFromRedoFileCommand, FromDataFile, FromRedoFile"])
p("Exit status",
  "The exit status of the program is 0 only if the operation was carried out: not if a file could not be read.",
  "every command line of C65 and every file system",
  "Scripts see the exit status only; the error text goes to standard output among the statements, or to the log.",
  ["cmd/db-recovery/main.go: main", "cmd/db-recovery/command.go: FromDataFile, FromRedoFile"])
p("Log files that are cut off",
  "A redo log file that ends inside a block gives a beginning of the log bytes of the whole file; without the four header blocks it gives an error.",
  "every log file with a valid beginning, cut at any place behind it; for the beginning every file content",
  "Log files are copied off a crashed server; ReadNextBytes drops the number of bytes read, so a short read is a block filled up with zeros.",
  [R+": ParseRedoLogs, readRedoLogFileHeader, readRedoLogFileCheckpoint, readRedoBlockHeader", U+": ReadNextBytes", "cmd/db-recovery/command.go: FromRedoFile"])
p("Data files that are cut off",
  "Of a data file that ends inside a page the command prints the first rows and nothing that was not stored in it.",
  "every data file whose rows are printed (C57), cut at any place",
  "Data files are copied off a damaged disk; ReadNextBytes drops the number of bytes read, so a short read is a page filled up with zeros.",
  [I+": ParseDataPage, parseFile, parsePage, parseRecords", U+": ReadNextBytes", "cmd/db-recovery/command.go: FromDataFile"])
p("Log blocks with a wrong checksum",
  "The log that is parsed ends in front of the first block whose checksum is wrong.",
  "every log file with a valid beginning and blocks in the documented format",
  "The server ends recovery at the first such block; it was damaged or never written completely.",
  [R+": ParseRedoLogs, readRedoBlockHeader", "recovery/redo/structure.go: LogBlock, BlockHeader"])
p("Logs that have been written round",
  "Of a log file in which the beginning of a record has been overwritten by newer blocks, the statements of the complete records are printed and nothing else; the first older block says where its first complete record begins.",
  "every log file whose newer and older blocks hold records for which C42 is proved, and every overwritten record",
  "Log files are written in a circle, so nearly every log file contains such a place.",
  [R+": ParseRedoLogs, readRedoBlockHeader, parseRedoBlockData"])
p("Pages that were not written completely",
  "From a data file exactly the rows of the pages that were written completely are printed, that is of those whose LSN in the header agrees with the copy in the trailer.",
  "every data file whose complete pages hold rows that are printed (C57)",
  "A crash during a write leaves a page half old and half new; the server compares the two numbers and refuses the page.",
  [I+": ParseDataPage, parseFile, parseFilHeader"])
p("Executing the printed rows",
  "The standard output of the data command, executed as an SQL script on an empty table, leaves exactly the rows of the data file in it.",
  "every data file in the documented format whose rows have different keys",
  "This is what the command is for: its output is piped into a server.",
  ["cmd/db-recovery/command.go: FromDataFile", I+": ParseDataPage, parseRecords", "recovery/ibdata/format.go: makeReplaceIntoStatement"])
p("Executing the statements for deleted rows",
  "The statements for deleted rows, executed on the table as it is, leave its rows as they are and restore of each other row the version that was deleted last.",
  "every data file whose deleted rows are printed (C57), and every present contents of the table",
  "Rows that were deleted by mistake are restored into the running server, whose table has been used since.",
  ["cmd/db-recovery/command.go: FromDataFile", I+": ParseDataPage, parseRecords", "recovery/ibdata/format.go: makeReplaceIntoStatement"])
p("Executing the statements of the redo command",
  "If the updates in the log took the tables from one state to another, the standard output of the redo command, executed on the later state, gives the earlier one again.",
  "every log in the documented format and all contents of the tables before and after its updates",
  "This is what the command is for: its output is piped into a server to undo updates; the order of the statements matters.",
  ["cmd/db-recovery/command.go: FromRedoFile", R+": parseRedoBlockData", "recovery/redo/mlog.go: mlogUndoInsert"])
p("Names with characters other than letters and digits",
  "Given the names of a database and a table as MySQL shows them, the data command prints the rows of that table as statements for that table.",
  "every table whose rows are printed (C57), and every pair of names of ASCII characters",
  "The dictionary records names in an encoded form, in which a hyphen is @002d; the user does not see it.",
  ["cmd/db-recovery/command.go: FromDataFile, FromRedoFile", I+": ParseDataPage, ParseDictPage", "recovery/ibdata/format.go: makeReplaceIntoStatement", "recovery/redo/mlog.go: mlogUndoInsert"])
p("Virtual generated columns",
  "For a table with virtual generated columns, whose values are not stored, the data command prints the stored values of its rows.",
  "every table whose rows are printed (C57) if the virtual columns are left aside",
  "Such columns are part of MySQL since 5.7; SYS_COLUMNS lists them with a mark, but records have no field for them.",
  ["cmd/db-recovery/command.go: FromDataFile", I+": ParseDictPage, ParseDataPage, parseRecords", "recovery/ibdata/format.go: makeReplaceIntoStatement"])
p("Fractional seconds",
  "A TIME, DATETIME or TIMESTAMP value of MySQL 5.6 and later with fractional seconds is printed with its fraction.",
  "every value of these types whose whole seconds are printed correctly (C09, C10, C11), and every precision up to six digits",
  "Columns such as DATETIME(6) are common; a value without its fraction is a different value.",
  ["recovery/utils/utils.go: ParseTime, ParseDateTime, ParseTimeStamp, ParseData"])
p("Files with smaller pages",
  "From a data file with pages of 4096 or 8192 bytes the data command prints the rows of all pages.",
  "every such file whose pages, filled up to 16384 bytes, make up a file whose rows are printed (C57)",
  "The page size is a setting of the server (innodb_page_size); the file says in its first page what it is.",
  ["cmd/db-recovery/command.go: FromDataFile", I+": ParseDataPage, parseFile"])
p("The order of the blocks of a log written round",
  "The statements of the redo command are printed in the order in which the updates were made, also if the newest blocks stand at the beginning of the log file.",
  "every log file whose newer and older blocks hold records for which C42 is proved",
  "Log files are written in a circle; the number in the header of a block says in which order the blocks were written, and the order decides what the statements restore (C74).",
  [R+": ParseRedoLogs, readRedoBlockHeader, parseRedoBlockData"])
p("Partitioned tables",
  "Given the data file of a partition and the name of the partitioned table, the data command prints the rows of the file as statements for the table; given the name of the table, the redo command prints the statements for its partitions.",
  "every partition whose rows are printed (C57) if it is a table of its own",
  "The dictionary has an entry for each partition (t#P#p0) and none for the table; the user knows the name of the table.",
  ["cmd/db-recovery/command.go: FromDataFile, FromRedoFile", I+": ParseDataPage, ParseDictPage", "recovery/ibdata/format.go: makeReplaceIntoStatement", "recovery/redo/mlog.go: mlogUndoInsert"])
p("Values cannot break out of their statements",
  "Whatever the data file contains, every line that the data command prints is one REPLACE statement for the given table with one value for each of its columns, or the decoder's note on DECIMAL columns; no value can end its literal, add a statement or start a comment.",
  "every data file, damaged or made up by an attacker, every dictionary, every way the run can end; names without backticks",
  "The output is meant to be executed; a value that contains quotes, backslashes, semicolons or comment signs must not become SQL.",
  ["cmd/db-recovery/command.go: FromDataFile", I+": ParseDataPage, parsePage", "recovery/ibdata/format.go: makeReplaceIntoStatement", "recovery/utils/utils.go: ParseData, EscapeValue"])
p("Pages without rows of the table have no influence",
  "Pages of a data file that are not leaf pages of a clustered index (or, when deleted rows are recovered, have no deleted records) have no influence on the output or on the way the command ends: they can be overwritten in place, added or removed among pages with other numbers, and appended at the end.",
  "every data file, every content of such pages, every dictionary and operation",
  "Data files are full of such pages, with contents that look like anything; there are too many combinations to test.",
  ["cmd/db-recovery/command.go: FromDataFile", I+": ParseDataPage, parseFile"])
p("The division of a log into blocks and files does not matter",
  "The redo command prints the same for the same log, however it is divided into blocks and files and however much memory the program happens to reserve for it.",
  "every log, damaged or not, every division, every amount of reserved memory",
  "Where a block ends depends on when the log was written; the reserved memory depends on the version of the Go runtime.",
  [R+": ParseRedoLogs, parseRedoBlockData", "recovery/redo/mlog.go: mlogUndoInsert", "recovery/utils/utils.go: ParseFloat, ParseDouble, ParseData"])
p("Names given to the redo command only suppress statements",
  "For given files there is one sequence of lines and one way to end, such that the redo command with any database and table name prints this sequence without the UPDATE statements for tables that are not printed with these names (C43), and ends in this way.",
  "every system file, every set of log files, damaged or not, every choice of names",
  "The filter sits in the middle of the decoder; if it influenced where decoding goes on, statements would appear or vanish with the choice of names.",
  ["cmd/db-recovery/command.go: FromRedoFile", R+": ParseRedoLogs, parseRedoBlockData", "recovery/redo/mlog.go: mlogUndoInsert"])
p("The order of the pages in a data file does not matter",
  "With the pages of a data file in another order the data command prints the same statements, in another order; the output, executed on an empty table, gives the same rows.",
  "every data file of pages with different numbers, every order",
  "Carving tools write the pages they find in any order; n! orders.",
  ["cmd/db-recovery/command.go: FromDataFile", I+": ParseDataPage, parseFile"])
p("The output can be executed again",
  "Executing the output of the data command a second time leaves the table as the first time did. Executing the output for the deleted rows on an empty table and then that for the rows in use gives the rows in use and those deleted rows whose keys are not in use. (If the outputs can be executed, as they can for the files of C57.)",
  "every data file, every table contents before, every comparison of keys",
  "Scripts are run again after an interruption; the effect depends on all rows and all keys in the table.",
  ["cmd/db-recovery/command.go: FromDataFile", "recovery/ibdata/format.go: makeReplaceIntoStatement"])
p("Pages of the system file outside the dictionary have no influence",
  "Pages of the system file that are neither the dictionary header nor index pages, such as pages of BLOBs, undo logs or allocation data, have no influence on what either command prints or on the way it ends: they can be overwritten in place with other such pages.",
  "every system file with a correct dictionary, every content of such pages",
  "The system tablespace holds undo logs and, for some tables, the data of users; there are too many contents to test.",
  ["cmd/db-recovery/command.go: FromDataFile, FromRedoFile", I+": ParseDictPage, parseFile"])
p("YEAR columns",
  "A YEAR value is decoded as the year that was stored.",
  "every value of the type (0000 and 1901 to 2155), any following bytes",
  "The value is stored as an offset with one special case; rows with the special value are rare in tests.",
  ["recovery/utils/utils.go: ParseData"])
p("ENUM and SET columns",
  "The values of an ENUM or SET column are restored: the string that the data command prints for one is, when the server assigns it to the column, the stored member or set of members.",
  "every data file of C57, every list of members, every collation",
  "The tool does not know the members and prints numbers; what the server makes of them depends on all members.",
  ["cmd/db-recovery/command.go: FromDataFile", "recovery/ibdata/format.go: makeReplaceIntoStatement", "recovery/utils/utils.go: ParseData, GetUintValue"])
p("Values stay inside their literals in UPDATE statements",
  "Each line that the redo command prints is one UPDATE statement: outside of string literals and quoted names nothing stands on it but the words of the statement, whatever the values in the log are.",
  "every set of log files, all values",
  "The lines are meant to be executed; a value that leaves its literal is executed as SQL. There are too many values to test.",
  [R+": makeSQL, ParseRedoLogs", "cmd/db-recovery/command.go: FromRedoFile"])
p("AUTO_INCREMENT columns",
  "The standard output of the data command, executed on an empty table that has an AUTO_INCREMENT column, gives exactly the rows of the file, those with the value 0 in this column included.",
  "every data file of C57, every integer column, all values",
  "A server replaces some values of such a column by the next value of a counter; the effect depends on all rows before.",
  ["cmd/db-recovery/command.go: FromDataFile", "recovery/ibdata/format.go: makeReplaceIntoStatement"])
p("Zero dates and early dates",
  "A DATE, DATETIME or TIMESTAMP column that holds the zero date 0000-00-00, a date with parts that are zero, or any other date a server can hold, is decoded to a string that the server reads as the same date.",
  "every value of these types that a server can hold without the SQL modes NO_ZERO_DATE and NO_ZERO_IN_DATE, any following bytes",
  "Zero dates were the default of NOT NULL columns for a long time; the result depends on the bytes that follow in the record.",
  ["recovery/utils/utils.go: ParseDate, ParseDateTime, GetTimeFormat, ParseTimeStamp, ParseData"])
p("Instants of TIMESTAMP columns",
  "What the tool prints for a TIMESTAMP column is, when it is assigned to the column in a session with the time zone of the tool, the instant that was stored.",
  "every instant, every time zone with its changes of the clock, every choice a server makes for clock readings that occur twice",
  "Needs all instants and all time zones; errors show only at some hours or in one hour of the year.",
  ["recovery/utils/utils.go: ParseTimeStamp"])
p("String literals under other settings of the session",
  "A string literal in the output is read as the value also in a session with the SQL mode NO_BACKSLASH_ESCAPES, and whatever character set the client uses.",
  "every byte string, every character set whose characters have one or two bytes",
  "The output does not set the mode or the character set; the meaning of a literal depends on both and on all bytes.",
  ["recovery/utils/utils.go: EscapeValue", "recovery/ibdata/format.go: makeReplaceIntoStatement"])
p("Values come from the bytes of their own column",
  "The value that is decoded for a column of a record is determined by the definition of the column and the bytes stored for it: whatever bytes, damaged ones included, are stored in one column, decoding does not abort and all other values stay the same.",
  "every column of the types and sizes of the server, all stored bytes, COMPACT and REDUNDANT pages, rows in use and deleted rows",
  "Needs all contents of all columns together; a decoder that reads too far shows only with certain neighbours.",
  ["recovery/utils/utils.go: ParseData, ParseDateTime, GetTimeFormat, GetUintValue", I+": parseRecords"])
p("Numbers of DECIMAL columns",
  "A number in a column DECIMAL(p, s) is printed as a value that the server takes for this number when it is assigned to the column.",
  "every p and s, every number of the column, any following bytes",
  "DECIMAL is stored in a packed form with many layouts; needs all precisions, scales and values.",
  ["recovery/utils/utils.go: ParseData", "recovery/ibdata/format.go: makeReplaceIntoStatement"])
p("Primary keys on prefixes of columns",
  "The rows of a table whose PRIMARY KEY covers only the first bytes of a column, PRIMARY KEY (a(n)), are printed with their values.",
  "tables of any number of NOT NULL VARCHAR columns in a single-byte character set, every prefix length, all rows, COMPACT and REDUNDANT pages, rows in use and deleted rows",
  "The records of such a table have another layout: they begin with the prefix, and the column is stored in full besides. The error is in the layout, so it needs the whole way from the dictionary to the statements.",
  [I+": getAllFields, moveColumns2First, addInternalColumns", "cmd/db-recovery/command.go: FromDataFile"])
p("Updates of tables with primary keys on prefixes of columns",
  "For an update of a row of a table whose PRIMARY KEY covers only the first bytes of a column, PRIMARY KEY (a(n)), the redo command prints statements which, executed after the update, restore the row; the presence of such updates in the log does not prevent the restoration of rows of other tables.",
  "tables of any number of VARCHAR columns, every prefix length, all logs with one update of the tables asked for among any other records, all contents of the tables",
  "Depends on the numbering of stored fields in undo records, on the dictionary and on the effect of the printed statements on a database; needs all logs and all states of the tables.",
  ["recovery/redo/mlog.go: mlogUndoInsert, getColumnByPos", R+": makeSQL", I+": getAllFields, addInternalColumns", "cmd/db-recovery/command.go: FromRedoFile"])
p("Tables with generated columns",
  "The server runs the statements that the data command prints for a table: each is a REPLACE with one value for each column, and with the word DEFAULT for the columns that are generated, as nothing else is allowed for them.",
  "tables with any set of generated columns, all data files",
  "The rule of the server is about the whole statement; needs all tables, all values and all files.",
  ["recovery/ibdata/format.go: makeReplaceIntoStatement", I+": getAllColumns", "cmd/db-recovery/command.go: FromDataFile"])
p("Tables with FULLTEXT indexes",
  "The statements printed for a table with a FULLTEXT index give the values of the columns of the user, and none for the column FTS_DOC_ID that InnoDB adds to such a table.",
  "tables with and without a FTS_DOC_ID column, added or defined by the user; all rows, COMPACT and REDUNDANT pages, rows in use and deleted rows",
  "The hidden column comes from the dictionary and shows in the number of values of each statement; needs the whole way from the files to the statements.",
  [I+": getAllColumns", "recovery/ibdata/format.go: makeReplaceIntoStatement", "cmd/db-recovery/command.go: FromDataFile"])
p("BIT columns",
  "Every value of a BIT column is printed as a value that the server takes for it: in REPLACE statements as a bit literal with this value, in UPDATE statements as a string whose bytes are this number.",
  "columns BIT(1) to BIT(64), all values, any following bytes",
  "Three layers take part: the width of the stored value, the text of the number, and how the server reads a bit literal or string; needs all widths and values.",
  ["recovery/utils/utils.go: ParseData, GetUintValue", "recovery/ibdata/format.go: makeReplaceIntoStatement", "recovery/redo/parse.go: makeSQL"])
p("Deleted rows that are not yet purged",
  "RecoveryData prints a statement for each deleted row of the table, in some order: for the rows on the free lists of the pages and for the rows whose records are delete-marked and still linked.",
  "every system file, data file, table, rows, delete marks",
  "All pages with any delete marks and free lists; depends on which of the two record lists of a page is walked.",
  ["recovery/ibdata/parse.go: parsePage, parseRecords", "cmd/db-recovery/command.go: FromDataFile"])
p("Pages at the end of a data file",
  "What FromDataFile prints for a data file of whole pages is the beginning of what it prints for the file with any bytes appended; so cutting a file between pages loses statements only at the end. If the page numbers of all appended pages occur in the file already, the result is the same.",
  "every pair of system file and data file of any content, every appended byte string, every command option",
  "All files of all lengths, malformed ones included; depends on the page order, on the first copy of a page number winning, and on no page printing depending on later pages.",
  ["recovery/ibdata/parse.go: parseFile, ParseDataPage", "cmd/db-recovery/command.go: FromDataFile"])
p("Other tables in the dictionary",
  "What FromDataFile prints for a table depends, of the system file, only on the rows of this table in SYS_TABLES, SYS_COLUMNS, SYS_INDEXES and SYS_FIELDS: creating, changing or dropping other tables has no influence on the output.",
  "every pair of system files with dictionaries that agree on the table, every data file of any content, every operation",
  "All dictionaries with any number of other tables, and data files of arbitrary bytes; depends on the lookups by name and by table id and on the columns of one table never reaching another.",
  ["recovery/ibdata/parse.go: ParseDictPage, getTableColumnsFromDict, parsePage, ibRecInitOffsetsNew", "cmd/db-recovery/command.go: FromDataFile"])
p("Character sets of columns",
  "For a table whose rows are printed (C57), there is a character set for the session (SET NAMES) such that the printed statements, executed in that session, store the strings of every row as they were, whatever the character sets of the columns.",
  "every assignment of character sets to collations, where a character set is UTF-8 or any set with one byte for each character that contains ASCII; every table, every row with strings that are text in the character sets of their columns, every character set of the session",
  "The bytes are printed unchanged in every case, and a test that compares the printed bytes with the stored ones cannot see what they mean to the server.",
  ["recovery/ibdata/format.go: makeReplaceIntoStatement", "recovery/utils/utils.go: EscapeValue"])
p("JSON columns",
  "What is printed for a value of a JSON column is accepted by the server as a JSON value, in the REPLACE statements of the data command and in the UPDATE statements of the redo command.",
  "every JSON column, every stored value in the binary form of MySQL 5.7 (objects, arrays, literals, numbers, strings, opaque values of any length), any bytes behind it",
  "All documents; depends on the character set of the result of unhex and on the grammar of JSON, neither of which the project has.",
  ["recovery/utils/utils.go: ParseData, ParseBlob", "recovery/ibdata/format.go: makeReplaceIntoStatement", "recovery/redo/parse.go: makeSQL"])
p("Deleted rows of the dictionary",
  "While the rows of dropped and renamed tables are marked as deleted in the tables of the dictionary and not yet purged, `recovery` on a data file prints for every existing table what it prints after the purge.",
  "every system tablespace with dictionary rows marked as deleted, and every table that exists",
  "Delete marks in the dictionary, the order of names and the time of the purge cannot be enumerated; a test would have to capture the tablespace between a rename and the purge.",
  ["recovery/ibdata/parse.go: getAllTables, parsePage, getTableFromDict, ParseDictPage, ParseDataPage"])
p("Tables that others refer to by foreign keys",
  "The statements of the data command can be executed on a table that another table refers to by a foreign key, and leave the rows of that other table as they are.",
  "every data file whose rows are printed (C57), every contents of the two tables, every foreign key with ON DELETE RESTRICT, CASCADE or SET NULL",
  "The effect of REPLACE on other tables depends on all rows of both tables and on the action of the key; no test of the tool executes its output on related tables.",
  ["recovery/ibdata/format.go: makeReplaceIntoStatement", "cmd/db-recovery/command.go: FromDataFile"])
p("Columns with ON UPDATE CURRENT_TIMESTAMP",
  "Executing the output of the redo command restores the tables to the state before the logged updates also if tables have columns with ON UPDATE CURRENT_TIMESTAMP, which the server sets to the current time when an UPDATE changes a row without assigning them.",
  "All dictionaries, logs of plain updates of different rows or columns, servers, sets of columns with the attribute, times of the restoration and states of the tables.",
  "The output is executed by a server whose UPDATE has a side effect on columns that the statement does not name; whether a row is restored depends on the log, the dictionary, the contents of the table and the time.",
  ["cmd/db-recovery/command.go: FromRedoFile", "recovery/redo/parse.go: makeSQL", "recovery/redo/mlog.go: mlogUndoInsert"])
p("Updates that were rolled back",
  "Updates that were rolled back do no harm: if no column of a row was changed by two of the other updates in the log, executing the output of the redo command on the tables after it all gives the tables before.",
  "All dictionaries, logs of plain updates, servers, histories of updates, rollbacks and interleaved transactions, and states of the tables.",
  "Undo records of transactions that were rolled back are in the log like the others; what their statements do depends on the order of all updates of the same column of the row.",
  ["cmd/db-recovery/command.go: FromRedoFile", "recovery/redo/parse.go: parseRedoBlockData", "recovery/redo/mlog.go: mlogUndoInsert"])
p("UNIQUE indexes and the statements of the redo command",
  "Also if tables have UNIQUE indexes, so that a server refuses statements after which two rows would have the same values in one, the output of the redo command can be executed and undoes the updates, if it does so for tables without them.",
  "All dictionaries, logs of plain updates, servers, comparisons of values, UNIQUE indexes and histories in which no two rows ever had the same values in one.",
  "Whether a statement is refused depends on the other rows of the table at that point of the script, that is on the whole log and all states in between.",
  ["cmd/db-recovery/command.go: FromRedoFile", "recovery/redo/parse.go: parseRedoBlockData", "recovery/redo/parse.go: makeSQL"])
p("The redo command's statements on tables in any state",
  "The output of the redo command can be executed on the tables as they are later, whatever rows were inserted, deleted or changed since. It makes no other changes than to give columns of rows that the log has updates of their old value from the log: the other columns, the other rows and the number of rows remain. Executing it a second time changes nothing.",
  "All dictionaries, logs of updates, servers and all contents of the tables at the time of execution, also ones that have nothing to do with the log.",
  "The tables are a server's and the statements are executed in sequence; that nothing else is touched is about all rows of all tables, for all logs.",
  ["cmd/db-recovery/command.go: FromRedoFile", "recovery/redo/parse.go: parseRedoBlockData", "recovery/redo/parse.go: makeSQL"])
p("Updates of columns that are stored off-page",
  "No statement that the redo command prints sets a column to NULL whose value before the update was not NULL, also if that value was so long that it was stored outside the row.",
  "All undo records of updates, tables, keys and old values, which may be NULL, in the row, or off-page (a prefix and a reference), at any place of a log.",
  "Long values are stored off-page from about 768 or 8000 bytes on, depending on the rest of the row; unit tests have short values. The claim is about all of them, and about the columns that follow.",
  ["recovery/redo/mlog.go: mlogUndoInsert", "recovery/redo/parse.go: makeSQL"])
p("Tables that were renamed, rebuilt or dropped after the updates",
  "The dictionary that the redo command reads is the present one, and tables may have been renamed, rebuilt (TRUNCATE, OPTIMIZE, ALTER TABLE) or dropped after the updates in the log. The command prints the statements for the updates of all tables that exist now, under their present names, and none for tables that do not exist any more.",
  "All dictionaries, all logs whose elements were each written under some earlier dictionary, and all renamings.",
  "Relates a log to a history of dictionaries; each element of the log can have been written under another one.",
  ["cmd/db-recovery/command.go: FromRedoFile", "recovery/redo/mlog.go: mlogUndoInsert, getTableByTableID", "recovery/redo/parse.go: makeSQL"])
p("Updates of the primary key",
  "An update that changes the primary key of a row is in the log as the deletion of the row with the old key and the insertion of one with the new key. The output of the redo command, executed on the tables after the updates, gives the rows their old keys back, together with the old values of the other columns.",
  "All dictionaries, all logs with updates of columns and of keys in any order where no column of a row is changed twice, and all contents of the tables.",
  "Relates the output to a history of table states of any length in which rows change their identity.",
  ["cmd/db-recovery/command.go: FromRedoFile", "recovery/redo/mlog.go: mlogUndoInsert", "recovery/redo/parse.go: makeSQL"])
p("Updates of tables without a primary key",
  "If the redo log has updates of rows of tables without a primary key among updates of other tables, the statements that the redo command prints, executed from the last to the first on the tables after the updates, give the tables before them.",
  "All dictionaries with tables with and without primary keys, all logs, all choices of --db and --table, and all contents of the tables.",
  "Relates the output for a log of any length to the state of all tables, and depends on what a statement can name in a table with a hidden key.",
  ["cmd/db-recovery/command.go: FromRedoFile", "recovery/redo/mlog.go: mlogUndoInsert, getPrimaryKey", "recovery/redo/parse.go: makeSQL"])
p("Pages of a data file that are free",
  "If some pages of the data file have been given up by the table and are marked as free in the extent descriptors, the output of the data command, executed on an empty table, gives exactly the rows of the pages that are in use.",
  "All data files with any number of pages in use and free, all rows on them, all dictionaries of the data command, and all equivalences of keys.",
  "Relates the output for a file of any size to the state of the pages, which is recorded elsewhere in the file, and to what the server keeps of rows with equal keys.",
  ["cmd/db-recovery/command.go: FromDataFile", "recovery/ibdata/parse.go: ParseDataPage, parseFile"])
p("The order of the pages of the dictionary",
  "The pages of SYS_TABLES, SYS_COLUMNS, SYS_INDEXES and SYS_FIELDS can come in any order in the system file behind their roots, as they are numbered when they are allocated and not by their keys: the data command prints the same as for pages in the order of the keys.",
  "All system files, all divisions of the rows of the dictionary into pages, all orders of the pages, all tables, data files and operations.",
  "Quantifies over all dictionaries and permutations of pages, and compares the whole output of two runs.",
  ["recovery/ibdata/parse.go: ParseDictPage, getAllColumns, getAllFields", "cmd/db-recovery/command.go: FromDataFile"])
p("The doublewrite buffer has no influence",
  "What is in the doublewrite buffer, that is, in the pages 64 to 191 of the system file, has no influence on what either command prints or on the way it ends: these pages are copies of pages of any tablespace and not part of the dictionary.",
  "All system files with a correct dictionary in which each page outside the buffer has the number of its position, all copies of pages in the buffer, all tables, data files, redo logs and operations.",
  "Quantifies over all dictionaries and all contents of 128 pages, and compares the whole output of two runs of both commands.",
  ["recovery/ibdata/parse.go: ParseDictPage, parseFile", "cmd/db-recovery/command.go: FromDataFile, FromRedoFile"])
p("The number of statements is bounded",
  "The number of statements printed is bounded by the size of the input, whatever the files contain: the data command prints at most 16379 REPLACE statements for each page of the data file, and the redo command prints no more UPDATE statements than its log files have bytes. If the dictionary or the data file cannot be read, the data command prints at most one line.",
  "All system files, data files and lists of log files, sound or damaged, all operations, and runs that end, that panic and that never end.",
  "Concerns all files, also damaged ones and runs that never end; tests see a few files, of which the number of statements is known.",
  ["recovery/ibdata/parse.go: ParseDataPage, parsePage", "recovery/ibdata/format.go: makeReplaceIntoStatement", "recovery/redo/parse.go: ParseRedoLogs, parseRedoBlockData", "cmd/db-recovery/command.go: FromDataFile, FromRedoFile"])
p("A system tablespace of several files",
  "If the system tablespace consists of several files, either command can be given the first of them, which has the dictionary header: it prints the same and ends in the same way as with the contents of all the files.",
  "All system tablespaces with a correct dictionary in which each page outside the doublewrite buffer has the number of its position, all divisions into files behind the buffer, all tables, data files, redo logs and operations.",
  "Quantifies over all dictionaries and all divisions of the tablespace, and compares the whole output of two runs of both commands.",
  ["recovery/ibdata/parse.go: ParseDictPage, parseFile", "cmd/db-recovery/command.go: FromDataFile, FromRedoFile"])
p("Mistakes on the command line",
  "A command line with an option that the operation does not have, without an option that it requires, with a last option without its value, or with an unknown value of OpType is rejected: the exit status is not 0, nothing is printed on standard output, and no file is read.",
  "All command lines of both commands with any number of options with any names and values at any places, and all files.",
  "Quantifies over all lines with arbitrary names and values of options, and concerns the whole program with its two parsers of options.",
  ["cmd/db-recovery/main.go: main", "cmd/db-recovery/command.go: NewRootCommand, NewFromDataFileCommand, NewFromRedoFileCommand, FromDataFile, FromRedoFile"])
p("Tables with triggers",
  "Executing the standard output of the data command on an empty table that has INSERT triggers gives exactly the rows of the file and leaves other tables as they are.",
  "All tables of any number of columns and pages of rows, all rows (C57), and all BEFORE INSERT and AFTER INSERT triggers.",
  "Quantifies over all files and all triggers, and concerns what a server makes of the printed statements.",
  ["cmd/db-recovery/command.go: FromDataFile", "recovery/ibdata/format.go: makeReplaceIntoStatement"])
p("The redo command and tables with triggers",
  "If executing the standard output of the redo command undoes the updates of the log on tables without triggers, it does so also on tables with UPDATE triggers, and it leaves other tables as they are.",
  "All logs of C58 with any number of files, blocks and records whose updates are of different rows or columns (C74), all states of the tables, and all BEFORE UPDATE and AFTER UPDATE triggers.",
  "Quantifies over all logs, states and triggers, and concerns what a server makes of the printed statements.",
  ["cmd/db-recovery/command.go: FromRedoFile", "recovery/redo/parse.go: makeSQL"])
p("Scripts that were interrupted",
  "If the execution of the standard output of a command was interrupted after any statement, executing the whole output from its start gives what executing it once without an interruption gives.",
  "All files, runs that end in any way, all states of the tables, and all places of the interruption, if the output can be executed; for the redo command also: no statement assigns a column that the condition of a statement on the same table names (rows keep their keys).",
  "Quantifies over all files, all states of the tables and all places of the interruption; tests execute no scripts.",
  ["cmd/db-recovery/command.go: FromDataFile, FromRedoFile", "recovery/ibdata/format.go: makeReplaceIntoStatement", "recovery/redo/parse.go: makeSQL"])
p("Undoing the updates of one table only",
  "Executing the standard output of the redo command for one table of one database makes of this table what executing the output for all tables makes of it, and leaves all other tables as they are.",
  "All logs of C58 with any number of files, blocks, tables and updates, all names of a database and a table, and all states of the tables.",
  "Quantifies over all logs, names and states of the tables, and compares two runs by what a server makes of their outputs.",
  ["cmd/db-recovery/command.go: FromRedoFile", "recovery/redo/mlog.go: mlogUndoInsert", "recovery/redo/parse.go: makeSQL"])
with open("/verif/properties.jsonl","w") as f:
    for x in P: f.write(json.dumps(x,ensure_ascii=False)+"\n")
print(len(P))
