# Formal model of martianzhang/db-recovery in Lean 4

## Approach

* Source of truth: `/repo` (Go).  The model is hand-written Lean 4, function by function, each definition
  citing file and lines.  Nothing is executed; the tie to the code is the reading.
* `lean/Verif/Go.lean`      – the fragment of Go semantics used (bytes, slicing, uint64 wrap, panics, hang).
* `lean/Verif/Model/*.lean` – the model of the code.
* `lean/Verif/Spec/*.lean`  – independent specifications (InnoDB encoders, SQL lexer, page chains ...).
* `lean/Verif/Proofs/*.lean` – helper lemmas.
* `lean/Verif/Props/*.lean` – the property theorems (namespace `Verif.Props`), non-vacuity examples and
  counterexamples.
* `properties.jsonl`, `MANIFEST.json` – the properties and the theorems that belong to each; written by
  `tools/props.py` and `tools/manifest.py`.
* `seeded/` – wrong programs seeded into the model (`mutations.py`, `mutate.py`) and what they broke (`LOG.jsonl`).

Go panics are values (`none` for pure code, `R.panic` for stateful code, which keeps the state reached so far
because `recover` observes it).  Non-termination is the value `R.hang`.  uint64 values are `Nat` with explicit
wrap-around where the code can wrap.  Go maps are association lists whose list order is the (arbitrary)
iteration order; `Model/Order.lean` has the commands with an order chosen for every iteration (C59).

How properties are stated.  The specification side never uses a function of the model: encoders write what InnoDB
documents (integers, rows, pages, redo blocks, redo and undo records), a lexer and parser read SQL the way MySQL does,
chains of records are a relation over page bytes.  A theorem says what the model does on whatever the encoder wrote.
A property that is false of the code is kept as a definition `Cxx_statement`, `Cxx_false` proves its negation on a
concrete input, and `Cxx_..._partial` proves the part that holds, where possible with the exact condition
(`Cxx_iff`, `Cxx_exact`).

## Trusted base

1. The Lean 4.33.0 kernel, and Mathlib only through lemmas checked by it.
2. Axioms: every theorem of `MANIFEST.json` depends on a subset of `propext`, `Classical.choice`, `Quot.sound`
   (`#print axioms`).  There are no own axioms, no `sorry`, no `native_decide`, no `bv_decide`.
3. That the definitions in `Go.lean` and `Model/` say what the Go code does (checked by reading, see below).
4. That the encoders and readers in `Spec/` say what InnoDB and MySQL do.  They are written from the documented formats
   and are not derived from the Go code.
5. For C65 and C66: that `Model/Main.lean` says what cobra 1.1.1, pflag and Go's package `flag` do with arguments.  Their sources
   are not at hand here; the definitions follow them from memory.

### Modelled

| file | functions |
|------|-----------|
| utils/utils.go | all readers and bit-field helpers (33-271), compressed integers (273-335, 401-471), `ParseBinary*` (337-399), `ParseIndex`, `ParseInsertRecord` (489-572), `ParseData` (574-656), `GetFixedLength*` (658-732), dates and times (741-887), floats, blobs (889-909), `EscapeValue` (911-947), `FixedLengthInt` (978-985), `ReadNextBytes`, `ReadIntoStruct` on regular files |
| ibdata/parse.go | everything: `ParseDictPage`, `ParseDataPage`, `parseFile`, headers, SYS tables, column rearrangement, page walk, record offsets |
| ibdata/format.go | `makeReplaceIntoStatement` |
| ibdata/todo.go | `getColumnType`, `RecoveryTableStruct`, `ParseUndoPageHeader` (not called by the commands) |
| redo/parse.go, redo/mlog.go | everything: log files, block payload, record loop, all handlers, undo records, `makeSQL` |
| logs/logs.go | `InitLogs` and which messages are written |
| cmd/db-recovery/command.go, main.go | `FromDataFile`, `FromRedoFile`, `main` with the options and commands (`Model/Main.lean`) |

### Not modelled

* `utils.GetFilesFromOS`, `GetMaxLength` (not called), `cmd/test/*`, version and logo output, the wording
  of help and usage texts, one-letter options.
* Logging (`logs.*`): messages go to glog's files and standard error and are not part of the output considered here.
  Arguments of log calls that could themselves panic have been looked at: they only read variables. glog writes to the log directory, or else
  to the directory for temporary files; if it can write to neither it ends the program with status 2 at the first message. This is left out.
* `getTableBySpaceID` (parse.go:455, result only logged) and `mlogRecMark`, `mlogZipWriteBlobPtr` (advance a copy of the cursor; their
  callers advance it).
* The default branch of `ParseTime` (the version is a constant).

### Simplifications

* Floating point: values are bit patterns, how Go prints them is a parameter (`FloatFmt`).  Statements about printed
  floats say that the digits are those of the stored bits, not that MySQL reads the same number back.
* Time zones: a parameter giving the offset at each instant; Go's calendar is replaced by counting years and months.
* `strings.ToLower` is ASCII only (enough for the level names); `TrimSpace` has no separate ASCII fast path.
* Files: `os.File.Read` returns all requested bytes that exist and never fails in the middle; opening either fails or
  gives the contents.  Several files are a function from names to contents.
* Slice capacity: `s[:n]` beyond `len(s)` panics in the model.  Go only panics beyond `cap(s)`.  The two differ only for
  the redo stream, which is built by `append`; there the spare capacity is explicit (`Stream.spare`, zero bytes) and
  theorems hold for every spare capacity.
* The redo cursor is a `Nat`; it cannot reach 2^64 because each record adds at most a few 32-bit numbers to a position
  inside the file.
* The Go code writes decoded key values into `Fields.ColumnValue` of the dictionary; they are overwritten before being
  read, so the model keeps them local.
* Memory exhaustion and stack overflow are not modelled.

## Where the code disagrees with the properties

Each line is proved in the file named; together with the theorem that says what does hold.

* C04, C05 (Ints): the low word of a 64-bit number is read too far to the right; the high word of a much compressed
  number is dropped (shadowed variable).
* C07 (Ints): unsigned MEDIUMINT loses two bits; BIT/fixed binary of 5, 6, 7 bytes aborts.
* C09, C11 (Dates): packed DATETIME outside 1991..2099 is read as decimal; TIMESTAMP uses the 12-hour clock.
* C13, C14, C17 (Text): the string `0001-01-01T00:00:00Z` becomes empty; CHAR loses white space at both ends (the 25 characters of Unicode, as UTF-8); DECIMAL and
  GEOMETRY become NULL.
* C20, C21 (Records): latin1 VARCHAR is taken for fixed length; VARBINARY length above 255 bytes; latin1 CHAR(0) and BINARY(0); CHAR in other single-byte character
  sets; NULL flags of REDUNDANT records are cleared.
* C22, C23 (Walk): the records visited are right; rows inherit the restrictions of C20 and C21.
* C24 (Walk): a cycle of links loops forever.  C25: a column beyond the page keeps the value of an earlier row, also of another page or (C62) of another file (`Props/RowsApart.lean`).
* C27, C28 (Files): a damaged page aborts the run; an unknown table is not an error.
* C30, C31, C32, C33 (Dict): primary keys that are not the first column destroy the column list (columns lost or duplicated); pages
  before the root page are dropped; the binary flag is set for BLOB only, VARBINARY columns have length 0.
* C35 (Replace): the string NULL, BIT values above 1, NULL in BIT, backticks in names.  C37: DECIMAL columns print a
  debugging line.
* C39 (RedoFiles): block lengths 1..11 and above 516 abort; 509..511 include trailer bytes.
* C41 (RedoSync): renames, MLOG_COMP_REC_SEC_DELETE_MARK, dummy records and updates that set NULL desynchronise the
  parser; MLOG_UNDO_HDR_REUSE at the very end of a log makes it panic.
* C42 (RedoUpdate): binary columns are printed as hexadecimal text without unhex, BIT in decimal, tables without
  primary key get `DB_ROW_ID`='<nil>', DATETIME keys lose the statement.
* C43 (RedoUndo): with both names given, tables of other databases with the same name are printed.
* C44 (RedoSql): assignments are joined by `and`, so MySQL reads one assignment; values are not escaped.
* C45, C46, C47, C48 (RedoUndo, RedoLoop, RedoTruncated): unknown column positions leave the cursor inside the record;
  a length field cut off by the end aborts; bytes near the end are treated differently; a cut inside an old value prints NULL
  as the old value; DATETIME values in the last bytes lose the statement.
* C56 (DictWitness): a file with a table whose primary key is its second column; the first column is missing from the loaded table.
  The clustered index is recognised by its name only (PRIMARY, GEN_CLUST_INDEX): tables clustered by a unique key that is not the primary
  key are loaded without DB_TRX_ID and DB_ROLL_PTR (`C56_unique_key`).
* C57 (DataWitness): files with a VARCHAR row 'NULL', printed as the SQL value NULL.
* C58 (RedoWitness): log files with an update whose old value was `it's`; the printed line is no statement.
* C52, C53, C54 (Output): index id, delete mark and external storage are not checked.
* C54 (External): in a REDUNDANT record the mark for external storage is read as part of the end offset; the column keeps the value of
  the row before, and no row comes out unless it is the last column.
* C67 (RedoCut): a block that is only partly in the file is filled up with zeros (`ReadNextBytes` drops the count), its data length is
  believed, so the statement of a record cut in an old value restores that value with NUL bytes.
* C68 (DataCut): a page that is only partly in the file is filled up with zeros; the first record that lies behind the cut is printed as a
  row of zeros (id -2147483648, empty strings).
* C69, C70 (RedoChecks): the checksums of log blocks are not looked at, nor where the first record of a block begins; in a log that has been
  written round, the rest of an overwritten record is taken for the beginning of one, and bytes in it that look like an update record
  give a statement.
* C71 (TornPages): neither the checksums of pages nor the two copies of the LSN are compared; torn pages are printed.
* C72, C73 (Script): the output of the data command read as one script and executed. It restores the rows, but the statements for deleted rows
  overwrite rows whose keys are in use again, and of several versions of a row the one that was deleted first remains (the free list begins with the
  newest, and each REPLACE takes the place of the one before).
* C74 (RedoEffect): the output of the redo command executed on the tables as they are after the updates. It is printed in the order of the log,
  so of a column that was updated twice it restores the value before the last update; in the opposite order the lines restore everything.
  RedoEffectIff: the printed order restores the tables if and only if each column held the same value before its first and its last update.
  The server compares values for equality; collations are left out.
  Props/Program carries C72 and C74 through to the arguments of the program and its exit status.
* C75 (Names): SYS_TABLES records names in the encoding of file names; the tool compares and prints them in this form, so a table with a hyphen
  in its name is not found under its name (the command aborts at the first record), and under its encoded name is printed as a table of that
  name.
* C76 (Virtual): virtual generated columns (bit 13 of PRTYPE) are taken for stored ones.  However a run ends, each statement has one value for
  each column in the dictionary (`C76_width`), which is too many for such a table.
* C77 (Fractions): the bytes of the fraction are not read.  The fraction of a negative TIME borrows a second, so such a time is printed one
  second too far from zero.
* C78 (PageSize): 16384 bytes are read as one page, whatever `innodb_page_size` was; the pages behind the first one in them are not seen.
* C79 (RedoOrder): blocks are read in the order of the file; the block numbers are read but not compared.
* C80 (Partitions): the entries `t#P#p0` of the dictionary are tables of their own for the tool.
* C81 (Inject): the text of each line outside of string literals and quoted names (`Spec/Outside`) is a fixed pattern.
* C82 (OtherPages): the run is a function of the selected pages of the file.
* C83 (RedoDivision): the run is a function of the log and of the reserved memory; the latter matters only for FLOAT, DOUBLE and DECIMAL values.
* C84 (RedoNames): a simulation of the runs with all names at once, handler by handler.
* C85 (PageOrder): pages are decoded in the order of the file; only a page that ends the run makes a difference.
* C86 (Repeat): REPLACE statements are idempotent; the rows of the script executed last win.
* C87 (SystemPages): pages of the system file outside the dictionary; the type of a page is never looked at, so data of a BLOB can be taken for rows of the dictionary.
* C88 (Enum): YEAR 0000 is stored as 0 and decoded as 1900.
* C89 (Enum): ENUM and SET values are printed as numbers in quotes; `enumStore`, `setStore` say what a server makes of a string: the member with this text first, else the number.
* C90 (RedoInject): values are printed raw in UPDATE statements; an old value `'; drop table t; select '` makes a statement of its own.
* C91 (AutoIncrement): a server replaces 0 in an AUTO_INCREMENT column by the next value of its counter; of the rows 0 and 1 one is left.
* C92 (ZeroDates): the zero TIMESTAMP is printed as 1970-01-01 (in UTC), the zero DATETIME of 5.6 as digits of the bytes that follow it.
* C93 (Instants): local clock readings are printed, so of two instants with one reading only one can come back.
* C94 (Settings): the output sets neither the SQL mode nor the character set; literals with backslashes mean something else under some settings.
* C95 (Own): `ParseData` gets the rest of the page; DATETIME values in 5 to 7 bytes are read as 8 bytes, so that the next column shows in the result; BIT values in 5 to 7 bytes abort.
* C96 (Decimal): the packed bytes of a DECIMAL are printed as a string; a server takes this for no number or for a wrong one, whatever the number is.
* C97 (PrefixKey): the prefix length of a key column (in SYS_FIELDS.POS) is not read; for PRIMARY KEY (a(n)) every value is printed one column too late, the first is the prefix, the last is lost.
* C98 (RedoPrefix): for updates of such tables the redo command takes each field number for the column after it and compares the key column with the prefix; the printed statement never restores the row.
* C99 (Generated): for a table with a generated column, stored or virtual, the data command prints a literal for that column, which the server refuses (only `DEFAULT` is allowed). Which columns are stored generated ones is not recorded in the files that the tool reads; the model of the server takes the set as a parameter.
* C100 (FullText): the hidden column FTS_DOC_ID of tables with a FULLTEXT index (PRTYPE type 3, DATA_FTS_DOC_ID) is printed as if it were a column of the user.
* C101 (Bits): BIT values are printed with decimal digits in a bit literal, so only 0 and 1 are right; in UPDATE statements they are strings of digits, which a server takes for the bytes of the value (`bitStore`), so none is.
* C102 (Unpurged): A DELETE marks the record, and purge moves it to the free list later. Recovery walks only the free lists, so the rows in between are not recovered; exact condition. `writeMarked` writes files with given delete marks, also used for `C53_command_marked`.
* C103 (Longer): The output for a longer data file extends the output for a shorter one, for arbitrary bytes; further copies of known pages change nothing.
* C104 (OtherTables): The output for a table depends only on the dictionary rows of this table, for arbitrary data files.
* C105 (Charset): Strings are printed as the bytes that are stored, with no SET NAMES and no introducer; the number of the collation is recorded in SYS_COLUMNS but not used. Character sets are specified by what bytes mean (`Spec/Charset.lean`), and the server by conversion between them.
* C106 (Json): JSON columns are BLOBs with the binary flag to the tool. `Spec/Json.lean` has the grammar of JSON and what the binary form begins with; no value of a JSON column is printed so that the server accepts it.
* C107 (Renamed): **C107 (deleted rows of the dictionary).** SYS_TABLES is clustered by name, so a renamed table has two rows with its id until the purge. The tool keeps tables by id and does not look at delete marks: the row with the greater name wins, also if it is the deleted one. After `RENAME TABLE shop.t TO shop.a` the table `shop.a` is not found and the command aborts; after the purge its rows are printed.
* C108 (ForeignKeys): **C108 (foreign keys).** The tool prints REPLACE, which for the server is a DELETE of the row with the key and an INSERT. Executed on a table with rows of these keys, it deletes the rows of other tables that refer to them with ON DELETE CASCADE, also if the row is replaced by itself. INSERT IGNORE or INSERT … ON DUPLICATE KEY UPDATE would not.
* C109 (OnUpdate): the printed UPDATE assigns only the columns of the undo record; a server sets the other columns with ON UPDATE CURRENT_TIMESTAMP to the current time. `updateStamped` is the UPDATE of such a server. Disagreement with what a user expects: rows restored in this way have a new time of change.
* C110 (Rollback): the undo records of transactions that were rolled back are in the log; the statement for such an update sets the value before it. `Ran` describes histories: rolling back sets the old values of an earlier update and writes no undo record. Executed in the order of the log the statement of a rolled-back update can come after that of a committed one for the same column and cancels it.
* C111 (UniqueKeys): the statements are printed in the order of the log, so that the states in between are not states of the history; one of them can have two rows with the same value in a UNIQUE index, and the server refuses the statement. From the last line to the first every statement leads to a state of the history (`run_unique_reverse`).
* C112 (RedoSafe): the old values of C44 that break out of their quotes can set other columns: after an update of a row whose name was `x',`id`='9`, the output changes the key of the row. Without such values the statements touch what was updated and nothing else, in whatever state the tables are, and are idempotent.
* C113 (OffPageUpdates): of an old value that is stored off-page, the undo record's length field is UNIV_EXTERN_STORAGE_FIELD plus the length of what the row has of it. The tool takes every length beyond the end of the log for NULL and goes on right after the length field. So executing its output deletes the text: `set c=NULL`, always; and what it makes of the columns after it is arbitrary.
* C114 (RenamedLater): tables are identified by the number in the undo record. After RENAME TABLE the statements have the new name, as they should; updates from before a TRUNCATE, OPTIMIZE or a rebuilding ALTER TABLE are left out without a word.
* C115 (KeyUpdates): an update of a primary key is not undone: makeSQL only prints undo records of kind 12, and the key change is logged as kinds 14 and 11 or 13. Rows that keep their keys are restored all the same.
* C116 (NoPrimary): for a table without a primary key the tool prints `where `DB_ROW_ID`='<nil>'`. The server rejects the statement because DB_ROW_ID is a hidden column, so one such update spoils the script for all other tables. The value is lost as well: parseData has no case for the type of DB_ROW_ID.
* C117 (FreePages): a page that a merge has given up keeps its rows and is only marked as free in the extent descriptors. The tool does not read these, so rows deleted or changed after the merge are printed in their old state.
* C118 (SystemOrder): getAllColumns appends the columns of a table in the order of the pages in the file and never sorts them by POS. Pages of a tree are numbered in the order of their allocation, so a table whose columns are on two pages of SYS_COLUMNS may get them in the wrong order, and its rows are then printed with wrong values.
* C119 (Doublewrite): parseFile keeps the first page with each number and does not look at the tablespace id. The system file contains the doublewrite buffer with copies of pages of other tablespaces; such a copy hides the page of the system tablespace with the same number if that is behind the buffer (192 or more). (The source has the comment `TODO: why have the same pages?` there.)
* C120 (Bounds): the statements are counted by their first bytes among the printed lines. A page that prints anything has been walked to its end, within 16379 records (C24); each UPDATE statement takes at least one byte of the stream (C40), and the stream is no longer than the log files, since at least 512 bytes of header precede its first block.
* C121 (SystemFiles): the pages of a tablespace of several files are numbered through all files, and the tool reads the one file it is given. That is enough as long as the further files have no pages of the dictionary; an index whose table is described in a further file stops both commands for all tables.
* C122 (Mistakes): cobra rejects a line if and only if an option is unknown or a required one is missing (lines that ask for help apart), and main then panics before a file is opened. OpType is compared with RecoveryData only, so that a misspelt value silently prints the existing rows instead of the deleted ones.
* C123 (Triggers): REPLACE statements execute the INSERT triggers of the table. C123_exact says what results for every trigger; the claim holds if and only if the BEFORE trigger returns each row of the file unchanged and the AFTER trigger writes nothing for it. Recreate triggers after the script has been executed.
* C124 (UpdateTriggers): UPDATE statements execute the UPDATE triggers of the table for each row found. C124_exact says what results for every trigger; for one update the claim holds if and only if the BEFORE trigger returns the restored row unchanged and the AFTER trigger writes nothing for it.
* C125 (Interrupted): REPLACE statements that were executed before are among those executed again, and the later rows with a key decide. For UPDATE statements the rows after the first statements differ from those at the start only in columns that the script will assign again, as the conditions find the same rows; this fails if statements assign columns of the conditions (keys_needed).
* C126 (OneTable): Statements of different tables do not interfere, so a table gets what its own statements make of it. The filter passes the tables of all databases with the given name (C43), hence the exact result: these tables as after the whole output, all others unchanged.
* Spec/Writer writes pages and a system tablespace with given contents; Proofs/Writer shows, for all contents that fit, that these files are in the
  formats used as hypotheses. `C57_written_partial` is C57 with such files, from the rows to the printed statements; `C57_written_pages_partial` has any number of pages.
* C65, C66 (Main): an option before `recovery` ends the program with status 2, because the operation calls `flag.Parse()`, which knows
  glog's options only; files that cannot be read give status 0.

## Plan per property

Shapes: RT = round-trip theorem, INV = invariant by induction, REF = refinement against a spec,
DEC = decision logic, CEX = the property is false of the code; negation proved on a concrete witness and the
true part proved as `_partial`.

| id | model | proof |
|----|-------|-------|
| C01 | utils readers | RT against big-endian encoder |
| C02 | MatchParseCompressed | RT against mach_write_compressed spec + classification of short buffers |
| C03 | MatchGetCompressedSize | equality with encoder length |
| C04 | MatchUllReadComPressed | cursor/high word proved, CEX for low word |
| C05 | MatchUllReadMuchCompressed | RT below 2^32, CEX above |
| C06 | GetIntValue | RT per width |
| C07 | GetUintValue | RT widths 1,2,4,8; CEX 3,5,6,7 |
| C08 | ParseDate | RT |
| C09 | ParseDateTime | RT both formats, years 1991..2099 for the packed one; CEX outside |
| C10 | ParseTime | RT |
| C11 | ParseTimeStamp | date/minute/second and 12-hour reading; CEX |
| C12 | ParseBlob | RT |
| C13 | EscapeValue over Go's rune iteration | RT against SQL literal lexer; CEX for the zero-time string |
| C14 | TrimSpace | trailing part; CEX leading |
| C15 | LE helpers | RT |
| C16 | ParseFloat/Double | RT on bits |
| C17 | ParseData | exact characterisation of nil results; CEX |
| C18 | parseFile | REF against chunk+dedup spec |
| C19 | headers | equality with field table |
| C20 | COMPACT decode | RT against encoder (INV over columns); exact over table definitions (`C20_iff`, Props/Tables: every table with a type outside `Readable` has a row that is misread); CEX for latin1 VARCHAR, VARBINARY(>255) |
| C21 | REDUNDANT decode | RT without NULL/extern; exact over table definitions (`C21_iff`, Props/TablesOld); CEX |
| C22 | parsePage walk | REF against chain relation |
| C23 | parsePage walk | same |
| C24 | parsePage walk (Props/WalkExact) | exact (C24_iff): endless iff the links lead into a cycle of decodable records; CEX cycle |
| C25 | parseRecords | partial when fields fit, record by record and page by page; CEX stale value of the page before (`Props/RowsApart.lean`) |
| C26 | ParseDataPage filter | DEC iff; whole files by C82 and C27 |
| C27 | ParseDataPage | concatenation when no page fails; output before the first bad page, and the abort (`C27_bad_page`); CEX |
| C28 | ParseDataPage | CEX; partial: nothing printed |
| C29 | lookups | permutation invariance |
| C30 | addInternalColumns | REF; for files Props/DictClaims |
| C31 | moveColumns2First | CEX; exact condition for every key (`C31_iff`: empty, or the first column); lost columns (`C31_loses`) |
| C32 | ParseDictPage collection (Props/DictPages, Props/DictOrder) | exactly the pages kept (`C32_exact`), when all are (`C32_iff`); for both commands: pages in front of the root have no influence, the mixture of the trees does not matter; CEX a table that is not loaded |
| C33 | getAllTables/Columns | INV over rows; for files Props/DictClaims |
| C34 | getAllIndexes/Fields | INV over rows; for files Props/DictClaims |
| C35 | makeReplaceIntoStatement | RT against SQL statement parser; CEX 'NULL', BIT, backtick |
| C36 | makeReplaceIntoStatement | counting |
| C37 | stdout | partial; CEX NEWDECIMAL |
| C38 | ParseRedoLogs | RT against block writer |
| C39 | ParseRedoLogs | exact crash condition; CEX |
| C40 | parseRedoBlockData | INV: strict progress |
| C41 | mlog* | REF per record type; CEX for the desynchronising types |
| C42 | mlogUndoInsert | REF |
| C43 | filter (Props/RedoSelect) | exact, whole command, all files; CEX zoo.t asked for, shop.t printed |
| C44 | makeSQL | partial one column, plain characters; CEX |
| C45 | mlogUndoInsert | partial; CEX |
| C46 | recover wrappers | partial (after the length field); CEX |
| C47 | validateLogHeader | DEC over all types |
| C48 | truncation | partial; CEX |
| C49 | output | INV |
| C50 | logs | DEC |
| C51 | CLI | DEC |
| C52 | index id | CEX; partial |
| C53 | delete mark | CEX |
| C54 | extern | CEX |
| C55 | FromRedoFile | DEC; REF of the file list against a comma-list spec (Spec/CommaList); statements from C42; CEX a log of one record |
| C56 | ParseDictPage | REF: bytes of a system file (Spec/SysFile) to table definitions; CEX for keys other than the first column; exact condition for every table (`C56_exact`) |
| C57 | FromDataFile | REF: bytes of two files (Spec/SysFile, Props/TableFile) to the values read in the printed statements (C56 + C20..C22 + C34, C35 composed); exact as to the values (`C57_values_iff`, Props/DataValues); CEX |
| C58 | FromRedoFile | REF: bytes of a system file and log files to the values read in the printed statements (C56 + C38 + C42 + C44 composed); CEX |
| C59 | all `range`s over maps | REF: an order chosen for every iteration does not change the outcome (`Model/Order.lean`) |
| C60 | FromDataFile, FromRedoFile | CEX cycle of links in the system file; end on files without (`Props/Terminates.lean`) |
| C61 | todo.go | RT: every field; CEX table ids above 2^32; record numbers above 2^32 print a wrong table (`C61_wrong_table`) |
| C62 | ParseDataPage | CEX values stay in the dictionary and are printed for the next file (`Props/RowsApart.lean`); INV definitions unchanged, REF sequence of sound files (`Props/Reuse.lean`) |
| C63 | ParseDictPage errors | DEC: which error for which file (`Props/DictErrors.lean`) |
| C64 | parseRedoBlockData, all handlers | where a panic or error can happen (`Proofs/RedoNear.lean`, `Props/RedoReach.lean`); CEX index description too long |
| C65 | main, options | REF argument list to operation (`Props/Main.lean`, run in `Props/MainWitness.lean`); CEX options first |
| C66 | main, exit status | exact condition per status; CEX unreadable file |
| C67 | log files cut off (Props/RedoCut) | exact per cut and per beginning; CEX restored value with NUL bytes |
| C68 | data files cut off (Props/DataCut) | exact as file with zeros; rows in front of the cut; CEX row behind the cut |
| C69 | block checksums (Props/RedoChecks) | exact: only data lengths and log bytes count; CEX |
| C70 | logs written round (Props/RedoChecks) | exact stream; rest without record types is skipped; CEX forged record |
| C71 | torn pages (Props/TornPages) | exact: contents count only; CEX |
| C72 | executing the printed rows (Props/Script, ScriptIff) | rows of the table restored; exact condition on the values; CEX name NULL |
| C73 | executing the deleted rows (Props/Script) | exact result; CEX key in use again; oldest version remains |
| C74 | executing the undo statements (Props/RedoEffect) | restored if updated once, or in the opposite order; CEX updated twice |
| C75 | encoded names (Props/Names) | exact: plain names; CEX `my-table` |
| C76 | virtual columns (Props/Virtual) | exact: none; CEX `v INT AS (id + 1)` |
| C77 | fractional seconds (Props/Fractions) | exact: the fraction is zero; CEX TIME(2) -00:00:59.50, printed as -00:00:60 |
| C78 | smaller pages (Props/PageSize) | exact: no rows on the other pages of each 16384 bytes; CEX two pages of 8192 bytes |
| C79 | order of log blocks (Props/RedoOrder) | exact: newer statements first; CEX blocks 9, 8 with two updates of one column |
| C80 | partitions (Props/Partitions) | exact: nothing is printed for the table; CEX `t#P#p0` |
| C81 | no injection (Props/Inject, Spec/Outside) | proved for all data files, any outcome |
| C82 | other pages (Props/OtherPages) | proved for all files |
| C83 | division of the log (Props/RedoDivision) | proved for tables without FLOAT, DOUBLE, DECIMAL; CEX: FLOAT at the end of the log |
| C84 | names only filter (Props/RedoNames, Proofs/RedoNames) | proved for all logs and all names |
| C85 | order of pages (Props/PageOrder, Props/PageOrderRows) | proved for sound pages, and success for all; CEX a bad page first or last |
| C86 | executing again, rows in use last (Props/Repeat) | proved for all outputs that can be executed; for the files of C57 they can |
| C87 | other pages of the system file (Props/SystemPages) | proved for pages without the ids 1 to 4 in bytes 66 to 73; CEX a BLOB that makes both commands abort |
| C88 | YEAR columns (Props/Enum) | exact: all years except 0000, which becomes 1900 |
| C89 | ENUM and SET columns (Props/Enum) | exact: no printed number is the text of another member; CEX ENUM('2','1') |
| C90 | values inside literals, redo (Props/RedoInject) | followed logs with enclosed values; any text without quotes can be injected; CEX `drop table t` |
| C91 | AUTO_INCREMENT columns (Props/AutoIncrement) | exact condition and result; CEX rows 0 and 1 |
| C92 | zero dates (Props/ZeroDates) | exact condition for each type; CEX zero DATETIME followed by a byte 1 |
| C93 | instants (Props/Instants) | exact condition; CEX the hour that the clock shows twice |
| C94 | settings of the session (Props/Settings) | exact for NO_BACKSLASH_ESCAPES; CEX newline; GBK: a quote behind a first byte leaves the literal |
| C95 | own bytes (Props/Own) | records, COMPACT and REDUNDANT pages, free lists; exact over the column types; CEX DATETIME 1980 before two transaction ids |
| C96 | DECIMAL (Spec/Decimal, Props/Decimal) | exact; false for every number; injective |
| C97 | primary keys on prefixes of columns (Props/PrefixKey) | exact; false unless all values of a row are equal and short |
| C98 | updates of tables with primary keys on prefixes of columns (Props/RedoPrefix) | exact effect of the output; never true of such tables, true of others in the same log |
| C99 | tables with generated columns (Props/Generated) | exact: the statements are run iff no column is generated |
| C100 | tables with FULLTEXT indexes (Props/FullText) | exact: right iff there is no hidden column |
| C101 | BIT columns (Props/Bits) | exact for REPLACE (0 and 1); never for UPDATE |
| C102 | deleted rows before purge (Props/Unpurged) | exact: right iff no linked record is marked |
| C103 | appended pages (Props/Longer) | proved for arbitrary bytes |
| C104 | other tables (Props/OtherTables) | proved for arbitrary data files |
| C105 | character sets of columns (Props/Charset) | false; tables with columns of different character sets cannot be restored in any session |
| C106 | JSON columns (Props/Json) | false for every value but NULL |
| C107 | deleted rows of the dictionary (Props/Renamed) | false: the old name of a renamed table wins if it is the greater one; dropped tables are harmless |
| C108 | foreign keys (Props/ForeignKeys) | false: REPLACE deletes rows of other tables if the keys are in the table; exact |
| C109 | columns with ON UPDATE CURRENT_TIMESTAMP (Props/OnUpdate) | false; partial: all such columns updated; exact for one update |
| C110 | updates that were rolled back (Props/Rollback) | false; exact condition; partial: no column updated twice, or lines in the opposite order |
| C111 | UNIQUE indexes and the statements of the redo command (Props/UniqueKeys) | false; exact condition; partial: other columns updated, or lines in the opposite order |
| C112 | statements of the redo command on tables in any state (Props/RedoSafe) | false (quotes in old values); partial: logs of C58 |
| C113 | updates of off-page columns (Props/OffPageUpdates) | false (set to NULL, always); partial: logs of C58 |
| C114 | tables renamed, rebuilt or dropped after the updates (Props/RenamedLater) | false (rebuilt tables); partial: renamed and dropped ones |
| C115 | updates of the primary key (Props/KeyUpdates) | false; partial: rows that keep their keys |
| C116 | updates of tables without a primary key (Props/NoPrimary) | false; exact condition (`C116_iff`) |
| C117 | rows of free pages (Props/FreePages) | false; exact condition (`C117_iff`) |
| C118 | order of the pages of the dictionary (Props/SystemOrder) | false; proved for tables on one page |
| C119 | doublewrite buffer (Props/Doublewrite) | false; proved if no copy has the number of a page of the dictionary behind the buffer |
| C120 | number of statements (Props/Bounds) | proved |
| C121 | system tablespace of several files (Props/SystemFiles) | false; proved if no page of the dictionary is in the further files |
| C122 | mistakes on the command line (Props/Mistakes) | false for OpType; proved for unknown and missing options |
| C123 | tables with triggers (Props/Triggers) | false; characterised |
| C124 | redo command and tables with triggers (Props/UpdateTriggers) | false; exact for one update |
| C125 | scripts that were interrupted (Props/Interrupted) | proved; for the redo command if rows keep their keys |
| C126 | one table only, redo command (Props/OneTable) | false; exact; proved if the name occurs in one database only |
