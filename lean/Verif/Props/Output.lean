import Verif.Proofs.KeepsDict
import Verif.Props.Files
import Verif.Props.Replace
import Verif.Model.Cli
/-!
# C37, C51–C54: what is printed
-/

set_option linter.unusedSimpArgs false

namespace Verif.Props
open Verif Spec

/-! ## C37 -/

/-- The full claim of C37: however the run ends, everything printed is a REPLACE statement. -/
def C37_statement : Prop :=
  ∀ (env : Env) (file : File) (db name : Bytes) (recovery : Bool) (s : IState),
    ∃ lines, (parseDataPage env file db name recovery s).st.out = s.out ++ lines ∧
      ∀ l ∈ lines, ∃ n, IsReplace db name n l

/-- what has been printed so far is REPLACE statements only -/
def OnlyReplace (db name : Bytes) (o : Out) (s : PState) : Prop :=
  NoDecimal s.cols ∧ ∃ lines, s.out = o ++ lines ∧ ∀ l ∈ lines, ∃ n, IsReplace db name n l

theorem printPage_only (env : Env) (tables : TableMap) (db name : Bytes) (recovery : Bool) (d : Bytes) (o : Out) :
    Keeps (OnlyReplace db name o) (printPage env tables db name recovery (fullPage d)) := by
  rintro s ⟨hn, lines, ho, hl⟩
  have h := parsePage_quiet env tables d recovery (field d PAGE_FREE) s.out s ⟨rfl, hn⟩
  rw [printPage_full]
  generalize parsePage env tables d recovery (field d PAGE_FREE) s = r at h
  cases r with
  | ok rows s' =>
    refine ⟨h.2, lines ++ rows.map (replaceStmt env.ff db name), ?_, ?_⟩
    · show s'.out ++ _ = _
      have := h.1
      change s'.out = s.out at this
      rw [this, ho, List.append_assoc]
    · intro l hm
      rcases List.mem_append.mp hm with hm | hm
      · exact hl l hm
      · obtain ⟨row, _, rfl⟩ := List.mem_map.mp hm
        exact ⟨_, C36_one_value_per_column env.ff db name row⟩
  | panic s' => exact ⟨h.2, lines, h.1.trans ho, hl⟩
  | hang s' => exact ⟨h.2, lines, h.1.trans ho, hl⟩

theorem pagesRun_only (env : Env) (tables : TableMap) (db name : Bytes) (recovery : Bool) (ds : List Bytes) (o : Out) :
    Keeps (OnlyReplace db name o) (pagesRun env tables db name recovery ds) := by
  induction ds with
  | nil => exact Keeps.pure _
  | cons d ds ih => exact Keeps.bind (printPage_only env tables db name recovery d o) fun _ => ih

/-- **C37 (partial).** True, however the run ends, if no column of the table is a DECIMAL.  Missing: tables with DECIMAL
columns, for which a line `test MYSQL_TYPE_NEWDECIMAL` is printed (`C37_false`). -/
theorem C37_only_replace_partial (env : Env) (file : File) (db name : Bytes) (recovery : Bool) (s : IState)
    (h : ∀ c ∈ getTableColumnsFromDict s.tables db name, ¬ (c.ftype = DATA_FIXBINARY ∧ c.mtype = MYSQL_TYPE_NEWDECIMAL)) :
    ∃ lines, (parseDataPage env file db name recovery s).st.out = s.out ++ lines ∧
      ∀ l ∈ lines, ∃ n, IsReplace db name n l := by
  cases file with
  | error e => exact ⟨[], by rw [List.append_nil]; rfl, by simp⟩
  | ok content =>
    rw [parseDataPage_run]
    obtain ⟨_, lines, h1, h2⟩ := pagesRun_only env s.tables db name recovery (selectedPages content recovery) s.out
      ⟨getTableColumnsFromDict s.tables db name, s.out⟩ ⟨h, [], (List.append_nil _).symm, by simp⟩
    refine ⟨lines, ?_, h2⟩
    generalize pagesRun env s.tables db name recovery _ _ = r at *
    cases r <;> exact h1

/-- the table of `twoTables` has no DECIMAL column -/
example : ∀ c ∈ getTableColumnsFromDict twoTables (b! "d") (b! "t"), ¬ (c.ftype = DATA_FIXBINARY ∧ c.mtype = MYSQL_TYPE_NEWDECIMAL) := by
  decide

/-! A table with a DECIMAL column: the page of `Props/WalkWitness.lean` with its first column read as DECIMAL -/

def decDefs : List ColDef := ⟨.fixBinary 4, false⟩ :: trxAndRoll
def decCols : List Column :=
  [{ name := b! "amount", ftype := 3, mtype := 246, len := 4, tableId := 1 },
   { name := b! "DB_TRX_ID", len := 6, tableId := 1 },
   { name := b! "DB_ROLL_PTR", len := 7, tableId := 1 }]
def decTables : TableMap := [(1, { db := b! "d", name := b! "t", columns := decCols })]
theorem decTables_known : Known decTables decCols decDefs := ⟨by decide, _, _, rfl, rfl, by decide, rfl⟩

theorem dec_row (d : Bytes) (o : Nat) (n : UInt8) (h : CompactRow d twoDefs o (twoCells n)) :
    CompactRow d decDefs o (twoCells n) := ⟨.cons rfl (.cons rfl (.cons rfl .nil)), h.2⟩

theorem dec_rows (d : Bytes) : All2 (CompactRow d twoDefs) [300, 200] [twoCells 1, twoCells 2] →
    All2 (CompactRow d decDefs) [300, 200] [twoCells 1, twoCells 2]
  | .cons h1 (.cons h2 .nil) => .cons (dec_row d _ 1 h1) (.cons (dec_row d _ 2 h2) .nil)

theorem dec_decode (p q : Bytes) : ∃ rows s,
    decodeRows testEnv [(rowOf decDefs (twoCells 1), p), (rowOf decDefs (twoCells 2), q)] ⟨decCols, []⟩ = .ok rows s ∧
    s.out = [b! "test MYSQL_TYPE_NEWDECIMAL", b! "test MYSQL_TYPE_NEWDECIMAL"] := ⟨_, _, rfl, rfl⟩

theorem two_file : selectedPages [twoPage (65536 - 88)].flatten false = [twoPage (65536 - 88)] := by
  unfold selectedPages
  rw [images_flatten _ (by simp only [List.mem_singleton, forall_eq]; exact twoPage_length _) (by simp),
    List.filter_cons_of_pos (by rw [decide_eq_true_eq]; exact two_selected false _), List.filter_nil]

/-- a file with one page -/
theorem one_page (env : Env) (content d db name : Bytes) (recovery : Bool) (s : IState) (h : selectedPages content recovery = [d])
    (rows : List (List Column)) (t : PState)
    (hp : parsePage env s.tables d recovery (field d PAGE_FREE) ⟨getTableColumnsFromDict s.tables db name, s.out⟩ = .ok rows t) :
    parseDataPage env (.ok content) db name recovery s =
      .ok none ⟨writeBack s.tables db name t.cols, t.out ++ rows.map (replaceStmt env.ff db name)⟩ := by
  rw [parseDataPage_run, h, pagesRun_cons, GoM.bind_run, printPage_full, hp]
  rfl

theorem not_replace (db name : Bytes) (n : Nat) : ¬ IsReplace db name n (b! "test MYSQL_TYPE_NEWDECIMAL") := by
  rintro ⟨list, h, _⟩
  have := congrArg List.head? h
  simp only [List.append_assoc, List.cons_append, List.head?_cons] at this
  revert this
  decide

/-- C37 is false of the code: a page with two rows of a table with a DECIMAL column gives two lines of another kind. -/
theorem C37_false : ¬ C37_statement := by
  intro h
  obtain ⟨_, hd, hc, hl, hrows, _⟩ := two_wellformed
  have hf := two_file
  have h := h testEnv (.ok [twoPage (65536 - 88)].flatten) (b! "d") (b! "t") false ⟨decTables, []⟩
  generalize [twoPage (65536 - 88)].flatten = content at *
  generalize twoPage (65536 - 88) = d at *
  have hp := C22_compact_page_partial testEnv decTables decDefs d (field d PAGE_FREE)
    [300, 200] _ ⟨decCols, []⟩ decTables_known (by decide) hd hc hl (dec_rows _ hrows) (by decide)
  obtain ⟨rows, s, e1, e2⟩ := dec_decode (d.drop (300 + (rowData (rowOf decDefs (twoCells 1))).length))
    (d.drop (200 + (rowData (rowOf decDefs (twoCells 2))).length))
  obtain ⟨lines, h1, h2⟩ := h
  rw [one_page testEnv content d (b! "d") (b! "t") false ⟨decTables, []⟩ hf rows s (hp.trans e1)] at h1
  change s.out ++ _ = [] ++ lines at h1
  rw [e2, List.nil_append] at h1
  obtain ⟨n, h3⟩ := h2 (b! "test MYSQL_TYPE_NEWDECIMAL") (by rw [← h1]; exact List.mem_cons_self ..)
  exact not_replace _ _ _ h3

/-! ## C51 -/

theorem dict_out (env : Env) (file : File) (out : Out) {r : R DState (Option Bytes)} (h : parseDictPage env file { out := out } = r) :
    r.st.out = out := by
  rw [← h]
  exact parseDictPage_quiet env file out _ rfl

/-- **C51, dictionary errors.** If the dictionary cannot be loaded, exactly the error is printed. -/
theorem C51_dictionary_error (env : Env) (a : FromData) (out : Out) (e : Bytes) (s : DState)
    (h : parseDictPage env a.sysFile { out := out } = .ok (some e) s) : fromDataFile env a out = .ok () (out ++ [e]) := by
  have ho := dict_out env a.sysFile out h
  unfold fromDataFile
  rw [h]
  exact congrArg (fun o => R.ok () (o ++ [e])) ho

/-- a system file that cannot be opened -/
example (env : Env) : parseDictPage env (.error (b! "open ibdata1: no such file or directory")) { out := [] } =
    .ok (some (b! "open ibdata1: no such file or directory")) {} := rfl

/-- **C51, damaged dictionaries.** If loading the dictionary aborts the program, nothing has been printed. -/
theorem C51_dictionary_panic (env : Env) (a : FromData) (out : Out) (s : DState)
    (h : parseDictPage env a.sysFile { out := out } = .panic s) : fromDataFile env a out = .panic out := by
  have ho := dict_out env a.sysFile out h
  unfold fromDataFile
  rw [h]
  exact congrArg R.panic ho

/-- **C51, operation.** With a dictionary and a data file whose pages can be decoded, the operation `RecoveryData` prints
the rows of the free lists, and every other operation prints the existing rows. -/
theorem C51_operation (env : Env) (a : FromData) (out : Out) (s : DState) (content : Bytes)
    (h : parseDictPage env a.sysFile { out := out } = .ok none s) (hf : a.tableFile = .ok content) :
    (a.opType = b! "RecoveryData" → (∀ d ∈ selectedPages content true, Sound env s.tables a.db a.table true d) →
      fromDataFile env a out =
        .ok () (out ++ (selectedPages content true).flatMap (pageOutput env s.tables a.db a.table true))) ∧
    (a.opType ≠ b! "RecoveryData" → (∀ d ∈ selectedPages content false, Sound env s.tables a.db a.table false d) →
      fromDataFile env a out =
        .ok () (out ++ (selectedPages content false).flatMap (pageOutput env s.tables a.db a.table false))) := by
  have ho : s.out = out := dict_out env a.sysFile out h
  have key : ∀ r : Bool, (a.opType == b! "RecoveryData") = r →
      (∀ d ∈ selectedPages content r, Sound env s.tables a.db a.table r d) → fromDataFile env a out =
        .ok () (out ++ (selectedPages content r).flatMap (pageOutput env s.tables a.db a.table r)) := by
    intro r hr hs
    obtain ⟨s', h1, h2⟩ := C27_sound_files_partial env content a.db a.table r ⟨s.tables, s.out⟩ hs
    unfold fromDataFile
    rw [h]
    dsimp only
    rw [hr, hf, h1]
    dsimp only
    rw [h2]
    exact congrArg (fun o => R.ok () (o ++ _)) ho
  exact ⟨fun hop => key true (by rw [hop]; decide), fun hop => key false (by simpa using hop)⟩

/-- **C51, every file.** Whatever the data file contains, the output is that of decoding the free lists if and only if the
operation is `RecoveryData`, and of the linked records otherwise. -/
theorem C51_every_file (env : Env) (a : FromData) (out : Out) (s : DState) (content : Bytes)
    (h : parseDictPage env a.sysFile { out := out } = .ok none s) (hf : a.tableFile = .ok content) (recovery : Bool)
    (hr : recovery = true ↔ a.opType = b! "RecoveryData") :
    (fromDataFile env a out).st = (parseDataPage env (.ok content) a.db a.table recovery ⟨s.tables, out⟩).st.out := by
  have ho : s.out = out := dict_out env a.sysFile out h
  have hop : (a.opType == b! "RecoveryData") = recovery := by
    cases recovery
    · simpa using hr
    · simpa using hr
  have hn := C28_never_an_error env content a.db a.table recovery ⟨s.tables, out⟩
  unfold fromDataFile
  rw [h]
  dsimp only
  rw [hop, hf, ho]
  generalize parseDataPage env (.ok content) a.db a.table recovery ⟨s.tables, out⟩ = r at *
  cases r with
  | ok e t => rw [hn t e rfl]; rfl
  | panic t => rfl
  | hang t => rfl

/-- **C51, data file errors.** If the data file cannot be opened, exactly the error is printed. -/
theorem C51_data_error (env : Env) (a : FromData) (out : Out) (s : DState) (e : Bytes)
    (h : parseDictPage env a.sysFile { out := out } = .ok none s) (hf : a.tableFile = .error e) :
    fromDataFile env a out = .ok () (out ++ [e]) := by
  have ho : s.out = out := dict_out env a.sysFile out h
  unfold fromDataFile
  rw [h]
  dsimp only
  rw [hf]
  exact congrArg (fun o => R.ok () (o ++ [e])) ho

/-! ## C52 -/

/-- The index with id `cid` is the clustered index of the table (bit 0 of its type). -/
def Clustered (tables : TableMap) (db name : Bytes) (cid : Nat) : Prop :=
  ∃ e idx, e ∈ tables ∧ e.2.db = db ∧ e.2.name = name ∧ e.2.indexes.get? cid = some idx ∧ idx.indexType % 2 = 1

/-- The full claim of C52: of the selected pages, only those of the clustered index contribute to the output. -/
def C52_statement : Prop :=
  ∀ (env : Env) (content db name : Bytes) (recovery : Bool) (s : IState) (cid : Nat), Clustered s.tables db name cid →
    (∀ d ∈ selectedPages content recovery, Sound env s.tables db name recovery d) →
    ∃ s', parseDataPage env (.ok content) db name recovery s = .ok none s' ∧
      s'.out = s.out ++ ((selectedPages content recovery).filter fun d => field d PAGE_INDEX_ID = cid).flatMap
        (pageOutput env s.tables db name recovery)

theorem flatMap_filter_eq {α β : Type} (f : α → List β) (p : α → Bool) (l : List α) :
    l.flatMap f = (l.filter p).flatMap f ↔ ∀ a ∈ l, p a = false → f a = [] := by
  induction l with
  | nil => simp
  | cons a l ih =>
    rw [List.forall_mem_cons, List.flatMap_cons]
    have hle : ∀ m : List α, ((m.filter p).flatMap f).length ≤ (m.flatMap f).length := by
      intro m
      induction m with
      | nil => simp
      | cons b m ihm =>
        rw [List.flatMap_cons]
        cases hb : p b with
        | true => rw [List.filter_cons_of_pos hb, List.flatMap_cons]; simp only [List.length_append]; omega
        | false => rw [List.filter_cons_of_neg (by simp [hb])]; simp only [List.length_append]; omega
    cases ha : p a with
    | true =>
      rw [List.filter_cons_of_pos ha, List.flatMap_cons, List.append_cancel_left_eq, ih]
      simp
    | false =>
      rw [List.filter_cons_of_neg (by simp [ha])]
      constructor
      · intro h
        have h1 := congrArg List.length h
        rw [List.length_append] at h1
        have h2 := hle l
        have h3 : f a = [] := List.length_eq_zero_iff.mp (by omega)
        rw [h3, List.nil_append] at h
        exact ⟨fun _ => h3, ih.mp h⟩
      · rintro ⟨h1, h2⟩
        rw [h1 rfl, List.nil_append]
        exact ih.mpr h2

/-- **C52, exact condition.** For files whose selected pages can be decoded, only pages of the clustered index contribute
to the output if and only if the selected pages with another index id print nothing when decoded as rows of the table: the
index id is not looked at. -/
theorem C52_iff (env : Env) (content db name : Bytes) (recovery : Bool) (s : IState) (cid : Nat)
    (h : ∀ d ∈ selectedPages content recovery, Sound env s.tables db name recovery d) :
    (∃ s', parseDataPage env (.ok content) db name recovery s = .ok none s' ∧
      s'.out = s.out ++ ((selectedPages content recovery).filter fun d => field d PAGE_INDEX_ID = cid).flatMap
        (pageOutput env s.tables db name recovery)) ↔
    ∀ d ∈ selectedPages content recovery, field d PAGE_INDEX_ID ≠ cid → pageOutput env s.tables db name recovery d = [] := by
  obtain ⟨s', h1, h2⟩ := C27_sound_files_partial env content db name recovery s h
  have := flatMap_filter_eq (pageOutput env s.tables db name recovery) (fun d => field d PAGE_INDEX_ID = cid)
    (selectedPages content recovery)
  rw [h1]
  constructor
  · rintro ⟨t, e, ht⟩ d hd hne
    injection e with _ e
    subst e
    rw [h2, List.append_cancel_left_eq] at ht
    exact this.mp ht d hd (by simpa using hne)
  · intro hall
    refine ⟨s', rfl, ?_⟩
    rw [h2, List.append_cancel_left_eq]
    exact this.mpr fun d hd hne => hall d hd (by simpa using hne)

/-- **C52 (partial).** True for files whose selected pages all belong to the clustered index of the table, such as the
tablespace of the table alone.  Missing: files that also contain pages of other tables (`C52_false`). -/
theorem C52_own_file_partial (env : Env) (content db name : Bytes) (recovery : Bool) (s : IState) (cid : Nat)
    (h : ∀ d ∈ selectedPages content recovery, Sound env s.tables db name recovery d)
    (ho : ∀ d ∈ selectedPages content recovery, field d PAGE_INDEX_ID = cid) :
    ∃ s', parseDataPage env (.ok content) db name recovery s = .ok none s' ∧
      s'.out = s.out ++ ((selectedPages content recovery).filter fun d => field d PAGE_INDEX_ID = cid).flatMap
        (pageOutput env s.tables db name recovery) :=
  (C52_iff env content db name recovery s cid h).mpr fun d hd hne => absurd (ho d hd) hne

/-- the table of `twoTables` with a clustered index -/
def idxTables (cid : Nat) : TableMap :=
  [(1, { db := b! "d", name := b! "t", columns := twoCols,
         indexes := [(cid, { id := cid, name := b! "PRIMARY", fieldNum := 1, indexType := 3 })] })]
theorem idxTables_known (cid : Nat) : Known (idxTables cid) twoCols twoDefs :=
  ⟨by decide, _, _, rfl, rfl, (by decide : All2 Describes twoCols twoDefs), rfl⟩
theorem idx_clustered (cid : Nat) : Clustered (idxTables cid) (b! "d") (b! "t") cid :=
  ⟨_, { id := cid, name := b! "PRIMARY", fieldNum := 1, indexType := 3 }, List.mem_singleton.mpr rfl, rfl, rfl,
    by simp [GoMap.get?], by simp⟩

theorem idx_page (cid : Nat) (d : Bytes) (hd : d.length = 16384) (hc : isCompact d = true)
    (hl : Linked d true (infimumAt true) [300, 200]) (hrows : All2 (CompactRow d twoDefs) [300, 200] [twoCells 1, twoCells 2]) :
    Sound testEnv (idxTables cid) (b! "d") (b! "t") false d ∧ pageOutput testEnv (idxTables cid) (b! "d") (b! "t") false d =
      [b! "replace into `d`.`t` values ('1');", b! "replace into `d`.`t` values ('2');"] := by
  have hp : pageAlone testEnv (idxTables cid) (b! "d") (b! "t") false d =
      decodeRows testEnv (storedRows d twoDefs [300, 200] [twoCells 1, twoCells 2]) ⟨twoCols, []⟩ :=
    C22_compact_page_partial testEnv (idxTables cid) twoDefs d _ [300, 200] _ ⟨twoCols, []⟩ (idxTables_known cid) (by decide)
      hd hc hl hrows (by decide)
  obtain ⟨rows, t, e1, e2, e3⟩ := two_decode (d.drop (300 + (rowData (rowOf twoDefs (twoCells 1))).length))
    (d.drop (200 + (rowData (rowOf twoDefs (twoCells 2))).length))
  have hp := hp.trans e1
  refine ⟨⟨?_, rows, t, hp, e2⟩, ?_⟩
  · exact withinPage_compact (idxTables cid) twoCols false twoDefs d [300, 200] _ (idxTables_known cid) (by decide) hd hc
      (by unfold Records; rw [hc]; exact hl) hrows (by decide)
  · unfold pageOutput
    rw [hp]
    exact e3

theorem two_index : field (twoPage (65536 - 88)) PAGE_INDEX_ID = 0 := by
  show numAt _ (38 + 28) 8 = 0
  rw [numAt_sub, two_zero _ _ _ (by decide) (by decide)]
  decide

/-- the hypotheses of `C52_own_file_partial` can be met -/
example : ∀ d ∈ selectedPages [twoPage (65536 - 88)].flatten false, Sound testEnv (idxTables 0) (b! "d") (b! "t") false d ∧
    field d PAGE_INDEX_ID = 0 := by
  rw [two_file]
  obtain ⟨_, hd, hc, hl, hrows, _⟩ := two_wellformed
  simp only [List.mem_singleton, forall_eq]
  exact ⟨(idx_page 0 _ hd hc hl hrows).1, two_index⟩

/-- C52 is false of the code: the rows of a page with index id 0 are printed for a table whose clustered index is 7. -/
theorem C52_false : ¬ C52_statement := by
  intro h
  obtain ⟨_, hd, hc, hl, hrows, _⟩ := two_wellformed
  have hp := idx_page 7 _ hd hc hl hrows
  have hs : ∀ d ∈ selectedPages [twoPage (65536 - 88)].flatten false, Sound testEnv (idxTables 7) (b! "d") (b! "t") false d := by
    rw [two_file]; simp only [List.mem_singleton, forall_eq]; exact hp.1
  have := h testEnv [twoPage (65536 - 88)].flatten (b! "d") (b! "t") false ⟨idxTables 7, []⟩ 7 (idx_clustered 7) hs
  have := (C52_iff testEnv _ (b! "d") (b! "t") false ⟨idxTables 7, []⟩ 7 hs).mp this (twoPage (65536 - 88))
    (by rw [two_file]; exact List.mem_singleton.mpr rfl) (by rw [two_index]; decide)
  rw [hp.2] at this
  cases this

/-! ## C53 -/

/-- The delete mark of a record: bit 5 of its info bits, five (COMPACT) or six (REDUNDANT) bytes before its origin. -/
def deleteMarked (d : Bytes) (compact : Bool) (o : Nat) : Bool :=
  (d.getD (o - if compact then 5 else 6) 0).toNat / 32 % 2 == 1

/-- The full claim of C53: the rows of a page are those of its records without delete mark. -/
def C53_statement : Prop :=
  ∀ (env : Env) (tables : TableMap) (defs : List ColDef) (d : Bytes) (free : Nat) (os : List Nat) (rows : List (List Cell))
    (s : PState), Known tables s.cols defs → 3 ≤ defs.length → d.length = 16384 → isCompact d = true →
    Linked d true (infimumAt true) os → All2 (CompactRow d defs) os rows → (∀ k ∈ defs, k.kind.Readable) →
    let live := (os.zip rows).filter fun e => !deleteMarked d true e.1
    parsePage env tables d false free s = decodeRows env (storedRows d defs (live.map (·.1)) (live.map (·.2))) s

theorem zip_unzip {α β : Type} {R : α → β → Prop} {as : List α} {bs : List β} (h : All2 R as bs) :
    (as.zip bs).map (·.1) = as ∧ (as.zip bs).map (·.2) = bs := by
  induction h with
  | nil => exact ⟨rfl, rfl⟩
  | cons _ _ ih => simp [ih]

/-- **C53 (partial).** True for pages on which no linked record is delete-marked.  Missing: delete-marked records, which are
printed like the others (`C53_marked_printed`, `C53_false`). -/
theorem C53_unmarked_partial (env : Env) (tables : TableMap) (defs : List ColDef) (d : Bytes) (free : Nat) (os : List Nat)
    (rows : List (List Cell)) (s : PState) (hk : Known tables s.cols defs) (h3 : 3 ≤ defs.length) (hd : d.length = 16384)
    (hc : isCompact d = true) (hl : Linked d true (infimumAt true) os) (hrows : All2 (CompactRow d defs) os rows)
    (hr : ∀ k ∈ defs, k.kind.Readable) (hm : ∀ o ∈ os, deleteMarked d true o = false) :
    let live := (os.zip rows).filter fun e => !deleteMarked d true e.1
    parsePage env tables d false free s = decodeRows env (storedRows d defs (live.map (·.1)) (live.map (·.2))) s := by
  have hf : (os.zip rows).filter (fun e => !deleteMarked d true e.1) = os.zip rows := by
    rw [List.filter_eq_self]
    intro e he
    rw [hm e.1 (List.of_mem_zip he).1]
    rfl
  dsimp only
  rw [hf, (zip_unzip hrows).1, (zip_unzip hrows).2]
  exact C22_compact_page_partial env tables defs d free os rows s hk h3 hd hc hl hrows hr

/-- **C53, what happens.** Every linked record gives a row, with or without delete mark; so the number of rows is the number
of records without mark exactly if there is no mark. -/
theorem C53_marked_printed (env : Env) (tables : TableMap) (defs : List ColDef) (d : Bytes) (free : Nat) (os : List Nat)
    (rows : List (List Cell)) (s s' : PState) (rs : List (List Column)) (hk : Known tables s.cols defs) (h3 : 3 ≤ defs.length)
    (hd : d.length = 16384) (hc : isCompact d = true) (hl : Linked d true (infimumAt true) os)
    (hrows : All2 (CompactRow d defs) os rows) (hr : ∀ k ∈ defs, k.kind.Readable)
    (h : parsePage env tables d false free s = .ok rs s') :
    rs.length = os.length ∧
    (rs.length = (os.filter fun o => !deleteMarked d true o).length ↔ ∀ o ∈ os, deleteMarked d true o = false) := by
  have h1 := (C22_rows_partial env tables defs d free os rows s s' rs hk h3 hd hc hl hrows hr h).1
  refine ⟨h1, ?_⟩
  rw [h1]
  constructor
  · intro he o ho
    have := (List.length_filter_eq_length_iff.mp he.symm) o ho
    simpa using this
  · intro ha
    exact (List.length_filter_eq_length_iff.mpr fun o ho => by rw [ha o ho]; rfl).symm

/-- the page of two records, the second one delete-marked -/
def markPage : Bytes := poke (twoPage (65536 - 88)) 195 [32]

theorem mark_length : markPage.length = 16384 := by
  unfold markPage
  rw [poke_length _ _ _ (by rw [twoPage_length]; decide), twoPage_length]

theorem mark_sub (o n : Nat) (h : o + n ≤ 195 ∨ 196 ≤ o) : sub markPage o n = sub (twoPage (65536 - 88)) o n := by
  unfold markPage
  rcases h with h | h
  · exact sub_poke_before _ _ _ _ _ h (by rw [twoPage_length]; decide)
  · exact sub_poke_after _ _ _ _ _ h (by rw [twoPage_length]; decide)

theorem mark_compact : isCompact markPage = true := by
  rw [← twoPage_compact (65536 - 88)]
  unfold isCompact
  rw [numAt_sub, numAt_sub, mark_sub _ _ (by decide)]

theorem mark_linked : Linked markPage true (infimumAt true) [300, 200] := by
  have hl := two_wellformed.2.2.2.1
  have hf : ∀ o, o - 2 + 2 ≤ 195 ∨ 196 ≤ o - 2 → follow markPage true o = follow (twoPage (65536 - 88)) true o := by
    intro o ho
    unfold follow link
    rw [numAt_sub, numAt_sub, mark_sub _ _ ho]
  have h0 : follow markPage true (infimumAt true) = 300 := by rw [hf _ (by decide)]; exact twoPage_follow0 _
  have h1 : follow markPage true 300 = 200 := by rw [hf _ (by decide)]; exact twoPage_follow1 _
  have h2 : follow markPage true 200 = supremumAt true := by
    rw [hf _ (by decide)]
    unfold follow
    rw [if_pos rfl, twoPage_link2 _ (by decide)]
    decide
  have l1 : Linked markPage true 300 [200] := by
    have := Linked.next (d := markPage) (compact := true) (o := 300) (os := []) (by rw [h1]; decide) (by rw [h1]; exact .last h2)
    rwa [h1] at this
  have := Linked.next (d := markPage) (compact := true) (o := infimumAt true) (os := [200]) (by rw [h0]; decide)
    (by rw [h0]; exact l1)
  rwa [h0] at this

theorem compactAt_info {d : Bytes} {o : Nat} {row : Row} (h : CompactAt d o row) (b : UInt8) :
    CompactAt (poke d (o - 5) [b]) o row := by
  obtain ⟨pre, hdr, post, h1, h2, rfl, rfl⟩ := h
  match hdr, h2 with
  | x :: hdr, h2 =>
    refine ⟨pre, b :: hdr, post, h1, h2, ?_, ?_⟩
    · have hl : (pre ++ compactPrefix row (x :: hdr)).length - 5 =
          (pre ++ ((lens row).reverse ++ (packBits (nullBits row)).reverse)).length := by
        unfold compactPrefix
        simp only [List.length_append, List.length_cons] at *
        omega
      have hs : pre ++ compactPrefix row (x :: hdr) ++ rowData row ++ post =
          pre ++ ((lens row).reverse ++ (packBits (nullBits row)).reverse) ++ ([x] ++ (hdr ++ rowData row ++ post)) := by
        unfold compactPrefix; simp only [List.append_assoc, List.cons_append, List.nil_append]
      rw [hl, hs]
      have hp : ∀ q r : Bytes, poke (q ++ ([x] ++ r)) q.length [b] = q ++ ([b] ++ r) := by
        intro q r
        unfold poke
        rw [List.take_left' rfl, ← List.drop_drop, List.drop_left' rfl, List.append_assoc]
        rfl
      rw [hp]
      unfold compactPrefix
      simp only [List.append_assoc, List.cons_append, List.nil_append]
    · unfold compactPrefix; simp only [List.length_append, List.length_cons]

theorem mark_rows : All2 (CompactRow markPage twoDefs) [300, 200] [twoCells 1, twoCells 2] := by
  have h := two_wellformed.2.2.2.2.1
  have h2 : CompactRow (twoPage (65536 - 88)) twoDefs 200 (twoCells 2) := by
    cases h with | cons _ h => cases h with | cons h _ => exact h
  refine .cons (two_row 1 (65536 - 100) _ _ mark_length (by decide) (by decide) ?_) (.cons ⟨h2.1, compactAt_info h2.2 32⟩ .nil)
  rw [mark_sub _ _ (by decide)]
  exact sub_poke _ _ _ (by rw [two_len3]; decide) _ (twoRecord_length _ _).symm

theorem getD_sub (d : Bytes) (i : Nat) : d.getD i 0 = (sub d i 1).getD 0 0 := by
  unfold sub
  simp only [List.getD_eq_getElem?_getD, List.getElem?_take, List.getElem?_drop]
  simp

theorem twoRecord_head (n : UInt8) (next : Nat) : sub (twoRecord n next) 0 1 = [0] := by
  obtain ⟨a, b, h⟩ : ∃ a b, beEnc 2 next = [a, b] := ⟨_, _, rfl⟩
  unfold twoRecord newRecord
  rw [h, two_prefix]
  rfl

theorem mark_300 : deleteMarked markPage true 300 = false := by
  unfold deleteMarked
  rw [getD_sub, mark_sub _ _ (by decide)]
  have h : sub (twoPage (65536 - 88)) (295 + 0) 1 = sub (twoRecord 1 (65536 - 100)) 0 1 :=
    sub_poke_in _ _ _ (by rw [two_len3]; decide) _ _ (by rw [twoRecord_length]; decide)
  rw [if_pos rfl, show 300 - 5 = 295 + 0 from rfl, h, twoRecord_head]
  decide

theorem mark_200 : deleteMarked markPage true 200 = true := by
  unfold deleteMarked markPage
  rw [getD_sub]
  show ((sub (poke _ 195 _) 195 1).getD 0 0).toNat / 32 % 2 == 1
  rw [sub_poke _ _ _ (by rw [twoPage_length]; decide) 1 rfl]
  decide

/-- C53 is false of the code: a delete-marked record is printed. -/
theorem C53_false : ¬ C53_statement := by
  intro h
  have h1 := h testEnv twoTables twoDefs markPage 0 [300, 200] [twoCells 1, twoCells 2] ⟨twoCols, []⟩ twoTables_known
    (by decide) mark_length mark_compact mark_linked mark_rows (by decide)
  have h2 := C22_compact_page_partial testEnv twoTables twoDefs markPage 0 [300, 200] _ ⟨twoCols, []⟩ twoTables_known
    (by decide) mark_length mark_compact mark_linked mark_rows (by decide)
  have hlive : ([300, 200].zip [twoCells 1, twoCells 2]).filter (fun e => !deleteMarked markPage true e.1) = [(300, twoCells 1)] := by
    rw [show [300, 200].zip [twoCells 1, twoCells 2] = [(300, twoCells 1), (200, twoCells 2)] from rfl,
      List.filter_cons_of_pos (by rw [mark_300]; rfl), List.filter_cons_of_neg (by rw [mark_200]; decide), List.filter_nil]
  dsimp only at h1
  rw [hlive, h2] at h1
  generalize markPage = d at h1
  obtain ⟨rows, t, e1, _, e2⟩ := two_decode (d.drop (300 + (rowData (rowOf twoDefs (twoCells 1))).length))
    (d.drop (200 + (rowData (rowOf twoDefs (twoCells 2))).length))
  have h1 := e1.symm.trans h1
  have e3 : ∀ p : Bytes, ∃ row t', decodeRows testEnv [(rowOf twoDefs (twoCells 1), p)] ⟨twoCols, []⟩ = .ok [row] t' ∧ t'.out = [] :=
    fun p => ⟨_, _, rfl, rfl⟩
  obtain ⟨row, t', e3, e4⟩ := e3 (d.drop (300 + (rowData (rowOf twoDefs (twoCells 1))).length))
  have h1 := h1.trans e3
  injection h1 with a1 a2
  rw [a1, a2, e4] at e2
  have := congrArg List.length e2
  simp at this

/-- the hypotheses of `C53_unmarked_partial` can be met -/
example : ∀ o ∈ [300, 200], deleteMarked (twoPage (65536 - 88)) true o = false := by
  have h : ∀ o n next, o - 5 = n → sub (twoPage (65536 - 88)) n 22 = twoRecord next (65536 - 100) ∨
      sub (twoPage (65536 - 88)) n 22 = twoRecord next (65536 - 88) → deleteMarked (twoPage (65536 - 88)) true o = false := by
    intro o n next hn hs
    have : sub (twoPage (65536 - 88)) n 1 = sub (sub (twoPage (65536 - 88)) n 22) 0 1 := by
      unfold sub; rw [List.drop_zero, List.take_take]; rfl
    unfold deleteMarked
    rw [getD_sub, if_pos rfl, hn, this]
    rcases hs with hs | hs <;> rw [hs, twoRecord_head] <;> rfl
  intro o ho
  rcases List.mem_cons.mp ho with rfl | ho
  · exact h 300 295 1 rfl (Or.inl (sub_poke _ _ _ (by rw [two_len3]; decide) _ (twoRecord_length _ _).symm))
  · rw [List.mem_singleton.mp ho]
    refine h 200 195 2 rfl (Or.inr ?_)
    unfold twoPage
    rw [sub_poke_before _ _ _ _ _ (by decide) (by rw [two_len3]; decide)]
    exact sub_poke _ _ _ (by rw [two_len2]; decide) _ (twoRecord_length _ _).symm

/-! ## C54 -/

/-- The value `w` continues the local part `v` of an externally stored value: without the reference (the last 20 bytes), `v`
is a proper prefix of `w`. -/
def Continues (v w : Bytes) : Prop := 20 ≤ v.length ∧ ∃ u, u ≠ [] ∧ w = v.take (v.length - 20) ++ u

/-- The full claim of C54, for COMPACT records: if a record is decoded to a row, then an externally stored column has the
value that its complete contents `w` have. -/
def C54_statement : Prop :=
  ∀ (env : Env) (tables : TableMap) (defs : List ColDef) (cells : List Cell) (d : Bytes) (o : Nat) (s s' : PState)
    (cs : List Column) (i : Nat) (v w : Bytes), Known tables s.cols defs → Storable defs cells → 3 ≤ defs.length →
    d.length ≤ 16384 → CompactAt d o (rowOf defs cells) → (∀ k ∈ defs, k.kind.Readable) →
    cells[i]? = some (.ext v) → Continues v w → parseOne env tables d true o s = .ok (some cs) s' →
    ∃ c c' out, cs[i]? = some c ∧ decodeCell env c (.val w) [] [] = .ok c' out ∧ c.value = c'.value

/-- the cell as if its value were stored completely in the record -/
def asLocal : Cell → Cell
  | .ext v => .val v
  | x => x

theorem decodeCell_local (env : Env) (c : Column) (x : Cell) (rest : Bytes) :
    decodeCell env c x rest = decodeCell env c (asLocal x) rest := by cases x <;> rfl

theorem rowData_local (row : Row) : rowData (row.map fun e => (e.1, asLocal e.2)) = rowData row := by
  induction row with
  | nil => rfl
  | cons e row ih =>
    unfold rowData at *
    rw [List.map_cons, List.flatMap_cons, List.flatMap_cons, ih]
    obtain ⟨a, x⟩ := e
    cases x <;> rfl

theorem decodeRow_local (env : Env) (cols : List Column) (row : Row) (post : Bytes) :
    decodeRow env cols row post = decodeRow env cols (row.map fun e => (e.1, asLocal e.2)) post := by
  induction cols generalizing row with
  | nil => cases row <;> rfl
  | cons c cols ih =>
    cases row with
    | nil => rfl
    | cons e row =>
      rw [List.map_cons]
      unfold decodeRow
      rw [rowData_local, ← ih row, decodeCell_local]

/-- **C54, what happens.** The mark for external storage is ignored: a COMPACT record is decoded exactly as if the local
part of every externally stored column, reference included, were its complete value. -/
theorem C54_mark_ignored (env : Env) (tables : TableMap) (defs : List ColDef) (cells : List Cell) (d : Bytes)
    (o : Nat) (s : PState) (hk : Known tables s.cols defs) (hst : Storable defs cells) (h3 : 3 ≤ defs.length)
    (hd : d.length ≤ 16384) (hc : CompactAt d o (rowOf defs cells)) (hr : ∀ k ∈ defs, k.kind.Readable) :
    parseOne env tables d true o s =
      rowResult s (decodeRow env s.cols ((rowOf defs cells).map fun e => (e.1, asLocal e.2))
        (d.drop (o + (rowData (rowOf defs cells)).length)) s.out) := by
  rw [C20_compact_rows_partial env tables defs cells d o s hk hst h3 hd hc hr, decodeRow_local]

/-- **C54 (partial).** Rows without externally stored columns are decoded from their complete values.  Missing: every row
with such a column (`C54_mark_ignored`, `C54_false`). -/
theorem C54_local_rows_partial (env : Env) (tables : TableMap) (defs : List ColDef) (cells : List Cell) (d : Bytes)
    (o : Nat) (s : PState) (hk : Known tables s.cols defs) (hst : Storable defs cells) (h3 : 3 ≤ defs.length)
    (hd : d.length ≤ 16384) (hc : CompactAt d o (rowOf defs cells)) (hr : ∀ k ∈ defs, k.kind.Readable)
    (_hl : ∀ x ∈ cells, ∀ v, x ≠ .ext v) :
    parseOne env tables d true o s =
      rowResult s (decodeRow env s.cols (rowOf defs cells) (d.drop (o + (rowData (rowOf defs cells)).length)) s.out) :=
  C20_compact_rows_partial env tables defs cells d o s hk hst h3 hd hc hr

def extDefs : List ColDef := ⟨.blob, false⟩ :: trxAndRoll
def extCells : List Cell := .ext (b! "abcd" ++ List.replicate 20 7) :: trxAndRollCells

set_option maxRecDepth 10000 in
theorem ext_row : ∃ cs s', parseOne testEnv (testTables extDefs) (testPage (rowOf extDefs extCells)) true
    ([1] ++ compactPrefix (rowOf extDefs extCells) [0, 0, 0, 0, 0]).length ⟨testCols extDefs, []⟩ = .ok (some cs) s' ∧
    (cs.map (·.value))[0]? = some (.str (b! "abcd" ++ List.replicate 20 7)) ∧
    ∀ c, cs[0]? = some c → ∀ c' out, decodeCell testEnv c (.val (b! "abcdefgh")) [] [] = .ok c' out → c.value ≠ c'.value := by
  rw [C20_compact_rows_partial testEnv (testTables extDefs) extDefs extCells _ _ ⟨testCols extDefs, []⟩ (test_known _ _)
    (by decide) (by decide) (by decide) (testPage_at _) (by decide)]
  generalize List.drop _ _ = post
  have : ∃ cs, decodeRow testEnv (testCols extDefs) (rowOf extDefs extCells) post [] = .ok cs [] ∧
    (cs.map (·.value))[0]? = some (.str (b! "abcd" ++ List.replicate 20 7)) ∧
    ∀ c, cs[0]? = some c → ∀ c' out, decodeCell testEnv c (.val (b! "abcdefgh")) [] [] = .ok c' out → c.value ≠ c'.value := by
    refine ⟨_, rfl, rfl, ?_⟩
    intro c h
    cases h
    intro c' out h
    cases h
    exact fun h => absurd (congrArg (fun v => match v with | .str b => b.length | _ => 0) h) (by decide : 24 ≠ 8)
  obtain ⟨cs, h1, h2, h3⟩ := this
  exact ⟨cs, _, by rw [h1]; rfl, h2, h3⟩

/-- C54 is false of the code: a TEXT value that begins with `abcd` and continues on another page is printed as `abcd`
followed by the reference. -/
theorem C54_false : ¬ C54_statement := by
  intro h
  obtain ⟨cs, s', e1, _, e2⟩ := ext_row
  obtain ⟨c, c', out, h1, h2, h3⟩ := h testEnv (testTables extDefs) extDefs extCells (testPage (rowOf extDefs extCells)) _
    ⟨testCols extDefs, []⟩ s' cs 0 (b! "abcd" ++ List.replicate 20 7) (b! "abcdefgh") (test_known _ _) (by decide) (by decide)
    (by decide) (testPage_at _) (by decide) rfl ⟨by decide, b! "efgh", by decide, by decide⟩ e1
  exact e2 c h1 c' out h2 h3

end Verif.Props
