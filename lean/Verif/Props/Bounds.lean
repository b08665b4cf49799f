import Verif.Props.Lines
import Verif.Props.Output
import Verif.Props.RedoUndo
import Verif.Props.RedoFile
import Verif.Props.Generated
import Verif.Props.NoPrimary

/-!
# C120: the number of statements is bounded by the size of the input

Whatever the files contain and however the run ends, the data command prints at most 16379 REPLACE statements for each page of the data
file, and the redo command prints no more UPDATE statements than its log files have bytes.  A damaged file cannot make the tool fill the
disk with statements.  (The line `test MYSQL_TYPE_NEWDECIMAL` is no statement: a run that never ends, C24, can print it without end.)
-/

namespace Verif.Props
open Verif Spec

def isReplaceLine (l : Bytes) : Bool := (b! "replace into `").isPrefixOf l

/-- the REPLACE statements among the printed lines -/
def replaces (o : Out) : List Bytes := o.filter isReplaceLine

theorem replaces_append (a b : Out) : replaces (a ++ b) = replaces a ++ replaces b := List.filter_append ..

theorem replaces_decLines (n : Nat) : replaces (List.replicate n decLine) = [] := by
  unfold replaces
  rw [List.filter_eq_nil_iff]
  intro l hl
  rw [List.eq_of_mem_replicate hl]
  decide

theorem replaces_rows (rows : List (List Column)) (f : List Column → Bytes) : (replaces (rows.map f)).length ≤ rows.length := by
  unfold replaces
  exact (List.length_filter_le _ _).trans (by rw [List.length_map])

/-- One page prints at most 16379 statements. -/
theorem printPage_count (env : Env) (tables : TableMap) (db name : Bytes) (recovery : Bool) (d : Bytes) (s : PState) :
    ∃ lines, (printPage env tables db name recovery (fullPage d) s).st.out = s.out ++ lines ∧ (replaces lines).length ≤ 16379 := by
  have h := parsePage_decimal env tables d recovery (field d PAGE_FREE) s.out s ⟨0, (List.append_nil _).symm⟩
  rw [printPage_full]
  cases hr : parsePage env tables d recovery (field d PAGE_FREE) s with
  | ok rows s' =>
    rw [hr] at h
    obtain ⟨n, h⟩ := h
    refine ⟨List.replicate n decLine ++ rows.map (replaceStmt env.ff db name), ?_, ?_⟩
    · show s'.out ++ _ = _
      change s'.out = _ at h
      rw [h, List.append_assoc]
    · rw [replaces_append, replaces_decLines, List.nil_append]
      exact (replaces_rows _ _).trans (C24_bounded env tables d recovery _ s s' rows hr)
  | panic s' =>
    rw [hr] at h
    obtain ⟨n, h⟩ := h
    exact ⟨_, h, by rw [replaces_decLines]; exact Nat.zero_le _⟩
  | hang s' =>
    rw [hr] at h
    obtain ⟨n, h⟩ := h
    exact ⟨_, h, by rw [replaces_decLines]; exact Nat.zero_le _⟩

theorem pagesRun_count (env : Env) (tables : TableMap) (db name : Bytes) (recovery : Bool) (ds : List Bytes) (s : PState) :
    ∃ lines, (pagesRun env tables db name recovery ds s).st.out = s.out ++ lines ∧ (replaces lines).length ≤ 16379 * ds.length := by
  induction ds generalizing s with
  | nil => exact ⟨[], (List.append_nil _).symm, Nat.zero_le _⟩
  | cons d ds ih =>
    rw [pagesRun_cons, GoM.bind_run]
    obtain ⟨l1, h1, h2⟩ := printPage_count env tables db name recovery d s
    have hle : 16379 ≤ 16379 * (d :: ds).length := by rw [List.length_cons]; omega
    cases hr : printPage env tables db name recovery (fullPage d) s with
    | panic t => rw [hr] at h1; exact ⟨l1, h1, h2.trans hle⟩
    | hang t => rw [hr] at h1; exact ⟨l1, h1, h2.trans hle⟩
    | ok u t =>
      rw [hr] at h1
      change t.out = _ at h1
      obtain ⟨l2, g1, g2⟩ := ih t
      refine ⟨l1 ++ l2, ?_, ?_⟩
      · dsimp only
        rw [g1, h1, List.append_assoc]
      · rw [replaces_append, List.length_append, List.length_cons]
        omega

theorem selectedPages_count (content : Bytes) (recovery : Bool) : (selectedPages content recovery).length ≤ pageCount content := by
  unfold selectedPages firstCopies
  refine (List.length_filter_le _ _).trans ?_
  rw [List.length_map]
  refine (List.length_filter_le _ _).trans ?_
  rw [List.length_range]

/-- **C120, the data command.** Whatever the data file and the dictionary contain and however the run ends: at most 16379 REPLACE
statements are printed for each page of the data file (the last page counts even if it is cut short). -/
theorem C120_data (env : Env) (a : FromData) (out : Out) (s : DState) (content : Bytes)
    (h : parseDictPage env a.sysFile { out := out } = .ok none s) (hf : a.tableFile = .ok content) :
    ∃ lines, (fromDataFile env a out).st = out ++ lines ∧ (replaces lines).length ≤ 16379 * ((content.length + 16383) / 16384) := by
  rw [C51_every_file env a out s content h hf (a.opType == b! "RecoveryData") (by simp), parseDataPage_run]
  obtain ⟨lines, h1, h2⟩ := pagesRun_count env s.tables a.db a.table (a.opType == b! "RecoveryData")
    (selectedPages content (a.opType == b! "RecoveryData")) ⟨getTableColumnsFromDict s.tables a.db a.table, out⟩
  refine ⟨lines, ?_, h2.trans (Nat.mul_le_mul_left _ (selectedPages_count content _))⟩
  generalize pagesRun env s.tables a.db a.table _ _ _ = r at *
  cases r <;> exact h1

/-- **C120, without a dictionary or a data file.** If the dictionary or the data file cannot be read, at most one line is printed. -/
theorem C120_unread (env : Env) (a : FromData) (out : Out)
    (h : (∀ s, parseDictPage env a.sysFile { out := out } ≠ .ok none s) ∨ ∃ e, a.tableFile = .error e) :
    ∃ lines, (fromDataFile env a out).st = out ++ lines ∧ lines.length ≤ 1 := by
  have ho := dict_out env a.sysFile out rfl
  unfold fromDataFile
  generalize parseDictPage env a.sysFile { out := out } = r at *
  cases r with
  | panic s => exact ⟨[], by rw [List.append_nil]; exact ho, by simp⟩
  | hang s => exact ⟨[], by rw [List.append_nil]; exact ho, by simp⟩
  | ok e s =>
    change s.out = out at ho
    cases e with
    | some e => exact ⟨[e], by show s.out ++ [e] = _; rw [ho], by simp⟩
    | none =>
      rcases h with h | ⟨e, h⟩
      · exact absurd rfl (h s)
      · rw [h]
        exact ⟨[e], by show s.out ++ [e] = _; rw [ho], by simp⟩

/-! ## The redo log -/

/-- Every statement takes at least one byte of the stream. -/
theorem redoLoop_count (cfg : RCfg) (s : Stream) (fuel : Nat) (st : RS) : ∃ new,
    updates (redoLoop cfg s fuel st).st.out = updates st.out ++ new ∧ new.length ≤ s.data.length - st.pos := by
  induction fuel generalizing st with
  | zero => exact ⟨[], by simp [redoLoop, R.st], by simp⟩
  | succ fuel ih =>
    rw [redoLoop, getPos_bind]
    by_cases hl : s.data.length < st.pos + 5
    · rw [if_pos hl]; exact ⟨[], by simp [R.st], by simp⟩
    · rw [if_neg hl, GoM.bind_run]
      have hstep : ∃ new, updates (redoStep cfg s st).st.out = updates st.out ++ new ∧ new.length ≤ 1 := by
        rcases C49_step cfg s st with h | ⟨_, p, h | ⟨_, id, t, pk, cs, h1, h2, h3⟩⟩
        · exact ⟨[], by simp [h], by simp⟩
        · exact ⟨[], by simp [h], by simp⟩
        · exact ⟨[_], h3, by simp⟩
      obtain ⟨new, h1, h2⟩ := hstep
      cases hr : redoStep cfg s st with
      | panic t => rw [hr] at h1; exact ⟨new, h1, by omega⟩
      | hang t => rw [hr] at h1; exact ⟨new, h1, by omega⟩
      | ok c t =>
        rw [hr] at h1
        cases c with
        | ret e => exact ⟨new, h1, by omega⟩
        | next =>
          dsimp only
          obtain ⟨new', g1, g2⟩ := ih t
          have h1' : updates t.out = updates st.out ++ new := h1
          have hp := C40_progress cfg s st t _ hr
          exact ⟨new ++ new', by rw [g1, h1', List.append_assoc], by rw [List.length_append]; omega⟩

theorem stream_count (cfg : RCfg) (s : Stream) (out : Out) : ∃ new,
    updates (parseRedoBlockData cfg s out).st = updates out ++ new ∧ new.length ≤ s.data.length := by
  obtain ⟨new, h1, h2⟩ := redoLoop_count cfg s (s.data.length + 1) ⟨0, out⟩
  refine ⟨new, ?_, h2⟩
  rw [← h1]
  unfold parseRedoBlockData
  cases redoLoop cfg s (s.data.length + 1) ⟨0, out⟩ <;> rfl

/-- the number of bytes that can be read from a file -/
def fileSize : File → Nat
  | .ok content => content.length
  | .error _ => 0

theorem readNext_shorter {r x r' : Bytes} {n : Nat} (h : readNextBytes r n = some (x, r')) : r'.length ≤ r.length := by
  unfold readNextBytes at h
  by_cases hr : r = []
  · rw [if_pos hr] at h; cases h
  · rw [if_neg hr] at h
    cases h
    rw [List.length_drop]
    omega

theorem block_arith {x a k r p q : Nat} (h : x ≤ a + k + (r - q + p)) (hk : k ≤ q) (hr : ¬ r ≤ q) : x ≤ a + (r + p) := by
  omega

theorem blocksLoop_length (fuel : Nat) (rest acc acc' : Bytes) (h : blocksLoop fuel rest acc = some acc') :
    acc'.length ≤ acc.length + (rest.length + 511) ∧ (rest = [] → acc' = acc) := by
  induction fuel generalizing rest acc with
  | zero => cases h; exact ⟨by omega, fun _ => rfl⟩
  | succ fuel ih =>
    rw [blocksLoop] at h
    unfold readNextBytes at h
    by_cases hr : rest = []
    · rw [if_pos hr] at h
      cases h
      exact ⟨by omega, fun _ => rfl⟩
    · rw [if_neg hr] at h
      refine ⟨?_, fun h => absurd h hr⟩
      dsimp only at h
      have hb : (rest.take OS_FILE_LOG_BLOCK_SIZE ++ List.replicate (OS_FILE_LOG_BLOCK_SIZE - rest.length) 0 : Bytes).length = 512 := by
        rw [List.length_append, List.length_take, List.length_replicate]
        unfold OS_FILE_LOG_BLOCK_SIZE
        omega
      generalize (rest.take OS_FILE_LOG_BLOCK_SIZE ++ List.replicate (OS_FILE_LOG_BLOCK_SIZE - rest.length) 0 : Bytes) = block at *
      cases hd : readRedoBlockHeader block with
      | none => rw [hd] at h; cases h
      | some n =>
        rw [hd] at h
        change (if n = 0 then some acc else _) = _ at h
        by_cases hn : n = 0
        · rw [if_pos hn] at h; cases h; omega
        · rw [if_neg hn] at h
          generalize (if n ≥ OS_FILE_LOG_BLOCK_SIZE then n - LOG_BLOCK_TRL_SIZE else n) = m at *
          split at h
          · next hm =>
            obtain ⟨i1, i2⟩ := ih _ _ h
            have hl : ((block.take m).drop LOG_BLOCK_HDR_SIZE).length ≤ 512 := by
              rw [List.length_drop, List.length_take, hb]; omega
            have hpos : 0 < rest.length := List.length_pos_iff.mpr hr
            by_cases hd : rest.length ≤ 512
            · have : rest.drop OS_FILE_LOG_BLOCK_SIZE = [] := List.drop_eq_nil_of_le hd
              rw [i2 this, List.length_append]
              omega
            · have i3 : acc'.length ≤ acc.length + ((block.take m).drop LOG_BLOCK_HDR_SIZE).length + (rest.length - 512 + 511) := by
                rw [List.length_append, List.length_drop (l := rest)] at i1
                exact i1
              exact block_arith i3 hl hd
          · cases h

theorem readRedoFile_length (f : File) (acc acc' : Bytes) (h : readRedoFile f acc = .ok acc') :
    acc'.length ≤ acc.length + fileSize f := by
  unfold readRedoFile at h
  cases f with
  | error e => cases h
  | ok content =>
    dsimp only at h
    cases h1 : readRedoLogFileHeader content with
    | err e => rw [h1] at h; cases h
    | panic => rw [h1] at h; cases h
    | ok rest =>
      rw [h1] at h
      dsimp only at h
      have e1 : rest = content.drop 512 := by
        unfold readRedoLogFileHeader readNextBytes at h1
        split at h1
        · cases h1
        · next heq =>
          split at heq
          · cases heq
          · cases heq
            split at h1 <;> cases h1
            rfl
      cases h2 : readRedoLogFileCheckpoint rest with
      | err e => rw [h2] at h; cases h
      | panic => rw [h2] at h; cases h
      | ok rest' =>
        rw [h2] at h
        dsimp only at h
        have e2 : rest'.length ≤ rest.length := by
          unfold readRedoLogFileCheckpoint at h2
          cases k1 : readNextBytes rest OS_FILE_LOG_BLOCK_SIZE with
          | none => rw [k1] at h2; cases h2
          | some p1 =>
            obtain ⟨x1, r1⟩ := p1
            rw [k1] at h2
            dsimp only at h2
            have l1 := readNext_shorter k1
            cases k2 : readNextBytes r1 OS_FILE_LOG_BLOCK_SIZE with
            | none =>
              rw [k2] at h2
              dsimp only at h2
              rw [k2] at h2
              cases h2
            | some p2 =>
              obtain ⟨x2, r2⟩ := p2
              rw [k2] at h2
              dsimp only at h2
              have l2 := readNext_shorter k2
              cases k3 : readNextBytes r2 OS_FILE_LOG_BLOCK_SIZE with
              | none => rw [k3] at h2; cases h2
              | some p3 =>
                obtain ⟨x3, r3⟩ := p3
                rw [k3] at h2
                cases h2
                exact (readNext_shorter k3).trans (l2.trans l1)
        cases h3 : blocksLoop rest'.length rest' acc with
        | none => rw [h3] at h; cases h
        | some x =>
          rw [h3] at h
          cases h
          obtain ⟨b1, b2⟩ := blocksLoop_length _ _ _ _ h3
          show _ ≤ _ + content.length
          by_cases hc : rest' = []
          · rw [b2 hc]; omega
          · have : 0 < rest'.length := List.length_pos_iff.mpr hc
            have : rest.length = content.length - 512 := by rw [e1, List.length_drop]
            omega

theorem readRedoFiles_length (fs : List File) (acc acc' : Bytes) (h : readRedoFiles fs acc = .ok acc') :
    acc'.length ≤ acc.length + (fs.map fileSize).sum := by
  induction fs generalizing acc with
  | nil => cases h; simp
  | cons f fs ih =>
    rw [readRedoFiles] at h
    cases h1 : readRedoFile f acc with
    | err e => rw [h1] at h; cases h
    | panic => rw [h1] at h; cases h
    | ok x =>
      rw [h1] at h
      have a1 := readRedoFile_length f acc x h1
      have a2 := ih x h
      rw [List.map_cons, List.sum_cons]
      omega

/-- **C120, the redo command.** Whatever the log files and the dictionary contain and however the run ends: the number of UPDATE
statements printed is at most the number of bytes of the log files. -/
theorem C120_redo (env : Env) (fs : Bytes → File) (a : FromRedo) (spare : Nat) (out : Out) : ∃ new,
    updates (fromRedoFile env fs a spare out).st = updates out ++ new ∧
      new.length ≤ (((splitComma a.redoFile).map fs).map fileSize).sum := by
  have ho := dict_out env a.sysFile out rfl
  unfold fromRedoFile
  generalize parseDictPage env a.sysFile { out := out } = r at *
  cases r with
  | panic s => exact ⟨[], by rw [List.append_nil]; exact congrArg updates ho, by simp⟩
  | hang s => exact ⟨[], by rw [List.append_nil]; exact congrArg updates ho, by simp⟩
  | ok e s =>
    change s.out = out at ho
    cases e with
    | some e => exact ⟨[], by rw [List.append_nil]; exact congrArg updates ho, by simp⟩
    | none =>
      dsimp only
      have key : ∃ new, updates (parseRedoLogs ⟨env, s.tables, a.table, a.db⟩ ((splitComma a.redoFile).map fs) spare s.out).st =
          updates out ++ new ∧ new.length ≤ (((splitComma a.redoFile).map fs).map fileSize).sum := by
        unfold parseRedoLogs
        cases hd : readRedoFiles ((splitComma a.redoFile).map fs) [] with
        | err e => exact ⟨[], by rw [List.append_nil]; exact congrArg updates ho, by simp⟩
        | panic => exact ⟨[], by rw [List.append_nil]; exact congrArg updates ho, by simp⟩
        | ok data =>
          obtain ⟨new, g1, g2⟩ := stream_count ⟨env, s.tables, a.table, a.db⟩ ⟨data, spare⟩ s.out
          have := readRedoFiles_length _ _ _ hd
          refine ⟨new, by rw [← ho]; exact g1, ?_⟩
          rw [List.length_nil, Nat.zero_add] at this
          exact g2.trans this
      obtain ⟨new, k1, k2⟩ := key
      refine ⟨new, ?_, k2⟩
      rw [← k1]
      generalize parseRedoLogs _ _ _ _ = r
      cases r with
      | panic o => rfl
      | hang o => rfl
      | ok e o =>
        cases e with
        | none => rfl
        | some e =>
          show updates (o ++ [_]) = updates o
          unfold updates
          rw [List.filter_append, List.append_right_eq_self, List.filter_eq_nil_iff]
          intro l hl
          rw [List.mem_singleton.mp hl]
          exact Bool.eq_false_iff.mp rfl

/-! ## The bounds concern runs that print something -/

/-- The hypotheses of `C120_data`: a dictionary that can be read, and a data file of which a row is printed. -/
example (env : Env) : ∃ s content, parseDictPage env enumArgs.sysFile { out := [] } = .ok none s ∧ enumArgs.tableFile = .ok content ∧
    ∃ lines, fromDataFile env enumArgs [] = .ok () ([] ++ lines) ∧ lines.length = 1 := by
  have hp := enum_printable env
  obtain ⟨_, h1, _⟩ := loads_arranged env enumSys _ _ _ _ hp.dict.file hp.dict.indexes hp.keys
  obtain ⟨tables, dict, h3, _⟩ := h1 []
  refine ⟨_, _, h3, rfl, ?_⟩
  obtain ⟨lines, h4, h5, _⟩ := printed_shapes env enumArgs _ _ _ _ _ _ _ _ _ _ _ _ hp (enum_file env) rfl []
  exact ⟨lines, h4, h5⟩

/-- A log of which statements are printed. -/
example (env : Env) (spare : Nat) : (updates (fromRedoFile env heapDisk (heapRedo []) spare []).st).length = 2 := by
  rw [C116_exact env heapDisk (heapRedo []) spare heapSys mixTables heapColumns heapIndexes heapFields [b! "ib_logfile0"]
    [[heapLog.flatMap Item.enc]] heapLog heapChanges rfl heap_dictionary (by decide) (by decide) rfl
    (.cons ⟨_, rfl, logFile_is _ (by have := heapLog_length; omega)⟩ .nil) (by simp) heapLog_fits heap_usual (heap_followed env [] (.inr rfl))
    ⟨by decide, by decide, by decide, trivial⟩ (by have := heapLog_length; omega) []]
  rfl

/-- A system file that cannot be opened. -/
example (env : Env) : ∀ s, parseDictPage env (.error (b! "open ibdata1: no such file or directory")) { out := [] } ≠ .ok none s := by
  intro s h
  cases h

end Verif.Props
