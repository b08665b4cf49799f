import Verif.Model.Cli
import Verif.Spec.CommaList
import Verif.Props.Output
import Verif.Props.RedoFiles
import Verif.Props.RedoUpdate
/-!
# C55: the command FromRedoFile
-/

namespace Verif.Props
open Verif Spec

theorem splitComma_name (n : Bytes) (h : 44 ∉ n) : splitComma n = [n] := by
  induction n with
  | nil => rfl
  | cons c n ih =>
    have hc : c ≠ 44 := fun e => h (by rw [e]; exact List.mem_cons_self ..)
    rw [splitComma, if_neg hc, ih fun hm => h (List.mem_cons_of_mem _ hm)]

theorem splitComma_cons (n rest : Bytes) (h : 44 ∉ n) : splitComma (n ++ [44] ++ rest) = n :: splitComma rest := by
  induction n with
  | nil => rfl
  | cons c n ih =>
    have hc : c ≠ 44 := fun e => h (by rw [e]; exact List.mem_cons_self ..)
    show splitComma (c :: (n ++ [44] ++ rest)) = _
    rw [splitComma, if_neg hc, ih fun hm => h (List.mem_cons_of_mem _ hm)]

/-- **C55, file names.** A comma-separated list is split into its names. -/
theorem C55_names (names : List Bytes) (hne : names ≠ []) (h : ∀ n ∈ names, 44 ∉ n) : splitComma (commaList names) = names := by
  induction names with
  | nil => exact absurd rfl hne
  | cons n ns ih =>
    cases ns with
    | nil => exact splitComma_name n (h n (by simp))
    | cons m ms =>
      show splitComma (n ++ [44] ++ commaList (m :: ms)) = _
      rw [splitComma_cons n _ (h n (by simp)), ih (by simp) fun x hx => h x (List.mem_cons_of_mem _ hx)]

example : splitComma (commaList [b! "ib_logfile0", b! "ib_logfile1"]) = [b! "ib_logfile0", b! "ib_logfile1"] :=
  C55_names _ (by decide) (by decide)

/-- **C55, log files.** The named files are read in the order of the list, and their log is decoded with the database and the table of
the command line as filter. -/
theorem C55_files (env : Env) (fs : Bytes → File) (a : FromRedo) (spare : Nat) (out : Out) (s : DState) (names : List Bytes)
    (parts : List (List Bytes)) (h : parseDictPage env a.sysFile { out := out } = .ok none s) (hne : names ≠ []) (hn : ∀ n ∈ names, 44 ∉ n)
    (ha : a.redoFile = commaList names)
    (hp : All2 (fun chunks n => ∃ content, fs n = .ok content ∧ IsLogFile chunks content) parts names) :
    fromRedoFile env fs a spare out =
      match parseRedoBlockData { env := env, tables := s.tables, tableName := a.table, dbName := a.db } ⟨parts.flatten.flatten, spare⟩ out with
      | .ok none o => .ok () o
      | .ok (some e) o => .ok () (o ++ [b! "parse redo failed, error:  " ++ e])
      | .panic o => .panic o
      | .hang o => .hang o := by
  have ho : s.out = out := dict_out env a.sysFile out h
  have hp' : All2 (fun chunks f => ∃ content, f = .ok content ∧ IsLogFile chunks content) parts (names.map fs) := by
    clear h ha hne hn ho
    induction hp with
    | nil => exact .nil
    | cons h1 _ ih => exact .cons h1 ih
  unfold fromRedoFile
  rw [h]
  dsimp only
  rw [ha, C55_names names hne hn, C38_parse _ _ parts spare hp', ho]
  generalize parseRedoBlockData { env := env, tables := s.tables, tableName := a.table, dbName := a.db } ⟨parts.flatten.flatten, spare⟩ out = r
  cases r with
  | ok e o => cases e <;> rfl
  | panic o => rfl
  | hang o => rfl

/-- **C55 (partial).** For log files whose log consists of records the decoder follows (see C42), the command prints exactly
the UPDATE statements of the undo records of the selected tables, in order.  Missing: what C41 and C42 miss. -/
theorem C55_statements_partial (env : Env) (fs : Bytes → File) (a : FromRedo) (spare : Nat) (out : Out) (s : DState) (names : List Bytes)
    (parts : List (List Bytes)) (its : List Item) (lss : List (List Bytes))
    (h : parseDictPage env a.sysFile { out := out } = .ok none s) (hne : names ≠ []) (hn : ∀ n ∈ names, 44 ∉ n) (ha : a.redoFile = commaList names)
    (hp : All2 (fun chunks n => ∃ content, fs n = .ok content ∧ IsLogFile chunks content) parts names)
    (hs : parts.flatten.flatten = its.flatMap Item.enc) (hf : ∀ it ∈ its, it.Fits)
    (hl : All2 (Lines { env := env, tables := s.tables, tableName := a.table, dbName := a.db }) its lss)
    (hah : Ahead its) (hlen : (its.flatMap Item.enc).length < 2 ^ 32) :
    fromRedoFile env fs a spare out = .ok () (out ++ lss.flatten) := by
  rw [C55_files env fs a spare out s names parts h hne hn ha hp, hs, C42_log_partial _ spare its lss hf hl hah hlen out]

/-- **C55, dictionary errors.** If the dictionary cannot be loaded, the log is not decoded and nothing is printed. -/
theorem C55_dictionary_error (env : Env) (fs : Bytes → File) (a : FromRedo) (spare : Nat) (out : Out) (s : DState) (e : Bytes)
    (h : parseDictPage env a.sysFile { out := out } = .ok (some e) s) : fromRedoFile env fs a spare out = .ok () out := by
  have ho := dict_out env a.sysFile out h
  unfold fromRedoFile
  rw [h]
  exact congrArg (R.ok ()) ho

theorem C55_dictionary_panic (env : Env) (fs : Bytes → File) (a : FromRedo) (spare : Nat) (out : Out) (s : DState)
    (h : parseDictPage env a.sysFile { out := out } = .panic s) : fromRedoFile env fs a spare out = .panic out := by
  have ho := dict_out env a.sysFile out h
  unfold fromRedoFile
  rw [h]
  exact congrArg R.panic ho

theorem readRedoFiles_append (fs gs : List File) (acc : Bytes) :
    readRedoFiles (fs ++ gs) acc = match readRedoFiles fs acc with
      | .ok acc => readRedoFiles gs acc
      | .err e => .err e
      | .panic => .panic := by
  induction fs generalizing acc with
  | nil => rfl
  | cons f fs ih =>
    rw [List.cons_append, readRedoFiles, readRedoFiles]
    cases readRedoFile f acc with
    | ok acc => exact ih acc
    | err e => rfl
    | panic => rfl

/-- **C55, log file errors.** If a log file cannot be opened, no statement is printed, also none of the files before it: exactly the error. -/
theorem C55_log_error (env : Env) (fs : Bytes → File) (a : FromRedo) (spare : Nat) (out : Out) (s : DState) (before after : List Bytes) (name e : Bytes)
    (parts : List (List Bytes)) (h : parseDictPage env a.sysFile { out := out } = .ok none s)
    (hn : ∀ n ∈ before ++ name :: after, 44 ∉ n) (ha : a.redoFile = commaList (before ++ name :: after))
    (hp : All2 (fun chunks n => ∃ content, fs n = .ok content ∧ IsLogFile chunks content) parts before) (he : fs name = .error e) :
    fromRedoFile env fs a spare out = .ok () (out ++ [b! "parse redo failed, error:  " ++ e]) := by
  have ho : s.out = out := dict_out env a.sysFile out h
  have hp' : All2 (fun chunks f => ∃ content, f = .ok content ∧ IsLogFile chunks content) parts (before.map fs) := by
    clear h ha hn ho
    induction hp with
    | nil => exact .nil
    | cons h1 _ ih => exact .cons h1 ih
  have hr : readRedoFiles ((before ++ name :: after).map fs) [] = .err e := by
    rw [List.map_append, readRedoFiles_append, C38_stream _ parts hp', List.map_cons, he]
    rfl
  unfold fromRedoFile
  rw [h]
  dsimp only
  rw [ha, C55_names _ (by simp) hn, parseRedoLogs, hr, ho]
  rfl

/-- non-vacuity: two files, the second of which is missing -/
example (env : Env) (sys : File) (s : DState) (h : parseDictPage env sys {} = .ok none s) :
    fromRedoFile env (fun n => if n = b! "a" then .ok (zeroPreamble.bytes ++ [].flatten ++ []) else .error (b! "no such file"))
      ⟨sys, b! "a,b", b! "d", b! "t"⟩ 0 [] = .ok () [b! "parse redo failed, error:  no such file"] :=
  C55_log_error env _ ⟨sys, b! "a,b", b! "d", b! "t"⟩ 0 [] s [b! "a"] [] (b! "b") (b! "no such file") [[]] h (by decide) rfl
    (.cons ⟨_, rfl, zeroPreamble, [], [], zeroPreamble_valid, .nil, Or.inl rfl, rfl⟩ .nil) (if_neg (by decide))

end Verif.Props
