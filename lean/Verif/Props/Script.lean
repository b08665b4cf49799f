import Verif.Proofs.Script
import Verif.Props.DataCut
/-!
# C72, C73: what the statements of the data command do when they are executed
-/

set_option linter.unusedSimpArgs false

namespace Verif.Props
open Verif Spec

/-! ## A server -/

/-- How the server reads numerals of floating point numbers: as bit patterns. -/
structure Server where
  f32 : Bytes → Option Nat
  f64 : Bytes → Option Nat

/-- What a column of this type holds after the value has been assigned to it; `none`: not determined here. -/
def assign (sv : Server) (c : Column) : SqlVal → Option Orig
  | .null => some .null
  | .bits n => if c.ftype = 3 ∧ c.mtype = 16 then some (.bit n) else none
  | .bytes x =>
    if c.ftype = 9 then (sv.f32 x).map .float
    else if c.ftype = 10 then (sv.f64 x).map .double
    else if c.ftype = 6 ∧ c.mtype ≠ 10 then (intVal x).map .int
    else if c.ftype = 3 ∧ c.mtype = 254 ∨ c.ftype = 4 ∧ c.mtype = 15 ∨ c.ftype = 5 ∧ c.isBinary = true then some (.binary x)
    else if c.ftype = 3 ∧ c.mtype = 16 then none
    else some (.text x)

def assignRow (sv : Server) : List Column → List SqlVal → Option (List Orig)
  | [], [] => some []
  | c :: cs, x :: xs => (assign sv c x).bind fun o => (assignRow sv cs xs).map (o :: ·)
  | _, _ => none

/-- REPLACE: the row takes the place of the rows with the same key.  `same` compares keys, as the collations of the key columns do. -/
def replaceRow (same : List Orig → List Orig → Bool) (t : List (List Orig)) (row : List Orig) : List (List Orig) :=
  t.filter (fun r => !same r row) ++ [row]

/-- Execute statements on the rows of the table `db`.`table`. -/
def execReplaces (sv : Server) (cols : List Column) (same : List Orig → List Orig → Bool) (db table : Bytes) :
    List (List Orig) → List Replace → Option (List (List Orig))
  | t, [] => some t
  | t, s :: ss =>
    if s.db = db ∧ s.table = table then (assignRow sv cols s.values).bind fun row => execReplaces sv cols same db table (replaceRow same t row) ss
    else none

/-- Execute a script of REPLACE statements. -/
def execScript (sv : Server) (cols : List Column) (same : List Orig → List Orig → Bool) (db table : Bytes) (script : Bytes) (t : List (List Orig)) :
    Option (List (List Orig)) := (readReplaces script).bind (execReplaces sv cols same db table t)

/-- the server reads what is printed for the value -/
def ReadsNumber (sv : Server) (ff : FloatFmt) : Option TVal → Prop
  | some (.float b) => sv.f32 (ff.f32 b) = some b
  | some (.double b) => sv.f64 (ff.f64 b) = some b
  | _ => True

/-- the values of a row in SQL -/
def sqlRow (ff : FloatFmt) (row : List (Option TVal)) : List Orig := row.map (origOf ff)

/-- **C72**, as stated: the standard output of the data command, executed on an empty table, gives exactly the rows of the file.  (Rows with
different keys; floating point numbers that the server reads as Go prints them.) -/
def C72_statement : Prop :=
  ∀ (env : Env) (a : FromData) (sys ibd : Bytes) (trs : List TableRow) (crs : List ColumnRow) (irs : List IndexRow) (frs : List FieldRow)
    (t : TableRow) (r : IndexRow) (l : List Column) (defs : List ColDef) (deleted : Bool) (rows : List (List (Option TVal)))
    (sv : Server) (same : List Orig → List Orig → Bool),
    a.sysFile = .ok sys → a.tableFile = .ok ibd → Dictionary sys trs crs irs frs → t ∈ trs → t.name = a.db ++ b! "/" ++ a.table →
    ClusteredIndex irs t.id r → Layout irs frs t.id (columnsOf crs t.id) l →
    TableFile env ibd r.id (columnsOf crs t.id) l defs deleted rows → (deleted = true ↔ a.opType = b! "RecoveryData") →
    (∀ row ∈ rows, ∀ x ∈ row, ReadsNumber sv env.ff x) → (rows.map (sqlRow env.ff)).Pairwise (fun r r' => same r r' = false) →
    ∃ lines, fromDataFile env a [] = .ok () lines ∧
      execScript sv (columnsOf crs t.id) same a.db a.table (stdout lines) [] = some (rows.map (sqlRow env.ff))

/-- **C73**, as stated: the statements for deleted rows, executed on the table as it is now (`cur`), leave its rows as they are, and restore of
each other row the version that was deleted last.  (The free list begins with the record that was deleted last.) -/
def C73_statement : Prop :=
  ∀ (env : Env) (a : FromData) (sys ibd : Bytes) (trs : List TableRow) (crs : List ColumnRow) (irs : List IndexRow) (frs : List FieldRow)
    (t : TableRow) (r : IndexRow) (l : List Column) (defs : List ColDef) (rows : List (List (Option TVal)))
    (sv : Server) (same : List Orig → List Orig → Bool) (cur : List (List Orig)),
    PrintableFile env a sys ibd trs crs irs frs t r l defs true rows →
    TableFile env ibd r.id (columnsOf crs t.id) l defs true rows → a.tableFile = .ok ibd →
    (∀ row ∈ rows, ∀ x ∈ row, ReadsNumber sv env.ff x) → cur.Pairwise (fun r r' => same r r' = false) →
    ∃ lines after, fromDataFile env a [] = .ok () lines ∧
      execScript sv (columnsOf crs t.id) same a.db a.table (stdout lines) cur = some after ∧ (∀ r ∈ cur, r ∈ after) ∧
      ∀ newer row older, rows.map (sqlRow env.ff) = newer ++ row :: older → (∀ r ∈ cur ++ newer, same r row = false) → row ∈ after

/-! ## Executing -/

theorem assign_denotes {sv : Server} {ff : FloatFmt} {c : Column} {s : SqlVal} {x : Option TVal} (ht : ∀ v, x = some v → v.Of c)
    (hr : ReadsNumber sv ff x) (h : Denotes ff s (origOf ff x)) : assign sv c s = some (origOf ff x) := by
  cases x with
  | none =>
    cases s with
    | null => rfl
    | _ => exact h.elim
  | some v =>
    have ht := ht v rfl
    cases v with
    | int w i | uint w i | year i =>
      cases s with
      | bytes x =>
        have h : intVal x = some _ := h.1
        have h6 : c.ftype = 6 := ht.1
        have h10 : c.mtype ≠ 10 := by first | exact ht.2.1 | (have := ht.2; rw [this]; decide)
        unfold assign
        rw [h6]
        simp only [reduceIte, h10, ne_eq, not_false_eq_true, and_self, h, Option.map_some, Nat.reduceEqDiff]
        rfl
      | _ => exact h.elim
    | bit w n =>
      cases s with
      | bits m =>
        have h : m = n := h
        subst h
        unfold assign
        exact if_pos ⟨ht.1, ht.2.1⟩
      | _ => exact h.elim
    | float b =>
      cases s with
      | bytes x =>
        have h : x = ff.f32 b := h
        subst h
        unfold assign
        have hr : sv.f32 (ff.f32 b) = some b := hr
        have h9 : c.ftype = 9 := ht
        dsimp only
        rw [if_pos h9, hr]
        rfl
      | _ => exact h.elim
    | double b =>
      cases s with
      | bytes x =>
        have h : x = ff.f64 b := h
        subst h
        unfold assign
        have hr : sv.f64 (ff.f64 b) = some b := hr
        have h10 : c.ftype = 10 := ht
        dsimp only
        rw [if_neg (by omega), if_pos h10, hr]
        rfl
      | _ => exact h.elim
    | binary b | varbinary b | blob b =>
      cases s with
      | bytes x =>
        have h : x = b := h
        subst h
        have h1 := ht.1
        have h2 := ht.2
        unfold assign
        simp only [h1, h2, reduceIte, Nat.reduceEqDiff, false_and, and_self, true_or, or_true, and_true, false_or, or_false]
        rfl
      | _ => exact h.elim
    | date y m d =>
      cases s with
      | bytes x =>
        have h : x = _ := h
        subst h
        have h1 := ht.1
        have h2 := ht.2
        unfold assign
        simp only [h1, h2, ne_eq, not_true_eq_false, reduceIte, Nat.reduceEqDiff, false_and, and_false, and_self, true_or, or_true, and_true, false_or, or_false]
        rfl
      | _ => exact h.elim
    | time neg hh m s' | datetimeOld cv | datetime cv | timestamp n cv | text b =>
      cases s with
      | bytes x =>
        have h : x = _ := h
        subst h
        have h1 := ht.1
        have h2 := ht.2
        unfold assign
        simp only [h1, h2, reduceIte, Nat.reduceEqDiff, Bool.false_eq_true, false_and, and_false, and_self, true_or, or_true, and_true, false_or, or_false]
        rfl
      | _ => exact h.elim
    | varcharLatin1 b | charLatin1 b | varchar b | char b k =>
      cases s with
      | bytes x =>
        have h : x = _ := h
        subst h
        have h1 : c.ftype = _ := ht
        unfold assign
        simp only [h1, reduceIte, Nat.reduceEqDiff, Bool.false_eq_true, false_and, and_false, and_self, true_or, or_true, and_true, false_or, or_false]
        rfl
      | _ => exact h.elim

theorem assignRow_denotes {sv : Server} {ff : FloatFmt} {cols : List Column} {vs : List SqlVal} {row : List (Option TVal)}
    (ht : All2 (fun c x => ∀ v, x = some v → v.Of c) cols row) (hr : ∀ x ∈ row, ReadsNumber sv ff x)
    (h : All2 (Denotes ff) vs (sqlRow ff row)) : assignRow sv cols vs = some (sqlRow ff row) := by
  unfold sqlRow at *
  induction ht generalizing vs with
  | nil =>
    cases h
    rfl
  | @cons c x cols row h1 _ ih =>
    cases h with
    | cons h2 h3 =>
      rw [assignRow, assign_denotes h1 (hr x List.mem_cons_self) h2, ih (fun y hy => hr y (List.mem_cons_of_mem _ hy)) h3]
      rfl

/-- **Executing printed lines:** each row in turn takes the place of the rows with its key. -/
theorem exec_printed {sv : Server} {ff : FloatFmt} {cols : List Column} (same : List Orig → List Orig → Bool) {db table : Bytes} {lines : List Bytes}
    {rows : List (List (Option TVal))} (h : All2 (Printed ff db table) lines rows)
    (ht : ∀ row ∈ rows, All2 (fun c x => ∀ v, x = some v → v.Of c) cols row) (hr : ∀ row ∈ rows, ∀ x ∈ row, ReadsNumber sv ff x) (t : List (List Orig)) :
    execScript sv cols same db table (stdout lines) t = some ((rows.map (sqlRow ff)).foldl (replaceRow same) t) := by
  have : ∃ ss, All2 (fun l s => readReplace l = some s) lines ss ∧ All2 (fun s row => s.db = db ∧ s.table = table ∧ All2 (Denotes ff) s.values (sqlRow ff row)) ss rows := by
    clear ht hr
    induction h with
    | nil => exact ⟨[], .nil, .nil⟩
    | cons h _ ih =>
      obtain ⟨ss, h1, h2⟩ := ih
      obtain ⟨vs, h3, h4⟩ := h
      exact ⟨_ :: ss, .cons h3 h1, .cons ⟨rfl, rfl, h4⟩ h2⟩
  obtain ⟨ss, h1, h2⟩ := this
  unfold execScript
  rw [readReplaces_lines h1, Option.bind_some]
  clear h h1
  induction h2 generalizing t with
  | nil => rfl
  | @cons s row ss rows h3 _ ih =>
    rw [execReplaces, if_pos ⟨h3.1, h3.2.1⟩, assignRow_denotes (ht row List.mem_cons_self) (hr row List.mem_cons_self) h3.2.2, Option.bind_some,
      ih (fun x hx => ht x (List.mem_cons_of_mem _ hx)) fun x hx => hr x (List.mem_cons_of_mem _ hx)]
    rfl

/-- the rows that no later row takes the place of -/
def latest (same : List Orig → List Orig → Bool) : List (List Orig) → List (List Orig)
  | [] => []
  | r :: rs => if rs.any (same r) then latest same rs else r :: latest same rs

theorem replaced (same : List Orig → List Orig → Bool) (rows t : List (List Orig)) :
    rows.foldl (replaceRow same) t = t.filter (fun r => !rows.any (same r)) ++ latest same rows := by
  induction rows generalizing t with
  | nil => simp [latest]
  | cons row rows ih =>
    rw [List.foldl_cons, ih, replaceRow, List.filter_append, List.filter_filter, latest]
    have : (t.filter fun r => (!rows.any (same r)) && !same r row) = t.filter fun r => !(row :: rows).any (same r) := by
      refine List.filter_congr fun r _ => ?_
      rw [List.any_cons, Bool.not_or, Bool.and_comm]
    rw [this, List.append_assoc]
    congr 1
    cases h : rows.any (same row)
    · simp [h]
    · simp [h]

theorem latest_distinct {same : List Orig → List Orig → Bool} {rows : List (List Orig)} (h : rows.Pairwise fun r r' => same r r' = false) :
    latest same rows = rows := by
  induction h with
  | nil => rfl
  | @cons r rs h _ ih =>
    rw [latest, if_neg, ih]
    simpa using h

/-- **C72, C73 exactly:** if the rows of a file are printed (C57), executing the output on a table removes the rows that have the key of a printed
row, and adds the printed rows except those that have the key of a later one. -/
theorem C73_exact (env : Env) (a : FromData) (sys ibd : Bytes) (trs : List TableRow) (crs : List ColumnRow) (irs : List IndexRow) (frs : List FieldRow)
    (t : TableRow) (r : IndexRow) (l : List Column) (defs : List ColDef) (deleted : Bool) (rows : List (List (Option TVal)))
    (sv : Server) (same : List Orig → List Orig → Bool) (cur : List (List Orig)) (hp : PrintableFile env a sys ibd trs crs irs frs t r l defs deleted rows)
    (ht : TableFile env ibd r.id (columnsOf crs t.id) l defs deleted rows) (hf : a.tableFile = .ok ibd)
    (hr : ∀ row ∈ rows, ∀ x ∈ row, ReadsNumber sv env.ff x) :
    ∃ lines, fromDataFile env a [] = .ok () lines ∧ execScript sv (columnsOf crs t.id) same a.db a.table (stdout lines) cur =
      some (cur.filter (fun r => !(rows.map (sqlRow env.ff)).any (same r)) ++ latest same (rows.map (sqlRow env.ff))) := by
  obtain ⟨lines, h1, h2⟩ := C57_command_partial env a sys ibd trs crs irs frs t r l defs deleted rows hp.sysFile hf hp.dict hp.table hp.name hp.layout
    ht hp.op hp.keys hp.handled hp.mark hp.compact hp.redundant hp.values hp.db hp.tab []
  refine ⟨lines, by simpa using h1, ?_⟩
  rw [exec_printed same h2 (fun row hrow => all2_imp (fun c x h v hv => (h v hv).1) (ht.typed row hrow)) hr cur, replaced]

/-- **C72 (partial):** true of the files of C57 whose values are printed so that they can be read back.  (Missing: what C57 misses.) -/
theorem C72_restores_partial (env : Env) (a : FromData) (sys ibd : Bytes) (trs : List TableRow) (crs : List ColumnRow) (irs : List IndexRow) (frs : List FieldRow)
    (t : TableRow) (r : IndexRow) (l : List Column) (defs : List ColDef) (deleted : Bool) (rows : List (List (Option TVal)))
    (sv : Server) (same : List Orig → List Orig → Bool) (hp : PrintableFile env a sys ibd trs crs irs frs t r l defs deleted rows)
    (ht : TableFile env ibd r.id (columnsOf crs t.id) l defs deleted rows) (hf : a.tableFile = .ok ibd)
    (hr : ∀ row ∈ rows, ∀ x ∈ row, ReadsNumber sv env.ff x) (hd : (rows.map (sqlRow env.ff)).Pairwise (fun r r' => same r r' = false)) :
    ∃ lines, fromDataFile env a [] = .ok () lines ∧
      execScript sv (columnsOf crs t.id) same a.db a.table (stdout lines) [] = some (rows.map (sqlRow env.ff)) := by
  obtain ⟨lines, h1, h2⟩ := C73_exact env a sys ibd trs crs irs frs t r l defs deleted rows sv same [] hp ht hf hr
  exact ⟨lines, h1, by rw [h2, latest_distinct hd]; rfl⟩

/-- **C73 (partial):** true if no row of the table has the key of a deleted row and no two deleted rows have the same key: the deleted rows are
added.  (Missing: deleted rows whose keys are in use again, and several versions of a row; see `C73_exact`: the deleted row wins, and of the
versions the one that was deleted first.) -/
theorem C73_adds_partial (env : Env) (a : FromData) (sys ibd : Bytes) (trs : List TableRow) (crs : List ColumnRow) (irs : List IndexRow) (frs : List FieldRow)
    (t : TableRow) (r : IndexRow) (l : List Column) (defs : List ColDef) (rows : List (List (Option TVal)))
    (sv : Server) (same : List Orig → List Orig → Bool) (cur : List (List Orig)) (hp : PrintableFile env a sys ibd trs crs irs frs t r l defs true rows)
    (ht : TableFile env ibd r.id (columnsOf crs t.id) l defs true rows) (hf : a.tableFile = .ok ibd)
    (hr : ∀ row ∈ rows, ∀ x ∈ row, ReadsNumber sv env.ff x) (hd : (cur ++ rows.map (sqlRow env.ff)).Pairwise (fun r r' => same r r' = false)) :
    ∃ lines, fromDataFile env a [] = .ok () lines ∧
      execScript sv (columnsOf crs t.id) same a.db a.table (stdout lines) cur = some (cur ++ rows.map (sqlRow env.ff)) := by
  obtain ⟨lines, h1, h2⟩ := C73_exact env a sys ibd trs crs irs frs t r l defs true rows sv same cur hp ht hf hr
  obtain ⟨d1, d2, d3⟩ := List.pairwise_append.mp hd
  refine ⟨lines, h1, ?_⟩
  rw [h2, latest_distinct d2, List.filter_eq_self.mpr]
  intro x hx
  simpa using d3 x hx

/-- **C73, versions:** of the rows with one key exactly the one that is printed last is in the table afterwards: the version that was deleted
first. -/
theorem C73_versions (same : List Orig → List Orig → Bool) (hs : ∀ r r', same r r' = same r' r) (cur newer older : List (List Orig)) (row : List Orig)
    (ho : ∀ r ∈ older, same row r = false) :
    row ∈ (newer ++ row :: older).foldl (replaceRow same) cur ∧ ∀ x ∈ (newer ++ row :: older).foldl (replaceRow same) cur, same x row = true → x = row := by
  have hl : ∀ (rs : List (List Orig)) (x : List Orig), x ∈ latest same (rs ++ row :: older) → same x row = true → x = row := by
    intro rs
    have hpost : ∀ (rs : List (List Orig)) (x : List Orig), x ∈ latest same rs → x ∈ rs := by
      intro rs
      induction rs with
      | nil => exact fun _ h => h
      | cons r rs ih =>
        intro x hx
        rw [latest] at hx
        split at hx
        · exact List.mem_cons_of_mem _ (ih x hx)
        · rcases List.mem_cons.mp hx with rfl | hx
          · exact List.mem_cons_self
          · exact List.mem_cons_of_mem _ (ih x hx)
    induction rs with
    | nil =>
      intro x hx he
      rw [List.nil_append, latest, if_neg (by simpa using ho)] at hx
      rcases List.mem_cons.mp hx with rfl | hx
      · rfl
      · rw [hs, ho x (hpost _ x hx)] at he
        cases he
    | cons r rs ih =>
      intro x hx he
      rw [List.cons_append, latest] at hx
      split at hx
      · exact ih x hx he
      · rename_i hn
        rcases List.mem_cons.mp hx with rfl | hx
        · exact absurd (List.any_eq_true.mpr ⟨row, by simp, he⟩) hn
        · exact ih x hx he
  have hm : ∀ rs : List (List Orig), row ∈ latest same (rs ++ row :: older) := by
    intro rs
    induction rs with
    | nil =>
      rw [List.nil_append, latest, if_neg (by simpa using ho)]
      exact List.mem_cons_self
    | cons r rs ih =>
      rw [List.cons_append, latest]
      split
      · exact ih
      · exact List.mem_cons_of_mem _ ih
  rw [replaced]
  refine ⟨List.mem_append_right _ (hm newer), fun x hx he => ?_⟩
  rcases List.mem_append.mp hx with hx | hx
  · have h2 := (List.mem_filter.mp hx).2
    rw [Bool.not_eq_true', List.any_eq_false] at h2
    exact absurd he (h2 row (by simp))
  · exact hl newer x hx he

/-! ## Counterexamples -/

/-- rows with the same first column -/
def sameFirst (r r' : List Orig) : Bool := r.head? == r'.head?

def anyServer : Server := ⟨fun _ => none, fun _ => none⟩

theorem shop_numbers (sv : Server) (ff : FloatFmt) (name : Bytes) (deleted : Bool) : ∀ row ∈ shopRows name deleted, ∀ x ∈ row, ReadsNumber sv ff x := by
  intro row hrow x hx
  cases deleted with
  | true =>
    cases List.mem_singleton.mp hrow
    rcases List.mem_cons.mp hx with rfl | hx
    · trivial
    · cases List.mem_singleton.mp hx
      trivial
  | false =>
    rcases List.mem_cons.mp hrow with rfl | hrow
    · rcases List.mem_cons.mp hx with rfl | hx
      · trivial
      · cases List.mem_singleton.mp hx
        trivial
    · cases List.mem_singleton.mp hrow
      rcases List.mem_cons.mp hx with rfl | hx
      · trivial
      · cases List.mem_singleton.mp hx
        trivial

/-- the rows of the shop, as it is -/
theorem shop_whole (env : Env) (deleted : Bool) : PrintableFile env (shopArgs (b! "ann") deleted) (shopFile idKey) (shopData (b! "ann")) shopTables shopColumns
    (shopIndexes idKey) (shopFields idKey) ⟨b! "shop/t", 20, 5⟩ ⟨20, 30, b! "PRIMARY", 1, 3⟩ (shopLayout 20) shopDefs deleted (shopRows (b! "ann") deleted) where
  sysFile := rfl
  dict := shop_dictionary (.inl rfl)
  table := by decide
  name := rfl
  layout := shop_layout _ (by decide)
  op := shop_op _ _
  keys := shop_arranged
  handled := shop_handled _ (by decide)
  mark := shopData_marked (.inl rfl) deleted
  compact := (shopData_format (.inl rfl) deleted).1
  redundant := (shopData_format (.inl rfl) deleted).2
  values := by
    intro row hrow
    rw [show columnsOf shopColumns 20 = [shopId, shopName] by decide]
    cases deleted with
    | true =>
      cases List.mem_singleton.mp hrow
      exact .cons ⟨trivial, trivial⟩ (.cons ⟨trivial, ⟨by decide, by decide⟩⟩ .nil)
    | false =>
      rcases List.mem_cons.mp hrow with rfl | hrow
      · exact .cons ⟨trivial, trivial⟩ (.cons ⟨trivial, ⟨by decide, by decide⟩⟩ .nil)
      · cases List.mem_singleton.mp hrow
        exact .cons ⟨trivial, trivial⟩ (.cons (by show shopName.mtype ≠ _; decide) .nil)
  db := by show 96 ∉ b! "shop"; decide
  tab := by show 96 ∉ b! "t"; decide

/-- the hypotheses of `C72_restores_partial`: the table of the shop -/
example (env : Env) (sv : Server) : ∃ lines, fromDataFile env (shopArgs (b! "ann") false) [] = .ok () lines ∧
    execScript sv (columnsOf shopColumns 20) sameFirst (b! "shop") (b! "t") (stdout lines) [] =
      some [[.int 1, .text (b! "ann")], [.int 2, .null]] :=
  C72_restores_partial env (shopArgs (b! "ann") false) _ _ _ _ _ _ _ _ _ _ false (shopRows (b! "ann") false) sv sameFirst (shop_whole env false)
    (shopData_file env (.inl rfl) false) rfl (shop_numbers _ _ _ _) (by
      show [[Orig.int 1, .text (b! "ann")], [.int 2, .null]].Pairwise _
      decide)

/-- the hypotheses of `C73_adds_partial`: the deleted row of the shop, and its rows -/
example (env : Env) (sv : Server) : ∃ lines, fromDataFile env (shopArgs (b! "ann") true) [] = .ok () lines ∧
    execScript sv (columnsOf shopColumns 20) sameFirst (b! "shop") (b! "t") (stdout lines) [[.int 1, .text (b! "ann")], [.int 2, .null]] =
      some [[.int 1, .text (b! "ann")], [.int 2, .null], [.int 3, .text (b! "bob")]] :=
  C73_adds_partial env (shopArgs (b! "ann") true) _ _ _ _ _ _ _ _ _ _ (shopRows (b! "ann") true) sv sameFirst _ (shop_whole env true)
    (shopData_file env (.inl rfl) true) rfl (shop_numbers _ _ _ _) (by
      show [[Orig.int 1, .text (b! "ann")], [.int 2, .null], [.int 3, .text (b! "bob")]].Pairwise _
      decide)

/-- **C73 is false:** a row that has been inserted again with the key of the deleted row is overwritten. -/
theorem C73_false : ¬ C73_statement := by
  intro h
  obtain ⟨lines, after, h1, h2, h3, -⟩ := h testEnv (shopArgs (b! "ann") true) _ _ _ _ _ _ _ _ _ _ (shopRows (b! "ann") true) anyServer sameFirst
    [[.int 3, .text (b! "zoe")]] (shop_whole testEnv true) (shopData_file testEnv (.inl rfl) true) rfl (shop_numbers _ _ _ _) (by simp)
  obtain ⟨lines', k1, k2⟩ := C73_exact testEnv (shopArgs (b! "ann") true) _ _ _ _ _ _ _ _ _ _ true (shopRows (b! "ann") true) anyServer sameFirst
    [[.int 3, .text (b! "zoe")]] (shop_whole testEnv true) (shopData_file testEnv (.inl rfl) true) rfl (shop_numbers _ _ _ _)
  rw [k1] at h1
  injection h1 with _ h1
  subst h1
  rw [k2] at h2
  have e : (shopRows (b! "ann") true).map (sqlRow testEnv.ff) = [[.int 3, .text (b! "bob")]] := rfl
  rw [e] at h2
  have h4 := h3 _ List.mem_cons_self
  rw [← Option.some.inj h2] at h4
  exact absurd h4 (by decide)

/-- **C72 is false:** of a row with the name `'NULL'` a row without name is restored. -/
theorem C72_false : ¬ C72_statement := by
  intro h
  have hn : ShopRow (b! "NULL") := .inr rfl
  obtain ⟨lines, e1, e2⟩ := h testEnv (shopArgs (b! "NULL") false) _ _ _ _ _ _ ⟨b! "shop/t", 20, 5⟩ ⟨20, 30, b! "PRIMARY", 1, 3⟩ _ _ false
    (shopRows (b! "NULL") false) anyServer sameFirst rfl rfl (shop_dictionary (.inl rfl)) (by decide) (by decide) (by decide) (shop_layout _ (by decide))
    (shopData_file testEnv hn false) (shop_op _ _) (shop_numbers _ _ _ _) (by
      show [[Orig.int 1, .text (b! "NULL")], [.int 2, .null]].Pairwise _
      decide)
  obtain ⟨rws, f1, f2⟩ := command_decoded testEnv False (shopArgs (b! "NULL") false) _ _ _ _ _ _ ⟨b! "shop/t", 20, 5⟩
    ⟨20, 30, b! "PRIMARY", 1, 3⟩ _ _ false (shopRows (b! "NULL") false) rfl rfl (shop_dictionary (.inl rfl)) (by decide) (by decide)
    (shop_layout _ (by decide)) (shopData_file testEnv hn false) (shop_op _ _)
    shop_arranged
    (shop_handled _ (by decide)) (shopData_marked hn false) (shopData_format hn false).1 (shopData_format hn false).2
    (by
      intro row hrow
      rw [show columnsOf shopColumns 20 = [shopId, shopName] by decide]
      rcases List.mem_cons.mp hrow with rfl | hrow
      · exact .cons ⟨False.elim, by rintro v ⟨⟩; trivial⟩ (.cons ⟨False.elim, by rintro v ⟨⟩; trivial⟩ .nil)
      · cases List.mem_singleton.mp hrow
        exact .cons ⟨False.elim, by rintro v ⟨⟩; trivial⟩ (.cons ⟨False.elim, by rintro v ⟨⟩⟩ .nil)) []
  rw [f1] at e1
  injection e1 with _ e1
  rw [List.nil_append] at e1
  subst e1
  have key : ∀ (i : Int) (x : Option Bytes) (cs : List Column), (x = some (b! "NULL") ∨ x = none) →
      Decoded testEnv False (shopLayout 20) cs [some (.int 4 i), x.map .varchar] →
      Printed testEnv.ff (b! "shop") (b! "t") (replaceStmt testEnv.ff (b! "shop") (b! "t") cs) [some (.int 4 i), none] := by
    intro i x cs hx hcs
    obtain ⟨os, k1, k2, k3⟩ := hcs
    have hnames : cs.map (·.name) = [b! "id", b! "DB_TRX_ID", b! "DB_ROLL_PTR", b! "name"] := (skels_names k1).trans rfl
    have hmt : cs.map (·.mtype) = [3, 0, 0, 15] := by
      have := congrArg (List.map (·.mtype)) k1
      rw [List.map_map, List.map_map] at this
      exact this
    exact null_printed testEnv.ff i _ (by rcases hx with rfl | rfl; exacts [.inl rfl, .inr rfl]) (b! "shop") (b! "t") (by decide) (by decide) hnames hmt
      (all2_imp (fun _ _ h hn => (h hn).1) k2) k3
  have hp : All2 (Printed testEnv.ff (b! "shop") (b! "t")) (rws.map (replaceStmt testEnv.ff (b! "shop") (b! "t"))) [[some (.int 4 1), none], [some (.int 4 2), none]] := by
    cases f2 with
    | @cons cs _ rws _ h1 h2 =>
      cases h2 with
      | @cons cs' _ rws _ h2 h3 =>
        cases h3
        exact .cons (key 1 (some (b! "NULL")) cs (.inl rfl) h1) (.cons (key 2 none cs' (.inr rfl) h2) .nil)
  have := exec_printed (sv := anyServer) (cols := columnsOf shopColumns 20) sameFirst hp (by
      intro row hrow
      have ht := (shopData_file testEnv hn false).typed
      rw [show columnsOf shopColumns 20 = [shopId, shopName] by decide] at ht ⊢
      rcases List.mem_cons.mp hrow with rfl | hrow
      · exact .cons (by rintro v ⟨⟩; exact ⟨rfl, by decide, by decide, rfl, rfl⟩) (.cons (by rintro v ⟨⟩) .nil)
      · cases List.mem_singleton.mp hrow
        exact .cons (by rintro v ⟨⟩; exact ⟨rfl, by decide, by decide, rfl, rfl⟩) (.cons (by rintro v ⟨⟩) .nil)) (by
      intro row hrow x hx
      rcases List.mem_cons.mp hrow with rfl | hrow
      · rcases List.mem_cons.mp hx with rfl | hx
        · trivial
        · cases List.mem_singleton.mp hx
          trivial
      · cases List.mem_singleton.mp hrow
        rcases List.mem_cons.mp hx with rfl | hx
        · trivial
        · cases List.mem_singleton.mp hx
          trivial) []
  have e3 := this.symm.trans e2
  exact absurd (Option.some.inj e3) (by
    show ¬ (List.foldl (replaceRow sameFirst) [] [[Orig.int 1, .null], [.int 2, .null]] = [[Orig.int 1, .text (b! "NULL")], [.int 2, .null]])
    decide)

end Verif.Props
