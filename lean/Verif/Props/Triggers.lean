import Verif.Props.AutoIncrement

/-!
# C123: tables with triggers

The server executes the triggers of a table for REPLACE statements: a BEFORE INSERT trigger can change the new row or refuse it, and an AFTER
INSERT trigger can write rows to other tables.  The rows of a data file have been through these triggers already when they were inserted.
-/

namespace Verif.Props
open Verif Spec

/-- The triggers of a table for inserted rows. -/
structure Triggers where
  /-- BEFORE INSERT: the row that is stored instead; `none`: the trigger signals an error -/
  before : List Orig → Option (List Orig)
  /-- AFTER INSERT: the rows that are written to another table -/
  after : List Orig → List (List Orig)

/-- Execute REPLACE statements on a table with triggers; the state is the rows of the table and those of the other table that the triggers write
to, and `none` is an error that ends the script. -/
def execTriggered (sv : Server) (cols : List Column) (same : List Orig → List Orig → Bool) (tr : Triggers) (db table : Bytes) :
    List (List Orig) × List (List Orig) → List Replace → Option (List (List Orig) × List (List Orig))
  | s, [] => some s
  | s, st :: ss =>
    if st.db = db ∧ st.table = table then (assignRow sv cols st.values).bind fun row => (tr.before row).bind fun row =>
      execTriggered sv cols same tr db table (replaceRow same s.1 row, s.2 ++ tr.after row) ss
    else none

def execScriptTriggered (sv : Server) (cols : List Column) (same : List Orig → List Orig → Bool) (tr : Triggers) (db table : Bytes) (script : Bytes)
    (s : List (List Orig) × List (List Orig)) : Option (List (List Orig) × List (List Orig)) :=
  (readReplaces script).bind (execTriggered sv cols same tr db table s)

/-- **C123**, as stated: the standard output of the data command, executed on an empty table with triggers, gives exactly the rows of the file (of a
file whose rows are printed, C57) and leaves other tables as they are. -/
def C123_statement : Prop :=
  ∀ (env : Env) (a : FromData) (sys ibd : Bytes) (trs : List TableRow) (crs : List ColumnRow) (irs : List IndexRow) (frs : List FieldRow)
    (t : TableRow) (r : IndexRow) (l : List Column) (defs : List ColDef) (deleted : Bool) (rows : List (List (Option TVal)))
    (sv : Server) (same : List Orig → List Orig → Bool) (tr : Triggers) (other : List (List Orig)),
    PrintableFile env a sys ibd trs crs irs frs t r l defs deleted rows →
    TableFile env ibd r.id (columnsOf crs t.id) l defs deleted rows → a.tableFile = .ok ibd →
    (∀ row ∈ rows, ∀ x ∈ row, ReadsNumber sv env.ff x) → (rows.map (sqlRow env.ff)).Pairwise (fun r r' => same r r' = false) →
    ∃ lines, fromDataFile env a [] = .ok () lines ∧
      execScriptTriggered sv (columnsOf crs t.id) same tr a.db a.table (stdout lines) ([], other) = some (rows.map (sqlRow env.ff), other)

/-! ## Executing -/

/-- what the BEFORE INSERT trigger makes of rows -/
def fired (tr : Triggers) : List (List Orig) → Option (List (List Orig))
  | [] => some []
  | row :: rows => (tr.before row).bind fun x => (fired tr rows).map (x :: ·)

theorem exec_triggered {sv : Server} {ff : FloatFmt} {cols : List Column} (same : List Orig → List Orig → Bool) (tr : Triggers) {db table : Bytes}
    {lines : List Bytes} {rows : List (List (Option TVal))} (h : All2 (Printed ff db table) lines rows)
    (ht : ∀ row ∈ rows, All2 (fun c x => ∀ v, x = some v → v.Of c) cols row) (hr : ∀ row ∈ rows, ∀ x ∈ row, ReadsNumber sv ff x)
    (t other : List (List Orig)) :
    execScriptTriggered sv cols same tr db table (stdout lines) (t, other) =
      (fired tr (rows.map (sqlRow ff))).map fun new => (new.foldl (replaceRow same) t, other ++ new.flatMap tr.after) := by
  have : ∃ ss, All2 (fun l s => readReplace l = some s) lines ss ∧ All2 (fun s row => s.db = db ∧ s.table = table ∧ All2 (Denotes ff) s.values (sqlRow ff row)) ss rows := by
    clear ht hr
    induction h with
    | nil => exact ⟨[], .nil, .nil⟩
    | cons h _ ih =>
      obtain ⟨ss, h1, h2⟩ := ih
      obtain ⟨vs, h3, h4⟩ := h
      exact ⟨_ :: ss, .cons h3 h1, .cons ⟨rfl, rfl, h4⟩ h2⟩
  obtain ⟨ss, h1, h2⟩ := this
  unfold execScriptTriggered
  rw [readReplaces_lines h1, Option.bind_some]
  clear h h1
  induction h2 generalizing t other with
  | nil => simp [execTriggered, fired]
  | @cons s row ss rows h3 _ ih =>
    rw [execTriggered, if_pos ⟨h3.1, h3.2.1⟩, assignRow_denotes (ht row List.mem_cons_self) (hr row List.mem_cons_self) h3.2.2, Option.bind_some,
      List.map_cons, fired]
    cases tr.before (sqlRow ff row) with
    | none => rfl
    | some x =>
      rw [Option.bind_some, Option.bind_some, ih (fun x hx => ht x (List.mem_cons_of_mem _ hx)) fun x hx => hr x (List.mem_cons_of_mem _ hx)]
      cases fired tr (rows.map (sqlRow ff)) with
      | none => rfl
      | some new => simp [List.append_assoc]

/-- **What executing gives:** the rows as the BEFORE INSERT trigger changes them, each in place of the rows with its key, and in the other table what
the AFTER INSERT trigger writes for each of them; or an error, if the trigger refuses a row. -/
theorem C123_exact (env : Env) (a : FromData) (sys ibd : Bytes) (trs : List TableRow) (crs : List ColumnRow) (irs : List IndexRow) (frs : List FieldRow)
    (t : TableRow) (r : IndexRow) (l : List Column) (defs : List ColDef) (deleted : Bool) (rows : List (List (Option TVal)))
    (sv : Server) (same : List Orig → List Orig → Bool) (tr : Triggers) (cur other : List (List Orig))
    (hp : PrintableFile env a sys ibd trs crs irs frs t r l defs deleted rows)
    (ht : TableFile env ibd r.id (columnsOf crs t.id) l defs deleted rows) (hf : a.tableFile = .ok ibd)
    (hr : ∀ row ∈ rows, ∀ x ∈ row, ReadsNumber sv env.ff x) :
    ∃ lines, fromDataFile env a [] = .ok () lines ∧ execScriptTriggered sv (columnsOf crs t.id) same tr a.db a.table (stdout lines) (cur, other) =
      (fired tr (rows.map (sqlRow env.ff))).map fun new =>
        (cur.filter (fun r => !new.any (same r)) ++ latest same new, other ++ new.flatMap tr.after) := by
  obtain ⟨lines, h1, h2⟩ := C57_command_partial env a sys ibd trs crs irs frs t r l defs deleted rows hp.sysFile hf hp.dict hp.table hp.name hp.layout
    ht hp.op hp.keys hp.handled hp.mark hp.compact hp.redundant hp.values hp.db hp.tab []
  refine ⟨lines, by simpa using h1, ?_⟩
  rw [exec_triggered same tr h2 (fun row hrow => all2_imp (fun c x h v hv => (h v hv).1) (ht.typed row hrow)) hr cur other]
  cases fired tr (rows.map (sqlRow env.ff)) with
  | none => rfl
  | some new => rw [Option.map_some, Option.map_some, replaced]

theorem replace_sublist (same : List Orig → List Orig → Bool) (t rows : List (List Orig)) : (rows.foldl (replaceRow same) t).Sublist (t ++ rows) := by
  induction rows generalizing t with
  | nil => rw [List.append_nil]; exact List.Sublist.refl _
  | cons row rows ih =>
    rw [List.foldl_cons]
    refine (ih _).trans ?_
    unfold replaceRow
    rw [List.append_assoc, List.singleton_append]
    exact List.Sublist.append List.filter_sublist (List.Sublist.refl _)

theorem fired_length {tr : Triggers} {rows new : List (List Orig)} (h : fired tr rows = some new) : new.length = rows.length := by
  induction rows generalizing new with
  | nil => cases h; rfl
  | cons row rows ih =>
    rw [fired] at h
    cases hb : tr.before row with
    | none => rw [hb] at h; cases h
    | some x =>
      rw [hb, Option.bind_some] at h
      cases hn : fired tr rows with
      | none => rw [hn] at h; cases h
      | some n => rw [hn] at h; cases h; simp [ih hn]

theorem fired_self {tr : Triggers} {rows : List (List Orig)} : fired tr rows = some rows ↔ ∀ row ∈ rows, tr.before row = some row := by
  induction rows with
  | nil => simp [fired]
  | cons row rows ih =>
    rw [fired]
    cases hb : tr.before row with
    | none => simp [hb]
    | some x =>
      cases hn : fired tr rows with
      | none =>
        have : ¬ ∀ row ∈ rows, tr.before row = some row := fun h => by rw [ih.mpr h] at hn; cases hn
        simp only [Option.bind_some, Option.map_none, List.mem_cons, forall_eq_or_imp, reduceCtorEq, false_iff, not_and]
        exact fun _ => this
      | some n =>
        rw [hn] at ih
        simp only [Option.bind_some, Option.map_some, Option.some.injEq, List.cons.injEq, List.mem_cons, forall_eq_or_imp, hb]
        exact and_congr_right fun _ => (Option.some.injEq _ _ ▸ ih)

/-- **C123, exactly:** the rows come back and the other table stays as it is if and only if the BEFORE INSERT trigger leaves all rows as they are and
the AFTER INSERT trigger writes nothing for them. -/
theorem C123_iff (env : Env) (a : FromData) (sys ibd : Bytes) (trs : List TableRow) (crs : List ColumnRow) (irs : List IndexRow) (frs : List FieldRow)
    (t : TableRow) (r : IndexRow) (l : List Column) (defs : List ColDef) (deleted : Bool) (rows : List (List (Option TVal)))
    (sv : Server) (same : List Orig → List Orig → Bool) (tr : Triggers) (other : List (List Orig))
    (hp : PrintableFile env a sys ibd trs crs irs frs t r l defs deleted rows)
    (ht : TableFile env ibd r.id (columnsOf crs t.id) l defs deleted rows) (hf : a.tableFile = .ok ibd)
    (hr : ∀ row ∈ rows, ∀ x ∈ row, ReadsNumber sv env.ff x) (hd : (rows.map (sqlRow env.ff)).Pairwise (fun r r' => same r r' = false)) :
    (∃ lines, fromDataFile env a [] = .ok () lines ∧ execScriptTriggered sv (columnsOf crs t.id) same tr a.db a.table (stdout lines) ([], other) =
      some (rows.map (sqlRow env.ff), other)) ↔
    ∀ row ∈ rows.map (sqlRow env.ff), tr.before row = some row ∧ tr.after row = [] := by
  obtain ⟨lines, h1, h2⟩ := C57_command_partial env a sys ibd trs crs irs frs t r l defs deleted rows hp.sysFile hf hp.dict hp.table hp.name hp.layout
    ht hp.op hp.keys hp.handled hp.mark hp.compact hp.redundant hp.values hp.db hp.tab []
  have h1 : fromDataFile env a [] = .ok () lines := by simpa using h1
  have h3 := exec_triggered same tr h2 (fun row hrow => all2_imp (fun c x h v hv => (h v hv).1) (ht.typed row hrow)) hr [] other
  generalize rows.map (sqlRow env.ff) = rs at *
  constructor
  · rintro ⟨lines', k1, k2⟩
    rw [h1] at k1
    injection k1 with _ k1
    subst k1
    rw [h3] at k2
    cases hn : fired tr rs with
    | none => rw [hn] at k2; cases k2
    | some new =>
      rw [hn, Option.map_some, Option.some.injEq, Prod.mk.injEq] at k2
      obtain ⟨e1, e2⟩ := k2
      have hs := replace_sublist same [] new
      rw [e1, List.nil_append] at hs
      obtain rfl : rs = new := hs.eq_of_length (fired_length hn).symm
      have hb := fired_self.mp hn
      rw [List.append_right_eq_self, List.flatMap_eq_nil_iff] at e2
      exact fun row hrow => ⟨hb row hrow, e2 row hrow⟩
  · intro h
    refine ⟨lines, h1, ?_⟩
    rw [h3, fired_self.mpr fun row hrow => (h row hrow).1, Option.map_some, List.flatMap_eq_nil_iff.mpr fun row hrow => (h row hrow).2, List.append_nil,
      replaced, List.filter_nil, List.nil_append, latest_distinct hd]

/-- **C123 (partial):** true if the triggers let the rows pass.  (Missing: exactly the tables where they do not, see `C123_iff`.) -/
theorem C123_restores_partial (env : Env) (a : FromData) (sys ibd : Bytes) (trs : List TableRow) (crs : List ColumnRow) (irs : List IndexRow) (frs : List FieldRow)
    (t : TableRow) (r : IndexRow) (l : List Column) (defs : List ColDef) (deleted : Bool) (rows : List (List (Option TVal)))
    (sv : Server) (same : List Orig → List Orig → Bool) (tr : Triggers) (other : List (List Orig))
    (hp : PrintableFile env a sys ibd trs crs irs frs t r l defs deleted rows)
    (ht : TableFile env ibd r.id (columnsOf crs t.id) l defs deleted rows) (hf : a.tableFile = .ok ibd)
    (hr : ∀ row ∈ rows, ∀ x ∈ row, ReadsNumber sv env.ff x) (hd : (rows.map (sqlRow env.ff)).Pairwise (fun r r' => same r r' = false))
    (hpass : ∀ row ∈ rows.map (sqlRow env.ff), tr.before row = some row ∧ tr.after row = []) :
    ∃ lines, fromDataFile env a [] = .ok () lines ∧ execScriptTriggered sv (columnsOf crs t.id) same tr a.db a.table (stdout lines) ([], other) =
      some (rows.map (sqlRow env.ff), other) :=
  (C123_iff env a sys ibd trs crs irs frs t r l defs deleted rows sv same tr other hp ht hf hr hd).mpr hpass

/-! ## Counterexample: the table of the shop with the rows (1, 'ann') and (2, NULL) -/

/-- a trigger that records the numbers of new rows in another table -/
def recording : Triggers := ⟨some, fun row => [row.take 1]⟩
/-- a trigger that writes a name for rows without one -/
def naming : Triggers := ⟨fun row => if row[1]? = some .null then some (row.set 1 (.text (b! "nobody"))) else some row, fun _ => []⟩
/-- a trigger that refuses rows without a name -/
def refusing : Triggers := ⟨fun row => if row[1]? = some .null then none else some row, fun _ => []⟩

theorem shop_pairwise : [[Orig.int 1, .text (b! "ann")], [.int 2, .null]].Pairwise (fun r r' => sameFirst r r' = false) := by decide

theorem shop_triggered (env : Env) (sv : Server) (tr : Triggers) (other : List (List Orig)) :
    ∃ lines, fromDataFile env (shopArgs (b! "ann") false) [] = .ok () lines ∧
      execScriptTriggered sv (columnsOf shopColumns 20) sameFirst tr (b! "shop") (b! "t") (stdout lines) ([], other) =
        (fired tr [[.int 1, .text (b! "ann")], [.int 2, .null]]).map fun new => (latest sameFirst new, other ++ new.flatMap tr.after) :=
  C123_exact env (shopArgs (b! "ann") false) _ _ _ _ _ _ _ _ _ _ false (shopRows (b! "ann") false) sv sameFirst tr [] other (shop_whole env false)
    (shopData_file env (.inl rfl) false) rfl (shop_numbers _ _ _ _)

/-- The other table gets a second record of each row; a row without a name gets one; the script ends with an error. -/
theorem C123_lost (env : Env) (sv : Server) (other : List (List Orig)) : ∃ lines, fromDataFile env (shopArgs (b! "ann") false) [] = .ok () lines ∧
    execScriptTriggered sv (columnsOf shopColumns 20) sameFirst recording (b! "shop") (b! "t") (stdout lines) ([], other) =
      some ([[.int 1, .text (b! "ann")], [.int 2, .null]], other ++ [[.int 1], [.int 2]]) ∧
    execScriptTriggered sv (columnsOf shopColumns 20) sameFirst naming (b! "shop") (b! "t") (stdout lines) ([], other) =
      some ([[.int 1, .text (b! "ann")], [.int 2, .text (b! "nobody")]], other ++ []) ∧
    execScriptTriggered sv (columnsOf shopColumns 20) sameFirst refusing (b! "shop") (b! "t") (stdout lines) ([], other) = none := by
  obtain ⟨lines, h1, h2⟩ := shop_triggered env sv recording other
  obtain ⟨lines2, h3, h4⟩ := shop_triggered env sv naming other
  obtain ⟨lines3, h5, h6⟩ := shop_triggered env sv refusing other
  rw [h1] at h3 h5
  cases h3
  cases h5
  exact ⟨lines, h1, h2, h4, h6⟩

/-- **C123 is false:** a trigger that records new rows. -/
theorem C123_false : ¬ C123_statement := by
  intro h
  have := h testEnv (shopArgs (b! "ann") false) _ _ _ _ _ _ _ _ _ _ false (shopRows (b! "ann") false) anyServer sameFirst recording []
    (shop_whole testEnv false) (shopData_file testEnv (.inl rfl) false) rfl (shop_numbers _ _ _ _) shop_pairwise
  have := ((C123_iff testEnv (shopArgs (b! "ann") false) _ _ _ _ _ _ _ _ _ _ false (shopRows (b! "ann") false) anyServer sameFirst recording []
    (shop_whole testEnv false) (shopData_file testEnv (.inl rfl) false) rfl (shop_numbers _ _ _ _) shop_pairwise).mp this
    [.int 1, .text (b! "ann")] List.mem_cons_self).2
  cases this

/-- The hypotheses of `C123_restores_partial`: a trigger that refuses rows with the number 0. -/
example (env : Env) (sv : Server) (other : List (List Orig)) : ∃ lines, fromDataFile env (shopArgs (b! "ann") false) [] = .ok () lines ∧
    execScriptTriggered sv (columnsOf shopColumns 20) sameFirst ⟨fun row => if row[0]? = some (.int 0) then none else some row, fun _ => []⟩ (b! "shop")
      (b! "t") (stdout lines) ([], other) = some ([[.int 1, .text (b! "ann")], [.int 2, .null]], other) :=
  C123_restores_partial env (shopArgs (b! "ann") false) _ _ _ _ _ _ _ _ _ _ false (shopRows (b! "ann") false) sv sameFirst _ other (shop_whole env false)
    (shopData_file env (.inl rfl) false) rfl (shop_numbers _ _ _ _) shop_pairwise (by
      show ∀ row ∈ [[Orig.int 1, .text (b! "ann")], [.int 2, .null]], (if row[0]? = some (.int 0) then none else some row) = some row ∧ _
      intro row hrow
      rcases List.mem_cons.mp hrow with rfl | hrow
      · exact ⟨rfl, rfl⟩
      · cases List.mem_singleton.mp hrow
        exact ⟨rfl, rfl⟩)

end Verif.Props
