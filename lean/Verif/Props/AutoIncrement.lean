import Verif.Props.Enum
import Verif.Props.Repeat
/-!
# C91: rows with the value 0 in an AUTO_INCREMENT column
-/

namespace Verif.Props
open Verif Spec

/-! ## A server with an AUTO_INCREMENT column -/

/-- What is stored of a row, and the next value of the counter: 0 and NULL in the AUTO_INCREMENT column (the one with index `j`) stand for the next
value (without the SQL mode NO_AUTO_VALUE_ON_ZERO), and the counter stays above the values that are given. -/
def autoRow (j next : Nat) (row : List Orig) : List Orig × Nat :=
  match row[j]? with
  | some .null => (row.set j (.int next), next + 1)
  | some (.int i) => if i = 0 then (row.set j (.int next), next + 1) else (row, max next (i.toNat + 1))
  | _ => (row, next)

/-- what is stored of rows -/
def autoRows (j : Nat) : Nat → List (List Orig) → List (List Orig)
  | _, [] => []
  | next, row :: rows => (autoRow j next row).1 :: autoRows j (autoRow j next row).2 rows

/-- Execute REPLACE statements on a table with an AUTO_INCREMENT column. -/
def execAuto (sv : Server) (cols : List Column) (same : List Orig → List Orig → Bool) (j : Nat) (db table : Bytes) :
    Nat → List (List Orig) → List Replace → Option (List (List Orig))
  | _, t, [] => some t
  | next, t, s :: ss =>
    if s.db = db ∧ s.table = table then (assignRow sv cols s.values).bind fun row =>
      execAuto sv cols same j db table (autoRow j next row).2 (replaceRow same t (autoRow j next row).1) ss
    else none

def execScriptAuto (sv : Server) (cols : List Column) (same : List Orig → List Orig → Bool) (j next : Nat) (db table : Bytes) (script : Bytes)
    (t : List (List Orig)) : Option (List (List Orig)) := (readReplaces script).bind (execAuto sv cols same j db table next t)

/-- **C91**, as stated: the standard output of the data command, executed on an empty table with an AUTO_INCREMENT column, gives exactly the rows
of the file (of a file whose rows are printed, C57). -/
def C91_statement : Prop :=
  ∀ (env : Env) (a : FromData) (sys ibd : Bytes) (trs : List TableRow) (crs : List ColumnRow) (irs : List IndexRow) (frs : List FieldRow)
    (t : TableRow) (r : IndexRow) (l : List Column) (defs : List ColDef) (deleted : Bool) (rows : List (List (Option TVal)))
    (sv : Server) (same : List Orig → List Orig → Bool) (j : Nat), PrintableFile env a sys ibd trs crs irs frs t r l defs deleted rows →
    TableFile env ibd r.id (columnsOf crs t.id) l defs deleted rows → a.tableFile = .ok ibd →
    (∀ row ∈ rows, ∀ x ∈ row, ReadsNumber sv env.ff x) → (rows.map (sqlRow env.ff)).Pairwise (fun r r' => same r r' = false) →
    (∀ row ∈ rows.map (sqlRow env.ff), ∃ i : Int, row[j]? = some (.int i)) →
    ∃ lines, fromDataFile env a [] = .ok () lines ∧
      execScriptAuto sv (columnsOf crs t.id) same j 1 a.db a.table (stdout lines) [] = some (rows.map (sqlRow env.ff))

/-! ## Executing -/

theorem exec_auto {sv : Server} {ff : FloatFmt} {cols : List Column} (same : List Orig → List Orig → Bool) (j : Nat) {db table : Bytes}
    {lines : List Bytes} {rows : List (List (Option TVal))} (h : All2 (Printed ff db table) lines rows)
    (ht : ∀ row ∈ rows, All2 (fun c x => ∀ v, x = some v → v.Of c) cols row) (hr : ∀ row ∈ rows, ∀ x ∈ row, ReadsNumber sv ff x) (next : Nat)
    (t : List (List Orig)) :
    execScriptAuto sv cols same j next db table (stdout lines) t = some ((autoRows j next (rows.map (sqlRow ff))).foldl (replaceRow same) t) := by
  have : ∃ ss, All2 (fun l s => readReplace l = some s) lines ss ∧ All2 (fun s row => s.db = db ∧ s.table = table ∧ All2 (Denotes ff) s.values (sqlRow ff row)) ss rows := by
    clear ht hr
    induction h with
    | nil => exact ⟨[], .nil, .nil⟩
    | cons h _ ih =>
      obtain ⟨ss, h1, h2⟩ := ih
      obtain ⟨vs, h3, h4⟩ := h
      exact ⟨_ :: ss, .cons h3 h1, .cons ⟨rfl, rfl, h4⟩ h2⟩
  obtain ⟨ss, h1, h2⟩ := this
  unfold execScriptAuto
  rw [readReplaces_lines h1, Option.bind_some]
  clear h h1
  induction h2 generalizing t next with
  | nil => rfl
  | @cons s row ss rows h3 _ ih =>
    rw [execAuto, if_pos ⟨h3.1, h3.2.1⟩, assignRow_denotes (ht row List.mem_cons_self) (hr row List.mem_cons_self) h3.2.2, Option.bind_some,
      ih (fun x hx => ht x (List.mem_cons_of_mem _ hx)) fun x hx => hr x (List.mem_cons_of_mem _ hx)]
    rfl

/-- a row that gets a value of the counter -/
def Unset (j : Nat) (row : List Orig) : Prop := row[j]? = some (.int 0) ∨ row[j]? = some .null

theorem autoRow_set {j next : Nat} {row : List Orig} (h : Unset j row) : autoRow j next row = (row.set j (.int next), next + 1) := by
  unfold autoRow
  rcases h with h | h
  · rw [h]
    exact if_pos rfl
  · rw [h]

theorem autoRow_kept {j next : Nat} {row : List Orig} (h : ¬ Unset j row) : (autoRow j next row).1 = row := by
  unfold autoRow
  split
  · rename_i hx
    exact absurd (.inr hx) h
  · rename_i i hx
    rw [if_neg]
    rintro rfl
    exact h (.inl hx)
  · rfl

theorem autoRow_next {j next : Nat} (row : List Orig) (h : 1 ≤ next) : 1 ≤ (autoRow j next row).2 := by
  unfold autoRow
  split
  · omega
  · split <;> dsimp only <;> omega
  · exact h

theorem autoRow_given {j next : Nat} (row : List Orig) (h : 1 ≤ next) : ¬ Unset j (autoRow j next row).1 := by
  by_cases hu : Unset j row
  · rw [autoRow_set hu]
    have hj : j < row.length := by
      rcases hu with hu | hu <;> exact (List.getElem?_eq_some_iff.mp hu).1
    rintro (h' | h')
    · rw [List.getElem?_set_self hj] at h'
      injection h' with h'
      injection h' with h'
      omega
    · rw [List.getElem?_set_self hj] at h'
      cases h'
  · rw [autoRow_kept hu]
    exact hu

theorem autoRows_given {j next : Nat} {rows : List (List Orig)} (h : 1 ≤ next) : ∀ row ∈ autoRows j next rows, ¬ Unset j row := by
  induction rows generalizing next with
  | nil => intro _ h; cases h
  | cons r rs ih =>
    intro row hrow
    rcases List.mem_cons.mp hrow with rfl | hrow
    · exact autoRow_given r h
    · exact ih (autoRow_next r h) row hrow

theorem autoRows_kept {j next : Nat} {rows : List (List Orig)} (h : ∀ row ∈ rows, ¬ Unset j row) : autoRows j next rows = rows := by
  induction rows generalizing next with
  | nil => rfl
  | cons r rs ih => rw [autoRows, autoRow_kept (h r List.mem_cons_self), ih fun x hx => h x (List.mem_cons_of_mem _ hx)]

/-- **What executing gives:** the rows, with the values of the counter, each in place of the rows with its key. -/
theorem C91_exact (env : Env) (a : FromData) (sys ibd : Bytes) (trs : List TableRow) (crs : List ColumnRow) (irs : List IndexRow) (frs : List FieldRow)
    (t : TableRow) (r : IndexRow) (l : List Column) (defs : List ColDef) (deleted : Bool) (rows : List (List (Option TVal)))
    (sv : Server) (same : List Orig → List Orig → Bool) (j next : Nat) (cur : List (List Orig))
    (hp : PrintableFile env a sys ibd trs crs irs frs t r l defs deleted rows)
    (ht : TableFile env ibd r.id (columnsOf crs t.id) l defs deleted rows) (hf : a.tableFile = .ok ibd)
    (hr : ∀ row ∈ rows, ∀ x ∈ row, ReadsNumber sv env.ff x) :
    ∃ lines, fromDataFile env a [] = .ok () lines ∧ execScriptAuto sv (columnsOf crs t.id) same j next a.db a.table (stdout lines) cur =
      some (cur.filter (fun r => !(autoRows j next (rows.map (sqlRow env.ff))).any (same r)) ++
        latest same (autoRows j next (rows.map (sqlRow env.ff)))) := by
  obtain ⟨lines, h1, h2⟩ := C57_command_partial env a sys ibd trs crs irs frs t r l defs deleted rows hp.sysFile hf hp.dict hp.table hp.name hp.layout
    ht hp.op hp.keys hp.handled hp.mark hp.compact hp.redundant hp.values hp.db hp.tab []
  refine ⟨lines, by simpa using h1, ?_⟩
  rw [exec_auto same j h2 (fun row hrow => all2_imp (fun c x h v hv => (h v hv).1) (ht.typed row hrow)) hr next cur, replaced]

/-- **C91, exactly:** the rows come back if and only if none of them has 0 or NULL in the AUTO_INCREMENT column. -/
theorem C91_iff (env : Env) (a : FromData) (sys ibd : Bytes) (trs : List TableRow) (crs : List ColumnRow) (irs : List IndexRow) (frs : List FieldRow)
    (t : TableRow) (r : IndexRow) (l : List Column) (defs : List ColDef) (deleted : Bool) (rows : List (List (Option TVal)))
    (sv : Server) (same : List Orig → List Orig → Bool) (j next : Nat) (hnext : 1 ≤ next)
    (hp : PrintableFile env a sys ibd trs crs irs frs t r l defs deleted rows)
    (ht : TableFile env ibd r.id (columnsOf crs t.id) l defs deleted rows) (hf : a.tableFile = .ok ibd)
    (hr : ∀ row ∈ rows, ∀ x ∈ row, ReadsNumber sv env.ff x) (hd : (rows.map (sqlRow env.ff)).Pairwise (fun r r' => same r r' = false)) :
    (∃ lines, fromDataFile env a [] = .ok () lines ∧
      execScriptAuto sv (columnsOf crs t.id) same j next a.db a.table (stdout lines) [] = some (rows.map (sqlRow env.ff))) ↔
    ∀ row ∈ rows.map (sqlRow env.ff), row[j]? ≠ some (.int 0) ∧ row[j]? ≠ some .null := by
  obtain ⟨lines, h1, h2⟩ := C91_exact env a sys ibd trs crs irs frs t r l defs deleted rows sv same j next [] hp ht hf hr
  constructor
  · rintro ⟨lines', k1, k2⟩ row hrow
    rw [h1] at k1
    injection k1 with _ k1
    subst k1
    rw [h2] at k2
    have := Option.some.inj k2
    rw [List.filter_nil, List.nil_append] at this
    rw [← this] at hrow
    have hu := autoRows_given hnext row (latest_mem hrow)
    exact ⟨fun h => hu (.inl h), fun h => hu (.inr h)⟩
  · intro h
    have hk : autoRows j next (rows.map (sqlRow env.ff)) = rows.map (sqlRow env.ff) :=
      autoRows_kept fun row hrow hu => hu.elim (h row hrow).1 (h row hrow).2
    exact ⟨lines, h1, by rw [h2, hk, latest_distinct hd]; rfl⟩

/-- **C91 (partial):** true if the AUTO_INCREMENT column nowhere holds 0.  (Missing: exactly the tables where it does, see `C91_iff`.) -/
theorem C91_restores_partial (env : Env) (a : FromData) (sys ibd : Bytes) (trs : List TableRow) (crs : List ColumnRow) (irs : List IndexRow) (frs : List FieldRow)
    (t : TableRow) (r : IndexRow) (l : List Column) (defs : List ColDef) (deleted : Bool) (rows : List (List (Option TVal)))
    (sv : Server) (same : List Orig → List Orig → Bool) (j : Nat) (hp : PrintableFile env a sys ibd trs crs irs frs t r l defs deleted rows)
    (ht : TableFile env ibd r.id (columnsOf crs t.id) l defs deleted rows) (hf : a.tableFile = .ok ibd)
    (hr : ∀ row ∈ rows, ∀ x ∈ row, ReadsNumber sv env.ff x) (hd : (rows.map (sqlRow env.ff)).Pairwise (fun r r' => same r r' = false))
    (hj : ∀ row ∈ rows.map (sqlRow env.ff), ∃ i : Int, row[j]? = some (.int i) ∧ i ≠ 0) :
    ∃ lines, fromDataFile env a [] = .ok () lines ∧
      execScriptAuto sv (columnsOf crs t.id) same j 1 a.db a.table (stdout lines) [] = some (rows.map (sqlRow env.ff)) := by
  refine (C91_iff env a sys ibd trs crs irs frs t r l defs deleted rows sv same j 1 (by omega) hp ht hf hr hd).mpr fun row hrow => ?_
  obtain ⟨i, h1, h2⟩ := hj row hrow
  rw [h1]
  exact ⟨fun h => h2 (by injection h with h; injection h), fun h => by cases h⟩

/-! ## Counterexample

The table of the shop with the rows (0, 'ann') and (1, NULL). -/

def zeroRows : List (List (Option TVal)) := [[some (.int 4 0), some (.varchar (b! "ann"))], [some (.int 4 1), none]]
def zeroIdCells (i : Int) (x : Option TVal) : List Cell := [cellOfVal (some (.int 4 i)), .val (zeros 6), .val (zeros 7), cellOfVal x]
def zeroLive : List (List Cell) := [zeroIdCells 0 (some (.varchar (b! "ann"))), zeroIdCells 1 none]
def zeroData : Bytes := writeTable 30 shopDefs zeroLive []
def zeroArgs : FromData :=
  { sysFile := .ok (shopFile idKey), tableFile := .ok zeroData, db := b! "shop", table := b! "t", opType := b! "RecoveryStruct" }

theorem zero_file (env : Env) : TableFile env zeroData 30 (columnsOf shopColumns 20) (shopLayout 20) shopDefs false zeroRows :=
  table_written env 30 _ _ _ zeroLive [] false zeroRows (by decide) (by decide) (by decide) (by decide) (by decide) (by decide)
    (by decide) (by
      rw [show columnsOf shopColumns 20 = [shopId, shopName] by decide]
      exact .cons (.cons ⟨0, rfl, rfl⟩ (.cons ⟨3, rfl, rfl⟩ .nil)) (.cons (.cons ⟨0, rfl, rfl⟩ (.cons ⟨3, rfl, rfl⟩ .nil)) .nil))
    (by
      intro row hrow
      rw [show columnsOf shopColumns 20 = [shopId, shopName] by decide]
      rcases List.mem_cons.mp hrow with rfl | hrow
      · refine .cons ?_ (.cons ?_ .nil)
        · rintro v ⟨⟩
          exact ⟨⟨rfl, by decide, by decide, rfl, rfl⟩, by decide, by decide, by decide⟩
        · rintro v ⟨⟩
          exact ⟨rfl, trivial⟩
      · cases List.mem_singleton.mp hrow
        refine .cons ?_ (.cons ?_ .nil)
        · rintro v ⟨⟩
          exact ⟨⟨rfl, by decide, by decide, rfl, rfl⟩, by decide, by decide, by decide⟩
        · rintro v ⟨⟩)

theorem zero_whole (env : Env) : PrintableFile env zeroArgs (shopFile idKey) zeroData shopTables shopColumns
    (shopIndexes idKey) (shopFields idKey) ⟨b! "shop/t", 20, 5⟩ ⟨20, 30, b! "PRIMARY", 1, 3⟩ (shopLayout 20) shopDefs false zeroRows where
  sysFile := rfl
  dict := shop_dictionary (.inl rfl)
  table := by decide
  name := rfl
  layout := shop_layout _ (by decide)
  op := by show false = true ↔ b! "RecoveryStruct" = b! "RecoveryData"; decide
  keys := shop_arranged
  handled := shop_handled _ (by decide)
  mark := table_marked 30 shopDefs zeroLive [] false (by decide) (by decide)
  compact := fun _ _ _ => by decide
  redundant := fun d hd hc => by
    rw [table_compact 30 shopDefs zeroLive [] (by decide) (by decide) false d hd] at hc
    cases hc
  values := by
    intro row hrow
    rw [show columnsOf shopColumns 20 = [shopId, shopName] by decide]
    rcases List.mem_cons.mp hrow with rfl | hrow
    · exact .cons ⟨trivial, trivial⟩ (.cons ⟨trivial, ⟨by decide, by decide⟩⟩ .nil)
    · cases List.mem_singleton.mp hrow
      exact .cons ⟨trivial, trivial⟩ (.cons (by show shopName.mtype ≠ _; decide) .nil)
  db := by show 96 ∉ b! "shop"; decide
  tab := by show 96 ∉ b! "t"; decide

theorem zero_numbers (sv : Server) (ff : FloatFmt) : ∀ row ∈ zeroRows, ∀ x ∈ row, ReadsNumber sv ff x := by
  intro row hrow x hx
  rcases List.mem_cons.mp hrow with rfl | hrow
  · rcases List.mem_cons.mp hx with rfl | hx
    · trivial
    · cases List.mem_singleton.mp hx
      trivial
  · cases List.mem_singleton.mp hrow
    rcases List.mem_cons.mp hx with rfl | hx
    · trivial
    · cases List.mem_singleton.mp hx
      trivial

/-- The row with the number 0 gets the number 1, and the row that has the number 1 takes its place: one of two rows is left. -/
theorem C91_lost (env : Env) (sv : Server) : ∃ lines, fromDataFile env zeroArgs [] = .ok () lines ∧
    execScriptAuto sv (columnsOf shopColumns 20) sameFirst 0 1 (b! "shop") (b! "t") (stdout lines) [] = some [[.int 1, .null]] :=
  C91_exact env zeroArgs _ _ _ _ _ _ _ _ _ _ false zeroRows sv sameFirst 0 1 [] (zero_whole env) (zero_file env) rfl (zero_numbers _ _)

/-- **C91 is false:** the table with the rows 0 and 1. -/
theorem C91_false : ¬ C91_statement := by
  intro h
  have := h testEnv zeroArgs _ _ _ _ _ _ _ _ _ _ false zeroRows anyServer sameFirst 0 (zero_whole testEnv) (zero_file testEnv) rfl
    (zero_numbers _ _) (by
      show [[Orig.int 0, .text (b! "ann")], [.int 1, .null]].Pairwise _
      decide) (by
      show ∀ row ∈ [[Orig.int 0, .text (b! "ann")], [.int 1, .null]], ∃ i : Int, row[0]? = some (.int i)
      intro row hrow
      rcases List.mem_cons.mp hrow with rfl | hrow
      · exact ⟨0, rfl⟩
      · cases List.mem_singleton.mp hrow
        exact ⟨1, rfl⟩)
  exact ((C91_iff testEnv zeroArgs _ _ _ _ _ _ _ _ _ _ false zeroRows anyServer sameFirst 0 1 (by decide) (zero_whole testEnv) (zero_file testEnv) rfl
    (zero_numbers _ _) (by
      show [[Orig.int 0, .text (b! "ann")], [.int 1, .null]].Pairwise _
      decide)).mp this [.int 0, .text (b! "ann")] List.mem_cons_self).1 rfl

/-- the hypotheses of `C91_restores_partial` and `C91_iff`: the table of the shop, with the rows 1 and 2 -/
example (env : Env) (sv : Server) : ∃ lines, fromDataFile env (shopArgs (b! "ann") false) [] = .ok () lines ∧
    execScriptAuto sv (columnsOf shopColumns 20) sameFirst 0 1 (b! "shop") (b! "t") (stdout lines) [] =
      some [[.int 1, .text (b! "ann")], [.int 2, .null]] :=
  C91_restores_partial env (shopArgs (b! "ann") false) _ _ _ _ _ _ _ _ _ _ false (shopRows (b! "ann") false) sv sameFirst 0 (shop_whole env false)
    (shopData_file env (.inl rfl) false) rfl (shop_numbers _ _ _ _) (by
      show [[Orig.int 1, .text (b! "ann")], [.int 2, .null]].Pairwise _
      decide) (by
      show ∀ row ∈ [[Orig.int 1, .text (b! "ann")], [.int 2, .null]], ∃ i : Int, row[0]? = some (.int i) ∧ i ≠ 0
      intro row hrow
      rcases List.mem_cons.mp hrow with rfl | hrow
      · exact ⟨1, rfl, by decide⟩
      · cases List.mem_singleton.mp hrow
        exact ⟨2, rfl, by decide⟩)

end Verif.Props
