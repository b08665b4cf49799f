import Verif.Props.Enum
import Verif.Props.Inject
/-!
# C99: generated columns

Since MySQL 5.7 a table can have generated columns.  A statement may not give a value for one: the server takes the word `DEFAULT` there and nothing
else (ER_NON_DEFAULT_VALUE_FOR_GENERATED_COLUMN).  The statements of the data command give a value for every column.
-/

set_option linter.unusedSimpArgs false

namespace Verif.Props
open Verif Spec

/-- The server runs the line on a table of `n` columns, of which `gen` are generated: it is a REPLACE without a list of columns, with a value
for each column, between commas, and the word `DEFAULT` for the generated ones.  Of the line, only what is outside of its literals is looked at. -/
def Accepted (n : Nat) (gen : Nat → Prop) (line : Bytes) : Prop :=
  ∃ shapes : List Bytes, shapes.length = n ∧ (∀ s ∈ shapes, 44 ∉ s) ∧
    outside .text line = some (b! "replace into ``.`` values (" ++ commaSeparated shapes ++ b! ");") ∧
    ∀ i s, shapes[i]? = some s → gen i → s = b! "DEFAULT"

/-- a statement such as the server takes for a table whose second column is generated -/
example : Accepted 2 (· = 1) (b! "replace into `shop`.`t` values ('7',DEFAULT);") :=
  ⟨[b! "''", b! "DEFAULT"], rfl, by decide, by decide, fun i s h hi => by
    cases (hi : i = 1)
    cases h
    rfl⟩

/-- **C99**, as stated: of a table whose rows are printed (C57), whichever of its columns are generated, the server runs the statements. -/
def C99_statement : Prop :=
  ∀ (env : Env) (a : FromData) (sys ibd : Bytes) (trs : List TableRow) (crs : List ColumnRow)
    (irs : List IndexRow) (frs : List FieldRow) (t : TableRow) (r : IndexRow) (l : List Column) (defs : List ColDef) (deleted : Bool)
    (rows : List (List (Option TVal))) (gen : Nat → Prop), PrintableFile env a sys ibd trs crs irs frs t r l defs deleted rows →
    TableFile env ibd r.id (columnsOf crs t.id) l defs deleted rows → a.tableFile = .ok ibd →
    ∀ out, ∃ lines, fromDataFile env a out = .ok () (out ++ lines) ∧ lines.length = rows.length ∧
      ∀ line ∈ lines, Accepted (columnsOf crs t.id).length gen line

/-! ## What is printed -/

theorem comma_mem {s : Bytes} {shapes : List Bytes} (h : s ∈ shapes) : ∀ c ∈ s, c ∈ commaSeparated shapes := by
  induction shapes with
  | nil => cases h
  | cons t ts ih =>
    intro c hc
    cases ts with
    | nil =>
      cases List.mem_singleton.mp h
      exact hc
    | cons t' ts =>
      show c ∈ t ++ b! "," ++ commaSeparated (t' :: ts)
      rcases List.mem_cons.mp h with rfl | h
      · simp [hc]
      · have := ih h c hc
        simp [this]

theorem comma_chars {shapes : List Bytes} (h : ∀ s ∈ shapes, s ∈ valueShapes) : 68 ∉ commaSeparated shapes := by
  induction shapes with
  | nil => intro hc; cases hc
  | cons t ts ih =>
    have h1 : (68 : UInt8) ∉ t := (by decide : ∀ s ∈ valueShapes, (68 : UInt8) ∉ s) t (h t (by simp))
    cases ts with
    | nil => exact h1
    | cons t' ts =>
      have h2 := ih fun s hs => h s (by simp [hs])
      intro hc
      have hc : (68 : UInt8) ∈ t ++ b! "," ++ commaSeparated (t' :: ts) := hc
      rcases List.mem_append.mp hc with hc | hc
      · rcases List.mem_append.mp hc with hc | hc
        · exact h1 hc
        · revert hc; decide
      · exact h2 hc

/-- a line as they are printed is not taken when a column is generated -/
theorem printed_refused {db table line : Bytes} {m n : Nat} {gen : Nat → Prop} (h : IsOneReplace db table m line) (i : Nat) (hi : i < n) (hg : gen i) :
    ¬ Accepted n gen line := by
  rintro ⟨shapes, h1, _, h2, h3⟩
  obtain ⟨_, ⟨shapes', _, h5, h6⟩, _⟩ := h
  rw [h2] at h6
  injection h6 with h6
  have h6 := List.append_cancel_left (List.append_cancel_right h6)
  have hs : shapes[i]? = some shapes[i] := List.getElem?_eq_getElem (by omega)
  have hd := h3 i _ hs hg
  have hm : b! "DEFAULT" ∈ shapes := by
    rw [← hd]
    exact List.getElem_mem _
  have : (68 : UInt8) ∈ commaSeparated shapes := comma_mem hm 68 (by decide)
  rw [h6] at this
  exact comma_chars h5 this

/-- **C99, never.** Whatever the data file holds, of a table with a generated column the command prints no statement that the server runs. -/
theorem C99_never (env : Env) (a : FromData) (out : Out) (s : DState) (content : Bytes) (n : Nat) (gen : Nat → Prop)
    (h : parseDictPage env a.sysFile { out := out } = .ok none s) (hf : a.tableFile = .ok content) (hdb : 96 ∉ a.db) (ht : 96 ∉ a.table)
    (i : Nat) (hi : i < n) (hg : gen i) :
    ∃ lines : List Bytes, (fromDataFile env a out).st = out ++ lines ∧ ∀ line ∈ lines, ¬ Accepted n gen line := by
  obtain ⟨lines, h1, h2⟩ := C81_command env a out s content h hf hdb ht
  refine ⟨lines, h1, fun line hl => ?_⟩
  rcases h2 line hl with rfl | h3
  · rintro ⟨shapes, _, _, h2, _⟩
    have e : outside .text (b! "test MYSQL_TYPE_NEWDECIMAL") = some (b! "test MYSQL_TYPE_NEWDECIMAL") := by decide
    rw [e] at h2
    injection h2 with h2
    cases h2
  · exact printed_refused h3 i hi hg

/-- the statements of a printable file, one for each row, with a value for each column -/
theorem printed_shapes (env : Env) (a : FromData) (sys ibd : Bytes) (trs : List TableRow) (crs : List ColumnRow)
    (irs : List IndexRow) (frs : List FieldRow) (t : TableRow) (r : IndexRow) (l : List Column) (defs : List ColDef) (deleted : Bool)
    (rows : List (List (Option TVal))) (hp : PrintableFile env a sys ibd trs crs irs frs t r l defs deleted rows)
    (hf : TableFile env ibd r.id (columnsOf crs t.id) l defs deleted rows) (hibd : a.tableFile = .ok ibd) (out : Out) :
    ∃ lines, fromDataFile env a out = .ok () (out ++ lines) ∧ lines.length = rows.length ∧
      ∀ line ∈ lines, IsOneReplace a.db a.table (columnsOf crs t.id).length line := by
  obtain ⟨rws, h1, h2⟩ := command_decoded env True a sys ibd trs crs irs frs t r l defs deleted rows hp.sysFile hibd hp.dict hp.table hp.name
    hp.layout hf hp.op hp.keys hp.handled hp.mark hp.compact hp.redundant
    (fun row hrow => all2_imp (fun c x h => ⟨fun _ => h, by rintro v rfl; exact h.1⟩) (hp.values row hrow)) out
  have h3 := decoded_printed env True trivial a.db a.table hp.db hp.tab h2
  have h4 := hp.values
  have hdb := hp.db
  have htab := hp.tab
  refine ⟨_, h1, all2_length h3, ?_⟩
  clear h1 hf hp hibd
  intro line hline
  induction h2 with
  | nil => cases hline
  | @cons rw row rws rows hd _ ih =>
    rw [List.map_cons] at h3 hline
    cases h3 with
    | cons h3 h3s =>
      rcases List.mem_cons.mp hline with rfl | hline
      · obtain ⟨vs, h5, h6⟩ := h3
        have h7 := C36_values env.ff a.db a.table rw hdb htab _ h5
        have h8 := all2_length h6
        rw [List.length_map] at h8
        have h9 := all2_length (h4 row (by simp))
        have h10 := one_replace env.ff a.db a.table rw hdb htab
        have e : (userColumns rw).length = (columnsOf crs t.id).length := by
          rw [← h7, h9]
          exact h8
        rwa [e] at h10
      · exact ih h3s (fun row hr => h4 row (by simp [hr])) hline

/-- **C99, exactly.** The server runs the statements if and only if no column is generated. -/
theorem C99_iff (env : Env) (a : FromData) (sys ibd : Bytes) (trs : List TableRow) (crs : List ColumnRow)
    (irs : List IndexRow) (frs : List FieldRow) (t : TableRow) (r : IndexRow) (l : List Column) (defs : List ColDef) (deleted : Bool)
    (rows : List (List (Option TVal))) (gen : Nat → Prop) (hp : PrintableFile env a sys ibd trs crs irs frs t r l defs deleted rows)
    (hf : TableFile env ibd r.id (columnsOf crs t.id) l defs deleted rows) (hibd : a.tableFile = .ok ibd) (out : Out) :
    ∃ lines, fromDataFile env a out = .ok () (out ++ lines) ∧ lines.length = rows.length ∧
      ∀ line ∈ lines, (Accepted (columnsOf crs t.id).length gen line ↔ ∀ i < (columnsOf crs t.id).length, ¬ gen i) := by
  obtain ⟨lines, h1, h2, h3⟩ := printed_shapes env a sys ibd trs crs irs frs t r l defs deleted rows hp hf hibd out
  refine ⟨lines, h1, h2, fun line hl => ⟨fun h i hi hg => printed_refused (h3 line hl) i hi hg h, fun h => ?_⟩⟩
  obtain ⟨_, ⟨shapes, h5, h7, h6⟩, _⟩ := h3 line hl
  refine ⟨shapes, h5, fun s hs => (by decide : ∀ s ∈ valueShapes, (44 : UInt8) ∉ s) s (h7 s hs), h6, fun i s hs hg => ?_⟩
  obtain ⟨hi, _⟩ := List.getElem?_eq_some_iff.mp hs
  exact absurd hg (h i (h5 ▸ hi))

/-- **C99 (partial).** When no column is generated.  Missing: tables with generated columns, for which no statement is taken (`C99_never`,
`C99_iff`, `C99_false`). -/
theorem C99_none_partial (env : Env) (a : FromData) (sys ibd : Bytes) (trs : List TableRow) (crs : List ColumnRow)
    (irs : List IndexRow) (frs : List FieldRow) (t : TableRow) (r : IndexRow) (l : List Column) (defs : List ColDef) (deleted : Bool)
    (rows : List (List (Option TVal))) (gen : Nat → Prop) (hp : PrintableFile env a sys ibd trs crs irs frs t r l defs deleted rows)
    (hf : TableFile env ibd r.id (columnsOf crs t.id) l defs deleted rows) (hibd : a.tableFile = .ok ibd)
    (hg : ∀ i < (columnsOf crs t.id).length, ¬ gen i) (out : Out) :
    ∃ lines, fromDataFile env a out = .ok () (out ++ lines) ∧ lines.length = rows.length ∧
      ∀ line ∈ lines, Accepted (columnsOf crs t.id).length gen line :=
  let ⟨lines, h1, h2, h3⟩ := C99_iff env a sys ibd trs crs irs frs t r l defs deleted rows gen hp hf hibd out
  ⟨lines, h1, h2, fun line hl => (h3 line hl).mpr hg⟩

/-- The table of `enumSys`, with its second column generated from the first. -/
theorem C99_false : ¬ C99_statement := by
  intro h
  obtain ⟨lines, h1, h2, h3⟩ := h testEnv enumArgs _ _ _ _ _ _ _ _ _ _ _ _ (· = 1) (enum_printable testEnv) (enum_file testEnv) rfl []
  obtain ⟨lines', h1', _, h3'⟩ := C99_iff testEnv enumArgs _ _ _ _ _ _ _ _ _ _ _ _ (· = 1) (enum_printable testEnv) (enum_file testEnv) rfl []
  rw [h1] at h1'
  injection h1' with _ h1'
  cases List.append_cancel_left h1'
  match lines, h2, h3, h3' with
  | [line], _, h3, h3' =>
    exact (h3' line (by simp)).mp (h3 line (by simp)) 1 (by rw [enum_columns]; decide) rfl

/-- the hypotheses of `C99_none_partial` hold, and the statement is taken when no column of the table is generated -/
example (env : Env) (out : Out) : ∃ lines, fromDataFile env enumArgs out = .ok () (out ++ lines) ∧ lines.length = 1 ∧
    ∀ line ∈ lines, Accepted 2 (fun _ => False) line := by
  have h := C99_none_partial env enumArgs _ _ _ _ _ _ _ _ _ _ _ _ (fun _ => False) (enum_printable env) (enum_file env) rfl (fun _ _ h => h) out
  rw [enum_columns] at h
  exact h

/-- the hypotheses of `C99_never` hold, and a statement is printed -/
example (env : Env) : ∃ s, parseDictPage env enumArgs.sysFile {} = .ok none s ∧
    ∃ line, (fromDataFile env enumArgs []).st = [line] ∧ ¬ Accepted 2 (· = 1) line := by
  have hp := enum_printable env
  obtain ⟨_, h1, _⟩ := loads_arranged env enumSys _ _ _ _ hp.dict.file hp.dict.indexes hp.keys
  obtain ⟨tables, dict, h3, _⟩ := h1 []
  refine ⟨_, h3, ?_⟩
  obtain ⟨lines, h4, h5, _⟩ := printed_shapes env enumArgs _ _ _ _ _ _ _ _ _ _ _ _ hp (enum_file env) rfl []
  obtain ⟨lines', h6, h7⟩ := C99_never env enumArgs [] _ _ 2 (· = 1) h3 rfl hp.db hp.tab 1 (by decide) rfl
  rw [h4] at h6 ⊢
  cases (h6 : [] ++ lines = [] ++ lines')
  match lines, h5, h7 with
  | [line], _, h7 => exact ⟨line, rfl, h7 line (by simp)⟩

end Verif.Props
