import Verif.Proofs.RedoNames
import Verif.Props.RedoWitness
/-!
# C84: the names given to the redo command only suppress statements
-/

namespace Verif.Props
open Verif Spec

/-- Statements for this table are printed when these names are given (see C43: those of the selected tables, and those of
tables with the selected name in another database). -/
def PrintedFor (db name : Bytes) (t : Table) : Prop := NameSelected db name t ∨ (name ≠ [] ∧ t.name = name)

instance (db name : Bytes) (t : Table) : Decidable (PrintedFor db name t) := by
  unfold PrintedFor NameSelected
  infer_instance

/-- A line of the output: a statement for a table, or something else. -/
structure Line where
  table : Option Table
  text : Bytes

/-- The line is an UPDATE statement for its table, which is in the dictionary; or it is no UPDATE statement at all. -/
def Line.Proper (tables : TableMap) (l : Line) : Prop :=
  match l.table with
  | none => ¬ (b! "update `") <+: l.text
  | some t => (∃ id, tables.get? id = some t) ∧ (b! "update `" ++ t.db ++ b! "`.`" ++ t.name ++ b! "` set ") <+: l.text

/-- The line is printed when these names are given. -/
def Line.Passes (db name : Bytes) (l : Line) : Prop := ∀ t, l.table = some t → PrintedFor db name t

instance (db name : Bytes) (l : Line) : Decidable (l.Passes db name) := by
  unfold Line.Passes
  cases l.table with
  | none => exact isTrue nofun
  | some t => exact decidable_of_iff (PrintedFor db name t) ⟨fun h _ e => (Option.some.inj e) ▸ h, fun h => h t rfl⟩

theorem passes_kept (cfg : RCfg) (e : Event) : Event.kept (filterPrints cfg) e = decide (Line.Passes cfg.dbName cfg.tableName ⟨e.1, e.2⟩) := by
  obtain ⟨t, l⟩ := e
  cases t with
  | none => exact (decide_eq_true (show Line.Passes _ _ ⟨none, l⟩ from nofun)).symm
  | some t =>
    show filterPrints cfg t = _
    rw [Bool.eq_iff_iff, filter_exact, decide_eq_true_iff]
    exact ⟨fun h _ e => (Option.some.inj e) ▸ h, fun h => h t rfl⟩

theorem lines_kept (cfg : RCfg) (es : List Event) : keptLines (filterPrints cfg) es =
    ((es.map fun e => (⟨e.1, e.2⟩ : Line)).filter fun l => decide (l.Passes cfg.dbName cfg.tableName)).map Line.text := by
  unfold keptLines
  rw [List.filter_map, List.map_map]
  have : es.filter (Event.kept (filterPrints cfg)) =
      es.filter ((fun l : Line => decide (l.Passes cfg.dbName cfg.tableName)) ∘ fun e : Event => (⟨e.1, e.2⟩ : Line)) :=
    List.filter_congr fun e _ => passes_kept cfg e
  rw [this]
  rfl

theorem lawful_proper {tables : TableMap} {ff : FloatFmt} {e : Event} (h : Lawful tables ff e) : Line.Proper tables ⟨e.1, e.2⟩ := by
  obtain ⟨t, l⟩ := e
  cases t with
  | none =>
    intro hp
    have h : isUpdateLine l = false := h
    unfold isUpdateLine at h
    rw [List.isPrefixOf_iff_prefix.mpr hp] at h
    cases h
  | some t =>
    obtain ⟨h1, pk, cols, h2⟩ := h
    refine ⟨h1, ?_⟩
    have h2 : l = _ := h2
    dsimp only
    rw [h2]
    unfold updateStmt
    exact ⟨joinAnd (cols.map (setText ff)) ++ (b! " where " ++ (joinAnd (pk.map (whereText ff)) ++ b! ";")), by simp only [List.append_assoc]⟩

/-- The lines that are printed when these names are given. -/
def printedLines (db name : Bytes) (ls : List Line) : List Bytes := (ls.filter fun l => decide (l.Passes db name)).map Line.text

/-- Without names, all lines are printed. -/
theorem printedLines_all (ls : List Line) : printedLines [] [] ls = ls.map Line.text := by
  unfold printedLines
  rw [List.filter_eq_self.mpr]
  intro l _
  exact decide_eq_true fun _ _ => Or.inl ⟨Or.inl rfl, Or.inl rfl⟩

/-- the same outcome with this output -/
def withOutput {α : Type} (c : R Unit α) (out : Out) : R Out α :=
  match c with
  | .ok a _ => .ok a out
  | .panic _ => .panic out
  | .hang _ => .hang out

/-- **C84, the log.** For every log, whatever its bytes are, there are one outcome of the parser and one sequence of lines, such
that for every choice of names the parser ends with this outcome, and prints the lines that are no statements or are
statements for a table that passes. -/
theorem C84_log (cfg : RCfg) (s : Stream) : ∃ (c : R Unit (Option Bytes)) (ls : List Line), (∀ l ∈ ls, l.Proper cfg.tables) ∧
    ∀ (db name : Bytes) (out : Out), parseRedoBlockData { cfg with dbName := db, tableName := name } s out =
      withOutput c (out ++ printedLines db name ls) := by
  obtain ⟨c, es, h1, h2⟩ := redoLoop_sim cfg s (s.data.length + 1) 0
  refine ⟨match c with | .ok e _ => .ok e () | .panic _ => .panic () | .hang _ => .hang (), es.map fun e => ⟨e.1, e.2⟩, ?_, ?_⟩
  · intro l hl
    obtain ⟨e, he, rfl⟩ := List.mem_map.mp hl
    exact lawful_proper (h1 e he)
  · intro db name out
    have := h2 (db, name) out
    change redoLoop (cfg.names (db, name)) s _ _ = fill c (out ++ keptLines (filterPrints (cfg.names (db, name))) es) at this
    rw [lines_kept] at this
    unfold parseRedoBlockData
    change (match redoLoop (cfg.names (db, name)) s _ _ with
      | .ok e st => R.ok e st.out
      | .panic st => R.panic st.out
      | .hang st => R.hang st.out) = _
    rw [this]
    cases c <;> rfl

theorem not_update (e : Bytes) : ¬ (b! "update `") <+: b! "parse redo failed, error:  " ++ e := by
  rintro ⟨t, h⟩
  injection h with h _
  exact absurd h (by decide)

/-- **C84.** For every system tablespace, every set of log files, readable or not, and every state of memory, there are one outcome
of the command and one sequence of lines, such that for every choice of names the command ends with this outcome, and prints
the lines that are no statements or are statements for a table that passes.  The names do not influence anything else: not
which records are decoded, not the values in the statements, not their order, not the messages. -/
theorem C84_command (env : Env) (fs : Bytes → File) (a : FromRedo) (spare : Nat) (out : Out) : ∃ (c : R Unit Unit) (ls : List Line),
    (∀ l ∈ ls, ∃ s, parseDictPage env a.sysFile { out := out } = .ok none s ∧ l.Proper s.tables) ∧
    ∀ (db name : Bytes), fromRedoFile env fs { a with db := db, table := name } spare out =
      withOutput c (out ++ printedLines db name ls) := by
  unfold fromRedoFile
  dsimp only
  cases hd : parseDictPage env a.sysFile { out := out } with
  | panic s =>
    have ho : s.out = out := dict_out env a.sysFile out hd
    exact ⟨.panic (), [], by simp, fun db name => by dsimp only; rw [ho]; exact congrArg R.panic (List.append_nil out).symm⟩
  | hang s =>
    have ho : s.out = out := dict_out env a.sysFile out hd
    exact ⟨.hang (), [], by simp, fun db name => by dsimp only; rw [ho]; exact congrArg R.hang (List.append_nil out).symm⟩
  | ok e s =>
    have ho : s.out = out := dict_out env a.sysFile out hd
    cases e with
    | some e => exact ⟨.ok () (), [], by simp, fun db name => by dsimp only; rw [ho]; exact congrArg (R.ok ()) (List.append_nil out).symm⟩
    | none =>
      dsimp only
      rw [ho]
      unfold parseRedoLogs
      cases readRedoFiles ((splitComma a.redoFile).map fs) [] with
      | panic => exact ⟨.panic (), [], by simp, fun db name => congrArg R.panic (List.append_nil out).symm⟩
      | err e =>
        refine ⟨.ok () (), [⟨none, b! "parse redo failed, error:  " ++ e⟩], ?_, fun db name => rfl⟩
        intro l hl
        rw [List.mem_singleton.mp hl]
        exact ⟨s, rfl, not_update e⟩
      | ok data =>
        obtain ⟨c, ls, h1, h2⟩ := C84_log ⟨env, s.tables, [], []⟩ ⟨data, spare⟩
        cases c with
        | panic u => exact ⟨.panic (), ls, fun l hl => ⟨s, rfl, h1 l hl⟩, fun db name => by
            have := h2 db name out
            dsimp only at this ⊢
            rw [this]
            rfl⟩
        | hang u => exact ⟨.hang (), ls, fun l hl => ⟨s, rfl, h1 l hl⟩, fun db name => by
            have := h2 db name out
            dsimp only at this ⊢
            rw [this]
            rfl⟩
        | ok e u =>
          cases e with
          | none => exact ⟨.ok () (), ls, fun l hl => ⟨s, rfl, h1 l hl⟩, fun db name => by
              have := h2 db name out
              dsimp only at this ⊢
              rw [this]
              rfl⟩
          | some e =>
            refine ⟨.ok () (), ls ++ [⟨none, b! "parse redo failed, error:  " ++ e⟩], fun l hl => ?_, fun db name => ?_⟩
            · rcases List.mem_append.mp hl with hl | hl
              · exact ⟨s, rfl, h1 l hl⟩
              · rw [List.mem_singleton.mp hl]
                exact ⟨s, rfl, not_update e⟩
            · have := h2 db name out
              dsimp only at this ⊢
              rw [this]
              show R.ok () (out ++ printedLines db name ls ++ _) = R.ok () (out ++ printedLines db name (ls ++ _))
              unfold printedLines
              rw [List.filter_append, List.map_append, List.append_assoc]
              rfl

/-- The names make a difference: of statements for `shop.t` and `shop.u` and a message, one statement and the message are
printed when the table `t` is selected. -/
example : printedLines (b! "shop") (b! "t") [⟨some { db := b! "shop", name := b! "t" }, b! "1"⟩, ⟨none, b! "2"⟩,
    ⟨some { db := b! "shop", name := b! "u" }, b! "3"⟩] = [b! "1", b! "2"] := by decide

/-- and the log of the table `shop.t` does lead to a statement -/
example (env : Env) (spare : Nat) : ∃ (c : R Unit Unit) (l : Line), l.text ≠ [] ∧
    fromRedoFile env (shopDisk (b! "bob")) { shopRedo with db := b! "shop", table := [] } spare [] = withOutput c [l.text] := by
  obtain ⟨lines, h1, h2⟩ := shop_redo env _ spare [] (shop_disk (.inl rfl))
  have h4 : fromRedoFile env (shopDisk (b! "bob")) { shopRedo with db := b! "shop", table := [] } spare [] = _ := h1
  cases h2 with
  | @cons line _ _ _ hl hr =>
    cases hr
    refine ⟨.ok () (), ⟨none, line⟩, ?_, h4⟩
    rintro rfl
    obtain ⟨u, hu, _⟩ := hl
    have : readUpdate [] = none := by decide
    rw [this] at hu
    cases hu

end Verif.Props
