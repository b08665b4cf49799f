import Verif.Proofs.Keeps
import Verif.Props.RedoCommand
import Verif.Props.RedoUpdate
import Verif.Props.RedoCut
/-!
# C83: the division of the log into blocks and files

The log bytes of all files are collected in one buffer.  How much memory Go's `append` has reserved behind them depends on the pieces in which
they were appended, and some slice expressions of the decoder are checked against the reserved memory and not against the log
(`Stream.spare`).
-/

set_option linter.unusedSimpArgs false

namespace Verif.Props
open Verif Spec

/-- The log files consist of these pieces, one per block. -/
def LogFiles (files : List File) (parts : List (List Bytes)) : Prop :=
  All2 (fun chunks f => ∃ content, f = .ok content ∧ IsLogFile chunks content) parts files

/-- The full claim of C83: the same log, divided in another way, with any amount of reserved memory, gives the same run. -/
def C83_statement : Prop :=
  ∀ (cfg : RCfg) (files files' : List File) (parts parts' : List (List Bytes)) (spare spare' : Nat) (out : Out),
    LogFiles files parts → LogFiles files' parts' → parts.flatten.flatten = parts'.flatten.flatten →
    parseRedoLogs cfg files spare out = parseRedoLogs cfg files' spare' out

/-- a table without columns of the types FLOAT, DOUBLE and DECIMAL -/
def Exactly (t : Table) : Prop :=
  ∀ c ∈ t.columns, c.ftype ≠ DATA_FLOAT ∧ c.ftype ≠ DATA_DOUBLE ∧ ¬ (c.ftype = DATA_FIXBINARY ∧ c.mtype = MYSQL_TYPE_NEWDECIMAL)

/-! ## Key values -/

theorem matchParse_beyond {d : Bytes} {pos : Nat} (h : d.length < pos) : matchParseCompressed d pos = none := by
  have : read1 d pos = none := by
    unfold read1 sliceFrom
    rw [if_neg (by omega)]
    rfl
  unfold matchParseCompressed
  rw [this]
  rfl

/-- the undo record will be given up: the decoder has panicked, or the cursor is behind the end of the log -/
def Doomed (d : Bytes) (o : Out) : R RS (Ret (List PkVal)) → Prop
  | .panic st => st.out = o
  | .ok (.ok _) st => d.length < st.pos ∧ st.out = o
  | _ => False

theorem pkLoop_beyond (cfg : RCfg) (s : Stream) (table : Table) (fs : List IdxField) (st : RS) (h : s.data.length < st.pos) :
    Doomed s.data st.out (pkLoop cfg s table fs st) := by
  cases fs with
  | nil => exact ⟨h, rfl⟩
  | cons f fs =>
    have : here matchParseCompressed s.data st = .panic st := by
      unfold here
      rw [matchParse_beyond h]
    unfold pkLoop
    dsimp only
    rw [GoM.bind_run, this]
    rfl

theorem column_exactly {table : Table} (h : Exactly table) (name : Bytes) :
    (getColumnsByName table name).ftype ≠ DATA_FLOAT ∧ (getColumnsByName table name).ftype ≠ DATA_DOUBLE ∧
      ¬ isDecimal (getColumnsByName table name).ftype (getColumnsByName table name).mtype := by
  unfold getColumnsByName
  cases hf : table.columns.find? (·.name == name) with
  | none => exact ⟨by decide, by decide, by decide⟩
  | some c => exact h c (List.mem_of_find?_eq_some hf)

theorem sliceCap_within {s : Stream} {lo hi : Nat} (h1 : lo ≤ hi) (h2 : hi ≤ s.data.length) :
    sliceCap s lo hi = some ((s.data.drop lo).take (hi - lo)) := by
  unfold sliceCap
  rw [if_pos ⟨h1, by omega⟩, List.drop_append_of_le_length (by omega), List.take_append_of_le_length (by rw [List.length_drop]; omega)]

theorem withSpare_exactly {table : Table} (h : Exactly table) (name : Bytes) (s : Stream) (pos : Nat) (v : Bytes) :
    withSpare s (getColumnsByName table name).ftype pos v = v := by
  obtain ⟨c1, c2, _⟩ := column_exactly h name
  unfold withSpare
  rw [if_neg (by simp [c1, c2])]

theorem here_some {α : Type} {f : Bytes → Nat → Option α} {d : Bytes} {st : RS} {a : α} (h : f d st.pos = some a) : here f d st = .ok a st := by
  unfold here
  rw [h]

theorem here_none {α : Type} {f : Bytes → Nat → Option α} {d : Bytes} {st : RS} (h : f d st.pos = none) : here f d st = .panic st := by
  unfold here
  rw [h]

/-- a value that extends beyond the end of the log -/
theorem pkLoop_over (cfg : RCfg) (s : Stream) (table : Table) (h : Exactly table) (f : IdxField) (fs : List IdxField) (st : RS) (pc : PC)
    (hp : matchParseCompressed s.data st.pos = some pc) (he : pc.err = none) (hout : s.data.length < st.pos + pc.num + pc.val) :
    Doomed s.data st.out (pkLoop cfg s table (f :: fs) st) := by
  obtain ⟨_, _, c3⟩ := column_exactly h f.name
  unfold pkLoop
  dsimp only
  rw [GoM.bind_run, here_some hp]
  dsimp only
  rw [he]
  dsimp only
  simp only [GoM.bind_run, addPos, GoM.modify, getPos]
  cases hc : sliceCap s (st.pos + pc.num) (st.pos + pc.num + pc.val) with
  | none => rfl
  | some slice =>
    simp only [GoM.lift, withSpare_exactly h, outM, GoM.zoom]
    have hq := parseData_quiet cfg.env (getColumnsByName table f.name).ftype (getColumnsByName table f.name).mtype slice pc.val
      (getFixedLength (getColumnsByName table f.name).ftype (getColumnsByName table f.name).len)
      (getColumnsByName table f.name).isUnsigned (getColumnsByName table f.name).isBinary c3 st.out st.out rfl
    have hh := parseData_noHang cfg.env (getColumnsByName table f.name).ftype (getColumnsByName table f.name).mtype slice pc.val
      (getFixedLength (getColumnsByName table f.name).ftype (getColumnsByName table f.name).len)
      (getColumnsByName table f.name).isUnsigned (getColumnsByName table f.name).isBinary st.out
    revert hq hh
    generalize parseData cfg.env (getColumnsByName table f.name).ftype _ _ _ _ _ _ st.out = r
    intro hq hh
    cases r with
    | panic o => exact hq
    | hang o => exact absurd rfl (hh o)
    | ok v o =>
      have ho : o = st.out := hq
      subst ho
      dsimp only
      have hb := pkLoop_beyond cfg s table fs { pos := st.pos + pc.num + pc.val, out := st.out } hout
      revert hb
      generalize pkLoop cfg s table fs { pos := st.pos + pc.num + pc.val, out := st.out } = r
      intro hb
      cases r with
      | ok a s =>
        cases a with
        | error e => exact hb.elim
        | ok rest => exact hb
      | panic s => exact hb
      | hang s => exact hb.elim

theorem pkLoop_same (cfg : RCfg) (d : Bytes) (sp sp' : Nat) (table : Table) (h : Exactly table) (fs : List IdxField) (st : RS) :
    pkLoop cfg ⟨d, sp⟩ table fs st = pkLoop cfg ⟨d, sp'⟩ table fs st ∨
      (Doomed d st.out (pkLoop cfg ⟨d, sp⟩ table fs st) ∧ Doomed d st.out (pkLoop cfg ⟨d, sp'⟩ table fs st)) := by
  induction fs generalizing st with
  | nil => exact .inl rfl
  | cons f fs ih =>
    obtain ⟨_, _, c3⟩ := column_exactly h f.name
    cases hp : matchParseCompressed d st.pos with
    | none =>
      left
      unfold pkLoop
      dsimp only
      rw [GoM.bind_run, GoM.bind_run, here_none hp]
    | some pc =>
      cases he : pc.err with
      | some e =>
        left
        unfold pkLoop
        dsimp only
        rw [GoM.bind_run, GoM.bind_run, here_some hp]
        dsimp only
        rw [he]
      | none =>
        by_cases hin : st.pos + pc.num + pc.val ≤ d.length
        · have hl : ∀ spare : Nat, sliceCap ⟨d, spare⟩ (st.pos + pc.num) (st.pos + pc.num + pc.val) =
              some ((d.drop (st.pos + pc.num)).take (st.pos + pc.num + pc.val - (st.pos + pc.num))) := fun spare =>
            sliceCap_within (s := ⟨d, spare⟩) (by omega) hin
          unfold pkLoop
          dsimp only
          rw [GoM.bind_run, GoM.bind_run, here_some hp]
          dsimp only
          rw [he]
          dsimp only
          simp only [GoM.bind_run, addPos, GoM.modify, getPos, hl, GoM.lift, withSpare_exactly h, outM, GoM.zoom]
          have hq := parseData_quiet cfg.env (getColumnsByName table f.name).ftype (getColumnsByName table f.name).mtype
            ((d.drop (st.pos + pc.num)).take (st.pos + pc.num + pc.val - (st.pos + pc.num))) pc.val
            (getFixedLength (getColumnsByName table f.name).ftype (getColumnsByName table f.name).len)
            (getColumnsByName table f.name).isUnsigned (getColumnsByName table f.name).isBinary c3 st.out st.out rfl
          revert hq
          generalize parseData cfg.env (getColumnsByName table f.name).ftype _ _ _ _ _ _ st.out = r
          intro hq
          cases r with
          | panic o => exact .inl rfl
          | hang o => exact .inl rfl
          | ok v o =>
            have ho : o = st.out := hq
            subst ho
            dsimp only
            rcases ih { pos := st.pos + pc.num + pc.val, out := st.out } with hi | ⟨h1, h2⟩
            · rw [hi]; exact .inl rfl
            · refine .inr ⟨?_, ?_⟩
              · revert h1
                generalize pkLoop cfg ⟨d, sp⟩ table fs { pos := st.pos + pc.num + pc.val, out := st.out } = r
                intro hb
                cases r with
                | ok a s =>
                  cases a with
                  | error e => exact hb.elim
                  | ok rest => exact hb
                | panic s => exact hb
                | hang s => exact hb.elim
              · revert h2
                generalize pkLoop cfg ⟨d, sp'⟩ table fs { pos := st.pos + pc.num + pc.val, out := st.out } = r
                intro hb
                cases r with
                | ok a s =>
                  cases a with
                  | error e => exact hb.elim
                  | ok rest => exact hb
                | panic s => exact hb
                | hang s => exact hb.elim
        · exact .inr ⟨pkLoop_over cfg ⟨d, sp⟩ table h f fs st pc hp he (by show d.length < _; omega),
            pkLoop_over cfg ⟨d, sp'⟩ table h f fs st pc hp he (by show d.length < _; omega)⟩

/-! ## The undo record -/

theorem updLoop_same (cfg : RCfg) (d : Bytes) (sp sp' : Nat) (table : Table) (h : Exactly table) (n : Nat) :
    updLoop cfg ⟨d, sp⟩ table n = updLoop cfg ⟨d, sp'⟩ table n := by
  induction n with
  | zero => rfl
  | succ n ih =>
    have hv : ∀ c ∈ table.columns, ∀ pos len, updValue cfg ⟨d, sp⟩ c pos len = updValue cfg ⟨d, sp'⟩ c pos len := by
      intro c hc pos len
      have hw : ∀ (s : Stream) (v : Bytes), withSpare s c.ftype pos v = v := by
        intro s v
        unfold withSpare
        rw [if_neg (by simp [(h c hc).1, (h c hc).2.1])]
      unfold updValue
      simp only [hw]
    unfold updLoop
    rw [ih]
    dsimp only
    congr 1
    funext pc
    cases pc.err with
    | some e => rfl
    | none =>
      dsimp only
      cases hc : getColumnByPos table pc.val with
      | none => rfl
      | some c =>
        have := hv c (List.mem_of_getElem? hc)
        simp only [this]

/-- what becomes of a panic in an undo record -/
def caught (E : Nat) : R RS (Option Bytes) → R RS (Option Bytes)
  | .panic s => .ok none { s with pos := E }
  | r => r

theorem undoTable_same (cfg : RCfg) (d : Bytes) (sp sp' startPos dataLen undoType : Nat) (table : Table) (h : Exactly table) (st : RS) :
    caught (startPos + dataLen) (undoTable cfg ⟨d, sp⟩ startPos dataLen undoType table st) =
      caught (startPos + dataLen) (undoTable cfg ⟨d, sp'⟩ startPos dataLen undoType table st) := by
  have hd : ∀ spare, Doomed d st.out (pkLoop cfg ⟨d, spare⟩ table (getPrimaryKey table.indexes []) st) →
      caught (startPos + dataLen) (undoTable cfg ⟨d, spare⟩ startPos dataLen undoType table st) = .ok none ⟨startPos + dataLen, st.out⟩ := by
    intro spare hb
    unfold undoTable
    rw [GoM.bind_run]
    revert hb
    generalize pkLoop cfg ⟨d, spare⟩ table (getPrimaryKey table.indexes []) st = r
    intro hb
    cases r with
    | hang s => exact hb.elim
    | panic s =>
      have hb : s.out = st.out := hb
      show R.ok none (⟨startPos + dataLen, s.out⟩ : RS) = _
      rw [hb]
    | ok a s =>
      cases a with
      | error e => exact hb.elim
      | ok pk =>
        obtain ⟨h1, h2⟩ := hb
        dsimp only
        rw [← h2]
        by_cases hu : undoType = TRX_UNDO_UPD_EXIST_REC
        · rw [if_pos hu, GoM.bind_run, here_none (matchParse_beyond h1)]
          rfl
        · rw [if_neg hu]
          rfl
  rcases pkLoop_same cfg d sp sp' table h (getPrimaryKey table.indexes []) st with he | ⟨h1, h2⟩
  · unfold undoTable
    rw [GoM.bind_run, GoM.bind_run, he]
    simp only [updLoop_same cfg d sp sp' table h]
  · rw [hd sp h1, hd sp' h2]

theorem caught_bind {α : Type} (E : Nat) (m : RM α) (f f' : α → RM (Option Bytes)) (st : RS) (h : ∀ a t, caught E (f a t) = caught E (f' a t)) :
    caught E ((m >>= f) st) = caught E ((m >>= f') st) := by
  rw [GoM.bind_run, GoM.bind_run]
  cases m st with
  | ok a t => exact h a t
  | panic t => rfl
  | hang t => rfl

theorem lookup_mem {α : Type} {k : Nat} {v : α} {m : List (Nat × α)} (h : List.lookup k m = some v) : (k, v) ∈ m := by
  induction m with
  | nil => cases h
  | cons e m ih =>
    rw [List.lookup_cons] at h
    split at h
    · rename_i hk
      cases h
      rw [show k = e.1 by simpa using hk]
      exact List.mem_cons_self ..
    · exact List.mem_cons_of_mem _ (ih h)

theorem undoBody_same (cfg : RCfg) (d : Bytes) (sp sp' startPos dataLen : Nat) (h : ∀ t ∈ cfg.tables, Exactly t.2) (st : RS) :
    caught (startPos + dataLen) (undoBody cfg ⟨d, sp⟩ startPos dataLen st) = caught (startPos + dataLen) (undoBody cfg ⟨d, sp'⟩ startPos dataLen st) := by
  unfold undoBody
  dsimp only
  refine caught_bind _ _ _ _ _ fun tc st => ?_
  refine caught_bind _ _ _ _ _ fun _ st => ?_
  refine caught_bind _ _ _ _ _ fun _ st => ?_
  refine caught_bind _ _ _ _ _ fun x st => ?_
  obtain ⟨undoNo, err⟩ := x
  cases err with
  | some e => rfl
  | none =>
    dsimp only
    refine caught_bind _ _ _ _ _ fun _ st => ?_
    refine caught_bind _ _ _ _ _ fun _ st => ?_
    refine caught_bind _ _ _ _ _ fun y st => ?_
    obtain ⟨tableID, err⟩ := y
    cases err with
    | some e => rfl
    | none =>
      dsimp only
      refine caught_bind _ _ _ _ _ fun _ st => ?_
      refine caught_bind _ _ _ _ _ fun _ st => ?_
      cases ht : cfg.tables.get? tableID with
      | none => rfl
      | some table =>
        refine undoTable_same cfg d sp sp' startPos dataLen _ table ?_ st
        exact h (tableID, table) (lookup_mem ht)

theorem undo_same (cfg : RCfg) (d : Bytes) (sp sp' : Nat) (h : ∀ t ∈ cfg.tables, Exactly t.2) :
    mlogUndoInsert cfg ⟨d, sp⟩ = mlogUndoInsert cfg ⟨d, sp'⟩ := by
  have hc : ∀ (m : RM (Option Bytes)) E st, GoM.recover m none (fun st => { st with pos := E }) st = caught E (m st) := by
    intro m E st
    unfold GoM.recover
    cases m st <;> rfl
  have hr : ∀ startPos dataLen, GoM.recover (undoBody cfg ⟨d, sp⟩ startPos dataLen) none (fun st => { st with pos := startPos + dataLen }) =
      GoM.recover (undoBody cfg ⟨d, sp'⟩ startPos dataLen) none (fun st => { st with pos := startPos + dataLen }) := by
    intro startPos dataLen
    funext st
    rw [hc, hc, undoBody_same cfg d sp sp' startPos dataLen h]
  unfold mlogUndoInsert
  simp only [hr]

/-! ## The log -/

theorem log_same (cfg : RCfg) (d : Bytes) (sp sp' : Nat) (h : ∀ t ∈ cfg.tables, Exactly t.2) :
    parseRedoBlockData cfg ⟨d, sp⟩ = parseRedoBlockData cfg ⟨d, sp'⟩ := by
  have h1 : dispatch cfg ⟨d, sp⟩ = dispatch cfg ⟨d, sp'⟩ := by
    funext t
    unfold dispatch
    rw [undo_same cfg d sp sp' h]
  have h2 : redoStep cfg ⟨d, sp⟩ = redoStep cfg ⟨d, sp'⟩ := by
    unfold redoStep
    rw [h1]
  have h3 : ∀ fuel, redoLoop cfg ⟨d, sp⟩ fuel = redoLoop cfg ⟨d, sp'⟩ fuel := by
    intro fuel
    induction fuel with
    | zero => rfl
    | succ fuel ih =>
      unfold redoLoop
      rw [h2, ih]
  funext out
  unfold parseRedoBlockData
  rw [h3]

/-- **C83 (partial).** True of every log, damaged or not, if the tables of the dictionary have no columns of the types FLOAT, DOUBLE and
DECIMAL.  Missing: tables with such columns (`C83_false`); for them it holds of logs whose records the decoder follows
(`C83_records_partial`). -/
theorem C83_division_partial (cfg : RCfg) (files files' : List File) (parts parts' : List (List Bytes)) (spare spare' : Nat)
    (h : LogFiles files parts) (h' : LogFiles files' parts') (hs : parts.flatten.flatten = parts'.flatten.flatten)
    (hx : ∀ t ∈ cfg.tables, Exactly t.2) : parseRedoLogs cfg files spare = parseRedoLogs cfg files' spare' := by
  rw [C38_parse cfg files parts spare h, C38_parse cfg files' parts' spare' h', hs, log_same cfg _ spare spare' hx]

/-- With the same amount of reserved memory it is true without exception. -/
theorem C83_same_memory (cfg : RCfg) (files files' : List File) (parts parts' : List (List Bytes)) (spare : Nat)
    (h : LogFiles files parts) (h' : LogFiles files' parts') (hs : parts.flatten.flatten = parts'.flatten.flatten) :
    parseRedoLogs cfg files spare = parseRedoLogs cfg files' spare := by
  rw [C38_parse cfg files parts spare h, C38_parse cfg files' parts' spare h', hs]

/-- **C83 (partial)**, all tables, logs whose records the decoder follows (see C42). -/
theorem C83_records_partial (cfg : RCfg) (files files' : List File) (parts parts' : List (List Bytes)) (spare spare' : Nat) (its : List Item)
    (lss : List (List Bytes)) (h : LogFiles files parts) (h' : LogFiles files' parts') (hs : parts.flatten.flatten = parts'.flatten.flatten)
    (hi : parts.flatten.flatten = its.flatMap Item.enc) (hf : ∀ it ∈ its, it.Fits) (hl : All2 (Lines cfg) its lss) (hah : Ahead its)
    (hlen : (its.flatMap Item.enc).length < 2 ^ 32) (out : Out) :
    parseRedoLogs cfg files spare out = .ok none (out ++ lss.flatten) ∧ parseRedoLogs cfg files' spare' out = .ok none (out ++ lss.flatten) := by
  rw [C38_parse cfg files parts spare h, C38_parse cfg files' parts' spare' h', ← hs, hi, C42_log_partial _ spare its lss hf hl hah hlen out,
    C42_log_partial _ spare' its lss hf hl hah hlen out]
  exact ⟨rfl, rfl⟩

/-- a dictionary with a table without such columns -/
example : ∀ t ∈ (exCfg { name := b! "c", ftype := 12, mtype := 15, len := 20 }).tables, Exactly t.2 := by
  unfold Exactly
  decide

/-! ## The last value of the log is a FLOAT of two bytes -/

def floatColumn : Column := { name := b! "c", ftype := 9, mtype := 4, len := 4 }

def floatRecord : Bytes := (Item.record false 0 300 (.undoInsert (exUndo (some [63, 128])))).enc

theorem float_file : LogFiles [.ok (zeroPreamble.bytes ++ [plainBlock floatRecord].flatten ++ [])] [[floatRecord]] :=
  .cons ⟨_, rfl, zeroPreamble, [plainBlock floatRecord], [], zeroPreamble_valid, .cons (plainBlock_is (by decide)) .nil, .inl rfl, rfl⟩ .nil

set_option maxRecDepth 4000 in
theorem float_spare : parseRedoBlockData (exCfg floatColumn) ⟨floatRecord, 2⟩ [] = .ok none [b! "update `d`.`t` set `c`='' where `id`='7';"] ∧
    parseRedoBlockData (exCfg floatColumn) ⟨floatRecord, 0⟩ [] = .ok none [] := by decide

/-- **C83 is false:** whether the statement is printed depends on the memory reserved behind the log. -/
theorem C83_false : ¬ C83_statement := by
  intro h
  have h1 := h (exCfg floatColumn) _ _ _ _ 2 0 [] float_file float_file rfl
  rw [C38_parse _ _ _ 2 float_file, C38_parse _ _ _ 0 float_file] at h1
  change parseRedoBlockData (exCfg floatColumn) ⟨(floatRecord ++ []) ++ [], 2⟩ [] = parseRedoBlockData (exCfg floatColumn) ⟨(floatRecord ++ []) ++ [], 0⟩ [] at h1
  rw [List.append_nil, List.append_nil, float_spare.1, float_spare.2] at h1
  cases h1

end Verif.Props
