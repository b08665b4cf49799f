import Verif.Props.OnUpdate

/-!
# C124: the redo command and tables with triggers

The server executes the UPDATE triggers of a table for each row that an UPDATE statement finds: a BEFORE UPDATE trigger can change the new row or refuse
it, and an AFTER UPDATE trigger can write rows to other tables.
-/

namespace Verif.Props
open Verif Spec

/-- The triggers of the tables for updated rows; both are given the database, the table, the old row and the new one. -/
structure UpdateTriggers where
  /-- BEFORE UPDATE: the row that is stored instead of the new one; `none`: the trigger signals an error -/
  before : Bytes → Bytes → NamedRow → NamedRow → Option NamedRow
  /-- AFTER UPDATE: the rows that are written to another table -/
  after : Bytes → Bytes → NamedRow → NamedRow → List (List Orig)

/-- UPDATE of one row: the row that results, and the rows that the trigger writes -/
def updateFiring (tr : UpdateTriggers) (db table : Bytes) (key sets : List (Bytes × Orig)) (r : NamedRow) : Option (NamedRow × List (List Orig)) :=
  if hasAll key r then (tr.before db table r (setAll sets r)).map fun r' => (r', tr.after db table r r') else some (r, [])

/-- UPDATE of the rows of a table with this key; the second part of the state is the other table. -/
def updateRowsFiring (tr : UpdateTriggers) (db table : Bytes) (key sets : List (Bytes × Orig)) (S : Tables × List (List Orig)) :
    Option (Tables × List (List Orig)) :=
  ((S.1 db table).mapM (updateFiring tr db table key sets)).map fun ps =>
    (fun d t => if d = db ∧ t = table then ps.map (·.1) else S.1 d t, S.2 ++ ps.flatMap (·.2))

/-- Execute one UPDATE. -/
def execFiring (sv : Server) (cols : Bytes → Bytes → List Column) (tr : UpdateTriggers) (S : Tables × List (List Orig)) (u : Update) :
    Option (Tables × List (List Orig)) :=
  (u.sets.mapM (evalNamed sv (cols u.db u.table))).bind fun sets =>
    (u.conds.mapM (evalNamed sv (cols u.db u.table))).bind fun conds => updateRowsFiring tr u.db u.table conds sets S

/-- Execute a script of UPDATE statements on a server whose tables have triggers; an error ends the script. -/
def execUpdatesFiring (sv : Server) (cols : Bytes → Bytes → List Column) (tr : UpdateTriggers) (script : Bytes) (S : Tables × List (List Orig)) :
    Option (Tables × List (List Orig)) := (readUpdates script).bind fun us => us.foldlM (execFiring sv cols tr) S

/-- **C124**, as stated: also if tables have triggers, the output of the redo command undoes the updates, if it does so for tables without them (the
conditions of `C74_once_partial`), and leaves other tables as they are. -/
def C124_statement : Prop :=
  ∀ (env : Env) (fs : Bytes → File) (a : FromRedo) (spare : Nat) (sys : Bytes) (trs : List TableRow) (crs : List ColumnRow)
    (irs : List IndexRow) (frs : List FieldRow) (names : List Bytes) (parts : List (List Bytes)) (its : List Item) (chs : List (Option Change))
    (sv : Server) (cols : Bytes → Bytes → List Column) (pk : Bytes → Bytes → List Bytes) (tr : UpdateTriggers) (S S' : Tables) (other : List (List Orig)),
    a.sysFile = .ok sys → Dictionary sys trs crs irs frs → names ≠ [] → (∀ n ∈ names, 44 ∉ n) → a.redoFile = commaList names →
    All2 (fun chunks n => ∃ content, fs n = .ok content ∧ IsLogFile chunks content) parts names →
    parts.flatten.flatten = its.flatMap Item.enc → (∀ it ∈ its, it.Fits) →
    (∀ t ∈ trs, UsualKeys irs frs crs t.id) → All2 (Followed env a trs crs irs frs) its chs →
    (∀ ch, some ch ∈ chs → Wanted a ch = true → Plainly env.ff ch) → Ahead its → (its.flatMap Item.enc).length < 2 ^ 32 →
    SameColumns trs crs cols → (∀ ch, some ch ∈ chs → ReadsChange sv env.ff ch) →
    Happened cols pk env.ff ((chs.filterMap id).filter (Wanted a)) S S' → ((chs.filterMap id).filter (Wanted a)).Pairwise (Apart env.ff) →
    ∃ lines, fromRedoFile env fs a spare [] = .ok () lines ∧ execUpdatesFiring sv cols tr (stdout lines) (S', other) = some (S, other)

/-! ### Executing -/

/-- what the statement of the change does -/
def Change.undoFiring (ff : FloatFmt) (tr : UpdateTriggers) (S : Tables × List (List Orig)) (ch : Change) : Option (Tables × List (List Orig)) :=
  updateRowsFiring tr ch.db ch.table (ch.keys ff) (ch.olds ff) S

theorem exec_undoes_firing {sv : Server} {ff : FloatFmt} {cols : Bytes → Bytes → List Column} {tr : UpdateTriggers} {u : Update} {ch : Change}
    (hdb : u.db = ch.db) (htab : u.table = ch.table)
    (hs : All2 (fun e s => e.1 = s.1 ∧ ∃ v, evalExpr e.2 = some v ∧ Denotes ff v (origOf ff s.2)) u.sets ch.sets)
    (hk : All2 (fun e k => e.1 = k.1 ∧ ∃ v, evalExpr e.2 = some v ∧ Denotes ff v (origOf ff (some k.2))) u.conds ch.key)
    (ht : TypedChange cols ch) (hr : ReadsChange sv ff ch) (S : Tables × List (List Orig)) : execFiring sv cols tr S u = ch.undoFiring ff tr S := by
  unfold execFiring Change.undoFiring
  rw [hdb, htab]
  have e1 : u.sets.mapM (evalNamed sv (cols ch.db ch.table)) = some (ch.olds ff) := by
    obtain ⟨ht, _⟩ := ht
    obtain ⟨hr, _⟩ := hr
    refine mapM_all2 _ ?_
    unfold Change.olds
    generalize ch.sets = ss at hs ht hr
    generalize u.sets = es at hs
    induction hs with
    | nil => exact .nil
    | cons h _ ih =>
      exact .cons (evalNamed_denotes h.1 h.2 (ht _ List.mem_cons_self) (hr _ List.mem_cons_self))
        (ih (fun x hx => ht x (List.mem_cons_of_mem _ hx)) fun x hx => hr x (List.mem_cons_of_mem _ hx))
  have e2 : u.conds.mapM (evalNamed sv (cols ch.db ch.table)) = some (ch.keys ff) := by
    obtain ⟨_, ht⟩ := ht
    obtain ⟨_, hr⟩ := hr
    refine mapM_all2 _ ?_
    unfold Change.keys
    generalize ch.key = ss at hk ht hr
    generalize u.conds = es at hk
    induction hk with
    | nil => exact .nil
    | cons h _ ih =>
      refine .cons (evalNamed_denotes h.1 h.2 ?_ (hr _ List.mem_cons_self))
        (ih (fun x hx => ht x (List.mem_cons_of_mem _ hx)) fun x hx => hr x (List.mem_cons_of_mem _ hx))
      obtain ⟨c, hc, hv⟩ := ht _ List.mem_cons_self
      exact ⟨c, hc, by rintro v ⟨⟩; exact hv⟩
  rw [e1, e2]
  rfl

theorem exec_lines_firing {sv : Server} {ff : FloatFmt} {cols : Bytes → Bytes → List Column} {tr : UpdateTriggers} {lines : List Bytes}
    {chs : List Change} (h : All2 (Undoes ff) lines chs) (ht : ∀ ch ∈ chs, TypedChange cols ch) (hr : ∀ ch ∈ chs, ReadsChange sv ff ch)
    (S : Tables × List (List Orig)) : execUpdatesFiring sv cols tr (stdout lines) S = chs.foldlM (Change.undoFiring ff tr) S := by
  have : ∃ us, All2 (fun l u => readUpdate l = some u ∧ ∀ e ∈ u.sets ++ u.conds, ∃ v, evalExpr e.2 = some v) lines us ∧
      All2 (fun u ch => ∀ S, execFiring sv cols tr S u = Change.undoFiring ff tr S ch) us chs := by
    induction h with
    | nil => exact ⟨[], .nil, .nil⟩
    | @cons l ch ls chs h _ ih =>
      obtain ⟨us, h1, h2⟩ := ih (fun x hx => ht x (List.mem_cons_of_mem _ hx)) fun x hx => hr x (List.mem_cons_of_mem _ hx)
      obtain ⟨u, e1, e2, e3, e4, e5⟩ := h
      refine ⟨u :: us, .cons ⟨e1, ?_⟩ h1, .cons (exec_undoes_firing e2 e3 e4 e5 (ht ch List.mem_cons_self) (hr ch List.mem_cons_self)) h2⟩
      intro e he
      rcases List.mem_append.mp he with he | he
      · obtain ⟨_, _, _, v, hv, _⟩ := all2_mem e4 e he
        exact ⟨v, hv⟩
      · obtain ⟨_, _, _, v, hv, _⟩ := all2_mem e5 e he
        exact ⟨v, hv⟩
  obtain ⟨us, h1, h2⟩ := this
  unfold execUpdatesFiring
  rw [readUpdates_lines h1, Option.bind_some]
  clear h h1 ht hr
  induction h2 generalizing S with
  | nil => rfl
  | @cons u ch us chs h _ ih =>
    rw [List.foldlM_cons, List.foldlM_cons, h]
    cases Change.undoFiring ff tr S ch with
    | none => rfl
    | some S => exact ih S

theorem mapM_some_iff {α β : Type} (f : α → Option β) (g : α → β) (l : List α) : l.mapM f = some (l.map g) ↔ ∀ x ∈ l, f x = some (g x) := by
  induction l with
  | nil => simp
  | cons x l ih =>
    rw [List.mapM_cons, List.map_cons, List.forall_mem_cons, ← ih]
    cases f x with
    | none => simp
    | some y =>
      cases l.mapM f with
      | none => simp
      | some ys => simp

/-- When the triggers make no difference to an UPDATE statement: they leave each new row as it is, and write nothing. -/
theorem firing_iff (tr : UpdateTriggers) (db table : Bytes) (key sets : List (Bytes × Orig)) (S : Tables) (other : List (List Orig)) :
    updateRowsFiring tr db table key sets (S, other) = some (updateRows db table key sets S, other) ↔
      ∀ r ∈ S db table, hasAll key r = true → tr.before db table r (setAll sets r) = some (setAll sets r) ∧ tr.after db table r (setAll sets r) = [] := by
  have hrow : ∀ r, updateFiring tr db table key sets r = some (if hasAll key r then setAll sets r else r, []) ↔
      (hasAll key r = true → tr.before db table r (setAll sets r) = some (setAll sets r) ∧ tr.after db table r (setAll sets r) = []) := by
    intro r
    unfold updateFiring
    by_cases h : hasAll key r = true
    · rw [if_pos h, if_pos h]
      cases e : tr.before db table r (setAll sets r) with
      | none => simp [h]
      | some r' =>
        simp only [Option.map_some, Option.some.injEq, Prod.mk.injEq, h, true_implies]
        constructor
        · rintro ⟨rfl, h2⟩
          exact ⟨rfl, h2⟩
        · rintro ⟨rfl, h2⟩
          exact ⟨rfl, h2⟩
    · rw [if_neg h, if_neg h]
      simp [h]
  rw [← (forall_congr' fun r => imp_congr_right fun _ => hrow r : (∀ r ∈ S db table, _) ↔ _), ← mapM_some_iff]
  unfold updateRowsFiring updateRows
  constructor
  · intro h
    cases e : (S db table).mapM (updateFiring tr db table key sets) with
    | none =>
      simp only [e] at h
      cases h
    | some ps =>
      simp only [e, Option.map_some, Option.some.injEq, Prod.mk.injEq, List.append_right_eq_self, List.flatMap_eq_nil_iff] at h
      have h1 := congrFun (congrFun h.1 db) table
      rw [if_pos ⟨rfl, rfl⟩, if_pos ⟨rfl, rfl⟩] at h1
      have : ps = (ps.map (·.1)).map fun r => (r, []) := by
        rw [List.map_map]
        exact (List.map_id ps).symm.trans (List.map_congr_left fun p hp => Prod.ext rfl (h.2 p hp))
      rw [this, h1, List.map_map]
      rfl
  · intro h
    simp only [h, Option.map_some, Option.some.injEq, Prod.mk.injEq, List.append_right_eq_self, List.flatMap_eq_nil_iff]
    refine ⟨?_, ?_⟩
    · funext d t
      by_cases e : d = db ∧ t = table
      · rw [if_pos e, if_pos e, List.map_map, e.1, e.2]
        rfl
      · rw [if_neg e, if_neg e]
    · intro p hp
      obtain ⟨r, _, rfl⟩ := List.mem_map.mp hp
      rfl

/-- **What executing gives:** each statement finds its rows, the triggers are executed for them, and the first error ends the script. -/
theorem C124_exact (env : Env) (fs : Bytes → File) (a : FromRedo) (spare : Nat) (sys : Bytes) (trs : List TableRow) (crs : List ColumnRow)
    (irs : List IndexRow) (frs : List FieldRow) (names : List Bytes) (parts : List (List Bytes)) (its : List Item) (chs : List (Option Change))
    (sv : Server) (cols : Bytes → Bytes → List Column) (pk : Bytes → Bytes → List Bytes) (tr : UpdateTriggers) (S S' : Tables)
    (hsys : a.sysFile = .ok sys) (hdict : Dictionary sys trs crs irs frs) (hne : names ≠ []) (hn : ∀ n ∈ names, 44 ∉ n)
    (ha : a.redoFile = commaList names) (hp : All2 (fun chunks n => ∃ content, fs n = .ok content ∧ IsLogFile chunks content) parts names)
    (hs : parts.flatten.flatten = its.flatMap Item.enc) (hf : ∀ it ∈ its, it.Fits)
    (harr : ∀ t ∈ trs, UsualKeys irs frs crs t.id) (hfl : All2 (Followed env a trs crs irs frs) its chs)
    (hplain : ∀ ch, some ch ∈ chs → Wanted a ch = true → Plainly env.ff ch)
    (hah : Ahead its) (hlen : (its.flatMap Item.enc).length < 2 ^ 32)
    (hcols : SameColumns trs crs cols) (hreads : ∀ ch, some ch ∈ chs → ReadsChange sv env.ff ch)
    (hh : Happened cols pk env.ff ((chs.filterMap id).filter (Wanted a)) S S') :
    ∃ lines, fromRedoFile env fs a spare [] = .ok () lines ∧ ∀ T, execUpdatesFiring sv cols tr (stdout lines) T =
      ((chs.filterMap id).filter (Wanted a)).foldlM (fun T ch => updateRowsFiring tr ch.db ch.table (ch.keys env.ff) (ch.olds env.ff) T) T := by
  obtain ⟨lines, h1, h2⟩ := C58_command_partial env fs a spare sys trs crs irs frs names parts its chs hsys hdict hne hn ha hp hs hf harr hfl hplain hah hlen []
  have hm : ∀ ch ∈ (chs.filterMap id).filter (Wanted a), some ch ∈ chs := by
    intro ch hch
    obtain ⟨x, hx, rfl⟩ := List.mem_filterMap.mp (List.mem_filter.mp hch).1
    exact hx
  refine ⟨lines, by simpa using h1, exec_lines_firing h2 ?_ fun ch hch => hreads ch (hm ch hch)⟩
  intro ch hch
  obtain ⟨it, _, hit⟩ := all2_exists_left hfl (some ch) (hm ch hch)
  exact followed_typed hcols hit (happened_columns hh ch hch)

/-- **C124 (partial).** True if the triggers leave the rows that the updates found as the statements make them, and write nothing for them; in particular if
the tables have no such triggers.  Missing: triggers that change rows, refuse them or write others (`C124_iff`, `C124_false`). -/
theorem C124_quiet_partial (env : Env) (fs : Bytes → File) (a : FromRedo) (spare : Nat) (sys : Bytes) (trs : List TableRow) (crs : List ColumnRow)
    (irs : List IndexRow) (frs : List FieldRow) (names : List Bytes) (parts : List (List Bytes)) (its : List Item) (chs : List (Option Change))
    (sv : Server) (cols : Bytes → Bytes → List Column) (pk : Bytes → Bytes → List Bytes) (tr : UpdateTriggers) (S S' : Tables) (other : List (List Orig))
    (hsys : a.sysFile = .ok sys) (hdict : Dictionary sys trs crs irs frs) (hne : names ≠ []) (hn : ∀ n ∈ names, 44 ∉ n)
    (ha : a.redoFile = commaList names) (hp : All2 (fun chunks n => ∃ content, fs n = .ok content ∧ IsLogFile chunks content) parts names)
    (hs : parts.flatten.flatten = its.flatMap Item.enc) (hf : ∀ it ∈ its, it.Fits)
    (harr : ∀ t ∈ trs, UsualKeys irs frs crs t.id) (hfl : All2 (Followed env a trs crs irs frs) its chs)
    (hplain : ∀ ch, some ch ∈ chs → Wanted a ch = true → Plainly env.ff ch)
    (hah : Ahead its) (hlen : (its.flatMap Item.enc).length < 2 ^ 32)
    (hcols : SameColumns trs crs cols) (hreads : ∀ ch, some ch ∈ chs → ReadsChange sv env.ff ch)
    (hh : Happened cols pk env.ff ((chs.filterMap id).filter (Wanted a)) S S')
    (hapart : ((chs.filterMap id).filter (Wanted a)).Pairwise (Apart env.ff))
    (hquiet : ∀ ch ∈ (chs.filterMap id).filter (Wanted a), ∀ r, hasAll (ch.keys env.ff) r = true →
      tr.before ch.db ch.table r (setAll (ch.olds env.ff) r) = some (setAll (ch.olds env.ff) r) ∧ tr.after ch.db ch.table r (setAll (ch.olds env.ff) r) = []) :
    ∃ lines, fromRedoFile env fs a spare [] = .ok () lines ∧ execUpdatesFiring sv cols tr (stdout lines) (S', other) = some (S, other) := by
  obtain ⟨lines, h1, h2⟩ := C124_exact env fs a spare sys trs crs irs frs names parts its chs sv cols pk tr S S' hsys hdict hne hn ha hp hs hf harr hfl
    hplain hah hlen hcols hreads hh
  refine ⟨lines, h1, ?_⟩
  rw [h2, ← undo_forward hh hapart]
  generalize (chs.filterMap id).filter (Wanted a) = cs at hquiet
  clear * - hquiet
  induction cs generalizing S' with
  | nil => rfl
  | cons c cs ih =>
    rw [List.foldlM_cons, (firing_iff tr c.db c.table (c.keys env.ff) (c.olds env.ff) S' other).mpr fun r _ => hquiet c List.mem_cons_self r]
    exact ih _ fun x hx => hquiet x (List.mem_cons_of_mem _ hx)

/-- **C124, one update, exactly:** the row is restored and the other table left as it is if and only if the triggers leave the restored row as it is and
write nothing for it. -/
theorem C124_iff (env : Env) (fs : Bytes → File) (a : FromRedo) (spare : Nat) (sys : Bytes) (trs : List TableRow) (crs : List ColumnRow)
    (irs : List IndexRow) (frs : List FieldRow) (names : List Bytes) (parts : List (List Bytes)) (its : List Item) (chs : List (Option Change))
    (sv : Server) (cols : Bytes → Bytes → List Column) (pk : Bytes → Bytes → List Bytes) (tr : UpdateTriggers) (S S' : Tables) (other : List (List Orig)) (ch : Change)
    (hsys : a.sysFile = .ok sys) (hdict : Dictionary sys trs crs irs frs) (hne : names ≠ []) (hn : ∀ n ∈ names, 44 ∉ n)
    (ha : a.redoFile = commaList names) (hp : All2 (fun chunks n => ∃ content, fs n = .ok content ∧ IsLogFile chunks content) parts names)
    (hs : parts.flatten.flatten = its.flatMap Item.enc) (hf : ∀ it ∈ its, it.Fits)
    (harr : ∀ t ∈ trs, UsualKeys irs frs crs t.id) (hfl : All2 (Followed env a trs crs irs frs) its chs)
    (hplain : ∀ ch, some ch ∈ chs → Wanted a ch = true → Plainly env.ff ch)
    (hah : Ahead its) (hlen : (its.flatMap Item.enc).length < 2 ^ 32)
    (hcols : SameColumns trs crs cols) (hreads : ∀ ch, some ch ∈ chs → ReadsChange sv env.ff ch)
    (hone : (chs.filterMap id).filter (Wanted a) = [ch]) (hh : Changed cols pk env.ff ch S S') :
    (∃ lines, fromRedoFile env fs a spare [] = .ok () lines ∧ execUpdatesFiring sv cols tr (stdout lines) (S', other) = some (S, other)) ↔
      ∀ r ∈ S' ch.db ch.table, hasAll (ch.keys env.ff) r = true →
        tr.before ch.db ch.table r (setAll (ch.olds env.ff) r) = some (setAll (ch.olds env.ff) r) ∧ tr.after ch.db ch.table r (setAll (ch.olds env.ff) r) = [] := by
  obtain ⟨lines, h1, h2⟩ := C124_exact env fs a spare sys trs crs irs frs names parts its chs sv cols pk tr S S' hsys hdict hne hn ha hp hs hf harr hfl
    hplain hah hlen hcols hreads (by rw [hone]; exact .cons hh .nil)
  have h2 := h2 (S', other)
  have e : updateRows ch.db ch.table (ch.keys env.ff) (ch.olds env.ff) S' = S := undo_changed hh
  rw [hone, List.foldlM_cons] at h2
  rw [← firing_iff tr ch.db ch.table (ch.keys env.ff) (ch.olds env.ff) S' other, e]
  have h2 : execUpdatesFiring sv cols tr (stdout lines) (S', other) = updateRowsFiring tr ch.db ch.table (ch.keys env.ff) (ch.olds env.ff) (S', other) := by
    rw [h2]
    cases updateRowsFiring tr ch.db ch.table (ch.keys env.ff) (ch.olds env.ff) (S', other) <;> rfl
  constructor
  · rintro ⟨lines', h3, h4⟩
    rw [h1] at h3
    cases h3
    rwa [h2] at h4
  · intro e
    exact ⟨lines, h1, by rw [h2, e]⟩

/-! ### A table with triggers

The log is of `UPDATE t SET name = 'zoe', changed = changed WHERE id = 7`. -/

/-- a trigger that records the old name of each updated row in another table -/
def auditing : UpdateTriggers := ⟨fun _ _ _ new => some new, fun _ _ old _ => [[old (b! "id"), old (b! "name")]]⟩
/-- a trigger that refuses to change names -/
def keeping : UpdateTriggers := ⟨fun _ _ old new => if old (b! "name") = new (b! "name") then some new else none, fun _ _ _ _ => []⟩

theorem stamp_firing (env : Env) (spare : Nat) (sv : Server) (tr : UpdateTriggers) (time : Bytes) :
    ∃ lines, fromRedoFile env stampDisk stampRedo spare [] = .ok () lines ∧ ∀ T, execUpdatesFiring sv stampCols tr (stdout lines) T =
      [shopChange2 7 (b! "bob")].foldlM (fun T ch => updateRowsFiring tr ch.db ch.table (ch.keys env.ff) (ch.olds env.ff) T) T :=
  C124_exact env stampDisk stampRedo spare stampSys shopTables stampColumns (shopIndexes idKey) (shopFields idKey) [b! "ib_logfile0"] [[stampLog.flatMap Item.enc]] stampLog
    stampChanges sv stampCols (fun _ _ => [b! "id"]) tr _ _ rfl stamp_dictionary (by decide) (by decide) rfl stamp_disk
    (by simp) stamp_fits stamp_usual (stamp_followed env) (fun ch hch _ => by cases stamp_mem hch; exact shopChange2_plainly env (.inl rfl) (.inl rfl)) stamp_ahead
    (by have := stamp_length; omega) stamp_cols (stamp_reads sv env.ff) (.cons (stamp_changed env.ff time) .nil)

/-- the hypotheses of `C124_iff` -/
theorem stamp_firing_iff (env : Env) (spare : Nat) (sv : Server) (tr : UpdateTriggers) (time : Bytes) (other : List (List Orig)) :
    (∃ lines, fromRedoFile env stampDisk stampRedo spare [] = .ok () lines ∧
      execUpdatesFiring sv stampCols tr (stdout lines) (shopState [stampRow (b! "zoe") time], other) = some (shopState [stampRow (b! "bob") time], other)) ↔
      ∀ r ∈ [stampRow (b! "zoe") time], hasAll ((shopChange2 7 (b! "bob")).keys env.ff) r = true →
        tr.before (b! "shop") (b! "t") r (setAll [(b! "name", .text (b! "bob"))] r) = some (setAll [(b! "name", .text (b! "bob"))] r) ∧
        tr.after (b! "shop") (b! "t") r (setAll [(b! "name", .text (b! "bob"))] r) = [] :=
  C124_iff env stampDisk stampRedo spare stampSys shopTables stampColumns (shopIndexes idKey) (shopFields idKey) [b! "ib_logfile0"] [[stampLog.flatMap Item.enc]] stampLog
    stampChanges sv stampCols (fun _ _ => [b! "id"]) tr _ _ other (shopChange2 7 (b! "bob")) rfl stamp_dictionary (by decide) (by decide) rfl stamp_disk
    (by simp) stamp_fits stamp_usual (stamp_followed env) (fun ch hch _ => by cases stamp_mem hch; exact shopChange2_plainly env (.inl rfl) (.inl rfl)) stamp_ahead
    (by have := stamp_length; omega) stamp_cols (stamp_reads sv env.ff) rfl (stamp_changed env.ff time)

/-- The undone update is recorded as an update, and the table that a trigger protects stays as it is: the script ends with an error. -/
theorem C124_lost (env : Env) (spare : Nat) (sv : Server) (time : Bytes) (other : List (List Orig)) :
    ∃ lines, fromRedoFile env stampDisk stampRedo spare [] = .ok () lines ∧
      (∃ S, execUpdatesFiring sv stampCols auditing (stdout lines) (shopState [stampRow (b! "zoe") time], other) = some (S, other ++ [[.int 7, .text (b! "zoe")]])) ∧
      execUpdatesFiring sv stampCols keeping (stdout lines) (shopState [stampRow (b! "zoe") time], other) = none := by
  obtain ⟨lines, h1, h2⟩ := stamp_firing env spare sv auditing time
  obtain ⟨lines2, h3, h4⟩ := stamp_firing env spare sv keeping time
  rw [h1] at h3
  cases h3
  refine ⟨lines, h1, ?_, ?_⟩
  · rw [h2]
    exact ⟨_, rfl⟩
  · rw [h4]
    rfl

/-- **C124 is false:** a trigger that records updates. -/
theorem C124_false : ¬ C124_statement := by
  intro h
  have := h testEnv stampDisk stampRedo 0 stampSys shopTables stampColumns (shopIndexes idKey) (shopFields idKey) [b! "ib_logfile0"] [[stampLog.flatMap Item.enc]] stampLog
    stampChanges anyServer stampCols (fun _ _ => [b! "id"]) auditing (shopState [stampRow (b! "bob") (b! "2020-01-01 00:00:00")])
    (shopState [stampRow (b! "zoe") (b! "2020-01-01 00:00:00")]) [] rfl stamp_dictionary (by decide) (by decide) rfl stamp_disk
    (by simp) stamp_fits stamp_usual (stamp_followed testEnv) (fun ch hch _ => by cases stamp_mem hch; exact shopChange2_plainly testEnv (.inl rfl) (.inl rfl)) stamp_ahead
    (by have := stamp_length; omega) stamp_cols (stamp_reads anyServer testEnv.ff) (.cons (stamp_changed testEnv.ff _) .nil) (List.pairwise_singleton _ _)
  have := ((stamp_firing_iff testEnv 0 anyServer auditing _ []).mp this _ List.mem_cons_self rfl).2
  cases this

/-- The hypotheses of `C124_quiet_partial`: a trigger that refuses to change keys. -/
example (env : Env) (spare : Nat) (sv : Server) (other : List (List Orig)) : ∃ lines, fromRedoFile env (shopDisk2 8) shopRedo2 spare [] = .ok () lines ∧
    execUpdatesFiring sv shopCols ⟨fun _ _ old new => if old (b! "id") = new (b! "id") then some new else none, fun _ _ _ _ => []⟩ (stdout lines)
      (shopState [shopRow 7 (b! "zoe"), shopRow 8 (b! "pat")], other) = some (shopState [shopRow 7 (b! "bob"), shopRow 8 (b! "eve")], other) :=
  C124_quiet_partial env (shopDisk2 8) shopRedo2 spare (shopFile idKey) shopTables shopColumns (shopIndexes idKey) (shopFields idKey) [b! "ib_logfile0"]
    [[(shopLog2 8).flatMap Item.enc]] (shopLog2 8) (shopChanges2 8) sv shopCols (fun _ _ => [b! "id"]) _ _ _ other rfl (shop_dictionary (.inl rfl)) (by decide)
    (by decide) rfl (shop2_disk (.inr rfl)) (by simp) (shop2_fits (.inr rfl)) shop_arranged (shop2_followed env (.inr rfl))
    (fun ch hch _ => by
      rcases shop2_mem hch with rfl | rfl
      · exact shopChange2_plainly env (.inl rfl) (.inl rfl)
      · exact shopChange2_plainly env (.inr rfl) (.inr rfl))
    (shop2_ahead (.inr rfl)) (by have := shop2_length (.inr rfl : SevenEight 8); omega) shop2_cols (shop2_reads sv env.ff 8) (shop2_apart env.ff)
    (by
      show [shopChange2 7 (b! "bob"), shopChange2 8 (b! "eve")].Pairwise _
      exact List.pairwise_pair.mpr (.inr (.inr (.inl (by
        show [(b! "id", Orig.int 7)] ≠ [(b! "id", .int 8)]
        decide)))))
    (by
      intro ch hch r _
      have hch : ch ∈ [shopChange2 7 (b! "bob"), shopChange2 8 (b! "eve")] := hch
      simp only [List.mem_cons, List.not_mem_nil, or_false] at hch
      refine ⟨if_pos ?_, rfl⟩
      rcases hch with rfl | rfl <;> exact (setAll_other r (by rw [olds_names]; show b! "id" ∉ [b! "name"]; decide)).symm)

end Verif.Props
