import Verif.Props.RedoEffect
import Verif.Props.Writer
/-!
# C109: columns with ON UPDATE CURRENT_TIMESTAMP

If a row is changed by an UPDATE, the server sets the columns of the table with this attribute that the statement does not assign to the current time.
-/

namespace Verif.Props
open Verif Spec

/-- UPDATE of one row: `autos` are the columns with ON UPDATE CURRENT_TIMESTAMP, `now` is the current time. -/
def updateStamped (autos : List Bytes) (now : Orig) (sets : List (Bytes × Orig)) (r : NamedRow) : NamedRow :=
  if sets.all fun s => setAll sets r s.1 == r s.1 then setAll sets r
  else setAll ((autos.filter fun n => !(sets.map (·.1)).contains n).map fun n => (n, now)) (setAll sets r)

/-- UPDATE of the rows of a table with this key -/
def updateRowsStamped (autos : List Bytes) (now : Orig) (db table : Bytes) (key sets : List (Bytes × Orig)) (S : Tables) : Tables := fun d t =>
  if d = db ∧ t = table then (S d t).map fun r => if hasAll key r then updateStamped autos now sets r else r else S d t

/-- Execute one UPDATE. -/
def execStamped (sv : Server) (cols : Bytes → Bytes → List Column) (autos : Bytes → Bytes → List Bytes) (now : Orig) (S : Tables) (u : Update) : Option Tables :=
  (u.sets.mapM (evalNamed sv (cols u.db u.table))).bind fun sets =>
    (u.conds.mapM (evalNamed sv (cols u.db u.table))).map fun conds => updateRowsStamped (autos u.db u.table) now u.db u.table conds sets S

/-- Execute a script of UPDATE statements on a server with such columns. -/
def execUpdatesStamped (sv : Server) (cols : Bytes → Bytes → List Column) (autos : Bytes → Bytes → List Bytes) (now : Orig) (script : Bytes) (S : Tables) :
    Option Tables := (readUpdates script).bind fun us => us.foldlM (execStamped sv cols autos now) S

/-- **C109**, as stated: also if tables have columns with ON UPDATE CURRENT_TIMESTAMP, the output of the redo command undoes the updates, if it does so for
tables without them (the conditions of `C74_once_partial`). -/
def C109_statement : Prop :=
  ∀ (env : Env) (fs : Bytes → File) (a : FromRedo) (spare : Nat) (sys : Bytes) (trs : List TableRow) (crs : List ColumnRow)
    (irs : List IndexRow) (frs : List FieldRow) (names : List Bytes) (parts : List (List Bytes)) (its : List Item) (chs : List (Option Change))
    (sv : Server) (cols : Bytes → Bytes → List Column) (pk autos : Bytes → Bytes → List Bytes) (now : Orig) (S S' : Tables),
    a.sysFile = .ok sys → Dictionary sys trs crs irs frs → names ≠ [] → (∀ n ∈ names, 44 ∉ n) → a.redoFile = commaList names →
    All2 (fun chunks n => ∃ content, fs n = .ok content ∧ IsLogFile chunks content) parts names →
    parts.flatten.flatten = its.flatMap Item.enc → (∀ it ∈ its, it.Fits) →
    (∀ t ∈ trs, UsualKeys irs frs crs t.id) → All2 (Followed env a trs crs irs frs) its chs →
    (∀ ch, some ch ∈ chs → Wanted a ch = true → Plainly env.ff ch) → Ahead its → (its.flatMap Item.enc).length < 2 ^ 32 →
    SameColumns trs crs cols → (∀ ch, some ch ∈ chs → ReadsChange sv env.ff ch) →
    Happened cols pk env.ff ((chs.filterMap id).filter (Wanted a)) S S' → ((chs.filterMap id).filter (Wanted a)).Pairwise (Apart env.ff) →
    (∀ d t, ∀ n ∈ autos d t, n ∈ (cols d t).map (·.name) ∧ n ∉ pk d t) →
    ∃ lines, fromRedoFile env fs a spare [] = .ok () lines ∧ execUpdatesStamped sv cols autos now (stdout lines) S' = some S

/-! ### Executing -/

/-- what the statement of the change does -/
def Change.undoStamped (ff : FloatFmt) (autos : Bytes → Bytes → List Bytes) (now : Orig) (ch : Change) (S : Tables) : Tables :=
  updateRowsStamped (autos ch.db ch.table) now ch.db ch.table (ch.keys ff) (ch.olds ff) S

theorem exec_undoes_stamped {sv : Server} {ff : FloatFmt} {cols : Bytes → Bytes → List Column} {autos : Bytes → Bytes → List Bytes} {now : Orig} {u : Update} {ch : Change}
    (hdb : u.db = ch.db) (htab : u.table = ch.table)
    (hs : All2 (fun e s => e.1 = s.1 ∧ ∃ v, evalExpr e.2 = some v ∧ Denotes ff v (origOf ff s.2)) u.sets ch.sets)
    (hk : All2 (fun e k => e.1 = k.1 ∧ ∃ v, evalExpr e.2 = some v ∧ Denotes ff v (origOf ff (some k.2))) u.conds ch.key)
    (ht : TypedChange cols ch) (hr : ReadsChange sv ff ch) (S : Tables) : execStamped sv cols autos now S u = some (ch.undoStamped ff autos now S) := by
  unfold execStamped Change.undoStamped
  rw [hdb, htab]
  have e1 : u.sets.mapM (evalNamed sv (cols ch.db ch.table)) = some (ch.olds ff) := by
    obtain ⟨ht, _⟩ := ht
    obtain ⟨hr, _⟩ := hr
    refine mapM_all2 _ ?_
    unfold Change.olds
    generalize ch.sets = ss at hs ht hr
    generalize u.sets = es at hs
    induction hs with
    | nil => exact .nil
    | cons h _ ih =>
      exact .cons (evalNamed_denotes h.1 h.2 (ht _ List.mem_cons_self) (hr _ List.mem_cons_self))
        (ih (fun x hx => ht x (List.mem_cons_of_mem _ hx)) fun x hx => hr x (List.mem_cons_of_mem _ hx))
  have e2 : u.conds.mapM (evalNamed sv (cols ch.db ch.table)) = some (ch.keys ff) := by
    obtain ⟨_, ht⟩ := ht
    obtain ⟨_, hr⟩ := hr
    refine mapM_all2 _ ?_
    unfold Change.keys
    generalize ch.key = ss at hk ht hr
    generalize u.conds = es at hk
    induction hk with
    | nil => exact .nil
    | cons h _ ih =>
      refine .cons (evalNamed_denotes h.1 h.2 ?_ (hr _ List.mem_cons_self))
        (ih (fun x hx => ht x (List.mem_cons_of_mem _ hx)) fun x hx => hr x (List.mem_cons_of_mem _ hx))
      obtain ⟨c, hc, hv⟩ := ht _ List.mem_cons_self
      exact ⟨c, hc, by rintro v ⟨⟩; exact hv⟩
  rw [e1, e2]
  rfl

theorem exec_lines_stamped {sv : Server} {ff : FloatFmt} {cols : Bytes → Bytes → List Column} {autos : Bytes → Bytes → List Bytes} {now : Orig} {lines : List Bytes}
    {chs : List Change} (h : All2 (Undoes ff) lines chs) (ht : ∀ ch ∈ chs, TypedChange cols ch) (hr : ∀ ch ∈ chs, ReadsChange sv ff ch) (S : Tables) :
    execUpdatesStamped sv cols autos now (stdout lines) S = some (chs.foldl (fun S ch => ch.undoStamped ff autos now S) S) := by
  have : ∃ us, All2 (fun l u => readUpdate l = some u ∧ ∀ e ∈ u.sets ++ u.conds, ∃ v, evalExpr e.2 = some v) lines us ∧
      All2 (fun u ch => ∀ S, execStamped sv cols autos now S u = some (ch.undoStamped ff autos now S)) us chs := by
    induction h with
    | nil => exact ⟨[], .nil, .nil⟩
    | @cons l ch ls chs h _ ih =>
      obtain ⟨us, h1, h2⟩ := ih (fun x hx => ht x (List.mem_cons_of_mem _ hx)) fun x hx => hr x (List.mem_cons_of_mem _ hx)
      obtain ⟨u, e1, e2, e3, e4, e5⟩ := h
      refine ⟨u :: us, .cons ⟨e1, ?_⟩ h1, .cons (exec_undoes_stamped e2 e3 e4 e5 (ht ch List.mem_cons_self) (hr ch List.mem_cons_self)) h2⟩
      intro e he
      rcases List.mem_append.mp he with he | he
      · obtain ⟨_, _, _, v, hv, _⟩ := all2_mem e4 e he
        exact ⟨v, hv⟩
      · obtain ⟨_, _, _, v, hv, _⟩ := all2_mem e5 e he
        exact ⟨v, hv⟩
  obtain ⟨us, h1, h2⟩ := this
  unfold execUpdatesStamped
  rw [readUpdates_lines h1, Option.bind_some]
  clear h h1 ht hr
  induction h2 generalizing S with
  | nil => rfl
  | cons h _ ih =>
    rw [List.foldlM_cons, h]
    exact ih _

theorem setAll_now (now : Orig) (ns : List Bytes) (r : NamedRow) (n : Bytes) : setAll (ns.map fun n => (n, now)) r n = if n ∈ ns then now else r n := by
  induction ns generalizing r with
  | nil => simp [setAll]
  | cons x ns ih =>
    rw [List.map_cons, setAll, ih]
    by_cases h : n ∈ ns
    · rw [if_pos h, if_pos (List.mem_cons_of_mem _ h)]
    · rw [if_neg h]
      by_cases hx : n = x
      · subst hx
        rw [if_pos rfl, if_pos List.mem_cons_self]
      · rw [if_neg hx, if_neg (by simp [hx, h])]

/-- When the stamps make no difference to a row: the statement changes nothing, or it assigns all these columns, or the others hold the current time. -/
theorem stamped_iff (autos : List Bytes) (now : Orig) (sets : List (Bytes × Orig)) (r : NamedRow) :
    updateStamped autos now sets r = setAll sets r ↔
      setAll sets r = r ∨ ∀ n ∈ autos, n ∉ sets.map (·.1) → r n = now := by
  have hsame : (sets.all fun s => setAll sets r s.1 == r s.1) = true ↔ setAll sets r = r := by
    rw [List.all_eq_true]
    constructor
    · intro h
      funext n
      by_cases hn : n ∈ sets.map (·.1)
      · obtain ⟨s, hs, rfl⟩ := List.mem_map.mp hn
        exact beq_iff_eq.mp (h s hs)
      · exact setAll_other r hn
    · intro h s _
      rw [h]
      exact beq_self_eq_true _
  unfold updateStamped
  by_cases h : (sets.all fun s => setAll sets r s.1 == r s.1) = true
  · rw [if_pos h]
    exact ⟨fun _ => .inl (hsame.mp h), fun _ => rfl⟩
  · rw [if_neg h]
    have h := mt hsame.mpr h
    constructor
    · intro e
      refine .inr fun n hn hns => ?_
      have := congrFun e n
      rw [setAll_now, if_pos (List.mem_filter.mpr ⟨hn, by simpa using hns⟩), setAll_other r hns] at this
      exact this.symm
    · rintro (e | e)
      · exact absurd e h
      · funext n
        rw [setAll_now]
        split
        · rename_i hm
          obtain ⟨h1, h2⟩ := List.mem_filter.mp hm
          have h2 : n ∉ sets.map (·.1) := by simpa using h2
          rw [setAll_other r h2]
          exact (e n h1 h2).symm
        · rfl

/-- the statement of one change, executed with stamps and without -/
theorem undo_stamped_iff (ff : FloatFmt) (autos : Bytes → Bytes → List Bytes) (now : Orig) (ch : Change) (S : Tables) :
    ch.undoStamped ff autos now S = ch.undo ff S ↔ ∀ r ∈ S ch.db ch.table, hasAll (ch.keys ff) r = true →
      setAll (ch.olds ff) r = r ∨ ∀ n ∈ autos ch.db ch.table, n ∉ ch.sets.map (·.1) → r n = now := by
  unfold Change.undoStamped Change.undo updateRowsStamped updateRows
  constructor
  · intro h r hr hk
    have := congrFun (congrFun h ch.db) ch.table
    rw [if_pos ⟨rfl, rfl⟩, if_pos ⟨rfl, rfl⟩] at this
    have := List.map_inj_left.mp this r hr
    rw [if_pos hk, if_pos hk, stamped_iff, olds_names] at this
    exact this
  · intro h
    funext d t
    by_cases e : d = ch.db ∧ t = ch.table
    · rw [if_pos e, if_pos e]
      refine List.map_congr_left fun r hr => ?_
      rw [e.1, e.2] at hr
      by_cases hk : hasAll (ch.keys ff) r = true
      · rw [if_pos hk, if_pos hk, stamped_iff, olds_names]
        exact h r hr hk
      · rw [if_neg hk, if_neg hk]
    · rw [if_neg e, if_neg e]

/-- what the command prints, and what it does -/
theorem redo_stamped (env : Env) (fs : Bytes → File) (a : FromRedo) (spare : Nat) (sys : Bytes) (trs : List TableRow) (crs : List ColumnRow)
    (irs : List IndexRow) (frs : List FieldRow) (names : List Bytes) (parts : List (List Bytes)) (its : List Item) (chs : List (Option Change))
    (sv : Server) (cols : Bytes → Bytes → List Column) (pk autos : Bytes → Bytes → List Bytes) (now : Orig) (S S' : Tables)
    (hsys : a.sysFile = .ok sys) (hdict : Dictionary sys trs crs irs frs) (hne : names ≠ []) (hn : ∀ n ∈ names, 44 ∉ n)
    (ha : a.redoFile = commaList names) (hp : All2 (fun chunks n => ∃ content, fs n = .ok content ∧ IsLogFile chunks content) parts names)
    (hs : parts.flatten.flatten = its.flatMap Item.enc) (hf : ∀ it ∈ its, it.Fits)
    (harr : ∀ t ∈ trs, UsualKeys irs frs crs t.id) (hfl : All2 (Followed env a trs crs irs frs) its chs)
    (hplain : ∀ ch, some ch ∈ chs → Wanted a ch = true → Plainly env.ff ch)
    (hah : Ahead its) (hlen : (its.flatMap Item.enc).length < 2 ^ 32)
    (hcols : SameColumns trs crs cols) (hreads : ∀ ch, some ch ∈ chs → ReadsChange sv env.ff ch)
    (hh : Happened cols pk env.ff ((chs.filterMap id).filter (Wanted a)) S S') :
    ∃ lines, fromRedoFile env fs a spare [] = .ok () lines ∧ ∀ T, execUpdatesStamped sv cols autos now (stdout lines) T =
      some (((chs.filterMap id).filter (Wanted a)).foldl (fun S ch => ch.undoStamped env.ff autos now S) T) := by
  obtain ⟨lines, h1, h2⟩ := C58_command_partial env fs a spare sys trs crs irs frs names parts its chs hsys hdict hne hn ha hp hs hf harr hfl hplain hah hlen []
  have hm : ∀ ch ∈ (chs.filterMap id).filter (Wanted a), some ch ∈ chs := by
    intro ch hch
    obtain ⟨x, hx, rfl⟩ := List.mem_filterMap.mp (List.mem_filter.mp hch).1
    exact hx
  refine ⟨lines, by simpa using h1, exec_lines_stamped h2 ?_ fun ch hch => hreads ch (hm ch hch)⟩
  intro ch hch
  obtain ⟨it, _, hit⟩ := all2_exists_left hfl (some ch) (hm ch hch)
  exact followed_typed hcols hit (happened_columns hh ch hch)

/-- **C109 (partial).** True if every update of the log changed all these columns of its table, in particular if the tables have no such columns.
Missing: updates that left such a column as it was (`C109_iff`, `C109_false`). -/
theorem C109_assigned_partial (env : Env) (fs : Bytes → File) (a : FromRedo) (spare : Nat) (sys : Bytes) (trs : List TableRow) (crs : List ColumnRow)
    (irs : List IndexRow) (frs : List FieldRow) (names : List Bytes) (parts : List (List Bytes)) (its : List Item) (chs : List (Option Change))
    (sv : Server) (cols : Bytes → Bytes → List Column) (pk autos : Bytes → Bytes → List Bytes) (now : Orig) (S S' : Tables)
    (hsys : a.sysFile = .ok sys) (hdict : Dictionary sys trs crs irs frs) (hne : names ≠ []) (hn : ∀ n ∈ names, 44 ∉ n)
    (ha : a.redoFile = commaList names) (hp : All2 (fun chunks n => ∃ content, fs n = .ok content ∧ IsLogFile chunks content) parts names)
    (hs : parts.flatten.flatten = its.flatMap Item.enc) (hf : ∀ it ∈ its, it.Fits)
    (harr : ∀ t ∈ trs, UsualKeys irs frs crs t.id) (hfl : All2 (Followed env a trs crs irs frs) its chs)
    (hplain : ∀ ch, some ch ∈ chs → Wanted a ch = true → Plainly env.ff ch)
    (hah : Ahead its) (hlen : (its.flatMap Item.enc).length < 2 ^ 32)
    (hcols : SameColumns trs crs cols) (hreads : ∀ ch, some ch ∈ chs → ReadsChange sv env.ff ch)
    (hh : Happened cols pk env.ff ((chs.filterMap id).filter (Wanted a)) S S')
    (hapart : ((chs.filterMap id).filter (Wanted a)).Pairwise (Apart env.ff))
    (hset : ∀ ch ∈ (chs.filterMap id).filter (Wanted a), ∀ n ∈ autos ch.db ch.table, n ∈ ch.sets.map (·.1)) :
    ∃ lines, fromRedoFile env fs a spare [] = .ok () lines ∧ execUpdatesStamped sv cols autos now (stdout lines) S' = some S := by
  obtain ⟨lines, h1, h2⟩ := redo_stamped env fs a spare sys trs crs irs frs names parts its chs sv cols pk autos now S S' hsys hdict hne hn ha hp hs hf harr hfl
    hplain hah hlen hcols hreads hh
  refine ⟨lines, h1, ?_⟩
  rw [h2, ← undo_forward hh hapart]
  generalize (chs.filterMap id).filter (Wanted a) = cs at hset
  clear * - hset
  congr 1
  induction cs generalizing S' with
  | nil => rfl
  | cons c cs ih =>
    rw [List.foldl_cons, List.foldl_cons, ih _ fun x hx => hset x (List.mem_cons_of_mem _ hx),
      (undo_stamped_iff env.ff autos now c S').mpr fun r _ _ => .inr fun n hn hns => absurd (hset c List.mem_cons_self n hn) hns]

/-- **C109, one update, exactly:** the row is restored if and only if the update is already undone, or each column with ON UPDATE CURRENT_TIMESTAMP that was
not updated holds the time of the restoration. -/
theorem C109_iff (env : Env) (fs : Bytes → File) (a : FromRedo) (spare : Nat) (sys : Bytes) (trs : List TableRow) (crs : List ColumnRow)
    (irs : List IndexRow) (frs : List FieldRow) (names : List Bytes) (parts : List (List Bytes)) (its : List Item) (chs : List (Option Change))
    (sv : Server) (cols : Bytes → Bytes → List Column) (pk autos : Bytes → Bytes → List Bytes) (now : Orig) (S S' : Tables) (ch : Change)
    (hsys : a.sysFile = .ok sys) (hdict : Dictionary sys trs crs irs frs) (hne : names ≠ []) (hn : ∀ n ∈ names, 44 ∉ n)
    (ha : a.redoFile = commaList names) (hp : All2 (fun chunks n => ∃ content, fs n = .ok content ∧ IsLogFile chunks content) parts names)
    (hs : parts.flatten.flatten = its.flatMap Item.enc) (hf : ∀ it ∈ its, it.Fits)
    (harr : ∀ t ∈ trs, UsualKeys irs frs crs t.id) (hfl : All2 (Followed env a trs crs irs frs) its chs)
    (hplain : ∀ ch, some ch ∈ chs → Wanted a ch = true → Plainly env.ff ch)
    (hah : Ahead its) (hlen : (its.flatMap Item.enc).length < 2 ^ 32)
    (hcols : SameColumns trs crs cols) (hreads : ∀ ch, some ch ∈ chs → ReadsChange sv env.ff ch)
    (hone : (chs.filterMap id).filter (Wanted a) = [ch]) (hh : Changed cols pk env.ff ch S S') :
    (∃ lines, fromRedoFile env fs a spare [] = .ok () lines ∧ execUpdatesStamped sv cols autos now (stdout lines) S' = some S) ↔
      ∀ r ∈ S' ch.db ch.table, hasAll (ch.keys env.ff) r = true →
        setAll (ch.olds env.ff) r = r ∨ ∀ n ∈ autos ch.db ch.table, n ∉ ch.sets.map (·.1) → r n = now := by
  obtain ⟨lines, h1, h2⟩ := redo_stamped env fs a spare sys trs crs irs frs names parts its chs sv cols pk autos now S S' hsys hdict hne hn ha hp hs hf harr hfl
    hplain hah hlen hcols hreads (by rw [hone]; exact .cons hh .nil)
  have h2 := h2 S'
  rw [hone, List.foldl_cons, List.foldl_nil] at h2
  rw [← undo_stamped_iff, undo_changed hh]
  constructor
  · rintro ⟨lines', h3, h4⟩
    rw [h1] at h3
    cases h3
    rw [h2] at h4
    exact Option.some.inj h4
  · intro e
    exact ⟨lines, h1, by rw [h2, e]⟩

/-! ### A table with such a column

`CREATE TABLE t (id INT PRIMARY KEY, name VARCHAR(20), changed TIMESTAMP NOT NULL ON UPDATE CURRENT_TIMESTAMP)`; the log is of
`UPDATE t SET name = 'zoe', changed = changed WHERE id = 7`. -/

def stampColumns : List ColumnRow := shopColumns ++ [⟨20, 2, b! "changed", 3, 7 + 256 + 1024, 4⟩]
def stampSys : Bytes := writeSystem shopTables stampColumns (shopIndexes idKey) (shopFields idKey)
def stampCols : Bytes → Bytes → List Column := fun _ _ => columnsOf stampColumns 20
def stampLayout : List Column := shopLayout 20 ++ (columnsOf stampColumns 20).drop 2
def stampLog : List Item :=
  [.record false 5 3 (.bytes2 120 77), .record true 0 300 (.undoInsert (shopUpdate 7 (b! "bob") 3)), .record true 5 3 (.bytes2 120 77)]
def stampChanges : List (Option Change) := [none, some (shopChange2 7 (b! "bob")), none]
def stampDisk (_ : Bytes) : File := .ok (logFile (stampLog.flatMap Item.enc))
def stampRedo : FromRedo := { sysFile := .ok stampSys, redoFile := b! "ib_logfile0", db := b! "shop", table := [] }
def stampAutos : Bytes → Bytes → List Bytes := fun _ _ => [b! "changed"]

set_option maxRecDepth 4000 in
theorem stamp_dictionary : Dictionary stampSys shopTables stampColumns (shopIndexes idKey) (shopFields idKey) where
  file := system_written _ _ _ _
    { tables := by decide
      columns := by decide
      indexes := by decide
      fields := by decide
      onTables := by decide
      onColumns := by decide
      onIndexes := by decide
      onFields := by decide }
  indexes := by decide
  ids := by decide
  names := (shop_dictionary (.inl rfl)).names

theorem stamp_usual : ∀ t ∈ shopTables, UsualKeys (shopIndexes idKey) (shopFields idKey) stampColumns t.id := by
  intro t ht
  cases List.mem_singleton.mp ht
  exact .inr ⟨⟨20, 30, b! "PRIMARY", 1, 3⟩, by decide, .inr ⟨by decide, by decide, by decide, by decide⟩⟩

theorem stamp_keyed : Keyed stampColumns (shopIndexes idKey) (shopFields idKey) ⟨b! "shop/t", 20, 5⟩ stampLayout [b! "id"] where
  index := ⟨⟨20, 30, b! "PRIMARY", 1, 3⟩, by decide, by decide, by decide⟩
  layout := .key (r := ⟨20, 30, b! "PRIMARY", 1, 3⟩) (by decide) (by decide) (by decide) (by decide)
  names := by decide

theorem stamp_followed (env : Env) :
    All2 (Followed env stampRedo shopTables stampColumns (shopIndexes idKey) (shopFields idKey)) stampLog stampChanges := by
  refine .cons (.other nofun fun _ => trivial) (.cons ?_ (.cons (.other nofun fun _ => trivial) .nil))
  refine .update (t := ⟨b! "shop/t", 20, 5⟩) (names := [b! "id"]) (keys := [.int 4 7]) (olds := [(3, some (.varchar (b! "bob")))]) (by decide) rfl rfl stamp_keyed
    (.cons ⟨⟨shopId, by decide, rfl, rfl, by decide, by decide, rfl, rfl⟩, by decide, by decide, by decide⟩ .nil)
    (.cons ⟨shopName, rfl, rfl, by rintro v ⟨⟩; exact ⟨rfl, trivial⟩⟩ .nil) ⟨rfl, rfl, rfl⟩ (by decide) (by show 20 < 2 ^ 32; decide)
    ⟨⟨20, 30, b! "PRIMARY", 1, 3⟩, by decide, by decide, .inr ⟨by decide, by decide, shopId, (columnsOf stampColumns 20).drop 1, by decide, by decide⟩⟩ shop_trimmed
    ?_ ?_ ?_ ?_
  · intro v hv
    cases List.mem_singleton.mp hv
    exact ⟨trivial, rfl⟩
  · intro e he v hv
    cases List.mem_singleton.mp he
    cases hv
    trivial
  · intro h
    have : Wanted stampRedo ⟨b! "shop", b! "t", [(b! "name", some (.varchar (b! "bob")))], [b! "id"].zip [.int 4 7]⟩ = true := rfl
    rw [this] at h
    cases h
  · intro _
    refine ⟨?_, ?_⟩
    · intro v hv
      cases List.mem_singleton.mp hv
      exact ⟨trivial, rfl, nofun⟩
    · intro e he v hv
      cases List.mem_singleton.mp he
      cases hv
      exact ⟨trivial, rfl, nofun⟩

set_option maxRecDepth 4000 in
theorem stamp_length : (stampLog.flatMap Item.enc).length ≤ 300 := by decide

theorem stamp_disk : All2 (fun chunks n => ∃ content, stampDisk n = .ok content ∧ IsLogFile chunks content) [[stampLog.flatMap Item.enc]] [b! "ib_logfile0"] :=
  .cons ⟨_, rfl, logFile_is _ (by have := stamp_length; omega)⟩ .nil

theorem stamp_fits : ∀ it ∈ stampLog, it.Fits := by
  intro it hit
  simp only [stampLog, List.mem_cons, List.not_mem_nil, or_false] at hit
  rcases hit with rfl | rfl | rfl
  · exact ⟨by decide, by decide, by show 77 < 2 ^ 32; decide⟩
  · exact ⟨by decide, by decide, shopUpdate_fits (.inl rfl) (.inl rfl) (.inl rfl)⟩
  · exact ⟨by decide, by decide, by show 77 < 2 ^ 32; decide⟩

set_option maxRecDepth 4000 in
theorem stamp_ahead : Ahead stampLog := ⟨by decide, by decide, by decide, trivial⟩

theorem stamp_mem {ch : Change} (h : some ch ∈ stampChanges) : ch = shopChange2 7 (b! "bob") := by
  simpa [stampChanges] using h

theorem stamp_cols : SameColumns shopTables stampColumns stampCols := by
  intro t ht db table _
  cases List.mem_singleton.mp ht
  rfl

theorem stamp_reads (sv : Server) (ff : FloatFmt) : ∀ ch, some ch ∈ stampChanges → ReadsChange sv ff ch := by
  intro ch hch
  cases stamp_mem hch
  exact ⟨fun s hs => by cases List.mem_singleton.mp hs; trivial, fun s hs => by cases List.mem_singleton.mp hs; trivial⟩

/-- a row of the table -/
def stampRow (name time : Bytes) : NamedRow := fun n => if n = b! "changed" then .text time else shopRow 7 name n

theorem stamp_changed (ff : FloatFmt) (time : Bytes) : Changed stampCols (fun _ _ => [b! "id"]) ff (shopChange2 7 (b! "bob"))
    (shopState [stampRow (b! "bob") time]) (shopState [stampRow (b! "zoe") time]) where
  key := rfl
  columns := by
    intro s hs
    cases List.mem_singleton.mp hs
    exact ⟨by show b! "name" ∈ (columnsOf stampColumns 20).map (·.name); decide, by show b! "name" ∉ [b! "id"]; decide⟩
  old := by
    intro r hr hh s hs
    have hr : r ∈ [stampRow (b! "bob") time] := hr
    cases List.mem_singleton.mp hr
    cases List.mem_singleton.mp hs
    rfl
  new := ⟨[(b! "name", .text (b! "zoe"))], rfl, by
    show _ = updateRows (b! "shop") (b! "t") _ _ _
    rw [shopState_update]
    congr 1
    rw [List.map_singleton, if_pos (by rfl)]
    congr 1
    funext n
    rw [setAll, setAll]
    unfold stampRow shopRow
    by_cases h : n = b! "name"
    · subst h
      rfl
    · simp [h]⟩

/-- the hypotheses of `C109_iff`: the row is restored exactly if it was changed last at the time of the restoration -/
theorem stamp_iff (env : Env) (spare : Nat) (sv : Server) (time now : Bytes) :
    (∃ lines, fromRedoFile env stampDisk stampRedo spare [] = .ok () lines ∧
      execUpdatesStamped sv stampCols stampAutos (.text now) (stdout lines) (shopState [stampRow (b! "zoe") time]) =
        some (shopState [stampRow (b! "bob") time])) ↔ time = now := by
  rw [C109_iff env stampDisk stampRedo spare stampSys shopTables stampColumns (shopIndexes idKey) (shopFields idKey) [b! "ib_logfile0"] [[stampLog.flatMap Item.enc]] stampLog
    stampChanges sv stampCols (fun _ _ => [b! "id"]) stampAutos (.text now) _ _ (shopChange2 7 (b! "bob")) rfl stamp_dictionary (by decide) (by decide) rfl stamp_disk
    (by simp) stamp_fits stamp_usual (stamp_followed env) (fun ch hch _ => by cases stamp_mem hch; exact shopChange2_plainly env (.inl rfl) (.inl rfl)) stamp_ahead
    (by have := stamp_length; omega) stamp_cols (stamp_reads sv env.ff) rfl (stamp_changed env.ff time)]
  constructor
  · intro h
    rcases h (stampRow (b! "zoe") time) (by show _ ∈ [stampRow (b! "zoe") time]; simp) rfl with h | h
    · have := congrFun h (b! "name")
      have : (Orig.text (b! "bob")) = .text (b! "zoe") := this
      exact absurd this (by decide)
    · have := h (b! "changed") (by show _ ∈ [b! "changed"]; simp) (by show b! "changed" ∉ [b! "name"]; decide)
      have : Orig.text time = .text now := this
      injection this
  · rintro rfl r hr _
    have hr : r ∈ [stampRow (b! "zoe") time] := hr
    cases List.mem_singleton.mp hr
    refine .inr fun n hn _ => ?_
    have hn : n ∈ [b! "changed"] := hn
    cases List.mem_singleton.mp hn
    rfl

/-- the hypotheses of `C109_assigned_partial`: the column `name` is set by every update -/
example (env : Env) (spare : Nat) (sv : Server) (now : Orig) : ∃ lines, fromRedoFile env (shopDisk2 8) shopRedo2 spare [] = .ok () lines ∧
    execUpdatesStamped sv shopCols (fun _ _ => [b! "name"]) now (stdout lines) (shopState [shopRow 7 (b! "zoe"), shopRow 8 (b! "pat")]) =
      some (shopState [shopRow 7 (b! "bob"), shopRow 8 (b! "eve")]) :=
  C109_assigned_partial env (shopDisk2 8) shopRedo2 spare (shopFile idKey) shopTables shopColumns (shopIndexes idKey) (shopFields idKey) [b! "ib_logfile0"]
    [[(shopLog2 8).flatMap Item.enc]] (shopLog2 8) (shopChanges2 8) sv shopCols (fun _ _ => [b! "id"]) _ now _ _ rfl (shop_dictionary (.inl rfl)) (by decide)
    (by decide) rfl (shop2_disk (.inr rfl)) (by simp) (shop2_fits (.inr rfl)) shop_arranged (shop2_followed env (.inr rfl))
    (fun ch hch _ => by
      rcases shop2_mem hch with rfl | rfl
      · exact shopChange2_plainly env (.inl rfl) (.inl rfl)
      · exact shopChange2_plainly env (.inr rfl) (.inr rfl))
    (shop2_ahead (.inr rfl)) (by have := shop2_length (.inr rfl : SevenEight 8); omega) shop2_cols (shop2_reads sv env.ff 8) (shop2_apart env.ff)
    (by
      show [shopChange2 7 (b! "bob"), shopChange2 8 (b! "eve")].Pairwise _
      exact List.pairwise_pair.mpr (.inr (.inr (.inl (by
        show [(b! "id", Orig.int 7)] ≠ [(b! "id", .int 8)]
        decide)))))
    (by
      intro ch hch n hn
      have hch : ch ∈ [shopChange2 7 (b! "bob"), shopChange2 8 (b! "eve")] := hch
      simp only [List.mem_cons, List.not_mem_nil, or_false] at hch
      rcases hch with rfl | rfl <;> exact hn)

/-- The row is given the name that it had, and a new time. -/
theorem C109_false : ¬ C109_statement := by
  intro h
  have := h testEnv stampDisk stampRedo 0 stampSys shopTables stampColumns (shopIndexes idKey) (shopFields idKey) [b! "ib_logfile0"] [[stampLog.flatMap Item.enc]] stampLog
    stampChanges anyServer stampCols (fun _ _ => [b! "id"]) stampAutos (.text (b! "2024-01-01 00:00:00")) (shopState [stampRow (b! "bob") (b! "2020-01-01 00:00:00")])
    (shopState [stampRow (b! "zoe") (b! "2020-01-01 00:00:00")]) rfl stamp_dictionary (by decide) (by decide) rfl stamp_disk
    (by simp) stamp_fits stamp_usual (stamp_followed testEnv) (fun ch hch _ => by cases stamp_mem hch; exact shopChange2_plainly testEnv (.inl rfl) (.inl rfl)) stamp_ahead
    (by have := stamp_length; omega) stamp_cols (stamp_reads anyServer testEnv.ff) (.cons (stamp_changed testEnv.ff _) .nil) (List.pairwise_singleton _ _)
    (by
      intro d t n hn
      have hn : n ∈ [b! "changed"] := hn
      cases List.mem_singleton.mp hn
      exact ⟨by show b! "changed" ∈ (columnsOf stampColumns 20).map (·.name); decide, by decide⟩)
  exact absurd ((stamp_iff testEnv 0 anyServer _ _).mp this) (by decide)

end Verif.Props
