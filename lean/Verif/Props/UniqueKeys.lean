import Verif.Props.RedoEffectIff
/-!
# C111: UNIQUE indexes and the statements of the redo command

A server refuses an UPDATE after which two rows of the table would have the same values in the columns of a UNIQUE index; an error ends the script.
-/

namespace Verif.Props
open Verif Spec

/-- The rows have equal values, not NULL, in the columns `ix` of an index; `eq` is the comparison of the server. -/
def sameIn (eq : Orig → Orig → Bool) (ix : List Bytes) (r r' : NamedRow) : Bool := ix.all fun n => r n != .null && r' n != .null && eq (r n) (r' n)

/-- No two of the rows have the same values in one of these UNIQUE indexes. -/
def uniqueRows (eq : Orig → Orig → Bool) (ixs : List (List Bytes)) : List NamedRow → Bool
  | [] => true
  | r :: rs => (rs.all fun r' => ixs.all fun ix => !sameIn eq ix r r') && uniqueRows eq ixs rs

/-- `uq`: the UNIQUE indexes of each table -/
def UniqueIn (eq : Orig → Orig → Bool) (uq : Bytes → Bytes → List (List Bytes)) (S : Tables) : Prop := ∀ db t, uniqueRows eq (uq db t) (S db t) = true

/-- Execute one UPDATE. -/
def execUnique (sv : Server) (cols : Bytes → Bytes → List Column) (eq : Orig → Orig → Bool) (uq : Bytes → Bytes → List (List Bytes)) (S : Tables) (u : Update) :
    Option Tables :=
  (execUpdate sv cols S u).bind fun T => if uniqueRows eq (uq u.db u.table) (T u.db u.table) then some T else none

/-- Execute a script of UPDATE statements on tables with UNIQUE indexes. -/
def execUniques (sv : Server) (cols : Bytes → Bytes → List Column) (eq : Orig → Orig → Bool) (uq : Bytes → Bytes → List (List Bytes)) (script : Bytes)
    (S : Tables) : Option Tables := (readUpdates script).bind fun us => us.foldlM (execUnique sv cols eq uq) S

/-- At no time of the history there were two rows with the same values in a UNIQUE index. -/
def AlwaysUnique (cols : Bytes → Bytes → List Column) (pk : Bytes → Bytes → List Bytes) (ff : FloatFmt) (eq : Orig → Orig → Bool)
    (uq : Bytes → Bytes → List (List Bytes)) (chs : List Change) (S S' : Tables) : Prop :=
  ∀ cs ds T, chs = cs ++ ds → Happened cols pk ff cs S T → Happened cols pk ff ds T S' → UniqueIn eq uq T

/-- **C111**, as stated: also if tables have UNIQUE indexes, the output of the redo command can be executed and undoes the updates, if it does so for tables
without them (the conditions of `C74_once_partial`). -/
def C111_statement : Prop :=
  ∀ (env : Env) (fs : Bytes → File) (a : FromRedo) (spare : Nat) (sys : Bytes) (trs : List TableRow) (crs : List ColumnRow)
    (irs : List IndexRow) (frs : List FieldRow) (names : List Bytes) (parts : List (List Bytes)) (its : List Item) (chs : List (Option Change))
    (sv : Server) (cols : Bytes → Bytes → List Column) (pk : Bytes → Bytes → List Bytes) (eq : Orig → Orig → Bool) (uq : Bytes → Bytes → List (List Bytes))
    (S S' : Tables),
    a.sysFile = .ok sys → Dictionary sys trs crs irs frs → names ≠ [] → (∀ n ∈ names, 44 ∉ n) → a.redoFile = commaList names →
    All2 (fun chunks n => ∃ content, fs n = .ok content ∧ IsLogFile chunks content) parts names →
    parts.flatten.flatten = its.flatMap Item.enc → (∀ it ∈ its, it.Fits) →
    (∀ t ∈ trs, UsualKeys irs frs crs t.id) → All2 (Followed env a trs crs irs frs) its chs →
    (∀ ch, some ch ∈ chs → Wanted a ch = true → Plainly env.ff ch) → Ahead its → (its.flatMap Item.enc).length < 2 ^ 32 →
    SameColumns trs crs cols → (∀ ch, some ch ∈ chs → ReadsChange sv env.ff ch) →
    Happened cols pk env.ff ((chs.filterMap id).filter (Wanted a)) S S' → ((chs.filterMap id).filter (Wanted a)).Pairwise (Apart env.ff) →
    AlwaysUnique cols pk env.ff eq uq ((chs.filterMap id).filter (Wanted a)) S S' →
    ∃ lines, fromRedoFile env fs a spare [] = .ok () lines ∧ execUniques sv cols eq uq (stdout lines) S' = some S

/-! ### Executing -/

/-- the statements of the changes, one after the other -/
def runUnique (ff : FloatFmt) (eq : Orig → Orig → Bool) (uq : Bytes → Bytes → List (List Bytes)) : List Change → Tables → Option Tables
  | [], S => some S
  | ch :: chs, S => if uniqueRows eq (uq ch.db ch.table) (ch.undo ff S ch.db ch.table) then runUnique ff eq uq chs (ch.undo ff S) else none

theorem exec_lines_unique {sv : Server} {ff : FloatFmt} {cols : Bytes → Bytes → List Column} {eq : Orig → Orig → Bool} {uq : Bytes → Bytes → List (List Bytes)}
    {lines : List Bytes} {chs : List Change} (h : All2 (Undoes ff) lines chs) (ht : ∀ ch ∈ chs, TypedChange cols ch) (hr : ∀ ch ∈ chs, ReadsChange sv ff ch)
    (S : Tables) : execUniques sv cols eq uq (stdout lines) S = runUnique ff eq uq chs S := by
  have : ∃ us, All2 (fun l u => readUpdate l = some u ∧ ∀ e ∈ u.sets ++ u.conds, ∃ v, evalExpr e.2 = some v) lines us ∧
      All2 (fun u ch => u.db = ch.db ∧ u.table = ch.table ∧ ∀ S, execUpdate sv cols S u = some (ch.undo ff S)) us chs := by
    induction h with
    | nil => exact ⟨[], .nil, .nil⟩
    | @cons l ch ls chs h _ ih =>
      obtain ⟨us, h1, h2⟩ := ih (fun x hx => ht x (List.mem_cons_of_mem _ hx)) fun x hx => hr x (List.mem_cons_of_mem _ hx)
      obtain ⟨u, e1, e2, e3, e4, e5⟩ := h
      refine ⟨u :: us, .cons ⟨e1, ?_⟩ h1, .cons ⟨e2, e3, exec_undoes e2 e3 e4 e5 (ht ch List.mem_cons_self) (hr ch List.mem_cons_self)⟩ h2⟩
      intro e he
      rcases List.mem_append.mp he with he | he
      · obtain ⟨_, _, _, v, hv, _⟩ := all2_mem e4 e he
        exact ⟨v, hv⟩
      · obtain ⟨_, _, _, v, hv, _⟩ := all2_mem e5 e he
        exact ⟨v, hv⟩
  obtain ⟨us, h1, h2⟩ := this
  unfold execUniques
  rw [readUpdates_lines h1, Option.bind_some]
  clear h h1 ht hr
  induction h2 generalizing S with
  | nil => rfl
  | @cons u ch us chs h _ ih =>
    rw [List.foldlM_cons, runUnique]
    unfold execUnique
    rw [h.2.2, Option.bind_some, h.1, h.2.1]
    split
    · exact ih _
    · rfl

/-- when it ends well -/
theorem run_unique_iff {ff : FloatFmt} {eq : Orig → Orig → Bool} {uq : Bytes → Bytes → List (List Bytes)} {chs : List Change} {S T : Tables} :
    runUnique ff eq uq chs S = some T ↔ chs.foldl (fun S ch => ch.undo ff S) S = T ∧
      ∀ cs c ds, chs = cs ++ c :: ds → uniqueRows eq (uq c.db c.table) (c.undo ff (cs.foldl (fun S ch => ch.undo ff S) S) c.db c.table) = true := by
  induction chs generalizing S with
  | nil => simp [runUnique]
  | cons ch chs ih =>
    rw [runUnique, List.foldl_cons]
    split
    · rename_i h
      rw [ih]
      refine and_congr_right fun _ => ?_
      constructor
      · intro hl cs c ds e
        cases cs with
        | nil =>
          cases e
          exact h
        | cons x cs =>
          cases e
          exact hl cs c ds rfl
      · intro hl cs c ds e
        exact hl (ch :: cs) c ds (by rw [e]; rfl)
    · rename_i h
      constructor
      · intro e
        cases e
      · intro e
        exact absurd (e.2 [] ch chs rfl) h

/-- in the opposite order, each statement leads to a state of the history -/
theorem run_unique_reverse {cols : Bytes → Bytes → List Column} {pk : Bytes → Bytes → List Bytes} {ff : FloatFmt} {eq : Orig → Orig → Bool}
    {uq : Bytes → Bytes → List (List Bytes)} {chs : List Change} {S S' : Tables} (h : Happened cols pk ff chs S S') (hu : AlwaysUnique cols pk ff eq uq chs S S') :
    runUnique ff eq uq chs.reverse S' = some S := by
  have hrun : ∀ (xs ys : List Change) (S : Tables), runUnique ff eq uq (xs ++ ys) S = (runUnique ff eq uq xs S).bind (runUnique ff eq uq ys) := by
    intro xs ys
    induction xs with
    | nil => exact fun _ => rfl
    | cons x xs ih =>
      intro S
      rw [List.cons_append, runUnique, runUnique]
      split
      · exact ih _
      · rfl
  induction h with
  | nil => rfl
  | @cons ch chs S S1 S2 hc h ih =>
    rw [List.reverse_cons, hrun, ih fun cs ds T e h1 h2 => hu (ch :: cs) ds T (by rw [e]; rfl) (.cons hc h1) h2, Option.bind_some, runUnique, undo_changed hc,
      if_pos (hu [] (ch :: chs) S rfl .nil (.cons hc h) _ _)]
    rfl

theorem unique_map {eq : Orig → Orig → Bool} {ixs : List (List Bytes)} (f : NamedRow → NamedRow) (rows : List NamedRow)
    (h : ∀ r, ∀ ix ∈ ixs, ∀ n ∈ ix, f r n = r n) : uniqueRows eq ixs (rows.map f) = uniqueRows eq ixs rows := by
  have hs : ∀ ix ∈ ixs, ∀ r r', sameIn eq ix (f r) (f r') = sameIn eq ix r r' := by
    intro ix hix r r'
    unfold sameIn
    rw [Bool.eq_iff_iff, List.all_eq_true, List.all_eq_true]
    refine forall₂_congr fun n hn => ?_
    rw [h r ix hix n hn, h r' ix hix n hn]
  induction rows with
  | nil => rfl
  | cons r rows ih =>
    rw [List.map_cons, uniqueRows, uniqueRows, ih, List.all_map]
    congr 1
    rw [Bool.eq_iff_iff, List.all_eq_true, List.all_eq_true]
    refine forall₂_congr fun r' _ => ?_
    rw [Function.comp_apply, List.all_eq_true, List.all_eq_true]
    refine forall₂_congr fun ix hix => ?_
    rw [hs ix hix]

theorem unique_undo {ff : FloatFmt} {eq : Orig → Orig → Bool} {uq : Bytes → Bytes → List (List Bytes)} {ch : Change}
    (h : ∀ ix ∈ uq ch.db ch.table, ∀ s ∈ ch.sets, s.1 ∉ ix) {S : Tables} (hu : UniqueIn eq uq S) : UniqueIn eq uq (ch.undo ff S) := by
  intro db t
  unfold Change.undo updateRows
  split
  · rename_i e
    rw [unique_map]
    · exact hu db t
    · intro r ix hix n hn
      split
      · refine setAll_other r fun hm => ?_
        rw [olds_names] at hm
        obtain ⟨s, hs, rfl⟩ := List.mem_map.mp hm
        rw [e.1, e.2] at hix
        exact h ix hix s hs hn
      · rfl
  · exact hu db t

theorem run_unique_other {ff : FloatFmt} {eq : Orig → Orig → Bool} {uq : Bytes → Bytes → List (List Bytes)} {chs : List Change}
    (h : ∀ ch ∈ chs, ∀ ix ∈ uq ch.db ch.table, ∀ s ∈ ch.sets, s.1 ∉ ix) {S : Tables} (hu : UniqueIn eq uq S) :
    runUnique ff eq uq chs S = some (chs.foldl (fun S ch => ch.undo ff S) S) := by
  induction chs generalizing S with
  | nil => rfl
  | cons ch chs ih =>
    have := unique_undo (ff := ff) (h ch List.mem_cons_self) hu
    rw [runUnique, if_pos (this _ _), List.foldl_cons]
    exact ih (fun x hx => h x (List.mem_cons_of_mem _ hx)) this

/-- what the command prints, and what it does in its own order and in the opposite one -/
theorem unique_effect (env : Env) (fs : Bytes → File) (a : FromRedo) (spare : Nat) (sys : Bytes) (trs : List TableRow) (crs : List ColumnRow)
    (irs : List IndexRow) (frs : List FieldRow) (names : List Bytes) (parts : List (List Bytes)) (its : List Item) (chs : List (Option Change))
    (sv : Server) (cols : Bytes → Bytes → List Column) (pk : Bytes → Bytes → List Bytes) (eq : Orig → Orig → Bool) (uq : Bytes → Bytes → List (List Bytes))
    (S S' : Tables)
    (hsys : a.sysFile = .ok sys) (hdict : Dictionary sys trs crs irs frs) (hne : names ≠ []) (hn : ∀ n ∈ names, 44 ∉ n)
    (ha : a.redoFile = commaList names) (hp : All2 (fun chunks n => ∃ content, fs n = .ok content ∧ IsLogFile chunks content) parts names)
    (hs : parts.flatten.flatten = its.flatMap Item.enc) (hf : ∀ it ∈ its, it.Fits)
    (harr : ∀ t ∈ trs, UsualKeys irs frs crs t.id) (hfl : All2 (Followed env a trs crs irs frs) its chs)
    (hplain : ∀ ch, some ch ∈ chs → Wanted a ch = true → Plainly env.ff ch)
    (hah : Ahead its) (hlen : (its.flatMap Item.enc).length < 2 ^ 32)
    (hcols : SameColumns trs crs cols) (hreads : ∀ ch, some ch ∈ chs → ReadsChange sv env.ff ch)
    (hh : Happened cols pk env.ff ((chs.filterMap id).filter (Wanted a)) S S') :
    ∃ lines, fromRedoFile env fs a spare [] = .ok () lines ∧
      (∀ T, execUniques sv cols eq uq (stdout lines) T = runUnique env.ff eq uq ((chs.filterMap id).filter (Wanted a)) T) ∧
      ∀ T, execUniques sv cols eq uq (stdout lines.reverse) T = runUnique env.ff eq uq ((chs.filterMap id).filter (Wanted a)).reverse T := by
  obtain ⟨lines, h1, h2⟩ := C58_command_partial env fs a spare sys trs crs irs frs names parts its chs hsys hdict hne hn ha hp hs hf harr hfl hplain hah hlen []
  have hm : ∀ ch ∈ (chs.filterMap id).filter (Wanted a), some ch ∈ chs := by
    intro ch hch
    obtain ⟨x, hx, rfl⟩ := List.mem_filterMap.mp (List.mem_filter.mp hch).1
    exact hx
  have ht : ∀ ch ∈ (chs.filterMap id).filter (Wanted a), TypedChange cols ch := by
    intro ch hch
    obtain ⟨it, _, hit⟩ := all2_exists_left hfl (some ch) (hm ch hch)
    exact followed_typed hcols hit (happened_columns hh ch hch)
  have hr : ∀ ch ∈ (chs.filterMap id).filter (Wanted a), ReadsChange sv env.ff ch := fun ch hch => hreads ch (hm ch hch)
  refine ⟨lines, by simpa using h1, exec_lines_unique h2 ht hr, exec_lines_unique (all2_reverse h2) ?_ ?_⟩
  · exact fun ch hch => ht ch (List.mem_reverse.mp hch)
  · exact fun ch hch => hr ch (List.mem_reverse.mp hch)

/-! ### The theorems -/

/-- **C111, exactly:** the output undoes the updates if and only if it does so without the indexes and no statement gives a row the values of another one in a
UNIQUE index. -/
theorem C111_iff (env : Env) (fs : Bytes → File) (a : FromRedo) (spare : Nat) (sys : Bytes) (trs : List TableRow) (crs : List ColumnRow)
    (irs : List IndexRow) (frs : List FieldRow) (names : List Bytes) (parts : List (List Bytes)) (its : List Item) (chs : List (Option Change))
    (sv : Server) (cols : Bytes → Bytes → List Column) (pk : Bytes → Bytes → List Bytes) (eq : Orig → Orig → Bool) (uq : Bytes → Bytes → List (List Bytes))
    (S S' : Tables)
    (hsys : a.sysFile = .ok sys) (hdict : Dictionary sys trs crs irs frs) (hne : names ≠ []) (hn : ∀ n ∈ names, 44 ∉ n)
    (ha : a.redoFile = commaList names) (hp : All2 (fun chunks n => ∃ content, fs n = .ok content ∧ IsLogFile chunks content) parts names)
    (hs : parts.flatten.flatten = its.flatMap Item.enc) (hf : ∀ it ∈ its, it.Fits)
    (harr : ∀ t ∈ trs, UsualKeys irs frs crs t.id) (hfl : All2 (Followed env a trs crs irs frs) its chs)
    (hplain : ∀ ch, some ch ∈ chs → Wanted a ch = true → Plainly env.ff ch)
    (hah : Ahead its) (hlen : (its.flatMap Item.enc).length < 2 ^ 32)
    (hcols : SameColumns trs crs cols) (hreads : ∀ ch, some ch ∈ chs → ReadsChange sv env.ff ch)
    (hh : Happened cols pk env.ff ((chs.filterMap id).filter (Wanted a)) S S') :
    (∃ lines, fromRedoFile env fs a spare [] = .ok () lines ∧ execUniques sv cols eq uq (stdout lines) S' = some S) ↔
      (∃ lines, fromRedoFile env fs a spare [] = .ok () lines ∧ execUpdates sv cols (stdout lines) S' = some S) ∧
      ∀ cs c ds, (chs.filterMap id).filter (Wanted a) = cs ++ c :: ds →
        uniqueRows eq (uq c.db c.table) (c.undo env.ff (cs.foldl (fun S ch => ch.undo env.ff S) S') c.db c.table) = true := by
  obtain ⟨lines, h1, h2, _⟩ := unique_effect env fs a spare sys trs crs irs frs names parts its chs sv cols pk eq uq S S' hsys hdict hne hn ha hp hs hf harr hfl
    hplain hah hlen hcols hreads hh
  obtain ⟨lines', k1, k2, _⟩ := redo_effect env fs a spare sys trs crs irs frs names parts its chs sv cols pk S S' hsys hdict hne hn ha hp hs hf harr hfl
    hplain hah hlen hcols hreads hh
  rw [h1] at k1
  cases k1
  have e1 : (∃ lines', fromRedoFile env fs a spare [] = .ok () lines' ∧ execUniques sv cols eq uq (stdout lines') S' = some S) ↔
      execUniques sv cols eq uq (stdout lines) S' = some S := by
    constructor
    · rintro ⟨l, e, h⟩
      rw [h1] at e
      cases e
      exact h
    · exact fun h => ⟨lines, h1, h⟩
  have e2 : (∃ lines', fromRedoFile env fs a spare [] = .ok () lines' ∧ execUpdates sv cols (stdout lines') S' = some S) ↔
      execUpdates sv cols (stdout lines) S' = some S := by
    constructor
    · rintro ⟨l, e, h⟩
      rw [h1] at e
      cases e
      exact h
    · exact fun h => ⟨lines, h1, h⟩
  rw [e1, e2, h2, k2, run_unique_iff, Option.some_inj]

/-- **C111 (partial).** True if no column of a UNIQUE index was updated.  Missing: updates of such columns, see `C111_iff`, `C111_false`. -/
theorem C111_other_columns_partial (env : Env) (fs : Bytes → File) (a : FromRedo) (spare : Nat) (sys : Bytes) (trs : List TableRow) (crs : List ColumnRow)
    (irs : List IndexRow) (frs : List FieldRow) (names : List Bytes) (parts : List (List Bytes)) (its : List Item) (chs : List (Option Change))
    (sv : Server) (cols : Bytes → Bytes → List Column) (pk : Bytes → Bytes → List Bytes) (eq : Orig → Orig → Bool) (uq : Bytes → Bytes → List (List Bytes))
    (S S' : Tables)
    (hsys : a.sysFile = .ok sys) (hdict : Dictionary sys trs crs irs frs) (hne : names ≠ []) (hn : ∀ n ∈ names, 44 ∉ n)
    (ha : a.redoFile = commaList names) (hp : All2 (fun chunks n => ∃ content, fs n = .ok content ∧ IsLogFile chunks content) parts names)
    (hs : parts.flatten.flatten = its.flatMap Item.enc) (hf : ∀ it ∈ its, it.Fits)
    (harr : ∀ t ∈ trs, UsualKeys irs frs crs t.id) (hfl : All2 (Followed env a trs crs irs frs) its chs)
    (hplain : ∀ ch, some ch ∈ chs → Wanted a ch = true → Plainly env.ff ch)
    (hah : Ahead its) (hlen : (its.flatMap Item.enc).length < 2 ^ 32)
    (hcols : SameColumns trs crs cols) (hreads : ∀ ch, some ch ∈ chs → ReadsChange sv env.ff ch)
    (hh : Happened cols pk env.ff ((chs.filterMap id).filter (Wanted a)) S S')
    (hapart : ((chs.filterMap id).filter (Wanted a)).Pairwise (Apart env.ff)) (hu : UniqueIn eq uq S')
    (hother : ∀ ch ∈ (chs.filterMap id).filter (Wanted a), ∀ ix ∈ uq ch.db ch.table, ∀ s ∈ ch.sets, s.1 ∉ ix) :
    ∃ lines, fromRedoFile env fs a spare [] = .ok () lines ∧ execUniques sv cols eq uq (stdout lines) S' = some S := by
  obtain ⟨lines, h1, h2, _⟩ := unique_effect env fs a spare sys trs crs irs frs names parts its chs sv cols pk eq uq S S' hsys hdict hne hn ha hp hs hf harr hfl
    hplain hah hlen hcols hreads hh
  exact ⟨lines, h1, by rw [h2, run_unique_other hother hu, undo_forward hh hapart]⟩

/-- **C111, the opposite order:** executed from the last to the first, the lines are all accepted and restore the tables. -/
theorem C111_reverse_partial (env : Env) (fs : Bytes → File) (a : FromRedo) (spare : Nat) (sys : Bytes) (trs : List TableRow) (crs : List ColumnRow)
    (irs : List IndexRow) (frs : List FieldRow) (names : List Bytes) (parts : List (List Bytes)) (its : List Item) (chs : List (Option Change))
    (sv : Server) (cols : Bytes → Bytes → List Column) (pk : Bytes → Bytes → List Bytes) (eq : Orig → Orig → Bool) (uq : Bytes → Bytes → List (List Bytes))
    (S S' : Tables)
    (hsys : a.sysFile = .ok sys) (hdict : Dictionary sys trs crs irs frs) (hne : names ≠ []) (hn : ∀ n ∈ names, 44 ∉ n)
    (ha : a.redoFile = commaList names) (hp : All2 (fun chunks n => ∃ content, fs n = .ok content ∧ IsLogFile chunks content) parts names)
    (hs : parts.flatten.flatten = its.flatMap Item.enc) (hf : ∀ it ∈ its, it.Fits)
    (harr : ∀ t ∈ trs, UsualKeys irs frs crs t.id) (hfl : All2 (Followed env a trs crs irs frs) its chs)
    (hplain : ∀ ch, some ch ∈ chs → Wanted a ch = true → Plainly env.ff ch)
    (hah : Ahead its) (hlen : (its.flatMap Item.enc).length < 2 ^ 32)
    (hcols : SameColumns trs crs cols) (hreads : ∀ ch, some ch ∈ chs → ReadsChange sv env.ff ch)
    (hh : Happened cols pk env.ff ((chs.filterMap id).filter (Wanted a)) S S')
    (hu : AlwaysUnique cols pk env.ff eq uq ((chs.filterMap id).filter (Wanted a)) S S') :
    ∃ lines, fromRedoFile env fs a spare [] = .ok () lines ∧ execUniques sv cols eq uq (stdout lines.reverse) S' = some S := by
  obtain ⟨lines, h1, _, h2⟩ := unique_effect env fs a spare sys trs crs irs frs names parts its chs sv cols pk eq uq S S' hsys hdict hne hn ha hp hs hf harr hfl
    hplain hah hlen hcols hreads hh
  exact ⟨lines, h1, by rw [h2, run_unique_reverse hh hu]⟩

/-! ### A log

The name of row 7 was changed from `bob` to `zoe`, then that of row 8 from `eve` to `bob`. -/

theorem shop_given (ff : FloatFmt) : Happened shopCols (fun _ _ => [b! "id"]) ff [shopChange2 7 (b! "bob"), shopChange2 8 (b! "eve")]
    (shopState [shopRow 7 (b! "bob"), shopRow 8 (b! "eve")]) (shopState [shopRow 7 (b! "zoe"), shopRow 8 (b! "bob")]) := by
  refine .cons (shopState_changed ff 7 _ (b! "zoe") _ [shopRow 7 (b! "zoe"), shopRow 8 (b! "eve")] ?_ ?_)
    (.cons (shopState_changed ff 8 _ (b! "bob") _ _ ?_ ?_) .nil)
  all_goals simp [shopRow_has, shopRow_set]

/-- names are unique -/
def nameIndex : Bytes → Bytes → List (List Bytes) := fun _ _ => [[b! "name"]]

theorem shopState_unique {x y : Bytes} (h : x ≠ y) : UniqueIn (· == ·) nameIndex (shopState [shopRow 7 x, shopRow 8 y]) := by
  intro db t
  unfold shopState
  split
  · show ((([shopRow 8 y].all fun r' => [[b! "name"]].all fun ix => !sameIn (· == ·) ix (shopRow 7 x) r')) && uniqueRows _ _ [shopRow 8 y]) = true
    have e1 : shopRow 7 x (b! "name") = .text x := rfl
    have e2 : shopRow 8 y (b! "name") = .text y := rfl
    simp [sameIn, uniqueRows, e1, e2, h]
  · rfl

theorem shop_always_unique (ff : FloatFmt) : AlwaysUnique shopCols (fun _ _ => [b! "id"]) ff (· == ·) nameIndex
    [shopChange2 7 (b! "bob"), shopChange2 8 (b! "eve")]
    (shopState [shopRow 7 (b! "bob"), shopRow 8 (b! "eve")]) (shopState [shopRow 7 (b! "zoe"), shopRow 8 (b! "bob")]) := by
  intro cs ds T e h1 h2
  rw [← undo_reverse h2]
  have u1 : (shopChange2 8 (b! "eve")).undo ff (shopState [shopRow 7 (b! "zoe"), shopRow 8 (b! "bob")]) = shopState [shopRow 7 (b! "zoe"), shopRow 8 (b! "eve")] := by
    refine (shopState_update ff 8 (b! "eve") (b! "eve") _).trans ?_
    simp [shopRow_has, shopRow_set]
  have u2 : (shopChange2 7 (b! "bob")).undo ff (shopState [shopRow 7 (b! "zoe"), shopRow 8 (b! "eve")]) = shopState [shopRow 7 (b! "bob"), shopRow 8 (b! "eve")] := by
    refine (shopState_update ff 7 (b! "bob") (b! "bob") _).trans ?_
    simp [shopRow_has, shopRow_set]
  rcases cs with _ | ⟨x, _ | ⟨y, cs⟩⟩
  · cases e
    show UniqueIn _ _ ((shopChange2 7 (b! "bob")).undo ff ((shopChange2 8 (b! "eve")).undo ff _))
    rw [u1, u2]
    exact shopState_unique (by decide)
  · cases e
    show UniqueIn _ _ ((shopChange2 8 (b! "eve")).undo ff _)
    rw [u1]
    exact shopState_unique (by decide)
  · cases cs with
    | nil =>
      cases e
      exact shopState_unique (by decide)
    | cons z cs => simp at e

theorem shop_plain (env : Env) : ∀ ch, some ch ∈ shopChanges2 8 → Wanted shopRedo2 ch = true → Plainly env.ff ch := fun ch hch _ => by
  rcases shop2_mem hch with rfl | rfl
  · exact shopChange2_plainly env (.inl rfl) (.inl rfl)
  · exact shopChange2_plainly env (.inr rfl) (.inr rfl)

theorem shop_pair_apart (ff : FloatFmt) : [shopChange2 7 (b! "bob"), shopChange2 8 (b! "eve")].Pairwise (Apart ff) :=
  .cons (by
    intro d hd
    cases List.mem_singleton.mp hd
    right; right; left
    show [(b! "id", Orig.int 7)] ≠ [(b! "id", .int 8)]
    decide) (List.pairwise_singleton _ _)

/-- the hypotheses of `C111_reverse_partial` -/
example (env : Env) (spare : Nat) (sv : Server) : ∃ lines, fromRedoFile env (shopDisk2 8) shopRedo2 spare [] = .ok () lines ∧
    execUniques sv shopCols (· == ·) nameIndex (stdout lines.reverse) (shopState [shopRow 7 (b! "zoe"), shopRow 8 (b! "bob")]) =
      some (shopState [shopRow 7 (b! "bob"), shopRow 8 (b! "eve")]) :=
  C111_reverse_partial env (shopDisk2 8) shopRedo2 spare (shopFile idKey) shopTables shopColumns (shopIndexes idKey) (shopFields idKey) [b! "ib_logfile0"]
    [[(shopLog2 8).flatMap Item.enc]] (shopLog2 8) (shopChanges2 8) sv shopCols (fun _ _ => [b! "id"]) _ _ _ _ rfl (shop_dictionary (.inl rfl)) (by decide)
    (by decide) rfl (shop2_disk (.inr rfl)) (by simp) (shop2_fits (.inr rfl)) shop_arranged (shop2_followed env (.inr rfl)) (shop_plain env)
    (shop2_ahead (.inr rfl)) (by have := shop2_length (.inr rfl : SevenEight 8); omega) shop2_cols (shop2_reads sv env.ff 8) (shop_given env.ff)
    (shop_always_unique env.ff)

/-- the hypotheses of `C111_other_columns_partial`: another column is unique -/
example (env : Env) (spare : Nat) (sv : Server) : ∃ lines, fromRedoFile env (shopDisk2 8) shopRedo2 spare [] = .ok () lines ∧
    execUniques sv shopCols (· == ·) (fun _ _ => [[b! "id"]]) (stdout lines) (shopState [shopRow 7 (b! "zoe"), shopRow 8 (b! "bob")]) =
      some (shopState [shopRow 7 (b! "bob"), shopRow 8 (b! "eve")]) :=
  C111_other_columns_partial env (shopDisk2 8) shopRedo2 spare (shopFile idKey) shopTables shopColumns (shopIndexes idKey) (shopFields idKey) [b! "ib_logfile0"]
    [[(shopLog2 8).flatMap Item.enc]] (shopLog2 8) (shopChanges2 8) sv shopCols (fun _ _ => [b! "id"]) _ _ _ _ rfl (shop_dictionary (.inl rfl)) (by decide)
    (by decide) rfl (shop2_disk (.inr rfl)) (by simp) (shop2_fits (.inr rfl)) shop_arranged (shop2_followed env (.inr rfl)) (shop_plain env)
    (shop2_ahead (.inr rfl)) (by have := shop2_length (.inr rfl : SevenEight 8); omega) shop2_cols (shop2_reads sv env.ff 8) (shop_given env.ff)
    (shop_pair_apart env.ff)
    (by
      intro db t
      unfold shopState
      split <;> rfl)
    (by
      intro ch hch ix hix s hs
      cases List.mem_singleton.mp hix
      have hch : ch ∈ [shopChange2 7 (b! "bob"), shopChange2 8 (b! "eve")] := hch
      simp only [List.mem_cons, List.not_mem_nil, or_false] at hch
      rcases hch with rfl | rfl <;> cases List.mem_singleton.mp hs <;> (show b! "name" ∉ [b! "id"]; decide))

/-- **C111 is false of the code:** the first statement gives row 7 the name that row 8 has now; the server refuses it. -/
theorem C111_false : ¬ C111_statement := by
  intro h
  have h1 := h testEnv (shopDisk2 8) shopRedo2 0 (shopFile idKey) shopTables shopColumns (shopIndexes idKey) (shopFields idKey) [b! "ib_logfile0"]
    [[(shopLog2 8).flatMap Item.enc]] (shopLog2 8) (shopChanges2 8) anyServer shopCols (fun _ _ => [b! "id"]) (· == ·) nameIndex _ _ rfl (shop_dictionary (.inl rfl))
    (by decide) (by decide) rfl (shop2_disk (.inr rfl)) (by simp) (shop2_fits (.inr rfl)) shop_arranged (shop2_followed testEnv (.inr rfl)) (shop_plain testEnv)
    (shop2_ahead (.inr rfl)) (by have := shop2_length (.inr rfl : SevenEight 8); omega) shop2_cols (shop2_reads anyServer testEnv.ff 8) (shop_given testEnv.ff)
    (shop_pair_apart testEnv.ff) (shop_always_unique testEnv.ff)
  have h2 := (C111_iff testEnv (shopDisk2 8) shopRedo2 0 (shopFile idKey) shopTables shopColumns (shopIndexes idKey) (shopFields idKey) [b! "ib_logfile0"]
    [[(shopLog2 8).flatMap Item.enc]] (shopLog2 8) (shopChanges2 8) anyServer shopCols (fun _ _ => [b! "id"]) (· == ·) nameIndex _ _ rfl (shop_dictionary (.inl rfl))
    (by decide) (by decide) rfl (shop2_disk (.inr rfl)) (by simp) (shop2_fits (.inr rfl)) shop_arranged (shop2_followed testEnv (.inr rfl)) (shop_plain testEnv)
    (shop2_ahead (.inr rfl)) (by have := shop2_length (.inr rfl : SevenEight 8); omega) shop2_cols (shop2_reads anyServer testEnv.ff 8)
    (shop_given testEnv.ff)).mp h1
  have h3 := h2.2 [] (shopChange2 7 (b! "bob")) [shopChange2 8 (b! "eve")] rfl
  have u : (shopChange2 7 (b! "bob")).undo testEnv.ff (shopState [shopRow 7 (b! "zoe"), shopRow 8 (b! "bob")]) =
      shopState [shopRow 7 (b! "bob"), shopRow 8 (b! "bob")] := by
    refine (shopState_update testEnv.ff 7 (b! "bob") (b! "bob") _).trans ?_
    simp [shopRow_has, shopRow_set]
  rw [List.foldl_nil, u] at h3
  have h3 : uniqueRows (· == ·) [[b! "name"]] [shopRow 7 (b! "bob"), shopRow 8 (b! "bob")] = true := h3
  have e1 : shopRow 7 (b! "bob") (b! "name") = .text (b! "bob") := rfl
  have e2 : shopRow 8 (b! "bob") (b! "name") = .text (b! "bob") := rfl
  simp [uniqueRows, sameIn, e1, e2] at h3

end Verif.Props
