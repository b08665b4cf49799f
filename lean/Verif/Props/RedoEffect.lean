import Verif.Props.Script
import Verif.Props.RedoWitness
/-!
# C74: what the statements of the redo command do when they are executed
-/

namespace Verif.Props
open Verif Spec

/-! ## A server -/

/-- a row, by the names of the columns -/
abbrev NamedRow := Bytes → Orig

/-- the rows of each table of each database -/
abbrev Tables := Bytes → Bytes → List NamedRow

/-- assign values to columns -/
def setAll : List (Bytes × Orig) → NamedRow → NamedRow
  | [], r => r
  | s :: ss, r => setAll ss fun n => if n = s.1 then s.2 else r n

/-- all these columns have these values; nothing equals NULL -/
def hasAll (key : List (Bytes × Orig)) (r : NamedRow) : Bool := key.all fun k => r k.1 == k.2 && k.2 != .null

/-- UPDATE of the rows of a table with this key -/
def updateRows (db table : Bytes) (key sets : List (Bytes × Orig)) (S : Tables) : Tables := fun d t =>
  if d = db ∧ t = table then (S d t).map fun r => if hasAll key r then setAll sets r else r else S d t

/-- the value of a literal as one of the column with this name -/
def evalNamed (sv : Server) (cols : List Column) (e : Bytes × List Tok) : Option (Bytes × Orig) :=
  (cols.find? (·.name == e.1)).bind fun c => (evalExpr e.2).bind fun v => (assign sv c v).map fun o => (e.1, o)

/-- Execute one UPDATE; `cols` are the columns of each table. -/
def execUpdate (sv : Server) (cols : Bytes → Bytes → List Column) (S : Tables) (u : Update) : Option Tables :=
  (u.sets.mapM (evalNamed sv (cols u.db u.table))).bind fun sets =>
    (u.conds.mapM (evalNamed sv (cols u.db u.table))).map fun conds => updateRows u.db u.table conds sets S

/-- Execute a script of UPDATE statements. -/
def execUpdates (sv : Server) (cols : Bytes → Bytes → List Column) (script : Bytes) (S : Tables) : Option Tables :=
  (readUpdates script).bind fun us => us.foldlM (execUpdate sv cols) S

/-! ## What has happened -/

def Change.olds (ff : FloatFmt) (ch : Change) : List (Bytes × Orig) := ch.sets.map fun s => (s.1, origOf ff s.2)

def Change.keys (ff : FloatFmt) (ch : Change) : List (Bytes × Orig) := ch.key.map fun k => (k.1, origOf ff (some k.2))

/-- The change took the tables from `S` to `S'`: the row with the key had the old values and got new ones.  `pk`: the names of the primary key of
each table. -/
structure Changed (cols : Bytes → Bytes → List Column) (pk : Bytes → Bytes → List Bytes) (ff : FloatFmt) (ch : Change) (S S' : Tables) : Prop where
  key : ch.key.map (·.1) = pk ch.db ch.table
  columns : ∀ s ∈ ch.sets, s.1 ∈ (cols ch.db ch.table).map (·.name) ∧ s.1 ∉ pk ch.db ch.table
  old : ∀ r ∈ S ch.db ch.table, hasAll (ch.keys ff) r = true → ∀ s ∈ ch.olds ff, r s.1 = s.2
  new : ∃ news : List (Bytes × Orig), news.map (·.1) = ch.sets.map (·.1) ∧ S' = updateRows ch.db ch.table (ch.keys ff) news S

/-- These changes, one after the other, took the tables from `S` to `S'`. -/
inductive Happened (cols : Bytes → Bytes → List Column) (pk : Bytes → Bytes → List Bytes) (ff : FloatFmt) : List Change → Tables → Tables → Prop
  | nil {S} : Happened cols pk ff [] S S
  | cons {ch chs S S1 S2} : Changed cols pk ff ch S S1 → Happened cols pk ff chs S1 S2 → Happened cols pk ff (ch :: chs) S S2

/-- the server has the tables of the dictionary -/
def SameColumns (trs : List TableRow) (crs : List ColumnRow) (cols : Bytes → Bytes → List Column) : Prop :=
  ∀ t ∈ trs, ∀ db table, t.name = db ++ b! "/" ++ table → cols db table = columnsOf crs t.id

/-- the server reads the numbers of the change as they are printed -/
def ReadsChange (sv : Server) (ff : FloatFmt) (ch : Change) : Prop :=
  (∀ s ∈ ch.sets, ReadsNumber sv ff s.2) ∧ ∀ k ∈ ch.key, ReadsNumber sv ff (some k.2)

/-- **C74**, as stated: if the updates in the log took the tables from `S` to `S'`, the standard output of the redo command, executed on `S'`, gives
`S` again. -/
def C74_statement : Prop :=
  ∀ (env : Env) (fs : Bytes → File) (a : FromRedo) (spare : Nat) (sys : Bytes) (trs : List TableRow) (crs : List ColumnRow)
    (irs : List IndexRow) (frs : List FieldRow) (names : List Bytes) (parts : List (List Bytes)) (its : List Item) (chs : List (Option Change))
    (sv : Server) (cols : Bytes → Bytes → List Column) (pk : Bytes → Bytes → List Bytes) (S S' : Tables),
    a.sysFile = .ok sys → Dictionary sys trs crs irs frs → names ≠ [] → (∀ n ∈ names, 44 ∉ n) → a.redoFile = commaList names →
    All2 (fun chunks n => ∃ content, fs n = .ok content ∧ IsLogFile chunks content) parts names →
    parts.flatten.flatten = its.flatMap Item.enc → (∀ it ∈ its, it.Fits) →
    All2 (Logs env.zone trs crs irs frs) its chs → SameColumns trs crs cols → (∀ ch, some ch ∈ chs → ReadsChange sv env.ff ch) →
    Happened cols pk env.ff ((chs.filterMap id).filter (Wanted a)) S S' →
    ∃ lines, fromRedoFile env fs a spare [] = .ok () lines ∧ execUpdates sv cols (stdout lines) S' = some S

/-! ## Undoing one change -/

/-- what the statement of the change does -/
def Change.undo (ff : FloatFmt) (ch : Change) (S : Tables) : Tables := updateRows ch.db ch.table (ch.keys ff) (ch.olds ff) S

theorem setAll_eq {ss : List (Bytes × Orig)} {r r' : NamedRow} (h : ∀ s ∈ ss, r s.1 = s.2) (h' : ∀ n, n ∉ ss.map (·.1) → r' n = r n) :
    setAll ss r' = r := by
  induction ss generalizing r' with
  | nil => exact funext fun n => h' n (by simp)
  | cons s ss ih =>
    rw [setAll]
    refine ih (fun x hx => h x (List.mem_cons_of_mem _ hx)) fun n hn => ?_
    split
    · rename_i e
      rw [e]
      exact (h s List.mem_cons_self).symm
    · rename_i e
      exact h' n (by simpa using ⟨e, by simpa using hn⟩)

theorem setAll_other {ss : List (Bytes × Orig)} (r : NamedRow) {n : Bytes} (h : n ∉ ss.map (·.1)) : setAll ss r n = r n := by
  induction ss generalizing r with
  | nil => rfl
  | cons s ss ih =>
    rw [List.map_cons, List.mem_cons, not_or] at h
    rw [setAll, ih _ h.2, if_neg h.1]

/-- a column that is assigned has a value that does not depend on the row -/
theorem setAll_set {ss : List (Bytes × Orig)} (r r' : NamedRow) {n : Bytes} (h : n ∈ ss.map (·.1)) : setAll ss r n = setAll ss r' n := by
  induction ss generalizing r r' with
  | nil => cases h
  | cons s ss ih =>
    rw [setAll, setAll]
    by_cases hn : n ∈ ss.map (·.1)
    · exact ih _ _ hn
    · rw [setAll_other _ hn, setAll_other _ hn]
      have : n = s.1 := by
        rw [List.map_cons, List.mem_cons] at h
        exact h.resolve_right hn
      rw [if_pos this, if_pos this]

theorem hasAll_setAll {key ss : List (Bytes × Orig)} (r : NamedRow) (h : ∀ s ∈ ss.map (·.1), s ∉ key.map (·.1)) : hasAll key (setAll ss r) = hasAll key r := by
  unfold hasAll
  rw [Bool.eq_iff_iff, List.all_eq_true, List.all_eq_true]
  refine forall₂_congr fun k hk => ?_
  rw [setAll_other r fun hm => h _ hm (List.mem_map_of_mem hk)]

theorem olds_names (ff : FloatFmt) (ch : Change) : (ch.olds ff).map (·.1) = ch.sets.map (·.1) := by
  unfold Change.olds
  rw [List.map_map]
  rfl

theorem keys_names (ff : FloatFmt) (ch : Change) : (ch.keys ff).map (·.1) = ch.key.map (·.1) := by
  unfold Change.keys
  rw [List.map_map]
  rfl

/-- the statement of a change, executed right after it -/
theorem undo_changed {cols : Bytes → Bytes → List Column} {pk : Bytes → Bytes → List Bytes} {ff : FloatFmt} {ch : Change} {S S' : Tables}
    (h : Changed cols pk ff ch S S') : ch.undo ff S' = S := by
  obtain ⟨news, hn, rfl⟩ := h.new
  have hk : ∀ s ∈ news.map (·.1), s ∉ (ch.keys ff).map (·.1) := by
    intro n hm
    rw [hn] at hm
    obtain ⟨s, hs, rfl⟩ := List.mem_map.mp hm
    rw [keys_names, h.key]
    exact (h.columns s hs).2
  funext d t
  unfold Change.undo updateRows
  split
  · rename_i e
    obtain ⟨rfl, rfl⟩ := e
    rw [List.map_map]
    conv => rhs; rw [← List.map_id (S ch.db ch.table)]
    refine List.map_congr_left fun r hr => ?_
    dsimp only [Function.comp_apply, id]
    by_cases hh : hasAll (ch.keys ff) r = true
    · rw [if_pos hh, hasAll_setAll r hk, if_pos hh]
      refine setAll_eq (h.old r hr hh) fun n hn' => setAll_other r ?_
      rwa [olds_names, ← hn] at hn'
    · rw [if_neg hh, if_neg hh]
  · rfl

/-- executing the statements in the opposite order -/
theorem undo_reverse {cols : Bytes → Bytes → List Column} {pk : Bytes → Bytes → List Bytes} {ff : FloatFmt} {chs : List Change} {S S' : Tables}
    (h : Happened cols pk ff chs S S') : chs.reverse.foldl (fun S ch => ch.undo ff S) S' = S := by
  induction h with
  | nil => rfl
  | @cons ch chs S S1 S2 h _ ih =>
    rw [List.reverse_cons, List.foldl_append, ih]
    exact undo_changed h

/-! ## Changes that do not touch the same column of the same row -/

/-- the changes are of different rows or of different columns -/
def Apart (ff : FloatFmt) (c d : Change) : Prop :=
  c.db ≠ d.db ∨ c.table ≠ d.table ∨ c.keys ff ≠ d.keys ff ∨ ∀ s ∈ c.sets.map (·.1), s ∉ d.sets.map (·.1)

theorem setAll_comm {ss ts : List (Bytes × Orig)} (r : NamedRow) (h : ∀ s ∈ ss.map (·.1), s ∉ ts.map (·.1)) :
    setAll ss (setAll ts r) = setAll ts (setAll ss r) := by
  funext n
  by_cases hs : n ∈ ss.map (·.1)
  · rw [setAll_other (ss := ts) _ (h n hs), setAll_set _ r hs]
  · rw [setAll_other (ss := ss) _ hs]
    by_cases ht : n ∈ ts.map (·.1)
    · exact setAll_set _ _ ht
    · rw [setAll_other _ ht, setAll_other _ ht, setAll_other _ hs]

/-- a row has one key -/
theorem hasAll_unique {k l : List (Bytes × Orig)} {r : NamedRow} (hn : k.map (·.1) = l.map (·.1)) (h : hasAll k r = true) (h' : hasAll l r = true) : k = l := by
  induction k generalizing l with
  | nil =>
    cases l with
    | nil => rfl
    | cons => cases hn
  | cons a k ih =>
    cases l with
    | nil => cases hn
    | cons b l =>
      unfold hasAll at h h' ih
      rw [List.all_cons, Bool.and_eq_true] at h h'
      rw [List.map_cons, List.map_cons, List.cons.injEq] at hn
      have e1 : r a.1 = a.2 := beq_iff_eq.mp (Bool.and_eq_true _ _ ▸ h.1).1
      have e2 : r b.1 = b.2 := beq_iff_eq.mp (Bool.and_eq_true _ _ ▸ h'.1).1
      rw [ih hn.2 h.2 h'.2]
      congr 1
      refine Prod.ext hn.1 ?_
      rw [← e1, ← e2, hn.1]

theorem updateRows_comm {db table db' table' : Bytes} {k k' ss ss' : List (Bytes × Orig)} (S : Tables)
    (h : db = db' → table = table' → k.map (·.1) = k'.map (·.1) ∧ (∀ s ∈ ss.map (·.1), s ∉ k.map (·.1)) ∧ (∀ s ∈ ss'.map (·.1), s ∉ k.map (·.1)) ∧
      (k ≠ k' ∨ ∀ s ∈ ss.map (·.1), s ∉ ss'.map (·.1))) :
    updateRows db table k ss (updateRows db' table' k' ss' S) = updateRows db' table' k' ss' (updateRows db table k ss S) := by
  funext d t
  unfold updateRows
  by_cases h1 : d = db ∧ t = table
  · by_cases h2 : d = db' ∧ t = table'
    · obtain ⟨hn, hs, hs', ha⟩ := h (h1.1 ▸ h2.1) (h1.2 ▸ h2.2)
      simp only [if_pos h1, if_pos h2, List.map_map]
      refine List.map_congr_left fun r _ => ?_
      show (if hasAll k (if hasAll k' r = true then setAll ss' r else r) = true then _ else _) =
        (if hasAll k' (if hasAll k r = true then setAll ss r else r) = true then _ else _)
      by_cases hk : hasAll k r = true <;> by_cases hk' : hasAll k' r = true
      · have hne := ha.resolve_left (fun hne => hne (hasAll_unique hn hk hk'))
        simp only [hasAll_setAll r hs', hasAll_setAll r (hn ▸ hs), if_pos hk, if_pos hk']
        exact setAll_comm r hne
      · simp only [if_pos hk, if_neg hk', hasAll_setAll r (hn ▸ hs)]
      · simp only [if_neg hk, if_pos hk', hasAll_setAll r hs']
      · simp only [if_neg hk, if_neg hk']
    · simp only [if_neg h2, if_pos h1]
  · simp only [if_neg h1]

theorem changed_undo {cols : Bytes → Bytes → List Column} {pk : Bytes → Bytes → List Bytes} {ff : FloatFmt} {c d : Change} {S S' : Tables}
    (ha : Apart ff c d) (hc : c.key.map (·.1) = pk c.db c.table) (hc' : ∀ s ∈ c.sets, s.1 ∉ pk c.db c.table)
    (h : Changed cols pk ff d S S') : Changed cols pk ff d (c.undo ff S) (c.undo ff S') := by
  have hk : c.db = d.db → c.table = d.table → (c.keys ff).map (·.1) = (d.keys ff).map (·.1) := by
    intro h1 h2
    rw [keys_names, keys_names, hc, h.key, h1, h2]
  have hs : ∀ s ∈ (c.olds ff).map (·.1), s ∉ (c.keys ff).map (·.1) := by
    intro n hm
    rw [olds_names] at hm
    obtain ⟨s, hs, rfl⟩ := List.mem_map.mp hm
    rw [keys_names, hc]
    exact hc' s hs
  refine ⟨h.key, h.columns, ?_, ?_⟩
  · intro r hr hh s hss
    unfold Change.undo updateRows at hr
    split at hr
    · rename_i e
      obtain ⟨r0, hr0, rfl⟩ := List.mem_map.mp hr
      have hk := hk e.1.symm e.2.symm
      by_cases hkc : hasAll (c.keys ff) r0 = true
      · rw [if_pos hkc] at hh ⊢
        rw [hasAll_setAll r0 (hk ▸ hs)] at hh
        rcases ha with h1 | h1 | h1 | h1
        · exact absurd e.1.symm h1
        · exact absurd e.2.symm h1
        · exact absurd (hasAll_unique hk hkc hh) h1
        · rw [setAll_other]
          · exact h.old r0 hr0 hh s hss
          · intro hm
            rw [olds_names] at hm
            refine h1 _ hm ?_
            rw [← olds_names ff]
            exact List.mem_map_of_mem hss
      · rw [if_neg hkc] at hh ⊢
        exact h.old r0 hr0 hh s hss
    · exact h.old r hr hh s hss
  · obtain ⟨news, hn, rfl⟩ := h.new
    refine ⟨news, hn, updateRows_comm S ?_⟩
    intro h1 h2
    refine ⟨hk h1 h2, hs, ?_, ?_⟩
    · intro n hm
      rw [hn] at hm
      obtain ⟨s, hs, rfl⟩ := List.mem_map.mp hm
      rw [keys_names, hc, h1, h2]
      exact (h.columns s hs).2
    · rcases ha with h3 | h3 | h3 | h3
      · exact absurd h1 h3
      · exact absurd h2 h3
      · exact .inl h3
      · right
        rwa [olds_names, hn]

theorem happened_undo {cols : Bytes → Bytes → List Column} {pk : Bytes → Bytes → List Bytes} {ff : FloatFmt} {c : Change} {chs : List Change}
    {S S' : Tables} (ha : ∀ d ∈ chs, Apart ff c d) (hc : c.key.map (·.1) = pk c.db c.table) (hc' : ∀ s ∈ c.sets, s.1 ∉ pk c.db c.table)
    (h : Happened cols pk ff chs S S') : Happened cols pk ff chs (c.undo ff S) (c.undo ff S') := by
  induction h with
  | nil => exact .nil
  | cons h _ ih => exact .cons (changed_undo (ha _ List.mem_cons_self) hc hc' h) (ih fun d hd => ha d (List.mem_cons_of_mem _ hd))

/-- executing the statements in the order of the log, if no column of a row was changed twice -/
theorem undo_forward {cols : Bytes → Bytes → List Column} {pk : Bytes → Bytes → List Bytes} {ff : FloatFmt} {chs : List Change} {S S' : Tables}
    (h : Happened cols pk ff chs S S') (ha : chs.Pairwise (Apart ff)) : chs.foldl (fun S ch => ch.undo ff S) S' = S := by
  induction chs generalizing S S' with
  | nil =>
    cases h
    rfl
  | cons c chs ih =>
    cases h with
    | cons h1 h2 =>
      obtain ⟨p1, p2⟩ := List.pairwise_cons.mp ha
      rw [List.foldl_cons]
      refine ih ?_ p2
      have := happened_undo p1 h1.key (fun s hs => (h1.columns s hs).2) h2
      rwa [undo_changed h1] at this

theorem all2_exists_left {α β : Type} {R : α → β → Prop} {as : List α} {bs : List β} (h : All2 R as bs) (b : β) (hb : b ∈ bs) : ∃ a ∈ as, R a b := by
  induction h with
  | nil => cases hb
  | cons h _ ih =>
    rcases List.mem_cons.mp hb with rfl | hb
    · exact ⟨_, List.mem_cons_self, h⟩
    · obtain ⟨a, h1, h2⟩ := ih hb
      exact ⟨a, List.mem_cons_of_mem _ h1, h2⟩

theorem all2_reverse {α β : Type} {R : α → β → Prop} {as : List α} {bs : List β} (h : All2 R as bs) : All2 R as.reverse bs.reverse := by
  have : ∀ {as bs as' bs'}, All2 R as bs → All2 R as' bs' → All2 R (as.reverse ++ as') (bs.reverse ++ bs') := by
    intro as bs as' bs' h
    induction h generalizing as' bs' with
    | nil => exact id
    | cons h _ ih =>
      intro h'
      rw [List.reverse_cons, List.reverse_cons, List.append_assoc, List.append_assoc]
      exact ih (.cons h h')
  simpa using this h .nil

/-- the row has the old values of the change -/
def HasOlds (ff : FloatFmt) (ch : Change) (S : Tables) : Prop := ∀ r ∈ S ch.db ch.table, hasAll (ch.keys ff) r = true → ∀ s ∈ ch.olds ff, r s.1 = s.2

theorem undo_olds {pk : Bytes → Bytes → List Bytes} {ff : FloatFmt} {ch : Change} (hk : ch.key.map (·.1) = pk ch.db ch.table)
    (hs : ∀ s ∈ ch.sets, s.1 ∉ pk ch.db ch.table) (hn : (ch.sets.map (·.1)).Nodup) (S : Tables) : HasOlds ff ch (ch.undo ff S) := by
  have hd : ∀ s ∈ (ch.olds ff).map (·.1), s ∉ (ch.keys ff).map (·.1) := by
    intro n hm
    rw [olds_names] at hm
    obtain ⟨s, hs', rfl⟩ := List.mem_map.mp hm
    rw [keys_names, hk]
    exact hs s hs'
  intro r hr hh s hs'
  unfold Change.undo updateRows at hr
  rw [if_pos ⟨rfl, rfl⟩] at hr
  obtain ⟨r0, _, rfl⟩ := List.mem_map.mp hr
  by_cases h0 : hasAll (ch.keys ff) r0 = true
  · rw [if_pos h0]
    rw [← olds_names ff] at hn
    generalize ch.olds ff = ss at hn hs'
    clear * - hn hs'
    induction ss generalizing r0 with
    | nil => cases hs'
    | cons x ss ih =>
      rw [List.map_cons, List.nodup_cons] at hn
      rw [setAll]
      rcases List.mem_cons.mp hs' with rfl | hs'
      · rw [setAll_other _ hn.1, if_pos rfl]
      · exact ih _ hn.2 hs'
  · rw [if_neg h0] at hh
    exact absurd hh h0

theorem undo_apart_olds {pk : Bytes → Bytes → List Bytes} {ff : FloatFmt} {c d : Change} (ha : Apart ff d c) (hk : c.key.map (·.1) = pk c.db c.table)
    (hs : ∀ s ∈ c.sets, s.1 ∉ pk c.db c.table) (hk' : d.key.map (·.1) = pk d.db d.table) {S : Tables} (h : HasOlds ff d S) : HasOlds ff d (c.undo ff S) := by
  intro r hr hh s hs'
  unfold Change.undo updateRows at hr
  split at hr
  · rename_i e
    obtain ⟨r0, hr0, rfl⟩ := List.mem_map.mp hr
    have hkk : (c.keys ff).map (·.1) = (d.keys ff).map (·.1) := by rw [keys_names, keys_names, hk, hk', e.1, e.2]
    have hd : ∀ s ∈ (c.olds ff).map (·.1), s ∉ (d.keys ff).map (·.1) := by
      intro n hm
      rw [olds_names] at hm
      obtain ⟨s, hs', rfl⟩ := List.mem_map.mp hm
      rw [← hkk, keys_names, hk]
      exact hs s hs'
    by_cases h0 : hasAll (c.keys ff) r0 = true
    · rw [if_pos h0] at hh ⊢
      rw [hasAll_setAll r0 hd] at hh
      rw [setAll_other]
      · exact h r0 hr0 hh s hs'
      · intro hm
        rcases ha with h1 | h1 | h1 | h1
        · exact h1 e.1
        · exact h1 e.2
        · exact h1 (hasAll_unique hkk h0 hh).symm
        · rw [olds_names] at hm
          refine h1 _ ?_ hm
          rw [← olds_names ff]
          exact List.mem_map_of_mem hs'
    · rw [if_neg h0] at hh ⊢
      exact h r0 hr0 hh s hs'
  · exact h r hr hh s hs'

theorem happened_keys {cols : Bytes → Bytes → List Column} {pk : Bytes → Bytes → List Bytes} {ff : FloatFmt} {chs : List Change} {S S' : Tables}
    (h : Happened cols pk ff chs S S') : ∀ ch ∈ chs, ch.key.map (·.1) = pk ch.db ch.table ∧ ∀ s ∈ ch.sets, s.1 ∉ pk ch.db ch.table := by
  induction h with
  | nil => exact nofun
  | cons h _ ih =>
    intro ch hch
    rcases List.mem_cons.mp hch with rfl | hch
    · exact ⟨h.key, fun s hs => (h.columns s hs).2⟩
    · exact ih ch hch

/-- in the order of the log, the last change of a column decides -/
theorem undo_last {cols : Bytes → Bytes → List Column} {pk : Bytes → Bytes → List Bytes} {ff : FloatFmt} {cs ds : List Change} {d : Change} {S S' : Tables}
    (h : Happened cols pk ff (cs ++ d :: ds) S S') (hn : (d.sets.map (·.1)).Nodup) (ha : ∀ c ∈ ds, Apart ff d c) :
    HasOlds ff d ((cs ++ d :: ds).foldl (fun S ch => ch.undo ff S) S') := by
  rw [List.foldl_append, List.foldl_cons]
  have hall := happened_keys h
  have hd := hall d (by simp)
  have : ∀ S, HasOlds ff d S → HasOlds ff d (ds.foldl (fun S ch => ch.undo ff S) S) := by
    have hk : ∀ ch ∈ ds, ch.key.map (·.1) = pk ch.db ch.table ∧ ∀ s ∈ ch.sets, s.1 ∉ pk ch.db ch.table :=
      fun ch hch => hall ch (List.mem_append_right _ (List.mem_cons_of_mem _ hch))
    clear h hall
    induction ds with
    | nil => exact fun _ h => h
    | cons c ds ih =>
      intro S hS
      rw [List.foldl_cons]
      exact ih (fun x hx => ha x (List.mem_cons_of_mem _ hx)) (fun x hx => hk x (List.mem_cons_of_mem _ hx)) _
        (undo_apart_olds (ha c List.mem_cons_self) (hk c List.mem_cons_self).1 (hk c List.mem_cons_self).2 hd.1 hS)
  exact this _ (undo_olds hd.1 hd.2 hn _)

/-! ## Executing the printed lines -/

/-- the columns of the change have the types of its values -/
def TypedChange (cols : Bytes → Bytes → List Column) (ch : Change) : Prop :=
  (∀ s ∈ ch.sets, ∃ c, (cols ch.db ch.table).find? (·.name == s.1) = some c ∧ ∀ v, s.2 = some v → v.Of c) ∧
  ∀ k ∈ ch.key, ∃ c, (cols ch.db ch.table).find? (·.name == k.1) = some c ∧ k.2.Of c

theorem evalNamed_denotes {sv : Server} {ff : FloatFmt} {cols : List Column} {e : Bytes × List Tok} {n : Bytes} {x : Option TVal} (hn : e.1 = n)
    (hv : ∃ v, evalExpr e.2 = some v ∧ Denotes ff v (origOf ff x)) (hc : ∃ c, cols.find? (·.name == n) = some c ∧ ∀ v, x = some v → v.Of c)
    (hr : ReadsNumber sv ff x) : evalNamed sv cols e = some (n, origOf ff x) := by
  obtain ⟨v, h1, h2⟩ := hv
  obtain ⟨c, h3, h4⟩ := hc
  unfold evalNamed
  rw [hn, h3, Option.bind_some, h1, Option.bind_some, assign_denotes h4 hr h2]
  rfl

theorem exec_undoes {sv : Server} {ff : FloatFmt} {cols : Bytes → Bytes → List Column} {u : Update} {ch : Change}
    (hdb : u.db = ch.db) (htab : u.table = ch.table)
    (hs : All2 (fun e s => e.1 = s.1 ∧ ∃ v, evalExpr e.2 = some v ∧ Denotes ff v (origOf ff s.2)) u.sets ch.sets)
    (hk : All2 (fun e k => e.1 = k.1 ∧ ∃ v, evalExpr e.2 = some v ∧ Denotes ff v (origOf ff (some k.2))) u.conds ch.key)
    (ht : TypedChange cols ch) (hr : ReadsChange sv ff ch) (S : Tables) : execUpdate sv cols S u = some (ch.undo ff S) := by
  unfold execUpdate Change.undo
  rw [hdb, htab]
  have e1 : u.sets.mapM (evalNamed sv (cols ch.db ch.table)) = some (ch.olds ff) := by
    obtain ⟨ht, _⟩ := ht
    obtain ⟨hr, _⟩ := hr
    refine mapM_all2 _ ?_
    unfold Change.olds
    generalize ch.sets = ss at hs ht hr
    generalize u.sets = es at hs
    induction hs with
    | nil => exact .nil
    | cons h _ ih =>
      exact .cons (evalNamed_denotes h.1 h.2 (ht _ List.mem_cons_self) (hr _ List.mem_cons_self))
        (ih (fun x hx => ht x (List.mem_cons_of_mem _ hx)) fun x hx => hr x (List.mem_cons_of_mem _ hx))
  have e2 : u.conds.mapM (evalNamed sv (cols ch.db ch.table)) = some (ch.keys ff) := by
    obtain ⟨_, ht⟩ := ht
    obtain ⟨_, hr⟩ := hr
    refine mapM_all2 _ ?_
    unfold Change.keys
    generalize ch.key = ss at hk ht hr
    generalize u.conds = es at hk
    induction hk with
    | nil => exact .nil
    | cons h _ ih =>
      refine .cons (evalNamed_denotes h.1 h.2 ?_ (hr _ List.mem_cons_self))
        (ih (fun x hx => ht x (List.mem_cons_of_mem _ hx)) fun x hx => hr x (List.mem_cons_of_mem _ hx))
      obtain ⟨c, hc, hv⟩ := ht _ List.mem_cons_self
      exact ⟨c, hc, by rintro v ⟨⟩; exact hv⟩
  rw [e1, e2]
  rfl

/-- **Executing printed lines:** they undo the changes in their order. -/
theorem exec_lines {sv : Server} {ff : FloatFmt} {cols : Bytes → Bytes → List Column} {lines : List Bytes} {chs : List Change}
    (h : All2 (Undoes ff) lines chs) (ht : ∀ ch ∈ chs, TypedChange cols ch) (hr : ∀ ch ∈ chs, ReadsChange sv ff ch) (S : Tables) :
    execUpdates sv cols (stdout lines) S = some (chs.foldl (fun S ch => ch.undo ff S) S) := by
  have : ∃ us, All2 (fun l u => readUpdate l = some u ∧ ∀ e ∈ u.sets ++ u.conds, ∃ v, evalExpr e.2 = some v) lines us ∧
      All2 (fun u ch => ∀ S, execUpdate sv cols S u = some (ch.undo ff S)) us chs := by
    induction h with
    | nil => exact ⟨[], .nil, .nil⟩
    | @cons l ch ls chs h _ ih =>
      obtain ⟨us, h1, h2⟩ := ih (fun x hx => ht x (List.mem_cons_of_mem _ hx)) fun x hx => hr x (List.mem_cons_of_mem _ hx)
      obtain ⟨u, e1, e2, e3, e4, e5⟩ := h
      refine ⟨u :: us, .cons ⟨e1, ?_⟩ h1, .cons (exec_undoes e2 e3 e4 e5 (ht ch List.mem_cons_self) (hr ch List.mem_cons_self)) h2⟩
      intro e he
      rcases List.mem_append.mp he with he | he
      · obtain ⟨_, _, _, v, hv, _⟩ := all2_mem e4 e he
        exact ⟨v, hv⟩
      · obtain ⟨_, _, _, v, hv, _⟩ := all2_mem e5 e he
        exact ⟨v, hv⟩
  obtain ⟨us, h1, h2⟩ := this
  unfold execUpdates
  rw [readUpdates_lines h1, Option.bind_some]
  clear h h1 ht hr
  induction h2 generalizing S with
  | nil => rfl
  | cons h _ ih =>
    rw [List.foldlM_cons, h]
    exact ih _

theorem find_name {cols : List Column} (hn : (cols.map (·.name)).Nodup) {c : Column} (hc : c ∈ cols) : cols.find? (·.name == c.name) = some c := by
  cases h : cols.find? (·.name == c.name) with
  | none => exact absurd (List.find?_eq_none.mp h c hc) (by simp)
  | some d =>
    rw [List.inj_on_of_nodup_map hn (List.mem_of_find?_eq_some h) hc (by simpa using List.find?_some h)]

/-- the changes of the log are typed -/
theorem followed_typed {env : Env} {a : FromRedo} {trs : List TableRow} {crs : List ColumnRow} {irs : List IndexRow} {frs : List FieldRow}
    {cols : Bytes → Bytes → List Column} (hcols : SameColumns trs crs cols) {it : Item} {ch : Change}
    (h : Followed env a trs crs irs frs it (some ch)) (hs : ∀ s ∈ ch.sets, s.1 ∈ (cols ch.db ch.table).map (·.name)) : TypedChange cols ch := by
  cases h with
  | @update _ _ _ u t db table l names keys olds sets ht hid hname hk hkv hov _ _ _ hh _ _ _ _ _ =>
    have hl : ∃ c rest, columnsOf crs t.id = c :: rest ∧ l = c :: trxColumn t.id 1 :: rollColumn t.id 2 :: rest := by
      obtain ⟨r, hcb, hodd, hr⟩ := hh
      obtain ⟨r', hci, hu, hnames⟩ := hk.index
      have : r' = r := by
        rcases hci.2.2.2 r hcb.1 hcb.2.1 with h | h
        · exact h.symm
        · omega
      subst this
      rcases hr with ⟨_, h0⟩ | ⟨_, _, c, rest, hcs, hf⟩
      · omega
      have hl := hk.layout
      rw [hcs] at hl
      exact ⟨c, rest, hcs, first_layout hci hu hf hl⟩
    obtain ⟨c0, rest, hcs, hl⟩ := hl
    refine ⟨?_, ?_⟩
    · intro s hs'
      have hs := hs s hs'
      dsimp only at hs hs' ⊢
      rw [hcols t ht db table hname] at hs ⊢
      obtain ⟨e, _, c, hc, rfl, hv⟩ := all2_exists_left hov s hs'
      obtain ⟨d, hd, hdn⟩ := List.mem_map.mp hs
      have hmem : c ∈ l := List.mem_of_getElem? hc
      rw [hl] at hmem
      have hcm : c ∈ columnsOf crs t.id := by
        rw [hcs]
        simp only [List.mem_cons] at hmem ⊢
        have hi := hk.names.2 d hd
        dsimp only at hdn
        rw [hdn] at hi
        rcases hmem with h | h | h | h
        · exact .inl h
        · rw [h] at hi
          exact absurd (by show b! "DB_TRX_ID" ∈ internalNames; decide) hi
        · rw [h] at hi
          exact absurd (by show b! "DB_ROLL_PTR" ∈ internalNames; decide) hi
        · exact .inr h
      exact ⟨c, find_name hk.names.1 hcm, fun v hv' => (hv v hv').1⟩
    · intro k hk'
      dsimp only at hk' ⊢
      rw [hcols t ht db table hname]
      obtain ⟨n, v⟩ := k
      obtain ⟨⟨c, hc, hcn, ho⟩, _⟩ : (∃ c ∈ columnsOf crs t.id, c.name = n ∧ v.Of c) ∧ v.Fits env.zone := by
        clear * - hkv hk'
        induction hkv with
        | nil => cases hk'
        | cons h _ ih =>
          rcases List.mem_cons.mp hk' with he | hm
          · cases he; exact h
          · exact ih hm
      exact ⟨c, by rw [← hcn]; exact find_name hk.names.1 hc, ho⟩

theorem happened_columns {cols : Bytes → Bytes → List Column} {pk : Bytes → Bytes → List Bytes} {ff : FloatFmt} {chs : List Change} {S S' : Tables}
    (h : Happened cols pk ff chs S S') : ∀ ch ∈ chs, ∀ s ∈ ch.sets, s.1 ∈ (cols ch.db ch.table).map (·.name) := by
  induction h with
  | nil => exact nofun
  | cons h _ ih =>
    intro ch hch
    rcases List.mem_cons.mp hch with rfl | hch
    · exact fun s hs => (h.columns s hs).1
    · exact ih ch hch

/-- what the command prints, and what it does in its own order and in the opposite one -/
theorem redo_effect (env : Env) (fs : Bytes → File) (a : FromRedo) (spare : Nat) (sys : Bytes) (trs : List TableRow) (crs : List ColumnRow)
    (irs : List IndexRow) (frs : List FieldRow) (names : List Bytes) (parts : List (List Bytes)) (its : List Item) (chs : List (Option Change))
    (sv : Server) (cols : Bytes → Bytes → List Column) (pk : Bytes → Bytes → List Bytes) (S S' : Tables)
    (hsys : a.sysFile = .ok sys) (hdict : Dictionary sys trs crs irs frs) (hne : names ≠ []) (hn : ∀ n ∈ names, 44 ∉ n)
    (ha : a.redoFile = commaList names) (hp : All2 (fun chunks n => ∃ content, fs n = .ok content ∧ IsLogFile chunks content) parts names)
    (hs : parts.flatten.flatten = its.flatMap Item.enc) (hf : ∀ it ∈ its, it.Fits)
    (harr : ∀ t ∈ trs, UsualKeys irs frs crs t.id) (hfl : All2 (Followed env a trs crs irs frs) its chs)
    (hplain : ∀ ch, some ch ∈ chs → Wanted a ch = true → Plainly env.ff ch)
    (hah : Ahead its) (hlen : (its.flatMap Item.enc).length < 2 ^ 32)
    (hcols : SameColumns trs crs cols) (hreads : ∀ ch, some ch ∈ chs → ReadsChange sv env.ff ch)
    (hh : Happened cols pk env.ff ((chs.filterMap id).filter (Wanted a)) S S') :
    ∃ lines, fromRedoFile env fs a spare [] = .ok () lines ∧
      (∀ T, execUpdates sv cols (stdout lines) T = some (((chs.filterMap id).filter (Wanted a)).foldl (fun S ch => ch.undo env.ff S) T)) ∧
      ∀ T, execUpdates sv cols (stdout lines.reverse) T = some (((chs.filterMap id).filter (Wanted a)).reverse.foldl (fun S ch => ch.undo env.ff S) T) := by
  obtain ⟨lines, h1, h2⟩ := C58_command_partial env fs a spare sys trs crs irs frs names parts its chs hsys hdict hne hn ha hp hs hf harr hfl hplain hah hlen []
  have hm : ∀ ch ∈ (chs.filterMap id).filter (Wanted a), some ch ∈ chs := by
    intro ch hch
    obtain ⟨x, hx, rfl⟩ := List.mem_filterMap.mp (List.mem_filter.mp hch).1
    exact hx
  have ht : ∀ ch ∈ (chs.filterMap id).filter (Wanted a), TypedChange cols ch := by
    intro ch hch
    obtain ⟨it, _, hit⟩ := all2_exists_left hfl (some ch) (hm ch hch)
    exact followed_typed hcols hit (happened_columns hh ch hch)
  have hr : ∀ ch ∈ (chs.filterMap id).filter (Wanted a), ReadsChange sv env.ff ch := fun ch hch => hreads ch (hm ch hch)
  refine ⟨lines, by simpa using h1, exec_lines h2 ht hr, exec_lines (all2_reverse h2) ?_ ?_⟩
  · exact fun ch hch => ht ch (List.mem_reverse.mp hch)
  · exact fun ch hch => hr ch (List.mem_reverse.mp hch)

/-- **C74, in part:** true of the logs of C58 if no column of a row was changed twice.  (Missing: what C58 misses, and columns that were changed
twice, see `C74_last`.) -/
theorem C74_once_partial (env : Env) (fs : Bytes → File) (a : FromRedo) (spare : Nat) (sys : Bytes) (trs : List TableRow) (crs : List ColumnRow)
    (irs : List IndexRow) (frs : List FieldRow) (names : List Bytes) (parts : List (List Bytes)) (its : List Item) (chs : List (Option Change))
    (sv : Server) (cols : Bytes → Bytes → List Column) (pk : Bytes → Bytes → List Bytes) (S S' : Tables)
    (hsys : a.sysFile = .ok sys) (hdict : Dictionary sys trs crs irs frs) (hne : names ≠ []) (hn : ∀ n ∈ names, 44 ∉ n)
    (ha : a.redoFile = commaList names) (hp : All2 (fun chunks n => ∃ content, fs n = .ok content ∧ IsLogFile chunks content) parts names)
    (hs : parts.flatten.flatten = its.flatMap Item.enc) (hf : ∀ it ∈ its, it.Fits)
    (harr : ∀ t ∈ trs, UsualKeys irs frs crs t.id) (hfl : All2 (Followed env a trs crs irs frs) its chs)
    (hplain : ∀ ch, some ch ∈ chs → Wanted a ch = true → Plainly env.ff ch)
    (hah : Ahead its) (hlen : (its.flatMap Item.enc).length < 2 ^ 32)
    (hcols : SameColumns trs crs cols) (hreads : ∀ ch, some ch ∈ chs → ReadsChange sv env.ff ch)
    (hh : Happened cols pk env.ff ((chs.filterMap id).filter (Wanted a)) S S')
    (hapart : ((chs.filterMap id).filter (Wanted a)).Pairwise (Apart env.ff)) :
    ∃ lines, fromRedoFile env fs a spare [] = .ok () lines ∧ execUpdates sv cols (stdout lines) S' = some S := by
  obtain ⟨lines, h1, h2, _⟩ := redo_effect env fs a spare sys trs crs irs frs names parts its chs sv cols pk S S' hsys hdict hne hn ha hp hs hf harr hfl
    hplain hah hlen hcols hreads hh
  exact ⟨lines, h1, by rw [h2, undo_forward hh hapart]⟩

/-- **C74, the opposite order:** the printed lines, executed from the last to the first, give the tables before the updates. -/
theorem C74_reverse_partial (env : Env) (fs : Bytes → File) (a : FromRedo) (spare : Nat) (sys : Bytes) (trs : List TableRow) (crs : List ColumnRow)
    (irs : List IndexRow) (frs : List FieldRow) (names : List Bytes) (parts : List (List Bytes)) (its : List Item) (chs : List (Option Change))
    (sv : Server) (cols : Bytes → Bytes → List Column) (pk : Bytes → Bytes → List Bytes) (S S' : Tables)
    (hsys : a.sysFile = .ok sys) (hdict : Dictionary sys trs crs irs frs) (hne : names ≠ []) (hn : ∀ n ∈ names, 44 ∉ n)
    (ha : a.redoFile = commaList names) (hp : All2 (fun chunks n => ∃ content, fs n = .ok content ∧ IsLogFile chunks content) parts names)
    (hs : parts.flatten.flatten = its.flatMap Item.enc) (hf : ∀ it ∈ its, it.Fits)
    (harr : ∀ t ∈ trs, UsualKeys irs frs crs t.id) (hfl : All2 (Followed env a trs crs irs frs) its chs)
    (hplain : ∀ ch, some ch ∈ chs → Wanted a ch = true → Plainly env.ff ch)
    (hah : Ahead its) (hlen : (its.flatMap Item.enc).length < 2 ^ 32)
    (hcols : SameColumns trs crs cols) (hreads : ∀ ch, some ch ∈ chs → ReadsChange sv env.ff ch)
    (hh : Happened cols pk env.ff ((chs.filterMap id).filter (Wanted a)) S S') :
    ∃ lines, fromRedoFile env fs a spare [] = .ok () lines ∧ execUpdates sv cols (stdout lines.reverse) S' = some S := by
  obtain ⟨lines, h1, _, h2⟩ := redo_effect env fs a spare sys trs crs irs frs names parts its chs sv cols pk S S' hsys hdict hne hn ha hp hs hf harr hfl
    hplain hah hlen hcols hreads hh
  exact ⟨lines, h1, by rw [h2, undo_reverse hh]⟩

/-- **C74, the printed order:** each column of a row gets the value it had before its last update. -/
theorem C74_last (env : Env) (fs : Bytes → File) (a : FromRedo) (spare : Nat) (sys : Bytes) (trs : List TableRow) (crs : List ColumnRow)
    (irs : List IndexRow) (frs : List FieldRow) (names : List Bytes) (parts : List (List Bytes)) (its : List Item) (chs : List (Option Change))
    (sv : Server) (cols : Bytes → Bytes → List Column) (pk : Bytes → Bytes → List Bytes) (S S' : Tables)
    (hsys : a.sysFile = .ok sys) (hdict : Dictionary sys trs crs irs frs) (hne : names ≠ []) (hn : ∀ n ∈ names, 44 ∉ n)
    (ha : a.redoFile = commaList names) (hp : All2 (fun chunks n => ∃ content, fs n = .ok content ∧ IsLogFile chunks content) parts names)
    (hs : parts.flatten.flatten = its.flatMap Item.enc) (hf : ∀ it ∈ its, it.Fits)
    (harr : ∀ t ∈ trs, UsualKeys irs frs crs t.id) (hfl : All2 (Followed env a trs crs irs frs) its chs)
    (hplain : ∀ ch, some ch ∈ chs → Wanted a ch = true → Plainly env.ff ch)
    (hah : Ahead its) (hlen : (its.flatMap Item.enc).length < 2 ^ 32)
    (hcols : SameColumns trs crs cols) (hreads : ∀ ch, some ch ∈ chs → ReadsChange sv env.ff ch)
    (hh : Happened cols pk env.ff ((chs.filterMap id).filter (Wanted a)) S S') :
    ∃ lines T, fromRedoFile env fs a spare [] = .ok () lines ∧ execUpdates sv cols (stdout lines) S' = some T ∧
      ∀ cs d ds, (chs.filterMap id).filter (Wanted a) = cs ++ d :: ds → (∀ c ∈ ds, Apart env.ff d c) → HasOlds env.ff d T := by
  obtain ⟨lines, h1, h2, _⟩ := redo_effect env fs a spare sys trs crs irs frs names parts its chs sv cols pk S S' hsys hdict hne hn ha hp hs hf harr hfl
    hplain hah hlen hcols hreads hh
  refine ⟨lines, _, h1, h2 S', ?_⟩
  intro cs d ds hsplit hapart
  have hd : some d ∈ chs ∧ Wanted a d = true := by
    have : d ∈ (chs.filterMap id).filter (Wanted a) := by rw [hsplit]; simp
    obtain ⟨h3, h4⟩ := List.mem_filter.mp this
    obtain ⟨x, hx, rfl⟩ := List.mem_filterMap.mp h3
    exact ⟨hx, h4⟩
  obtain ⟨s, hs', _⟩ := (hplain d hd.1 hd.2).sets
  rw [hsplit] at hh ⊢
  exact undo_last hh (by rw [hs']; simp) hapart

/-! ## A log -/

/-- an update of the row `k`, whose name was `name` -/
def shopUpdate (k : Int) (name : Bytes) (no : Nat) : Undo := ⟨12, 1, no, 20, 0, 2 ^ 33, 2 ^ 50, [intEnc 4 k], [(3, some name)], []⟩

/-- the name of row 7 was `bob`, then the name of row `k` was `eve` -/
def shopLog2 (k : Int) : List Item :=
  [.record false 5 3 (.bytes2 120 77), .record true 0 300 (.undoInsert (shopUpdate 7 (b! "bob") 3)),
    .record true 0 300 (.undoInsert (shopUpdate k (b! "eve") 4)), .record true 5 3 (.bytes2 120 77)]

def shopChange2 (k : Int) (name : Bytes) : Change := ⟨b! "shop", b! "t", [(b! "name", some (.varchar name))], [(b! "id", .int 4 k)]⟩

def shopChanges2 (k : Int) : List (Option Change) := [none, some (shopChange2 7 (b! "bob")), some (shopChange2 k (b! "eve")), none]

def shopDisk2 (k : Int) (_ : Bytes) : File := .ok (logFile ((shopLog2 k).flatMap Item.enc))

def shopRedo2 : FromRedo := { sysFile := .ok (shopFile idKey), redoFile := b! "ib_logfile0", db := b! "shop", table := [] }

def SevenEight (k : Int) : Prop := k = 7 ∨ k = 8

set_option maxRecDepth 4000 in
theorem shop2_length {k : Int} (hk : SevenEight k) : ((shopLog2 k).flatMap Item.enc).length ≤ 300 := by
  rcases hk with rfl | rfl <;> decide

theorem shop2_disk {k : Int} (hk : SevenEight k) :
    All2 (fun chunks n => ∃ content, shopDisk2 k n = .ok content ∧ IsLogFile chunks content) [[(shopLog2 k).flatMap Item.enc]] [b! "ib_logfile0"] :=
  .cons ⟨_, rfl, logFile_is _ (by have := shop2_length hk; omega)⟩ .nil

theorem shopUpdate_fits {k : Int} (hk : SevenEight k) {name : Bytes} (hn : name = b! "bob" ∨ name = b! "eve") {no : Nat} (ho : no = 3 ∨ no = 4) :
    (shopUpdate k name no).Fits := by
  refine ⟨by show 12 ∈ _; decide, by show 1 < 16; decide, by show no < 2 ^ 64; rcases ho with rfl | rfl <;> decide, by show 20 < 2 ^ 64; decide,
    by show 2 ^ 33 < 2 ^ 64; decide, by show 2 ^ 50 < 2 ^ 64; decide, ?_, ?_⟩
  · intro f hf
    cases List.mem_singleton.mp hf
    refine ⟨by show 3 < 2 ^ 32; decide, ?_⟩
    rintro v ⟨⟩
    rcases hn with rfl | rfl <;> decide
  · rcases ho with rfl | rfl <;> rcases hk with rfl | rfl <;> rcases hn with rfl | rfl <;> decide

theorem shop2_fits {k : Int} (hk : SevenEight k) : ∀ it ∈ shopLog2 k, it.Fits := by
  intro it hit
  simp only [shopLog2, List.mem_cons, List.not_mem_nil, or_false] at hit
  rcases hit with rfl | rfl | rfl | rfl
  · exact ⟨by decide, by decide, by show 77 < 2 ^ 32; decide⟩
  · exact ⟨by decide, by decide, shopUpdate_fits (.inl rfl) (.inl rfl) (.inl rfl)⟩
  · exact ⟨by decide, by decide, shopUpdate_fits hk (.inr rfl) (.inr rfl)⟩
  · exact ⟨by decide, by decide, by show 77 < 2 ^ 32; decide⟩

theorem shop2_key (env : Env) {k : Int} (hk : SevenEight k) : KeyValues env.zone (columnsOf shopColumns 20) [b! "id"] [.int 4 k] :=
  .cons ⟨⟨shopId, by decide, rfl, rfl, by decide, by decide, rfl, rfl⟩, by decide, by rcases hk with rfl | rfl <;> decide,
    by rcases hk with rfl | rfl <;> decide⟩ .nil

theorem shopUpdate_followed (env : Env) {k : Int} (hk : SevenEight k) (name : Bytes) {no : Nat} (ho : no < 2 ^ 32) :
    Followed env shopRedo2 shopTables shopColumns (shopIndexes idKey) (shopFields idKey) (.record true 0 300 (.undoInsert (shopUpdate k name no)))
      (some (shopChange2 k name)) := by
  refine .update (t := ⟨b! "shop/t", 20, 5⟩) (names := [b! "id"]) (keys := [.int 4 k]) (olds := [(3, some (.varchar name))]) (by decide) rfl rfl shop_keyed
    (shop2_key env hk) (shop_old_values env name) ⟨rfl, rfl, rfl⟩ ho (by show 20 < 2 ^ 32; decide) (shop_handled _ (by decide)) shop_trimmed ?_ ?_ ?_ ?_
  · intro v hv
    cases List.mem_singleton.mp hv
    exact ⟨trivial, rfl⟩
  · intro e he v hv
    cases List.mem_singleton.mp he
    cases hv
    trivial
  · intro h
    have : Wanted shopRedo2 ⟨b! "shop", b! "t", [(b! "name", some (.varchar name))], [b! "id"].zip [.int 4 k]⟩ = true := rfl
    rw [this] at h
    cases h
  · intro _
    refine ⟨?_, ?_⟩
    · intro v hv
      cases List.mem_singleton.mp hv
      exact ⟨trivial, rfl, nofun⟩
    · intro e he v hv
      cases List.mem_singleton.mp he
      cases hv
      exact ⟨trivial, rfl, nofun⟩

theorem shop2_followed (env : Env) {k : Int} (hk : SevenEight k) :
    All2 (Followed env shopRedo2 shopTables shopColumns (shopIndexes idKey) (shopFields idKey)) (shopLog2 k) (shopChanges2 k) :=
  .cons (.other nofun fun _ => trivial) (.cons (shopUpdate_followed env (.inl rfl) _ (by decide)) (.cons (shopUpdate_followed env hk _ (by decide))
    (.cons (.other nofun fun _ => trivial) .nil)))

set_option maxRecDepth 4000 in
theorem shop2_ahead {k : Int} (hk : SevenEight k) : Ahead (shopLog2 k) := by
  rcases hk with rfl | rfl <;> exact ⟨by decide, by decide, by decide, by decide, trivial⟩

theorem shop2_mem {k : Int} {ch : Change} (h : some ch ∈ shopChanges2 k) : ch = shopChange2 7 (b! "bob") ∨ ch = shopChange2 k (b! "eve") := by
  simpa [shopChanges2] using h

theorem shopChange2_plainly (env : Env) {k : Int} (hk : SevenEight k) {name : Bytes} (hn : name = b! "bob" ∨ name = b! "eve") :
    Plainly env.ff (shopChange2 k name) := by
  refine ⟨⟨_, rfl, by show 96 ∉ b! "name"; decide, ?_⟩, ?_, by show 96 ∉ b! "shop"; decide, by show 96 ∉ b! "t"; decide⟩
  · rintro v ⟨⟩
    rcases hn with rfl | rfl
    · exact raw_plain (by show 39 ∉ b! "bob"; decide) (by show 92 ∉ b! "bob"; decide)
    · exact raw_plain (by show 39 ∉ b! "eve"; decide) (by show 92 ∉ b! "eve"; decide)
  · intro x hx
    cases List.mem_singleton.mp hx
    rcases hk with rfl | rfl
    · exact ⟨by decide, raw_plain (by show 39 ∉ intText 7; decide) (by show 92 ∉ intText 7; decide)⟩
    · exact ⟨by decide, raw_plain (by show 39 ∉ intText 8; decide) (by show 92 ∉ intText 8; decide)⟩

def shopCols : Bytes → Bytes → List Column := fun _ _ => columnsOf shopColumns 20

theorem shop2_cols : SameColumns shopTables shopColumns shopCols := by
  intro t ht db table _
  cases List.mem_singleton.mp ht
  rfl

theorem shop2_reads (sv : Server) (ff : FloatFmt) (k : Int) : ∀ ch, some ch ∈ shopChanges2 k → ReadsChange sv ff ch := by
  intro ch hch
  rcases shop2_mem hch with rfl | rfl
  · exact ⟨fun s hs => by cases List.mem_singleton.mp hs; trivial, fun s hs => by cases List.mem_singleton.mp hs; trivial⟩
  · exact ⟨fun s hs => by cases List.mem_singleton.mp hs; trivial, fun s hs => by cases List.mem_singleton.mp hs; trivial⟩

/-- a row of the shop -/
def shopRow (k : Int) (name : Bytes) : NamedRow := fun n => if n = b! "id" then .int k else if n = b! "name" then .text name else .null

theorem shopRow_ne {k : Int} {x y : Bytes} (h : x ≠ y) : shopRow k x ≠ shopRow k y := by
  intro e
  have e := congrFun e (b! "name")
  unfold shopRow at e
  rw [if_neg (by decide), if_pos rfl, if_neg (by decide), if_pos rfl] at e
  exact h (by injection e)

def shopState (rows : List NamedRow) : Tables := fun d t => if d = b! "shop" ∧ t = b! "t" then rows else []

theorem shopRow_has (ff : FloatFmt) (k k' : Int) (name name' : Bytes) : hasAll ((shopChange2 k name).keys ff) (shopRow k' name') = decide (k' = k) := by
  have : ((shopChange2 k name).keys ff) = [(b! "id", .int k)] := rfl
  rw [this]
  unfold hasAll shopRow
  by_cases h : k' = k
  · subst h
    simp
  · simp [h]

theorem shopRow_set (k : Int) (name name' : Bytes) : setAll [(b! "name", .text name')] (shopRow k name) = shopRow k name' := by
  rw [setAll, setAll]
  funext n
  unfold shopRow
  split
  · rename_i h
    subst h
    exact (if_neg (by show ¬ b! "name" = b! "id"; decide)).symm
  · rfl

theorem shopState_update (ff : FloatFmt) (k : Int) (name name' : Bytes) (rows : List NamedRow) :
    updateRows (b! "shop") (b! "t") ((shopChange2 k name).keys ff) [(b! "name", .text name')] (shopState rows) =
      shopState (rows.map fun r => if hasAll ((shopChange2 k name).keys ff) r then setAll [(b! "name", .text name')] r else r) := by
  funext d t
  unfold updateRows shopState
  split
  · rfl
  · rfl

/-- one update of the shop -/
theorem shopState_changed (ff : FloatFmt) (k : Int) (name name' : Bytes) (before after : List NamedRow)
    (hb : ∀ r ∈ before, hasAll ((shopChange2 k name).keys ff) r = true → r = shopRow k name)
    (he : (before.map fun r => if hasAll ((shopChange2 k name).keys ff) r then setAll [(b! "name", .text name')] r else r) = after) :
    Changed shopCols (fun _ _ => [b! "id"]) ff (shopChange2 k name) (shopState before) (shopState after) where
  key := rfl
  columns := by
    intro s hs
    cases List.mem_singleton.mp hs
    exact ⟨by show b! "name" ∈ (columnsOf shopColumns 20).map (·.name); decide, by show b! "name" ∉ [b! "id"]; decide⟩
  old := by
    intro r hr hh s hs
    have hr : r ∈ before := by
      have : shopState before (b! "shop") (b! "t") = before := if_pos ⟨rfl, rfl⟩
      rw [← this]
      exact hr
    rw [hb r hr hh]
    cases List.mem_singleton.mp hs
    show shopRow k name (b! "name") = .text name
    unfold shopRow
    rw [if_neg (by decide), if_pos rfl]
  new := ⟨[(b! "name", .text name')], rfl, by
    show _ = updateRows (b! "shop") (b! "t") _ _ _
    rw [shopState_update, he]⟩

/-- two rows are updated -/
theorem shop2_apart (ff : FloatFmt) : Happened shopCols (fun _ _ => [b! "id"]) ff [shopChange2 7 (b! "bob"), shopChange2 8 (b! "eve")]
    (shopState [shopRow 7 (b! "bob"), shopRow 8 (b! "eve")]) (shopState [shopRow 7 (b! "zoe"), shopRow 8 (b! "pat")]) := by
  refine .cons (shopState_changed ff 7 _ (b! "zoe") _ [shopRow 7 (b! "zoe"), shopRow 8 (b! "eve")] ?_ ?_)
    (.cons (shopState_changed ff 8 _ (b! "pat") _ _ ?_ ?_) .nil)
  all_goals simp [shopRow_has, shopRow_set]

/-- one row is updated twice -/
theorem shop2_twice (ff : FloatFmt) : Happened shopCols (fun _ _ => [b! "id"]) ff [shopChange2 7 (b! "bob"), shopChange2 7 (b! "eve")]
    (shopState [shopRow 7 (b! "bob")]) (shopState [shopRow 7 (b! "zoe")]) := by
  refine .cons (shopState_changed ff 7 _ (b! "eve") _ [shopRow 7 (b! "eve")] ?_ ?_) (.cons (shopState_changed ff 7 _ (b! "zoe") _ _ ?_ ?_) .nil)
  all_goals simp [shopRow_has, shopRow_set]

/-- the hypotheses of `C74_once_partial` -/
example (env : Env) (spare : Nat) (sv : Server) : ∃ lines, fromRedoFile env (shopDisk2 8) shopRedo2 spare [] = .ok () lines ∧
    execUpdates sv shopCols (stdout lines) (shopState [shopRow 7 (b! "zoe"), shopRow 8 (b! "pat")]) =
      some (shopState [shopRow 7 (b! "bob"), shopRow 8 (b! "eve")]) :=
  C74_once_partial env (shopDisk2 8) shopRedo2 spare (shopFile idKey) shopTables shopColumns (shopIndexes idKey) (shopFields idKey) [b! "ib_logfile0"]
    [[(shopLog2 8).flatMap Item.enc]] (shopLog2 8) (shopChanges2 8) sv shopCols (fun _ _ => [b! "id"]) _ _ rfl (shop_dictionary (.inl rfl)) (by decide)
    (by decide) rfl (shop2_disk (.inr rfl)) (by simp) (shop2_fits (.inr rfl)) shop_arranged (shop2_followed env (.inr rfl))
    (fun ch hch _ => by
      rcases shop2_mem hch with rfl | rfl
      · exact shopChange2_plainly env (.inl rfl) (.inl rfl)
      · exact shopChange2_plainly env (.inr rfl) (.inr rfl))
    (shop2_ahead (.inr rfl)) (by have := shop2_length (.inr rfl : SevenEight 8); omega) shop2_cols (shop2_reads sv env.ff 8) (shop2_apart env.ff)
    (.cons (by
      intro d hd
      cases List.mem_singleton.mp hd
      right; right; left
      show [(b! "id", Orig.int 7)] ≠ [(b! "id", .int 8)]
      decide) (List.pairwise_singleton _ _))

/-- The row that was updated twice: the printed statements give it its name between the updates; in the opposite order its first name. -/
theorem C74_twice (env : Env) (spare : Nat) (sv : Server) : ∃ lines, fromRedoFile env (shopDisk2 7) shopRedo2 spare [] = .ok () lines ∧
    execUpdates sv shopCols (stdout lines) (shopState [shopRow 7 (b! "zoe")]) = some (shopState [shopRow 7 (b! "eve")]) ∧
    execUpdates sv shopCols (stdout lines.reverse) (shopState [shopRow 7 (b! "zoe")]) = some (shopState [shopRow 7 (b! "bob")]) := by
  obtain ⟨lines, h1, h2, h3⟩ := redo_effect env (shopDisk2 7) shopRedo2 spare (shopFile idKey) shopTables shopColumns (shopIndexes idKey) (shopFields idKey)
    [b! "ib_logfile0"] [[(shopLog2 7).flatMap Item.enc]] (shopLog2 7) (shopChanges2 7) sv shopCols (fun _ _ => [b! "id"]) _ _ rfl
    (shop_dictionary (.inl rfl)) (by decide) (by decide) rfl (shop2_disk (.inl rfl)) (by simp) (shop2_fits (.inl rfl)) shop_arranged
    (shop2_followed env (.inl rfl)) (fun ch hch _ => by
      rcases shop2_mem hch with rfl | rfl
      · exact shopChange2_plainly env (.inl rfl) (.inl rfl)
      · exact shopChange2_plainly env (.inl rfl) (.inr rfl))
    (shop2_ahead (.inl rfl)) (by have := shop2_length (.inl rfl : SevenEight 7); omega) shop2_cols (shop2_reads sv env.ff 7) (shop2_twice env.ff)
  refine ⟨lines, h1, ?_, ?_⟩
  · rw [h2]
    show some ((shopChange2 7 (b! "eve")).undo env.ff ((shopChange2 7 (b! "bob")).undo env.ff (shopState [shopRow 7 (b! "zoe")]))) = _
    have e1 : (shopChange2 7 (b! "bob")).undo env.ff (shopState [shopRow 7 (b! "zoe")]) = shopState [shopRow 7 (b! "bob")] := by
      refine (shopState_update env.ff 7 (b! "bob") (b! "bob") _).trans ?_
      simp [shopRow_has, shopRow_set]
    have e2 : (shopChange2 7 (b! "eve")).undo env.ff (shopState [shopRow 7 (b! "bob")]) = shopState [shopRow 7 (b! "eve")] := by
      refine (shopState_update env.ff 7 (b! "eve") (b! "eve") _).trans ?_
      simp [shopRow_has, shopRow_set]
    rw [e1, e2]
  · rw [h3]
    exact congrArg some (undo_reverse (shop2_twice env.ff))

/-- **C74 is false of the code:** the statements are printed in the order of the log, so that a row that was updated twice is not restored. -/
theorem C74_false : ¬ C74_statement := by
  intro h
  obtain ⟨lines, h1, h2⟩ := h testEnv (shopDisk2 7) shopRedo2 0 (shopFile idKey) shopTables shopColumns (shopIndexes idKey) (shopFields idKey)
    [b! "ib_logfile0"] [[(shopLog2 7).flatMap Item.enc]] (shopLog2 7) (shopChanges2 7) anyServer shopCols (fun _ _ => [b! "id"]) _ _ rfl
    (shop_dictionary (.inl rfl)) (by decide) (by decide) rfl (shop2_disk (.inl rfl)) (by simp) (shop2_fits (.inl rfl))
    (all2_imp (fun _ _ => followed_logs) (shop2_followed testEnv (.inl rfl))) shop2_cols (shop2_reads anyServer testEnv.ff 7) (shop2_twice testEnv.ff)
  obtain ⟨lines', k1, k2, -⟩ := C74_twice testEnv 0 anyServer
  rw [k1] at h1
  injection h1 with _ h1
  subst h1
  rw [k2] at h2
  have := congrFun (congrFun (Option.some.inj h2) (b! "shop")) (b! "t")
  have this : [shopRow 7 (b! "eve")] = [shopRow 7 (b! "bob")] := this
  exact shopRow_ne (by decide) (List.singleton_inj.mp this)

end Verif.Props
