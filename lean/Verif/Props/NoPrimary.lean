import Verif.Props.RedoPrefix
/-!
# C116: updates of tables without a primary key

InnoDB gives such tables a hidden column DB_ROW_ID and the clustered index GEN_CLUST_INDEX; the undo record of an update has the number of the row as its
key.  The tool prints a condition on DB_ROW_ID (mlog.go:274-292, parse.go:542-549), a column that no statement can refer to.
-/

namespace Verif.Props
open Verif Spec

/-! ## What is logged -/

/-- The table has no primary key. -/
structure Unkeyed (crs : List ColumnRow) (irs : List IndexRow) (t : TableRow) : Prop where
  index : ∃ r, ClusteredIndex irs t.id r ∧ ClusteredBy irs t.id r ∧ r.itype / 2 % 2 = 0 ∧ r.name = b! "GEN_CLUST_INDEX"
  names : ((columnsOf crs t.id).map (·.name)).Nodup ∧ ∀ c ∈ columnsOf crs t.id, c.name ∉ internalNames

/-- the columns of such a table as they are stored -/
def unkeyedLayout (crs : List ColumnRow) (t : TableRow) : List Column := rowIdColumn t.id :: trxColumn t.id 1 :: rollColumn t.id 2 :: columnsOf crs t.id

/-- An update of a row of such a table: the columns that were changed, with their old values. -/
structure RowChange where
  db : Bytes
  table : Bytes
  sets : List (Bytes × Option TVal)

/-- The update took the tables from `S` to `S'`: one row, which had the old values, got new ones. -/
def RowChange.Changed (ff : FloatFmt) (rc : RowChange) (S S' : Tables) : Prop :=
  ∃ before r after, ∃ news : List (Bytes × Orig), S rc.db rc.table = before ++ r :: after ∧ (∀ s ∈ rc.sets, r s.1 = origOf ff s.2) ∧
    news.map (·.1) = rc.sets.map (·.1) ∧ S' = fun d t => if d = rc.db ∧ t = rc.table then before ++ setAll news r :: after else S d t

/-- The record `u` is that of such an update. -/
structure RowUndo (zone : Nat → Int) (crs : List ColumnRow) (irs : List IndexRow) (t : TableRow) (u : Undo) (olds : List (Nat × Option TVal)) (rc : RowChange) :
    Prop where
  id : t.id = u.tableId
  name : t.name = rc.db ++ b! "/" ++ rc.table
  table : Unkeyed crs irs t
  kind : u.kind = 12
  key : ∃ rowId : Bytes, rowId.length = 6 ∧ u.key = [rowId]
  fields : u.fields = olds.map fun e => (e.1, e.2.map TVal.enc)
  olds : OldValues zone (unkeyedLayout crs t) olds rc.sets

/-- What the elements of the log record: such an update, an insertion or deletion of a row of such a table, or what C58 says. -/
inductive RowLogs (zone : Nat → Int) (trs : List TableRow) (crs : List ColumnRow) (irs : List IndexRow) (frs : List FieldRow) :
    Item → Option (RowChange ⊕ Change) → Prop
  | usual {it ch} : Logs zone trs crs irs frs it ch → RowLogs zone trs crs irs frs it (ch.map .inr)
  | notUpdate {b sp pg u t rowId} : t ∈ trs → t.id = u.tableId → Unkeyed crs irs t → u.key = [rowId] → u.kind ≠ 12 →
      RowLogs zone trs crs irs frs (.record b sp pg (.undoInsert u)) none
  | update {b sp pg u t olds rc} : t ∈ trs → RowUndo zone crs irs t u olds rc →
      RowLogs zone trs crs irs frs (.record b sp pg (.undoInsert u)) (some (.inl rc))

def RowChange.wanted (a : FromRedo) (rc : RowChange) : Bool := (a.db == [] || rc.db == a.db) && (a.table == [] || rc.table == a.table)

def rowWanted (a : FromRedo) : RowChange ⊕ Change → Bool := Sum.elim (RowChange.wanted a) (Wanted a)

/-- These updates, one after the other, took the tables from `S` to `S'`. -/
inductive RowHappened (cols : Bytes → Bytes → List Column) (pk : Bytes → Bytes → List Bytes) (ff : FloatFmt) : List (RowChange ⊕ Change) → Tables → Tables → Prop
  | nil {S} : RowHappened cols pk ff [] S S
  | row {rc es S S1 S2} : rc.Changed ff S S1 → RowHappened cols pk ff es S1 S2 → RowHappened cols pk ff (.inl rc :: es) S S2
  | keyed {ch es S S1 S2} : Changed cols pk ff ch S S1 → RowHappened cols pk ff es S1 S2 → RowHappened cols pk ff (.inr ch :: es) S S2

/-- **C116**, as stated: the statements undo the updates of all tables, also of those without a primary key, if they are executed from the last to the
first. -/
def C116_statement : Prop :=
  ∀ (env : Env) (fs : Bytes → File) (a : FromRedo) (spare : Nat) (sys : Bytes) (trs : List TableRow) (crs : List ColumnRow)
    (irs : List IndexRow) (frs : List FieldRow) (names : List Bytes) (parts : List (List Bytes)) (its : List Item) (es : List (Option (RowChange ⊕ Change)))
    (sv : Server) (cols : Bytes → Bytes → List Column) (pk : Bytes → Bytes → List Bytes) (S S' : Tables),
    a.sysFile = .ok sys → Dictionary sys trs crs irs frs → names ≠ [] → (∀ n ∈ names, 44 ∉ n) → a.redoFile = commaList names →
    All2 (fun chunks n => ∃ content, fs n = .ok content ∧ IsLogFile chunks content) parts names →
    parts.flatten.flatten = its.flatMap Item.enc → (∀ it ∈ its, it.Fits) →
    All2 (RowLogs env.zone trs crs irs frs) its es → SameColumns trs crs cols → (∀ ch, some (.inr ch) ∈ es → ReadsChange sv env.ff ch) →
    RowHappened cols pk env.ff ((es.filterMap id).filter (rowWanted a)) S S' →
    ∃ lines, fromRedoFile env fs a spare [] = .ok () lines ∧ execUpdates sv cols (stdout lines.reverse) S' = some S

/-! ## Logs with other records than those of C42 -/

/-- The element of the log is read to its end, and these lines are printed. -/
structure PrintsLines (cfg : RCfg) (it : Item) (ls : List Bytes) : Prop where
  step : ∀ (s : Stream), s.data.length < 2 ^ 32 → ∀ pre suf : Bytes, s.data = pre ++ it.enc ++ suf → Item.reach it ≤ suf.length → ∀ out : Out,
    redoStep cfg s ⟨pre.length, out⟩ = .ok .next ⟨(pre ++ it.enc).length, out ++ ls⟩
  short : it.enc.length < 5 → ls = []

theorem prints_lines {cfg : RCfg} {it : Item} {ls : List Bytes} (hf : it.Fits) (h : Lines cfg it ls) : PrintsLines cfg it ls where
  step s hl pre suf hd hr out := step_lines cfg s it ls hf h hl pre suf hd hr out
  short hs := by
    have := short_lines (.cons h .nil) (by rw [List.flatMap_cons, List.flatMap_nil, List.append_nil]; exact hs)
    simpa using this

theorem prints_undo {cfg : RCfg} {b : Bool} {sp pg : Nat} {u : Undo} {ls : List Bytes} (hf : (Item.record b sp pg (.undoInsert u)).Fits)
    (h : ∀ (s : Stream), s.data.length < 2 ^ 32 → ∀ pre suf : Bytes, s.data = pre ++ (beEnc 2 u.enc.length ++ u.enc) ++ suf → 5 ≤ suf.length → ∀ out : Out,
      ∃ r, mlogUndoInsert cfg s ⟨pre.length, out⟩ = .ok r ⟨(pre ++ (beEnc 2 u.enc.length ++ u.enc)).length, out ++ ls⟩) :
    PrintsLines cfg (.record b sp pg (.undoInsert u)) ls where
  step s hl pre suf hd hr out := by
    obtain ⟨hsp, hpg, hfu⟩ := hf
    rw [record_enc] at hd ⊢
    have hb : (Rec.undoInsert u).body = beEnc 2 u.enc.length ++ u.enc := rfl
    rw [hb] at hd ⊢
    rw [redoStep_header cfg s b sp pg (.undoInsert u) hsp hpg pre (beEnc 2 u.enc.length ++ u.enc ++ suf)
      (by rw [hd, headerEnc]; simp only [List.append_assoc]) out]
    obtain ⟨r, hm⟩ := h s hl (pre ++ headerEnc b sp pg (.undoInsert u)) suf (by rw [hd]; simp only [List.append_assoc]) hr out
    have : dispatch cfg s (Rec.undoInsert u).type = ign (mlogUndoInsert cfg s) := rfl
    rw [this]
    unfold ign
    rw [headerEnc] at hm
    rw [GoM.bind_ok hm, headerEnc]
    simp only [List.append_assoc]
    rfl
  short hs := by
    exfalso
    have h1 : ∀ n, 0 < (compEnc n).length := fun n => List.length_pos_iff.mpr (compEnc_ne_nil n)
    have h2 := h1 sp
    have h3 := h1 pg
    rw [record_enc, headerEnc] at hs
    have hb : (Rec.undoInsert u).body = beEnc 2 u.enc.length ++ u.enc := rfl
    rw [hb] at hs
    simp only [List.length_append, beEnc_length] at hs
    omega

theorem prints_short {cfg : RCfg} {its : List Item} {lss : List (List Bytes)} (h : All2 (PrintsLines cfg) its lss) (hl : (its.flatMap Item.enc).length < 5) :
    lss.flatten = [] := by
  induction h with
  | nil => rfl
  | @cons it ls its lss hit _ ih =>
    rw [List.flatMap_cons, List.length_append] at hl
    rw [List.flatten_cons, ih (by omega), List.append_nil]
    exact hit.short (by omega)

theorem prints_ends (cfg : RCfg) (s : Stream) (its : List Item) (lss : List (List Bytes)) (h : All2 (PrintsLines cfg) its lss)
    (hl : s.data.length < 2 ^ 32) (pre : Bytes) (hd : s.data = pre ++ its.flatMap Item.enc) (ha : Ahead its) (out : Out) (fuel : Nat) :
    ∃ p, redoLoop cfg s (its.length + (fuel + 1)) ⟨pre.length, out⟩ = .ok none ⟨p, out ++ lss.flatten⟩ := by
  induction h generalizing pre out with
  | nil =>
    rw [List.length_nil, Nat.zero_add, List.flatten_nil, List.append_nil]
    exact ⟨_, redoLoop_done cfg s fuel _ (by rw [hd, List.flatMap_nil, List.append_nil]; dsimp only; omega)⟩
  | @cons it ls its lss hit hrest ih =>
    have e : (it :: its).length + (fuel + 1) = its.length + (fuel + 1) + 1 := by rw [List.length_cons]; omega
    by_cases h5 : s.data.length < pre.length + 5
    · rw [e, redoLoop_done cfg s _ _ h5, prints_short (.cons hit hrest) (by rw [hd, List.length_append] at h5; omega), List.append_nil]
      exact ⟨_, rfl⟩
    · rw [List.flatMap_cons, ← List.append_assoc] at hd
      have step := hit.step s hl pre _ hd ha.1 out
      obtain ⟨p, this⟩ := ih (pre ++ it.enc) hd ha.2 (out ++ ls)
      refine ⟨p, ?_⟩
      rw [e, List.flatten_cons, ← List.append_assoc, ← this, redoLoop, getPos_bind, if_neg h5, GoM.bind_ok step]

/-- as `C55_statements_partial`, for any records whose lines are known -/
theorem prints_command (env : Env) (fs : Bytes → File) (a : FromRedo) (spare : Nat) (out : Out) (s : DState) (names : List Bytes)
    (parts : List (List Bytes)) (its : List Item) (lss : List (List Bytes))
    (h : parseDictPage env a.sysFile { out := out } = .ok none s) (hne : names ≠ []) (hn : ∀ n ∈ names, 44 ∉ n) (ha : a.redoFile = commaList names)
    (hp : All2 (fun chunks n => ∃ content, fs n = .ok content ∧ IsLogFile chunks content) parts names)
    (hs : parts.flatten.flatten = its.flatMap Item.enc)
    (hl : All2 (PrintsLines { env := env, tables := s.tables, tableName := a.table, dbName := a.db }) its lss)
    (hah : Ahead its) (hlen : (its.flatMap Item.enc).length < 2 ^ 32) :
    fromRedoFile env fs a spare out = .ok () (out ++ lss.flatten) := by
  obtain ⟨p, key⟩ := prints_ends _ ⟨its.flatMap Item.enc, spare⟩ its lss hl hlen [] rfl hah out ((its.flatMap Item.enc).length - its.length)
  have := items_length its
  rw [show its.length + ((its.flatMap Item.enc).length - its.length + 1) = (its.flatMap Item.enc).length + 1 by omega] at key
  rw [C55_files env fs a spare out s names parts h hne hn ha hp, hs]
  unfold parseRedoBlockData
  dsimp only
  rw [show (⟨0, out⟩ : RS) = ⟨([] : Bytes).length, out⟩ from rfl, key]

/-! ## The tables, once loaded -/

theorem unkeyed_handled {crs : List ColumnRow} {irs : List IndexRow} {frs : List FieldRow} {t : TableRow} (h : Unkeyed crs irs t) : Handled irs frs crs t.id := by
  obtain ⟨r, h1, h2, h3, h4⟩ := h.index
  exact ⟨r, h2, h1.2.2.1, .inl ⟨h4, h3⟩⟩

theorem unkeyed_layout {crs : List ColumnRow} {irs : List IndexRow} {frs : List FieldRow} {t : TableRow} (h : Unkeyed crs irs t) :
    Layout irs frs t.id (columnsOf crs t.id) (unkeyedLayout crs t) := by
  obtain ⟨r, h1, h2, h3, h4⟩ := h.index
  exact .generated h1 h3

theorem loaded_unkeyed {trs : List TableRow} {crs : List ColumnRow} {irs : List IndexRow} {frs : List FieldRow} {lay : Nat → List Column}
    (hids : (trs.map (·.id)).Nodup) {tables : TableMap}
    (h : ∀ id, LoadedTable trs crs irs frs lay id (tables.get? id)) {t : TableRow} (ht : t ∈ trs)
    (htrim : Trimmed irs t.id) (hu : Unkeyed crs irs t) (hlay : lay t.id = unkeyedLayout crs t) :
    ∃ tb, tables.get? t.id = some tb ∧ tb.db = (splitName t.name).1 ∧ tb.name = (splitName t.name).2 ∧ tb.columns = unkeyedLayout crs t ∧ NoKey tb := by
  have hg := h t.id
  cases hgt : tables.get? t.id with
  | none => rw [hgt] at hg; exact absurd rfl (hg t ht)
  | some tb =>
    rw [hgt] at hg
    obtain ⟨r0, ixs, e1, e2, hw, hix⟩ := hg
    obtain ⟨hid, hmem⟩ := lastWith_some e1
    have : r0 = t := List.inj_on_of_nodup_map hids hmem ht (by simpa using hid)
    subst this
    obtain ⟨r, _, hcb, _, hname⟩ := hu.index
    refine ⟨tb, rfl, by rw [e2]; rfl, by rw [e2]; rfl, by rw [e2, ← hlay], ?_⟩
    have hdef : definedIndex irs frs r0.id r.id = some { indexOf r with fields := fieldsOf frs r } := by
      unfold definedIndex
      rw [lastWith_unique hcb.1 (by simp [hcb.2.1]) ?_]
      · rfl
      · intro x hx hp
        simp only [Bool.and_eq_true, beq_iff_eq] at hp
        rcases hcb.2.2 x hx hp.1 with h | h
        · exact h
        · exact absurd hp.2 h.1
    have hm : (r.id, ({ indexOf r with fields := fieldsOf frs r } : Index)) ∈ ixs :=
      (GoMap.get?_iff hw _ _).mp (by rw [hix, hdef])
    obtain ⟨a, b, hab⟩ := List.append_of_mem hm
    refine ⟨a, _, b, by rw [e2]; exact hab, hname, ?_⟩
    intro j hj
    have hjm : j ∈ ixs := by
      rw [hab]
      rcases List.mem_append.mp hj with h | h
      · exact List.mem_append_left _ h
      · exact List.mem_append_right _ (List.mem_cons_of_mem _ h)
    have hjne : j.1 ≠ r.id := by
      have hw' : (ixs.map (·.1)).Nodup := hw
      rw [hab, List.map_append, List.map_cons] at hw'
      intro he
      have := List.nodup_middle.mp hw'
      rw [List.nodup_cons, ← List.map_append] at this
      exact this.1 (List.mem_map.mpr ⟨j, hj, he⟩)
    have hj' := (GoMap.get?_iff hw j.1 j.2).mpr hjm
    rw [hix] at hj'
    unfold definedIndex at hj'
    cases hlw : lastWith (fun r => r.tableId == r0.id && r.id == j.1) irs with
    | none => rw [hlw] at hj'; cases hj'
    | some x =>
      rw [hlw] at hj'
      obtain ⟨hp, hx⟩ := lastWith_some hlw
      simp only [Bool.and_eq_true, beq_iff_eq] at hp
      have hjn : j.2.name = x.name := by
        have := Option.some.inj hj'
        rw [← this]
        rfl
      rw [hjn, htrim x hx hp.1]
      rcases hcb.2.2 x hx hp.1 with h | h
      · rw [h] at hp
        exact absurd hp.2.symm hjne
      · exact h.2

/-- the key of such a table as it is decoded -/
theorem unkeyed_vals (cfg : RCfg) {table : Table} (hkey : NoKey table) {c : Column} (hc : Named table (b! "DB_ROW_ID") c) (hc0 : c.ftype = 0) (rowId : Bytes) :
    KeyVals cfg table (getPrimaryKey table.indexes []) [rowId] [⟨b! "DB_ROW_ID", .nil⟩] := by
  rw [no_key hkey]
  refine .cons (b := c.isBinary) ?_ .nil
  intro rest out
  unfold keyDecode
  rw [named_lookup hc]
  unfold parseData
  rw [hc0]
  rfl

/-! ## The printed lines -/

/-- the update as the tool prints it -/
def RowChange.seen (rc : RowChange) : Change := ⟨rc.db, rc.table, rc.sets, [(b! "DB_ROW_ID", .varchar (b! "<nil>"))]⟩

def seenAs : RowChange ⊕ Change → Change := Sum.elim RowChange.seen _root_.id

/-- As `RowLogs`, for the records that the tool follows. -/
inductive RowFollowed (env : Env) (a : FromRedo) (trs : List TableRow) (crs : List ColumnRow) (irs : List IndexRow) (frs : List FieldRow) :
    Item → Option (RowChange ⊕ Change) → Prop
  | usual {it ch} : Followed env a trs crs irs frs it ch → RowFollowed env a trs crs irs frs it (ch.map .inr)
  | notUpdate {b sp pg u t rowId} : t ∈ trs → t.id = u.tableId → Unkeyed crs irs t → u.key = [rowId] → u.kind ≠ 12 → u.undoNo < 2 ^ 32 → u.tableId < 2 ^ 32 →
      Trimmed irs t.id → RowFollowed env a trs crs irs frs (.record b sp pg (.undoInsert u)) none
  | update {b sp pg u t olds rc} : t ∈ trs → RowUndo env.zone crs irs t u olds rc → u.undoNo < 2 ^ 32 → u.tableId < 2 ^ 32 → Trimmed irs t.id →
      (∀ e ∈ olds, ∀ v, e.2 = some v → Printable v) → (rc.wanted a = false → rc.table ≠ a.table) →
      RowFollowed env a trs crs irs frs (.record b sp pg (.undoInsert u)) (some (.inl rc))

def seenLines (ff : FloatFmt) (a : FromRedo) (e : Option (RowChange ⊕ Change)) : List Bytes := linesOf ff a (e.map seenAs)

theorem row_prints {env : Env} {a : FromRedo} {trs : List TableRow} {crs : List ColumnRow} {irs : List IndexRow} {frs : List FieldRow}
    {lay : Nat → List Column} (hids : (trs.map (·.id)).Nodup) (hnames : ∀ t ∈ trs, TableName t.name) {tables : TableMap}
    (h : ∀ id, LoadedTable trs crs irs frs lay id (tables.get? id))
    (hlay : ∀ t ∈ trs, ∀ l, Arranged irs frs t.id (columnsOf crs t.id) l → lay t.id = l) {it : Item} (hf : it.Fits) {e : Option (RowChange ⊕ Change)}
    (hfl : RowFollowed env a trs crs irs frs it e) :
    PrintsLines { env := env, tables := tables, tableName := a.table, dbName := a.db } it (seenLines env.ff a e) := by
  cases hfl with
  | @usual it ch hfl =>
    have : seenLines env.ff a (ch.map .inr) = linesOf env.ff a ch := by cases ch <;> rfl
    rw [this]
    exact prints_lines hf (followed_lines hids hnames h hlay hf hfl)
  | @notUpdate b sp pg u t rowId ht hid hu huk h12 h1 h2 htrim =>
    obtain ⟨tb, g1, _, _, g4, g5⟩ := loaded_unkeyed hids h ht htrim hu (hlay t ht _ (handled_layout (unkeyed_handled hu) (unkeyed_layout hu)).1)
    refine prints_undo hf fun s hl pre suf hd h5 out => ⟨none, ?_⟩
    have hk := unkeyed_vals { env := env, tables := tables, tableName := a.table, dbName := a.db } g5 (c := rowIdColumn t.id) ⟨[], _, by rw [g4]; rfl, rfl, nofun⟩ rfl rowId
    rw [← huk] at hk
    have := undo_other _ s u hf.2.2 h12 h1 h2 tb (by rw [← hid]; exact g1) _ hk pre suf hd (by simp only [List.length_append]; omega) out
    rw [this]
    rw [show seenLines env.ff a none = [] from rfl, List.append_nil]
  | @update b sp pg u t olds rc ht hu h1 h2 htrim ho hsel =>
    obtain ⟨hid, hname, hun, h12, ⟨rowId, _, huk⟩, huf, hov⟩ := hu
    obtain ⟨tb, g1, g2, g3, g4, g5⟩ := loaded_unkeyed hids h ht htrim hun (hlay t ht _ (handled_layout (unkeyed_handled hun) (unkeyed_layout hun)).1)
    have hsp : splitName t.name = (rc.db, rc.table) := by
      have := hnames t ht
      rw [hname] at this ⊢
      exact tableName_pair this
    have hdb : tb.db = rc.db := by rw [g2, hsp]
    have htab : tb.name = rc.table := by rw [g3, hsp]
    refine prints_undo hf fun s hl pre suf hd h5 out => ⟨none, ?_⟩
    have hk := unkeyed_vals { env := env, tables := tables, tableName := a.table, dbName := a.db } g5 (c := rowIdColumn t.id) ⟨[], _, by rw [g4]; rfl, rfl, nofun⟩ rfl rowId
    rw [← huk] at hk
    have hot : OldTyped tb olds := by
      intro e he
      obtain ⟨s, _, c, hc, _, hv⟩ := all2_mem hov e he
      exact ⟨c, by rw [g4]; exact hc, fun v hv' => (hv v hv').1⟩
    obtain ⟨cs, o1, o2⟩ := oldVals_typed { env := env, tables := tables, tableName := a.table, dbName := a.db } tb olds hot (ahead := suf.length) fun e he v hv => by
      obtain ⟨s, _, c, hc, _, hv'⟩ := all2_mem hov e he
      exact ⟨(hv' v hv).2, (ho e he v hv).1, Nat.le_trans (lookahead_le v) (by omega)⟩
    rw [← huf] at o1
    have k2 : PkText env.ff [⟨b! "DB_ROW_ID", .nil⟩] [(b! "DB_ROW_ID", b! "<nil>")] := .cons rfl .nil
    rw [undo_update _ s u hf.2.2 h12 h1 h2 tb (by rw [← hid]; exact g1) _ cs hk o1 hl pre suf hd (by simp only [List.length_append]; omega) (Nat.le_refl _) out,
      updateStmt_text env.ff tb k2 o2]
    have hsets : shownSets env.ff tb olds = rc.sets.map fun s => (s.1, s.2.map (TVal.lit env.ff)) := by
      rw [← oldValues_sets hov env.ff g4]
      unfold shownSets setsOf
      refine List.map_congr_left fun e he => ?_
      obtain ⟨k, v⟩ := e
      cases v with
      | none => rfl
      | some v =>
        show (_, some _) = (_, some _)
        rw [shown_lit (ho _ he v rfl)]
    by_cases hw : Wanted a rc.seen = true
    · have e1 : seenLines env.ff a (some (.inl rc)) = [rc.seen.text env.ff] := if_pos hw
      have hsl : NameSelected a.db a.table tb := (wanted_selected a tb hdb htab rc.sets _).mp hw
      rw [e1, filter_complete { env := env, tables := tables, tableName := a.table, dbName := a.db } tb hsl, if_pos rfl, hdb, htab, hsets]
      rfl
    · have e1 : seenLines env.ff a (some (.inl rc)) = [] := if_neg hw
      rw [e1, if_neg]
      intro hp
      rcases (filter_exact _ tb).mp hp with hp | hp
      · exact hw ((wanted_selected a tb hdb htab rc.sets _).mpr hp)
      · refine hsel ?_ (by rw [← htab]; exact hp.2)
        have : Wanted a rc.seen = rc.wanted a := rfl
        rw [← this]
        simpa using hw

theorem row_prints_all {env : Env} {a : FromRedo} {trs : List TableRow} {crs : List ColumnRow} {irs : List IndexRow} {frs : List FieldRow}
    {cfg : RCfg} {its : List Item} (hf : ∀ it ∈ its, it.Fits) {es : List (Option (RowChange ⊕ Change))}
    (h : ∀ it e, it.Fits → RowFollowed env a trs crs irs frs it e → PrintsLines cfg it (seenLines env.ff a e))
    (hfl : All2 (RowFollowed env a trs crs irs frs) its es) : All2 (PrintsLines cfg) its (es.map (seenLines env.ff a)) := by
  induction hfl with
  | nil => exact .nil
  | cons h1 _ ih => exact .cons (h _ _ (hf _ (by simp)) h1) (ih fun it hit => hf it (by simp [hit]))

theorem seen_wanted (a : FromRedo) (es : List (Option (RowChange ⊕ Change))) :
    ((es.map (Option.map seenAs)).filterMap id).filter (Wanted a) = ((es.filterMap id).filter (rowWanted a)).map seenAs := by
  induction es with
  | nil => rfl
  | cons e es ih =>
    cases e with
    | none => exact ih
    | some e =>
      show (seenAs e :: (es.map (Option.map seenAs)).filterMap id).filter (Wanted a) = ((e :: es.filterMap id).filter (rowWanted a)).map seenAs
      have hw : Wanted a (seenAs e) = rowWanted a e := by cases e <;> rfl
      rw [List.filter_cons, List.filter_cons, hw, ih]
      split <;> rfl

/-- Exactly the lines that are printed: the condition for a row without a primary key is `DB_ROW_ID`='<nil>'. -/
theorem C116_exact (env : Env) (fs : Bytes → File) (a : FromRedo) (spare : Nat) (sys : Bytes) (trs : List TableRow) (crs : List ColumnRow)
    (irs : List IndexRow) (frs : List FieldRow) (names : List Bytes) (parts : List (List Bytes)) (its : List Item) (es : List (Option (RowChange ⊕ Change)))
    (hsys : a.sysFile = .ok sys) (hdict : Dictionary sys trs crs irs frs) (hne : names ≠ []) (hn : ∀ n ∈ names, 44 ∉ n)
    (ha : a.redoFile = commaList names) (hp : All2 (fun chunks n => ∃ content, fs n = .ok content ∧ IsLogFile chunks content) parts names)
    (hs : parts.flatten.flatten = its.flatMap Item.enc) (hf : ∀ it ∈ its, it.Fits)
    (harr : ∀ t ∈ trs, UsualKeys irs frs crs t.id) (hfl : All2 (RowFollowed env a trs crs irs frs) its es)
    (hah : Ahead its) (hlen : (its.flatMap Item.enc).length < 2 ^ 32) (out : Out) :
    fromRedoFile env fs a spare out = .ok () (out ++ (((es.filterMap id).filter (rowWanted a)).map seenAs).map (Change.text env.ff)) := by
  obtain ⟨lay, hload, hlay⟩ := loads_arranged env sys trs crs irs frs hdict.file hdict.indexes harr
  obtain ⟨tables, dict, h1, h2, h3⟩ := hload out
  rw [prints_command env fs a spare out { tables, dict, out } names parts its (es.map (seenLines env.ff a)) (by rw [hsys]; exact h1) hne hn ha
    hp hs (row_prints_all hf (fun it e h h' => row_prints hdict.ids hdict.names.2 h3 hlay h h') hfl) hah hlen, ← seen_wanted, ← linesOf_flatten, List.map_map]
  rfl

/-! ## What they do -/

theorem row_undoes {env : Env} {a : FromRedo} {trs : List TableRow} {crs : List ColumnRow} {irs : List IndexRow} {frs : List FieldRow}
    {it : Item} {e : RowChange ⊕ Change} (h : RowFollowed env a trs crs irs frs it (some e)) (hw : rowWanted a e = true)
    (hp : Plainly env.ff (seenAs e)) : Undoes env.ff ((seenAs e).text env.ff) (seenAs e) := by
  obtain ⟨o, ho⟩ : ∃ o, o = some e := ⟨_, rfl⟩
  rw [← ho] at h
  cases h with
  | @usual it ch h =>
    cases ch with
    | none => cases ho
    | some ch =>
      cases ho
      exact followed_undoes h hw hp
  | notUpdate => cases ho
  | @update b sp pg u t olds rc ht hu _ _ _ hpr _ =>
    cases ho
    obtain ⟨⟨s, hs, hs1, hs2⟩, hk, hdb, htb⟩ := hp
    refine text_undoes env _ s hs (by simp [seenAs, RowChange.seen]) hdb htb ⟨hs1, fun k hk' => (hk k hk').1⟩ ?_ ?_
    · intro v hv
      refine ⟨hs2 v hv, ?_⟩
      have hov := hu.olds
      have hs : rc.sets = [s] := hs
      rw [hs] at hov
      obtain ⟨e, he, c, hc, rfl, hv'⟩ := all2_exists_left hov s (by simp)
      obtain ⟨ho, hf⟩ := hv' v hv
      exact lit_denotes env ho hf (hpr e he v hv)
    · intro k hk'
      refine ⟨(hk k hk').2, ?_⟩
      cases List.mem_singleton.mp hk'
      rfl

/-- no column of the table of the update is called DB_ROW_ID -/
theorem row_unknown {env : Env} {a : FromRedo} {trs : List TableRow} {crs : List ColumnRow} {irs : List IndexRow} {frs : List FieldRow}
    {cols : Bytes → Bytes → List Column} (hcols : SameColumns trs crs cols) {it : Item} {rc : RowChange}
    (h : RowFollowed env a trs crs irs frs it (some (.inl rc))) : ∀ c ∈ cols rc.db rc.table, c.name ≠ b! "DB_ROW_ID" := by
  obtain ⟨o, ho⟩ : ∃ o, o = some (Sum.inl rc : RowChange ⊕ Change) := ⟨_, rfl⟩
  rw [← ho] at h
  cases h with
  | @usual it ch h => cases ch <;> cases ho
  | notUpdate => cases ho
  | @update b sp pg u t olds rc ht hu _ _ _ _ _ =>
    cases ho
    rw [hcols t ht _ _ hu.name]
    intro c hc hn
    exact hu.table.names.2 c hc (by rw [hn]; decide)

theorem foldlM_stops {α β : Type} {f : β → α → Option β} {l : List α} {x : α} (hx : x ∈ l) (h : ∀ b, f b x = none) (b : β) : l.foldlM f b = none := by
  induction l generalizing b with
  | nil => cases hx
  | cons y l ih =>
    rw [List.foldlM_cons]
    rcases List.mem_cons.mp hx with rfl | hx
    · rw [h]; rfl
    · cases hy : f b y with
      | none => rfl
      | some b' => exact ih hx b'

/-- a script with a condition on an unknown column stops with an error -/
theorem exec_stops {sv : Server} {ff : FloatFmt} {cols : Bytes → Bytes → List Column} {lines : List Bytes} {chs : List Change}
    (h : All2 (Undoes ff) lines chs) {rc : RowChange} (hrc : rc.seen ∈ chs) (hc : ∀ c ∈ cols rc.db rc.table, c.name ≠ b! "DB_ROW_ID") (S : Tables) :
    execUpdates sv cols (stdout lines) S = none := by
  have : ∃ us, All2 (fun l u => readUpdate l = some u ∧ ∀ e ∈ u.sets ++ u.conds, ∃ v, evalExpr e.2 = some v) lines us ∧
      ∃ u ∈ us, ∀ S, execUpdate sv cols S u = none := by
    induction h with
    | nil => cases hrc
    | @cons l ch ls chs h hrest ih =>
      obtain ⟨u, e1, e2, e3, e4, e5⟩ := h
      have hl : readUpdate l = some u ∧ ∀ e ∈ u.sets ++ u.conds, ∃ v, evalExpr e.2 = some v := by
        refine ⟨e1, fun e he => ?_⟩
        rcases List.mem_append.mp he with he | he
        · obtain ⟨_, _, _, v, hv, _⟩ := all2_mem e4 e he
          exact ⟨v, hv⟩
        · obtain ⟨_, _, _, v, hv, _⟩ := all2_mem e5 e he
          exact ⟨v, hv⟩
      rcases List.mem_cons.mp hrc with rfl | hm
      · have : ∃ us, All2 (fun l u => readUpdate l = some u ∧ ∀ e ∈ u.sets ++ u.conds, ∃ v, evalExpr e.2 = some v) ls us := by
          clear * - hrest
          induction hrest with
          | nil => exact ⟨[], .nil⟩
          | cons h _ ih =>
            obtain ⟨us, ih⟩ := ih
            obtain ⟨u, e1, e2, e3, e4, e5⟩ := h
            refine ⟨u :: us, .cons ⟨e1, fun e he => ?_⟩ ih⟩
            rcases List.mem_append.mp he with he | he
            · obtain ⟨_, _, _, v, hv, _⟩ := all2_mem e4 e he
              exact ⟨v, hv⟩
            · obtain ⟨_, _, _, v, hv, _⟩ := all2_mem e5 e he
              exact ⟨v, hv⟩
        obtain ⟨us, hus⟩ := this
        refine ⟨u :: us, .cons hl hus, u, by simp, fun S => ?_⟩
        have e5 : All2 (fun (e : Bytes × List Tok) (k : Bytes × TVal) => e.1 = k.1 ∧ ∃ v, evalExpr e.2 = some v ∧ Denotes ff v (origOf ff (some k.2))) u.conds
            [(b! "DB_ROW_ID", .varchar (b! "<nil>"))] := e5
        unfold execUpdate
        rw [e2, e3]
        generalize u.conds = conds at e5
        cases e5 with
        | @cons e _ rest _ h0 hr =>
          have hfind : (cols rc.db rc.table).find? (·.name == e.1) = none := by
            rw [List.find?_eq_none]
            intro c hc'
            rw [h0.1]
            simpa using hc c hc'
          have hn : (e :: rest).mapM (evalNamed sv (cols rc.seen.db rc.seen.table)) = none := by
            have : evalNamed sv (cols rc.seen.db rc.seen.table) e = none := by
              unfold evalNamed
              rw [show cols rc.seen.db rc.seen.table = cols rc.db rc.table from rfl, hfind]
              rfl
            rw [List.mapM_cons, this]
            rfl
          rw [hn]
          cases u.sets.mapM (evalNamed sv (cols rc.seen.db rc.seen.table)) <;> rfl
      · obtain ⟨us, h1, u', h2, h3⟩ := ih hm
        exact ⟨u :: us, .cons hl h1, u', by simp [h2], h3⟩
  obtain ⟨us, h1, u, h2, h3⟩ := this
  unfold execUpdates
  rw [readUpdates_lines h1, Option.bind_some]
  exact foldlM_stops h2 h3 S

theorem row_lines {env : Env} {a : FromRedo} {trs : List TableRow} {crs : List ColumnRow} {irs : List IndexRow} {frs : List FieldRow}
    {its : List Item} {es : List (Option (RowChange ⊕ Change))} (hfl : All2 (RowFollowed env a trs crs irs frs) its es)
    (hplain : ∀ e, some e ∈ es → rowWanted a e = true → Plainly env.ff (seenAs e)) :
    All2 (Undoes env.ff) ((((es.filterMap id).filter (rowWanted a)).map seenAs).map (Change.text env.ff)) (((es.filterMap id).filter (rowWanted a)).map seenAs) := by
  have : ∀ ch ∈ ((es.filterMap id).filter (rowWanted a)).map seenAs, Undoes env.ff (ch.text env.ff) ch := by
    intro ch hch
    obtain ⟨e, he, rfl⟩ := List.mem_map.mp hch
    obtain ⟨he, hw⟩ := List.mem_filter.mp he
    obtain ⟨x, hx, rfl⟩ := List.mem_filterMap.mp he
    obtain ⟨it, _, hit⟩ := all2_exists_left hfl _ hx
    exact row_undoes hit hw (hplain e hx hw)
  generalize ((es.filterMap id).filter (rowWanted a)).map seenAs = chs at this
  induction chs with
  | nil => exact .nil
  | cons ch chs ih => exact .cons (this ch (by simp)) (ih fun x hx => this x (by simp [hx]))

/-- **The statements for tables without a primary key cannot be executed.**  If one of the updates that are printed is of such a table, the script stops with
an error on every server that has the tables of the dictionary, whatever rows they have, and in either order of the lines. -/
theorem C116_stops (env : Env) (fs : Bytes → File) (a : FromRedo) (spare : Nat) (sys : Bytes) (trs : List TableRow) (crs : List ColumnRow)
    (irs : List IndexRow) (frs : List FieldRow) (names : List Bytes) (parts : List (List Bytes)) (its : List Item) (es : List (Option (RowChange ⊕ Change)))
    (sv : Server) (cols : Bytes → Bytes → List Column)
    (hsys : a.sysFile = .ok sys) (hdict : Dictionary sys trs crs irs frs) (hne : names ≠ []) (hn : ∀ n ∈ names, 44 ∉ n)
    (ha : a.redoFile = commaList names) (hp : All2 (fun chunks n => ∃ content, fs n = .ok content ∧ IsLogFile chunks content) parts names)
    (hs : parts.flatten.flatten = its.flatMap Item.enc) (hf : ∀ it ∈ its, it.Fits)
    (harr : ∀ t ∈ trs, UsualKeys irs frs crs t.id) (hfl : All2 (RowFollowed env a trs crs irs frs) its es)
    (hplain : ∀ e, some e ∈ es → rowWanted a e = true → Plainly env.ff (seenAs e))
    (hah : Ahead its) (hlen : (its.flatMap Item.enc).length < 2 ^ 32) (hcols : SameColumns trs crs cols)
    {rc : RowChange} (hrc : some (.inl rc) ∈ es) (hw : rc.wanted a = true) :
    ∃ lines, fromRedoFile env fs a spare [] = .ok () lines ∧
      ∀ T, execUpdates sv cols (stdout lines) T = none ∧ execUpdates sv cols (stdout lines.reverse) T = none := by
  have h1 := C116_exact env fs a spare sys trs crs irs frs names parts its es hsys hdict hne hn ha hp hs hf harr hfl hah hlen []
  have h2 := row_lines hfl hplain
  obtain ⟨it, _, hit⟩ := all2_exists_left hfl _ hrc
  have hm : rc.seen ∈ ((es.filterMap id).filter (rowWanted a)).map seenAs :=
    List.mem_map.mpr ⟨.inl rc, List.mem_filter.mpr ⟨List.mem_filterMap.mpr ⟨_, hrc, rfl⟩, hw⟩, rfl⟩
  exact ⟨_, by simpa using h1, fun T => ⟨exec_stops h2 hm (row_unknown hcols hit) T,
    exec_stops (all2_reverse h2) (List.mem_reverse.mpr hm) (row_unknown hcols hit) T⟩⟩

theorem rowHappened_keyed {cols : Bytes → Bytes → List Column} {pk : Bytes → Bytes → List Bytes} {ff : FloatFmt} {es : List (RowChange ⊕ Change)} {S S' : Tables}
    (h : RowHappened cols pk ff es S S') (hno : ∀ rc, .inl rc ∉ es) : Happened cols pk ff (es.map seenAs) S S' := by
  induction h with
  | nil => exact .nil
  | row _ _ _ => exact absurd List.mem_cons_self (hno _)
  | keyed h1 _ ih => exact .cons h1 (ih fun rc hrc => hno rc (List.mem_cons_of_mem _ hrc))

/-- **C116, in part:** true if no selected table without a primary key was updated; such a table can be left out with `--db` and `--table`. -/
theorem C116_others_partial (env : Env) (fs : Bytes → File) (a : FromRedo) (spare : Nat) (sys : Bytes) (trs : List TableRow) (crs : List ColumnRow)
    (irs : List IndexRow) (frs : List FieldRow) (names : List Bytes) (parts : List (List Bytes)) (its : List Item) (es : List (Option (RowChange ⊕ Change)))
    (sv : Server) (cols : Bytes → Bytes → List Column) (pk : Bytes → Bytes → List Bytes) (S S' : Tables)
    (hsys : a.sysFile = .ok sys) (hdict : Dictionary sys trs crs irs frs) (hne : names ≠ []) (hn : ∀ n ∈ names, 44 ∉ n)
    (ha : a.redoFile = commaList names) (hp : All2 (fun chunks n => ∃ content, fs n = .ok content ∧ IsLogFile chunks content) parts names)
    (hs : parts.flatten.flatten = its.flatMap Item.enc) (hf : ∀ it ∈ its, it.Fits)
    (harr : ∀ t ∈ trs, UsualKeys irs frs crs t.id) (hfl : All2 (RowFollowed env a trs crs irs frs) its es)
    (hplain : ∀ e, some e ∈ es → rowWanted a e = true → Plainly env.ff (seenAs e))
    (hah : Ahead its) (hlen : (its.flatMap Item.enc).length < 2 ^ 32) (hcols : SameColumns trs crs cols)
    (hreads : ∀ ch, some (.inr ch) ∈ es → ReadsChange sv env.ff ch)
    (hh : RowHappened cols pk env.ff ((es.filterMap id).filter (rowWanted a)) S S')
    (hno : ∀ rc, some (.inl rc) ∈ es → rc.wanted a = false) :
    ∃ lines, fromRedoFile env fs a spare [] = .ok () lines ∧ execUpdates sv cols (stdout lines.reverse) S' = some S := by
  have h1 := C116_exact env fs a spare sys trs crs irs frs names parts its es hsys hdict hne hn ha hp hs hf harr hfl hah hlen []
  have h2 := row_lines hfl hplain
  have hmem : ∀ e ∈ (es.filterMap id).filter (rowWanted a), some e ∈ es ∧ rowWanted a e = true := by
    intro e he
    obtain ⟨he, hw⟩ := List.mem_filter.mp he
    obtain ⟨x, hx, rfl⟩ := List.mem_filterMap.mp he
    exact ⟨hx, hw⟩
  have hno' : ∀ rc, .inl rc ∉ (es.filterMap id).filter (rowWanted a) := by
    intro rc hrc
    obtain ⟨hx, hw⟩ := hmem _ hrc
    have := hno rc hx
    rw [show rowWanted a (.inl rc) = rc.wanted a from rfl, this] at hw
    cases hw
  have hh' := rowHappened_keyed hh hno'
  have hkeyed : ∀ ch ∈ ((es.filterMap id).filter (rowWanted a)).map seenAs, some (.inr ch) ∈ es := by
    intro ch hch
    obtain ⟨e, he, rfl⟩ := List.mem_map.mp hch
    cases e with
    | inl rc => exact absurd he (hno' rc)
    | inr ch => exact (hmem _ he).1
  have ht : ∀ ch ∈ ((es.filterMap id).filter (rowWanted a)).map seenAs, TypedChange cols ch := by
    intro ch hch
    obtain ⟨it, _, hit⟩ := all2_exists_left hfl _ (hkeyed ch hch)
    obtain ⟨o, ho⟩ : ∃ o, o = some (Sum.inr ch : RowChange ⊕ Change) := ⟨_, rfl⟩
    rw [← ho] at hit
    cases hit with
    | @usual it ch' h =>
      cases ch' with
      | none => cases ho
      | some ch' =>
        cases ho
        exact followed_typed hcols h (happened_columns hh' ch hch)
    | notUpdate => cases ho
    | update => cases ho
  rw [List.nil_append] at h1
  refine ⟨_, h1, ?_⟩
  rw [exec_lines (all2_reverse h2) (fun ch hch => ht ch (List.mem_reverse.mp hch)) (fun ch hch => hreads ch (hkeyed ch (List.mem_reverse.mp hch))),
    undo_reverse hh']

/-- Exactly when the statements restore the tables. -/
theorem C116_iff (env : Env) (fs : Bytes → File) (a : FromRedo) (spare : Nat) (sys : Bytes) (trs : List TableRow) (crs : List ColumnRow)
    (irs : List IndexRow) (frs : List FieldRow) (names : List Bytes) (parts : List (List Bytes)) (its : List Item) (es : List (Option (RowChange ⊕ Change)))
    (sv : Server) (cols : Bytes → Bytes → List Column) (pk : Bytes → Bytes → List Bytes) (S S' : Tables)
    (hsys : a.sysFile = .ok sys) (hdict : Dictionary sys trs crs irs frs) (hne : names ≠ []) (hn : ∀ n ∈ names, 44 ∉ n)
    (ha : a.redoFile = commaList names) (hp : All2 (fun chunks n => ∃ content, fs n = .ok content ∧ IsLogFile chunks content) parts names)
    (hs : parts.flatten.flatten = its.flatMap Item.enc) (hf : ∀ it ∈ its, it.Fits)
    (harr : ∀ t ∈ trs, UsualKeys irs frs crs t.id) (hfl : All2 (RowFollowed env a trs crs irs frs) its es)
    (hplain : ∀ e, some e ∈ es → rowWanted a e = true → Plainly env.ff (seenAs e))
    (hah : Ahead its) (hlen : (its.flatMap Item.enc).length < 2 ^ 32) (hcols : SameColumns trs crs cols)
    (hreads : ∀ ch, some (.inr ch) ∈ es → ReadsChange sv env.ff ch)
    (hh : RowHappened cols pk env.ff ((es.filterMap id).filter (rowWanted a)) S S') :
    (∃ lines, fromRedoFile env fs a spare [] = .ok () lines ∧ execUpdates sv cols (stdout lines.reverse) S' = some S) ↔
      ∀ rc, some (.inl rc) ∈ es → rc.wanted a = false := by
  constructor
  · rintro ⟨lines, h1, h2⟩ rc hrc
    by_contra hw
    obtain ⟨lines', h3, h4⟩ := C116_stops env fs a spare sys trs crs irs frs names parts its es sv cols hsys hdict hne hn ha hp hs hf harr hfl hplain hah hlen hcols
      hrc (by simpa using hw)
    rw [h3] at h1
    cases h1
    rw [(h4 S').2] at h2
    cases h2
  · exact C116_others_partial env fs a spare sys trs crs irs frs names parts its es sv cols pk S S' hsys hdict hne hn ha hp hs hf harr hfl hplain hah hlen hcols
      hreads hh

/-! ## A dictionary with a table with and one without a primary key -/

def heapColumns : List ColumnRow := shopColumns ++ [⟨21, 0, b! "a", 12, 2162703, 30⟩, ⟨21, 1, b! "b", 12, 2162703, 30⟩]
def heapIndexes : List IndexRow := [⟨20, 30, b! "PRIMARY", 1, 3⟩, ⟨21, 31, b! "GEN_CLUST_INDEX", 0, 1⟩]
def heapFields : List FieldRow := [⟨30, 0, b! "id"⟩]
def heapSys : Bytes := writeSystem mixTables heapColumns heapIndexes heapFields

theorem heap_dictionary : Dictionary heapSys mixTables heapColumns heapIndexes heapFields where
  file := system_written _ _ _ _
    { tables := by decide, columns := by decide, indexes := by decide, fields := by decide, onTables := by decide, onColumns := by decide,
      onIndexes := by decide, onFields := by decide }
  indexes := by decide
  ids := by decide
  names := mix_dictionary.names

theorem heap_unkeyed : Unkeyed heapColumns heapIndexes ⟨b! "shop/k", 21, 6⟩ where
  index := ⟨⟨21, 31, b! "GEN_CLUST_INDEX", 0, 1⟩, by decide, by decide, by decide, by decide⟩
  names := by decide

theorem heap_usual : ∀ t ∈ mixTables, UsualKeys heapIndexes heapFields heapColumns t.id := by
  intro t ht
  simp only [mixTables, List.mem_cons, List.not_mem_nil, or_false] at ht
  rcases ht with rfl | rfl
  · exact .inr ⟨⟨20, 30, b! "PRIMARY", 1, 3⟩, by decide, .inr ⟨by decide, by decide, by decide, by decide⟩⟩
  · exact .inr ⟨⟨21, 31, b! "GEN_CLUST_INDEX", 0, 1⟩, by decide, .inl (by decide)⟩

def heapUndo : Undo := ⟨12, 1, 3, 21, 0, 2 ^ 33, 2 ^ 50, [[0, 0, 0, 0, 2, 5]], [(4, some (b! "bob"))], []⟩
/-- an update of a row of `k`, one of a row of `t`, and a page that is written -/
def heapLog : List Item :=
  [.record true 0 300 (.undoInsert heapUndo), .record true 0 300 (.undoInsert (shopUndo 12 (b! "bob"))), .record true 5 3 (.bytes2 120 77)]
def heapChange : RowChange := ⟨b! "shop", b! "k", [(b! "b", some (.varchar (b! "bob")))]⟩
def heapDisk (_ : Bytes) : File := .ok (logFile (heapLog.flatMap Item.enc))
def heapRedo (table : Bytes) : FromRedo := { sysFile := .ok heapSys, redoFile := b! "ib_logfile0", db := b! "shop", table := table }
def heapCols (_ table : Bytes) : List Column := columnsOf heapColumns (if table = b! "t" then 20 else 21)
def heapChanges : List (Option (RowChange ⊕ Change)) := [some (.inl heapChange), some (.inr (shopChange (b! "bob"))), none]

set_option maxRecDepth 4000 in
theorem heapLog_length : (heapLog.flatMap Item.enc).length ≤ 200 := by decide

theorem heapLog_fits : ∀ it ∈ heapLog, it.Fits := by
  intro it hit
  simp only [heapLog, List.mem_cons, List.not_mem_nil, or_false] at hit
  rcases hit with rfl | rfl | rfl
  · refine ⟨by decide, by decide, by decide, by decide, by decide, by decide, by decide, by decide, ?_, by decide⟩
    intro f hf
    cases List.mem_singleton.mp hf
    exact ⟨by decide, fun v hv => by cases hv; decide⟩
  · exact ⟨by decide, by decide, shop_undo_fits (.inl rfl) 12 20 (.inr rfl) (.inl rfl)⟩
  · exact ⟨by decide, by decide, by show 77 < 2 ^ 32; decide⟩

theorem heap_undo (zone : Nat → Int) : RowUndo zone heapColumns heapIndexes ⟨b! "shop/k", 21, 6⟩ heapUndo [(4, some (.varchar (b! "bob")))] heapChange where
  id := rfl
  name := rfl
  table := heap_unkeyed
  kind := rfl
  key := ⟨_, by decide, rfl⟩
  fields := rfl
  olds := by
    refine .cons ⟨{ name := b! "b", ftype := 12, mtype := 15, pos := 1, len := 30, isNull := true, tableId := 21 }, by decide, rfl, ?_⟩ .nil
    rintro v ⟨⟩
    exact ⟨rfl, trivial⟩

theorem heap_keyed : Keyed heapColumns heapIndexes heapFields ⟨b! "shop/t", 20, 5⟩ (shopLayout 20) [b! "id"] where
  index := ⟨⟨20, 30, b! "PRIMARY", 1, 3⟩, by decide, by decide, by decide⟩
  layout := .key (r := ⟨20, 30, b! "PRIMARY", 1, 3⟩) (by decide) (by decide) (by decide) (by decide)
  names := by decide

theorem heap_trimmed (id : Nat) : Trimmed heapIndexes id := by
  intro x hx _
  simp only [heapIndexes, List.mem_cons, List.not_mem_nil, or_false] at hx
  rcases hx with rfl | rfl <;> decide

theorem heap_followed (env : Env) (table : Bytes) (ht : table = b! "t" ∨ table = []) :
    All2 (RowFollowed env (heapRedo table) mixTables heapColumns heapIndexes heapFields) heapLog heapChanges := by
  have hwk : Wanted (heapRedo table) ⟨b! "shop", b! "t", [(b! "name", some (.varchar (b! "bob")))], [b! "id"].zip [.int 4 7]⟩ = true := by
    rcases ht with rfl | rfl <;> rfl
  refine .cons (.update (t := ⟨b! "shop/k", 21, 6⟩) (by decide) (heap_undo _) (by decide) (by decide) (heap_trimmed _) ?_ ?_)
    (.cons (.usual (ch := some (shopChange (b! "bob"))) ?_) (.cons (.usual (ch := none) (.other nofun fun _ => trivial)) .nil))
  · intro e he v hv
    cases List.mem_singleton.mp he
    cases hv
    exact ⟨trivial, rfl, nofun⟩
  · rcases ht with rfl | rfl <;> decide
  · refine .update (t := ⟨b! "shop/t", 20, 5⟩) (names := [b! "id"]) (keys := [.int 4 7]) (olds := [(3, some (.varchar (b! "bob")))]) (by decide) rfl rfl
      heap_keyed (.cons ⟨⟨shopId, by decide, rfl, rfl, by decide, by decide, rfl, rfl⟩, by decide, by decide, by decide⟩ .nil)
      (shop_old_values env (b! "bob")) ⟨rfl, rfl, rfl⟩ (by decide) (by decide)
      ⟨⟨20, 30, b! "PRIMARY", 1, 3⟩, by decide, by decide, .inr ⟨by decide, by decide, shopId, [shopName], by decide, by decide⟩⟩ (heap_trimmed _) ?_ ?_ ?_ ?_
    · intro v hv
      cases List.mem_singleton.mp hv
      exact ⟨trivial, rfl⟩
    · intro e he v hv
      cases List.mem_singleton.mp he
      cases hv
      trivial
    · intro h
      rw [hwk] at h
      cases h
    · intro _
      refine ⟨?_, ?_⟩
      · intro v hv
        cases List.mem_singleton.mp hv
        exact ⟨trivial, rfl, nofun⟩
      · intro e he v hv
        cases List.mem_singleton.mp he
        cases hv
        exact ⟨trivial, rfl, nofun⟩

theorem heap_same : SameColumns mixTables heapColumns heapCols := by
  intro t ht db table hname
  simp only [mixTables, List.mem_cons, List.not_mem_nil, or_false] at ht
  have hsp := mix_dictionary.names.2 t (by simpa [mixTables] using ht)
  rw [hname] at hsp
  have hsp := tableName_pair hsp
  rw [← hname] at hsp
  rcases ht with rfl | rfl
  · cases hsp
    rfl
  · cases hsp
    rfl

theorem heap_plain (env : Env) (a : FromRedo) : ∀ e, some e ∈ heapChanges → rowWanted a e = true → Plainly env.ff (seenAs e) := by
  intro e he _
  have : e = .inl heapChange ∨ e = .inr (shopChange (b! "bob")) := by simpa [heapChanges] using he
  rcases this with rfl | rfl
  · refine ⟨⟨_, rfl, by show 96 ∉ b! "b"; decide, ?_⟩, ?_, by show 96 ∉ b! "shop"; decide, by show 96 ∉ b! "k"; decide⟩
    · rintro v ⟨⟩
      exact raw_plain (by show 39 ∉ b! "bob"; decide) (by show 92 ∉ b! "bob"; decide)
    · intro x hx
      cases List.mem_singleton.mp hx
      exact ⟨by decide, raw_plain (by show 39 ∉ b! "<nil>"; decide) (by show 92 ∉ b! "<nil>"; decide)⟩
  · exact shopChange2_plainly env (.inl rfl) (.inl rfl)

theorem heap_reads (env : Env) (sv : Server) : ∀ ch, some (.inr ch) ∈ heapChanges → ReadsChange sv env.ff ch := by
  intro ch hch
  have : ch = shopChange (b! "bob") := by simpa [heapChanges] using hch
  subst this
  exact ⟨fun s hs => by cases List.mem_singleton.mp hs; trivial, fun s hs => by cases List.mem_singleton.mp hs; trivial⟩

/-- The hypotheses of `C116_stops`: without `--table`, nothing of this log can be undone. -/
theorem heap_stops (env : Env) (spare : Nat) (sv : Server) : ∃ lines, fromRedoFile env heapDisk (heapRedo []) spare [] = .ok () lines ∧
    ∀ T, execUpdates sv heapCols (stdout lines) T = none ∧ execUpdates sv heapCols (stdout lines.reverse) T = none :=
  C116_stops env heapDisk (heapRedo []) spare heapSys mixTables heapColumns heapIndexes heapFields [b! "ib_logfile0"] [[heapLog.flatMap Item.enc]] heapLog
    heapChanges sv heapCols rfl heap_dictionary (by decide) (by decide) rfl
    (.cons ⟨_, rfl, logFile_is _ (by have := heapLog_length; omega)⟩ .nil) (by simp) heapLog_fits heap_usual (heap_followed env [] (.inr rfl))
    (heap_plain env _) ⟨by decide, by decide, by decide, trivial⟩ (by have := heapLog_length; omega) heap_same (rc := heapChange) (by simp [heapChanges]) rfl

example (env : Env) (spare : Nat) (out : Out) : fromRedoFile env heapDisk (heapRedo []) spare out = .ok () (out ++
    [b! "update `shop`.`k` set `b`='bob' where `DB_ROW_ID`='<nil>';", b! "update `shop`.`t` set `name`='bob' where `id`='7';"]) :=
  C116_exact env heapDisk (heapRedo []) spare heapSys mixTables heapColumns heapIndexes heapFields [b! "ib_logfile0"] [[heapLog.flatMap Item.enc]] heapLog
    heapChanges rfl heap_dictionary (by decide) (by decide) rfl
    (.cons ⟨_, rfl, logFile_is _ (by have := heapLog_length; omega)⟩ .nil) (by simp) heapLog_fits heap_usual (heap_followed env [] (.inr rfl))
    ⟨by decide, by decide, by decide, trivial⟩ (by have := heapLog_length; omega) out

theorem heap_changed (ff : FloatFmt) : Changed heapCols (fun _ _ => [b! "id"]) ff (shopChange (b! "bob")) (shopState [shopRow 7 (b! "bob")])
    (shopState [shopRow 7 (b! "zoe")]) := by
  have hch := shopState_changed ff 7 (b! "bob") (b! "zoe") [shopRow 7 (b! "bob")] [shopRow 7 (b! "zoe")] (by simp [shopRow_has]) (by
    simp [shopRow_has, shopRow_set])
  refine ⟨rfl, ?_, hch.old, hch.new⟩
  intro s hs
  cases List.mem_singleton.mp hs
  exact ⟨by show b! "name" ∈ (columnsOf heapColumns 20).map (·.name); decide, by show b! "name" ∉ [b! "id"]; decide⟩

/-- The hypotheses of `C116_others_partial`: with `--table t`, the row of `t` is restored. -/
example (env : Env) (spare : Nat) (sv : Server) : ∃ lines, fromRedoFile env heapDisk (heapRedo (b! "t")) spare [] = .ok () lines ∧
    execUpdates sv heapCols (stdout lines.reverse) (shopState [shopRow 7 (b! "zoe")]) = some (shopState [shopRow 7 (b! "bob")]) := by
  refine C116_others_partial env heapDisk (heapRedo (b! "t")) spare heapSys mixTables heapColumns heapIndexes heapFields [b! "ib_logfile0"]
    [[heapLog.flatMap Item.enc]] heapLog heapChanges sv heapCols (fun _ _ => [b! "id"]) _ _ rfl heap_dictionary (by decide) (by decide) rfl
    (.cons ⟨_, rfl, logFile_is _ (by have := heapLog_length; omega)⟩ .nil) (by simp) heapLog_fits heap_usual (heap_followed env _ (.inl rfl))
    (heap_plain env _) ⟨by decide, by decide, by decide, trivial⟩ (by have := heapLog_length; omega) heap_same (heap_reads env sv) ?_ ?_
  · exact .keyed (heap_changed env.ff) .nil
  · intro rc hrc
    have : rc = heapChange := by simpa [heapChanges] using hrc
    subst this
    rfl

/-- the two tables, each with one row -/
def heapState (k t : Bytes) : Tables := fun d tb => if d = b! "shop" ∧ tb = b! "k" then [fun n => if n = b! "b" then .text k else .null] else
  shopState [shopRow 7 t] d tb

theorem heap_logs : All2 (RowLogs testEnv.zone mixTables heapColumns heapIndexes heapFields) heapLog heapChanges := by
  refine .cons (.update (t := ⟨b! "shop/k", 21, 6⟩) (by decide) (heap_undo _)) ?_
  have := heap_followed testEnv [] (.inr rfl)
  cases this with
  | cons _ h =>
    cases h with
    | cons h1 h =>
      refine .cons ?_ (.cons (.usual (ch := none) (.other nofun)) .nil)
      obtain ⟨o, ho⟩ : ∃ o, o = some (Sum.inr (shopChange (b! "bob")) : RowChange ⊕ Change) := ⟨_, rfl⟩
      rw [← ho] at h1 ⊢
      cases h1 with
      | usual h => exact .usual (followed_logs h)
      | notUpdate => cases ho
      | update => cases ho

theorem heap_happened (ff : FloatFmt) : RowHappened heapCols (fun _ _ => [b! "id"]) ff [.inl heapChange, .inr (shopChange (b! "bob"))]
    (heapState (b! "bob") (b! "bob")) (heapState (b! "ann") (b! "zoe")) := by
  refine .row (S1 := heapState (b! "ann") (b! "bob")) ⟨[], _, [], [(b! "b", .text (b! "ann"))], rfl, ?_, rfl, ?_⟩ (.keyed ?_ .nil)
  · intro s hs
    cases List.mem_singleton.mp hs
    rfl
  · funext d t
    unfold heapState
    by_cases h : d = b! "shop" ∧ t = b! "k"
    · rw [if_pos h, if_pos (show d = heapChange.db ∧ t = heapChange.table from h)]
      refine congrArg (fun x => [x]) ?_
      funext n
      by_cases hn : n = b! "b"
      · subst hn; rfl
      · simp [setAll, hn]
    · rw [if_neg h, if_neg (show ¬ (d = heapChange.db ∧ t = heapChange.table) from h), if_neg h]
  · obtain ⟨h1, h2, h3, news, h4, h5⟩ := heap_changed ff
    refine ⟨h1, h2, h3, news, h4, ?_⟩
    funext d t
    have h5 := congrFun (congrFun h5 d) t
    unfold heapState updateRows at *
    beta_reduce
    by_cases h : d = b! "shop" ∧ t = b! "k"
    · rw [if_pos h, if_neg, if_pos h]
      rintro ⟨_, h'⟩
      rw [h.2] at h'
      revert h'
      show ¬ (b! "k" = b! "t")
      decide
    · rw [if_neg h, if_neg h]
      exact h5

/-- **C116 is false.** -/
theorem C116_false : ¬ C116_statement := by
  intro h
  obtain ⟨lines, h1, h2⟩ := h testEnv heapDisk (heapRedo []) 0 heapSys mixTables heapColumns heapIndexes heapFields [b! "ib_logfile0"]
    [[heapLog.flatMap Item.enc]] heapLog heapChanges anyServer heapCols (fun _ _ => [b! "id"]) (heapState (b! "bob") (b! "bob")) (heapState (b! "ann") (b! "zoe"))
    rfl heap_dictionary (by decide) (by decide) rfl (.cons ⟨_, rfl, logFile_is _ (by have := heapLog_length; omega)⟩ .nil) (by simp) heapLog_fits heap_logs
    heap_same (heap_reads _ _) (heap_happened _)
  obtain ⟨lines', h3, h4⟩ := heap_stops testEnv 0 anyServer
  rw [h3] at h1
  cases h1
  rw [(h4 _).2] at h2
  cases h2

end Verif.Props
