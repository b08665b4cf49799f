import Verif.Proofs.Order
import Verif.Props.DataWitness
import Verif.Props.RedoWitness
/-!
# C59: the order in which Go iterates over its maps
-/

namespace Verif.Props
open Verif Spec

/-- an order of iteration: every `range` sees the same tables and indexes, in any order -/
def Order.Valid (o : Order) : Prop := ∀ n t, Reordered t (o n t)

/-- no two tables have these names -/
def OneNamed (db name : Bytes) (tables : TableMap) : Prop :=
  ∀ e ∈ tables, ∀ e' ∈ tables, e.2.db = db ∧ e.2.name = name → e'.2.db = db ∧ e'.2.name = name → e.1 = e'.1

/-! ## Loading the dictionary -/

/-- `readDict` up to the fields of the indexes -/
def readRows (env : Env) (content : Bytes) : GoM DState (Option Bytes) := do
  let pages ← GoM.lift (parseFile content)
  let sp ← GoM.lift (findSysHeader pages)
  let s ← GoM.get
  let d ← GoM.lift (collectPages sp pages s.dict)
  GoM.modify (fun s => { s with dict := d })
  andThen (getAllTables env) <| andThen (getAllColumns env) (getAllIndexes env)

def arrangeDictIn (o : Order) : GoM DState (Option Bytes) := do
  let s ← GoM.get
  let t ← GoM.lift (movePrimaryKeyFirst (o 2 (sortColumns (o 1 s.tables))))
  let t ← GoM.lift (addInternalColumns (o 3 t))
  GoM.modify (·.setTables t)
  return none

theorem readDict_split (env : Env) (content : Bytes) : readDict env content = andThen (readRows env content) (getAllFields env) := by
  unfold readRows
  simp only [andThen_bind, andThen_assoc]
  rfl

theorem parseDictPageIn_split (o : Order) (env : Env) (content : Bytes) :
    parseDictPageIn o env (.ok content) = andThen (andThen (readRows env content) (getAllFieldsIn o env)) (arrangeDictIn o) := by
  unfold readRows
  simp only [andThen_bind, andThen_assoc]
  rfl

theorem rows_WF (env : Env) (content : Bytes) : Keeps (fun s : DState => s.tables.WF) (readRows env content) := by
  unfold readRows
  refine Keeps.bind (Keeps.lift _) fun pages => Keeps.bind (Keeps.lift _) fun sp => Keeps.bind Keeps.get fun s =>
    Keeps.bind (Keeps.lift _) fun d => Keeps.bind (Keeps.modify _ fun _ h => h) fun _ => ?_
  refine andThen_keeps ?_ (andThen_keeps ?_ ?_)
  · refine Keeps.bind Keeps.get fun s => ?_
    cases s.dict.get? SysTablesIdx with
    | none => exact Keeps.pure _
    | some dts => exact Keeps.bind (allTablesLoop_WF env dts _) fun _ => Keeps.pure _
  · intro s hs
    unfold getAllColumns withCols
    gom
    cases s.dict.get? SysColumnsIdx with
    | none => exact hs
    | some dts =>
      gom
      cases parseDictPages env s.tables dts ⟨makeSysColumnsColumns, s.out⟩ with
      | panic p => exact hs
      | hang p => exact hs
      | ok rows p =>
        dsimp only
        cases h : foldRows addColumnRow s.tables rows with
        | none => exact hs
        | some t => exact foldRows_inv (fun _ _ _ h => addColumnRow_WF h) h hs
  · intro s hs
    unfold getAllIndexes withCols
    gom
    cases s.dict.get? SysIndexesIdx with
    | none => exact hs
    | some dts =>
      gom
      cases parseDictPages env s.tables dts ⟨makeSysIndexesColumns, s.out⟩ with
      | panic p => exact hs
      | hang p => exact hs
      | ok rows p =>
        dsimp only
        cases h : foldRows (fun b r => addIndexRow env.ff b.1 b.2 r) (s.tables, none) rows with
        | none => exact hs
        | some t => exact foldRows_inv (P := fun b : TableMap × Option Bytes => b.1.WF) (fun _ _ _ h => addIndexRow_WF h) h hs

/-- the same output, and the same dictionary in another order -/
def Alike (s s' : DState) : Prop := s'.out = s.out ∧ s.tables.WF ∧ Reordered s.tables s'.tables

theorem fields_alike (o : Order) (ho : Order.Valid o) (env : Env) {s : DState} (hw : s.tables.WF) :
    RRel Alike Eq (getAllFields env s) (getAllFieldsIn o env s) := by
  unfold getAllFields getAllFieldsIn withCols
  gom
  cases s.dict.get? SysFieldsIdx with
  | none => exact .ok rfl ⟨rfl, hw, .refl _⟩
  | some dts =>
    gom
    cases parseDictPages env s.tables dts ⟨makeSysFieldsColumns, s.out⟩ with
    | panic p => exact .panic ⟨rfl, hw, .refl _⟩
    | hang p => exact .hang ⟨rfl, hw, .refl _⟩
    | ok rows p =>
      dsimp only
      cases foldRows addFieldRow [] rows with
      | none => exact .panic ⟨rfl, hw, .refl _⟩
      | some m => exact .ok rfl ⟨rfl, attachFields_WF m hw, attachFields_reordered m (ho 0 _)⟩

theorem read_alike (o : Order) (ho : Order.Valid o) (env : Env) (content : Bytes) (out : Out) :
    RRel Alike Eq (readDict env content { out := out }) (andThen (readRows env content) (getAllFieldsIn o env) { out := out }) := by
  have hw := rows_WF env content { out := out } GoMap.nil_WF
  rw [readDict_split]
  unfold andThen
  gom
  cases h : readRows env content { out := out } with
  | panic s => rw [h] at hw; exact .panic ⟨rfl, hw, .refl _⟩
  | hang s => rw [h] at hw; exact .hang ⟨rfl, hw, .refl _⟩
  | ok e s =>
    rw [h] at hw
    cases e with
    | some e => exact .ok rfl ⟨rfl, hw, .refl _⟩
    | none => exact fields_alike o ho env hw

theorem arrange_alike (o : Order) (ho : Order.Valid o) {s s' : DState} (h : Alike s s') (hc : ∀ e ∈ s.tables, OneClustered e.2) :
    RRel Alike Eq (arrangeDict s) (arrangeDictIn o s') := by
  obtain ⟨h1, h2, h3⟩ := h
  unfold arrangeDict arrangeDictIn sortColumns
  gom
  rcases movePrimaryKeyFirst_reordered ((h3.trans (ho 1 _)).trans (ho 2 _)) hc with ⟨e1, e2⟩ | ⟨r, r', e1, e2, e3⟩
  · rw [e1, e2]
    exact .panic ⟨h1, h2, h3⟩
  · rw [e1, e2]
    gom
    have hw : r.WF := by
      unfold GoMap.WF
      rw [mapTables_keys e1]
      exact h2
    have hc' : ∀ e ∈ r, OneClustered e.2 := by
      intro e he
      obtain ⟨a, ha, _, e4⟩ := move_mem e1 he
      rw [e4]
      exact hc a ha
    rcases addInternalColumns_reordered (e3.trans (ho 3 _)) hc' with ⟨e4, e5⟩ | ⟨q, q', e4, e5, e6⟩
    · rw [e4, e5]
      exact .panic ⟨h1, h2, h3⟩
    · rw [e4, e5]
      refine .ok rfl ⟨h1, ?_, e6⟩
      show GoMap.WF q
      unfold GoMap.WF
      rw [mapTables_keys e4]
      exact hw

/-- the tables of a dictionary as read, before their columns are rearranged -/
def ReadTables (env : Env) (file : File) (out : Out) (tables : TableMap) : Prop :=
  ∃ content s, file = .ok content ∧ readDict env content { out := out } = .ok none s ∧ tables = s.tables

theorem dict_alike (o : Order) (ho : Order.Valid o) (env : Env) (file : File) (out : Out)
    (hc : ∀ tables, ReadTables env file out tables → ∀ e ∈ tables, OneClustered e.2) :
    RRel Alike Eq (parseDictPage env file { out := out }) (parseDictPageIn o env file { out := out }) := by
  cases file with
  | error e => exact .ok rfl ⟨rfl, GoMap.nil_WF, .refl _⟩
  | ok content =>
    have h := read_alike o ho env content out
    rw [parseDictPage_split, parseDictPageIn_split]
    have e1 : andThen (readDict env content) arrangeDict { out := out } = match readDict env content { out := out } with
      | .ok none s => arrangeDict s
      | r => r := by
      unfold andThen
      gom
      cases readDict env content { out := out } with
      | ok e s => cases e <;> rfl
      | panic s => rfl
      | hang s => rfl
    have e2 : andThen (andThen (readRows env content) (getAllFieldsIn o env)) (arrangeDictIn o) { out := out } =
      match andThen (readRows env content) (getAllFieldsIn o env) { out := out } with
      | .ok none s => arrangeDictIn o s
      | r => r := by
      generalize andThen (readRows env content) (getAllFieldsIn o env) = m
      unfold andThen
      gom
      cases m { out := out } with
      | ok e s => cases e <;> rfl
      | panic s => rfl
      | hang s => rfl
    rw [e1, e2]
    generalize hr : readDict env content { out := out } = r1 at h
    generalize andThen (readRows env content) (getAllFieldsIn o env) { out := out } = r2 at h
    cases h with
    | ok he hs =>
      subst he
      rename_i e s s'
      cases e with
      | some e => exact .ok rfl hs
      | none => exact arrange_alike o ho hs (hc _ ⟨content, s, rfl, hr, rfl⟩)
    | panic hs => exact .panic hs
    | hang hs => exact .hang hs

/-- the tables after loading are those read, with other columns -/
theorem loaded_mem {env : Env} {file : File} {out : Out} {s : DState} (h : parseDictPage env file { out := out } = .ok none s) :
    ∃ tables, ReadTables env file out tables ∧ ∀ e ∈ s.tables, ∃ a ∈ tables, a.1 = e.1 ∧ e.2 = { a.2 with columns := e.2.columns } := by
  cases file with
  | error e => cases h
  | ok content =>
    rw [parseDictPage_split] at h
    unfold andThen at h
    obtain ⟨e, s1, h1, h2⟩ := GoM.bind_eq_ok h
    cases e with
    | some e => cases h2
    | none =>
      refine ⟨s1.tables, ⟨content, s1, rfl, h1, rfl⟩, fun e he => ?_⟩
      unfold arrangeDict sortColumns at h2
      simp only [GoM.bind_run, GoM.get_run, GoM.modify_run, GoM.pure_run] at h2
      cases e1 : movePrimaryKeyFirst s1.tables with
      | none => rw [e1] at h2; cases h2
      | some r =>
        rw [e1, GoM.lift_some] at h2
        dsimp only at h2
        cases e2 : addInternalColumns r with
        | none => rw [e2] at h2; cases h2
        | some q =>
          rw [e2] at h2
          injection h2 with _ h2
          subst h2
          obtain ⟨b, hb, i1, i2⟩ := internal_mem e2 he
          obtain ⟨a, ha, j1, j2⟩ := move_mem e1 hb
          exact ⟨a, ha, j1.trans i1, by rw [i2, j2]⟩

/-! ## Finding the table -/

theorem lookup_reordered {t t' : TableMap} (h : Reordered t t') (hw : t.WF) {db name : Bytes} (hn : OneNamed db name t) :
    getTableColumnsFromDict t' db name = getTableColumnsFromDict t db name := by
  have key : ∀ u : TableMap, u.WF → OneNamed db name u → ∀ e ∈ u, e.2.db = db → e.2.name = name → getTableColumnsFromDict u db name = e.2.columns := by
    intro u hu hnu e he h1 h2
    have hm : lookupTable u db name = some e := by
      unfold lookupTable
      cases hl : (u.filter fun e => e.2.db == db && e.2.name == name).getLast? with
      | none =>
        rw [List.getLast?_eq_none_iff, List.filter_eq_nil_iff] at hl
        exact absurd (by simp [h1, h2]) (hl e he)
      | some x =>
        have hx := List.mem_of_getLast? hl
        rw [List.mem_filter, Bool.and_eq_true, beq_iff_eq, beq_iff_eq] at hx
        exact congrArg some (List.inj_on_of_nodup_map hu hx.1 he (hnu x hx.1 e he hx.2 ⟨h1, h2⟩))
    unfold getTableColumnsFromDict
    rw [hm]
  by_cases hex : ∃ e ∈ t', e.2.db = db ∧ e.2.name = name
  · obtain ⟨e, he, h1, h2⟩ := hex
    obtain ⟨a, ha, e1, e2⟩ := h.mem he
    have hn' : OneNamed db name t' := by
      intro x hx y hy hx' hy'
      obtain ⟨a, ha, i1, i2⟩ := h.mem hx
      obtain ⟨b, hb, j1, j2⟩ := h.mem hy
      rw [i2.2] at hx'
      rw [j2.2] at hy'
      rw [← i1, ← j1]
      exact hn a ha b hb hx' hy'
    rw [key t' (h.WF hw) hn' e he h1 h2, e2.columns]
    rw [e2.2] at h1 h2
    exact (key t hw hn a ha h1 h2).symm
  · have e1 : lookupTable t' db name = none := (C29_unknown _ _ _).mpr fun e he hh => hex ⟨e, he, hh⟩
    have e2 : lookupTable t db name = none := by
      refine (C29_unknown _ _ _).mpr fun e he hh => ?_
      rcases h.get? hw e.1 with ⟨g1, _⟩ | ⟨a, b, g1, g2, g3⟩
      · rw [(GoMap.get?_iff hw e.1 e.2).mpr he] at g1; cases g1
      · rw [(GoMap.get?_iff hw e.1 e.2).mpr he] at g1
        injection g1 with g1
        refine hex ⟨(e.1, b), (GoMap.get?_iff (h.WF hw) e.1 b).mp g2, ?_⟩
        rw [g3.2, ← g1]
        exact hh
    unfold getTableColumnsFromDict
    rw [e1, e2]

/-! ## The commands -/

/-- **C59, data command.** Whatever the order of each iteration over the map of tables and over the maps of indexes, the data command does the
same (it prints the same lines, and panics, hangs or ends alike), if no table has two indexes with the name of a clustered index and no two
tables have the names asked for. -/
theorem C59_data (o : Order) (ho : Order.Valid o) (env : Env) (a : FromData) (out : Out)
    (hc : ∀ tables, ReadTables env a.sysFile out tables → (∀ e ∈ tables, OneClustered e.2) ∧ OneNamed a.db a.table tables) :
    fromDataFileIn o env a out = fromDataFile env a out := by
  have h := dict_alike o ho env a.sysFile out fun t ht => (hc t ht).1
  unfold fromDataFileIn fromDataFile
  generalize hr : parseDictPage env a.sysFile { out := out } = r1 at h
  generalize parseDictPageIn o env a.sysFile { out := out } = r2 at h
  cases h with
  | panic hs => dsimp only; rw [hs.1]
  | hang hs => dsimp only; rw [hs.1]
  | ok he hs =>
    subst he
    rename_i e s s'
    obtain ⟨h1, h2, h3⟩ := hs
    cases e with
    | some e => dsimp only; rw [h1]
    | none =>
      dsimp only
      obtain ⟨tables, hrt, hmem⟩ := loaded_mem hr
      have hn : OneNamed a.db a.table s.tables := by
        intro x hx y hy hx' hy'
        obtain ⟨a', ha, i1, i2⟩ := hmem x hx
        obtain ⟨b', hb, j1, j2⟩ := hmem y hy
        rw [i2] at hx'
        rw [j2] at hy'
        rw [← i1, ← j1]
        exact (hc tables hrt).2 a' ha b' hb hx' hy'
      generalize (a.opType == b! "RecoveryData") = rec
      cases a.tableFile with
      | error e =>
        unfold parseDataPageIn parseDataPage
        gom
        rw [h1]
      | ok content =>
        unfold parseDataPageIn parseDataPage
        gom
        cases parseFile content with
        | none => gom; rw [h1]
        | some pages =>
          gom
          rw [lookup_reordered (h3.trans (ho 4 _)) h2 hn, dataPagesLoop_reordered env h3 h2, h1]
          cases dataPagesLoop env s.tables a.db a.table rec pages ⟨getTableColumnsFromDict s.tables a.db a.table, s.out⟩ <;> rfl

/-- **C59, redo command.** The same of the redo command; here also two tables may have the same names. -/
theorem C59_redo (o : Order) (ho : Order.Valid o) (env : Env) (fs : Bytes → File) (a : FromRedo) (spare : Nat) (out : Out)
    (hc : ∀ tables, ReadTables env a.sysFile out tables → ∀ e ∈ tables, OneClustered e.2) :
    fromRedoFileIn o env fs a spare out = fromRedoFile env fs a spare out := by
  have h := dict_alike o ho env a.sysFile out hc
  unfold fromRedoFileIn fromRedoFile
  generalize hr : parseDictPage env a.sysFile { out := out } = r1 at h
  generalize parseDictPageIn o env a.sysFile { out := out } = r2 at h
  cases h with
  | panic hs => dsimp only; rw [hs.1]
  | hang hs => dsimp only; rw [hs.1]
  | ok he hs =>
    subst he
    rename_i e s s'
    obtain ⟨h1, h2, h3⟩ := hs
    cases e with
    | some e => dsimp only; rw [h1]
    | none =>
      dsimp only
      obtain ⟨tables, hrt, hmem⟩ := loaded_mem hr
      have : SameDict ⟨env, s.tables, a.table, a.db⟩ ⟨env, o 4 s'.tables, a.table, a.db⟩ := by
        refine ⟨rfl, h3.trans (ho 4 _), h2, fun e he => ?_⟩
        obtain ⟨b, hb, _, e2⟩ := hmem e he
        rw [e2]
        exact hc tables hrt b hb
      rw [parseRedoLogs_same this, h1]
      rfl

/-- **C59, one undo record.** The key columns of an undo record do not depend on the order of the iteration made for it. -/
theorem C59_key (ixs ixs' : List (Nat × Index)) (hp : ixs.Perm ixs')
    (hc : ∀ e ∈ ixs, ∀ e' ∈ ixs, clusteredName e = true → clusteredName e' = true → e = e') (hn : ixs.Nodup) :
    getPrimaryKey ixs' [] = getPrimaryKey ixs [] := by
  have : OneClustered { indexes := ixs } := by
    show (ixs.filter clusteredName).length ≤ 1
    have hnd := hn.filter clusteredName
    match hl : ixs.filter clusteredName with
    | [] => simp
    | [_] => simp
    | x :: y :: l =>
      have hx : x ∈ ixs.filter clusteredName := by rw [hl]; simp
      have hy : y ∈ ixs.filter clusteredName := by rw [hl]; simp
      rw [List.mem_filter] at hx hy
      rw [hl, hc x hx.1 y hy.1 hx.2 hy.2] at hnd
      simp at hnd
  exact SameTable.primaryKey (a := { indexes := ixs }) (b := { indexes := ixs' }) ⟨hp, rfl⟩ this

/-- The order of the association lists is one of the orders. -/
theorem C59_identity (env : Env) (a : FromData) (fs : Bytes → File) (b : FromRedo) (spare : Nat) :
    Order.Valid (fun _ t => t) ∧ fromDataFileIn (fun _ t => t) env a = fromDataFile env a ∧
      fromRedoFileIn (fun _ t => t) env fs b spare = fromRedoFile env fs b spare :=
  ⟨fun _ t => .refl t, rfl, rfl⟩

/-! ## Dictionaries described by their rows -/

/-- at most one index of a table has the name of a clustered index -/
def OneKeyEach (irs : List IndexRow) : Prop :=
  ∀ r ∈ irs, ∀ r' ∈ irs, r.tableId = r'.tableId → trimSpace r.name ∈ [b! "PRIMARY", b! "GEN_CLUST_INDEX"] →
    trimSpace r'.name ∈ [b! "PRIMARY", b! "GEN_CLUST_INDEX"] → r.id = r'.id

/-- The condition of `C59_data` and `C59_redo`, for the dictionaries of C56. -/
theorem C59_described (env : Env) (content : Bytes) (trs : List TableRow) (crs : List ColumnRow) (irs : List IndexRow) (frs : List FieldRow)
    (h : Dictionary content trs crs irs frs) (hone : OneKeyEach irs) (out : Out) (tables : TableMap) (ht : ReadTables env (.ok content) out tables) :
    (∀ e ∈ tables, OneClustered e.2) ∧ ∀ db name, OneNamed db name tables := by
  obtain ⟨_, s, hc, hr, rfl⟩ := ht
  injection hc with hc
  subst hc
  obtain ⟨tA, D, e1, hw, -, hA⟩ := dict_read env content trs crs irs frs h.file h.indexes out
  rw [e1] at hr
  injection hr with _ hr
  subst hr
  dsimp only
  constructor
  · intro e he
    obtain ⟨-, hwi, hg⟩ := hA e.1 e.2 ((GoMap.get?_iff hw e.1 e.2).mpr he)
    have hrow : ∀ x ∈ e.2.indexes, clusteredName x = true → ∃ r ∈ irs, r.tableId = e.1 ∧ r.id = x.1 ∧
        trimSpace r.name ∈ [b! "PRIMARY", b! "GEN_CLUST_INDEX"] := by
      intro x hx hcl
      have := (GoMap.get?_iff hwi x.1 x.2).mpr hx
      rw [hg, definedIndex, Option.map_eq_some_iff] at this
      obtain ⟨r, hl, hxr⟩ := this
      obtain ⟨hp, hmem⟩ := lastWith_some hl
      simp only [Bool.and_eq_true, beq_iff_eq] at hp
      refine ⟨r, hmem, hp.1, hp.2, ?_⟩
      unfold clusteredName at hcl
      rw [← hxr] at hcl
      simpa [indexOf] using hcl
    unfold OneClustered
    have hnd := (List.Nodup.of_map _ hwi).filter clusteredName
    match hl : e.2.indexes.filter clusteredName with
    | [] => simp
    | [_] => simp
    | x :: y :: l =>
      have hx : x ∈ e.2.indexes.filter clusteredName := by rw [hl]; simp
      have hy : y ∈ e.2.indexes.filter clusteredName := by rw [hl]; simp
      rw [List.mem_filter] at hx hy
      obtain ⟨r, m1, a1, b1, c1⟩ := hrow x hx.1 hx.2
      obtain ⟨r', m2, a2, b2, c2⟩ := hrow y hy.1 hy.2
      have : x = y := List.inj_on_of_nodup_map hwi hx.1 hy.1 (by rw [← b1, ← b2]; exact hone r m1 r' m2 (a1.trans a2.symm) c1 c2)
      rw [hl, this] at hnd
      simp at hnd
  · intro db name x hx y hy hx' hy'
    have g : ∀ e ∈ tA, ∃ r ∈ trs, r.id = e.1 ∧ (e.2.db, e.2.name) = splitName r.name := by
      intro e he
      obtain ⟨⟨r, hl, e2⟩, -⟩ := hA e.1 e.2 ((GoMap.get?_iff hw e.1 e.2).mpr he)
      obtain ⟨hid, hmem⟩ := lastWith_some hl
      exact ⟨r, hmem, by simpa using hid, by rw [e2]; rfl⟩
    obtain ⟨r, m1, i1, s1⟩ := g x hx
    obtain ⟨r', m2, i2, s2⟩ := g y hy
    have : r = r' := List.inj_on_of_nodup_map h.names.1 m1 m2
      (splitName_inj (h.names.2 r m1) (h.names.2 r' m2) (by rw [← s1, ← s2, hx'.1, hx'.2, hy'.1, hy'.2]))
    rw [← i1, ← i2, this]

/-- The table file and the log of C57 and C58: in every order the commands do the same. -/
example (o : Order) (ho : Order.Valid o) (env : Env) (out : Out) (file : File) (op db name : Bytes) :
    fromDataFileIn o env ⟨.ok (shopFile idKey), file, db, name, op⟩ out = fromDataFile env ⟨.ok (shopFile idKey), file, db, name, op⟩ out :=
  C59_data o ho env _ out fun t ht =>
    have h := C59_described env _ _ _ _ _ (shop_dictionary (.inl rfl)) (by unfold OneKeyEach; decide) out t ht
    ⟨h.1, h.2 _ _⟩

example (o : Order) (ho : Order.Valid o) (env : Env) (spare : Nat) (out : Out) (name : Bytes) :
    fromRedoFileIn o env (shopDisk name) shopRedo spare out = fromRedoFile env (shopDisk name) shopRedo spare out :=
  C59_redo o ho env _ shopRedo spare out fun t ht =>
    (C59_described env _ _ _ _ _ (shop_dictionary (.inl rfl)) (by unfold OneKeyEach; decide) out t ht).1

/-- an order that is not the identity -/
example : Order.Valid (fun _ t => t.reverse) ∧
    (fun t : TableMap => t.reverse) [(1, {}), (2, {})] ≠ [(1, {}), (2, {})] :=
  ⟨fun _ t => ⟨_, (List.reverse_perm t).symm, Spec.All2.refl_of (fun _ => ⟨rfl, .refl _⟩) _⟩, by decide⟩

/-! ## Without the condition -/

/-- With two indexes named `PRIMARY` the stored columns depend on the order. -/
theorem C59_needs_one_clustered : ∃ t t' : TableMap, Reordered t t' ∧ t.WF ∧ (movePrimaryKeyFirst t).bind addInternalColumns ≠ none ∧
    ((movePrimaryKeyFirst t).bind addInternalColumns).map (fun t => getTableColumnsFromDict t [] []) ≠
      ((movePrimaryKeyFirst t').bind addInternalColumns).map (fun t => getTableColumnsFromDict t [] []) := by
  refine ⟨[(1, { columns := [{ name := b! "a" }, { name := b! "b" }], indexes := [(1, ⟨1, b! "PRIMARY", 1, 3, [⟨0, b! "a"⟩]⟩), (2, ⟨2, b! "PRIMARY", 2, 3, [⟨0, b! "b"⟩]⟩)] })],
    [(1, { columns := [{ name := b! "a" }, { name := b! "b" }], indexes := [(2, ⟨2, b! "PRIMARY", 2, 3, [⟨0, b! "b"⟩]⟩), (1, ⟨1, b! "PRIMARY", 1, 3, [⟨0, b! "a"⟩]⟩)] })],
    ⟨_, .refl _, .cons ⟨rfl, .swap _ _ _, rfl⟩ .nil⟩, by unfold GoMap.WF; decide, by decide, by decide⟩

end Verif.Props
