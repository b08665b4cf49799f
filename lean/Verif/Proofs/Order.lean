import Verif.Model.Order
import Verif.Proofs.Maps
import Verif.Proofs.GoM
import Verif.Proofs.Static
import Verif.Proofs.Keeps
import Verif.Spec.Record
import Mathlib.Data.List.Perm.Basic
/-!
# Rearranged maps
-/

namespace Verif
open Spec

/-- the same table, with its indexes in another order -/
def SameTable (a b : Table) : Prop := a.indexes.Perm b.indexes ∧ b = { a with indexes := b.indexes }

/-- the same map of tables in another order, the indexes of every table in another order too -/
def Reordered (t t' : TableMap) : Prop := ∃ m : TableMap, t.Perm m ∧ All2 (fun a b => a.1 = b.1 ∧ SameTable a.2 b.2) m t'

theorem SameTable.refl (a : Table) : SameTable a a := ⟨.refl _, rfl⟩
theorem SameTable.trans {a b c : Table} (h : SameTable a b) (h' : SameTable b c) : SameTable a c :=
  ⟨h.1.trans h'.1, by rw [h'.2, h.2]⟩

theorem Spec.All2.refl_of {α : Type} {r : α → α → Prop} (h : ∀ a, r a a) : ∀ l, All2 r l l
  | [] => .nil
  | a :: l => .cons (h a) (All2.refl_of h l)

theorem Spec.All2.trans_of {α : Type} {r : α → α → Prop} (h : ∀ a b c, r a b → r b c → r a c) {l m n : List α} (h1 : All2 r l m)
    (h2 : All2 r m n) : All2 r l n := by
  induction h1 generalizing n with
  | nil => cases h2; exact .nil
  | cons ha _ ih => cases h2 with | cons hb h2 => exact .cons (h _ _ _ ha hb) (ih h2)

theorem Spec.All2.perm {α β : Type} {r : α → β → Prop} {l : List α} {m m' : List β} (h : All2 r l m) (hp : m.Perm m') :
    ∃ l', l.Perm l' ∧ All2 r l' m' := by
  induction hp generalizing l with
  | nil => cases h; exact ⟨[], .refl _, .nil⟩
  | cons x _ ih =>
    cases h with
    | cons ha h =>
      obtain ⟨l', h1, h2⟩ := ih h
      exact ⟨_, h1.cons _, .cons ha h2⟩
  | swap x y _ =>
    cases h with
    | cons ha h => cases h with | cons hb h => exact ⟨_, .swap _ _ _, .cons hb (.cons ha h)⟩
  | trans _ _ ih1 ih2 =>
    obtain ⟨l1, h1, h2⟩ := ih1 h
    obtain ⟨l2, h3, h4⟩ := ih2 h2
    exact ⟨l2, h1.trans h3, h4⟩

theorem Reordered.refl (t : TableMap) : Reordered t t := ⟨t, .refl _, All2.refl_of (fun _ => ⟨rfl, .refl _⟩) t⟩

theorem Reordered.trans {a b c : TableMap} (h : Reordered a b) (h' : Reordered b c) : Reordered a c := by
  obtain ⟨m, h1, h2⟩ := h
  obtain ⟨n, h3, h4⟩ := h'
  obtain ⟨l, h5, h6⟩ := h2.perm h3
  exact ⟨l, h1.trans h5, All2.trans_of (fun _ _ _ x y => ⟨x.1.trans y.1, x.2.trans y.2⟩) h6 h4⟩

theorem Spec.All2.keys {m t : TableMap} (h : All2 (fun a b => a.1 = b.1 ∧ SameTable a.2 b.2) m t) : m.map (·.1) = t.map (·.1) := by
  induction h with
  | nil => rfl
  | cons h _ ih => rw [List.map_cons, List.map_cons, h.1, ih]

theorem Reordered.WF {t t' : TableMap} (h : Reordered t t') (hw : t.WF) : t'.WF := by
  obtain ⟨m, h1, h2⟩ := h
  have := (h1.map Prod.fst).nodup_iff.mp hw
  unfold GoMap.WF
  rw [← h2.keys]
  exact this

/-- the tables found by id -/
theorem Reordered.get? {t t' : TableMap} (h : Reordered t t') (hw : t.WF) (id : Nat) :
    (t.get? id = none ∧ t'.get? id = none) ∨ ∃ a b, t.get? id = some a ∧ t'.get? id = some b ∧ SameTable a b := by
  obtain ⟨m, h1, h2⟩ := h
  rw [← GoMap.get?_perm hw h1]
  clear h1
  induction h2 with
  | nil => exact .inl ⟨rfl, rfl⟩
  | cons h _ ih =>
    rw [GoMap.get?_cons, GoMap.get?_cons, ← h.1]
    split
    · exact .inr ⟨_, _, rfl, rfl, h.2⟩
    · exact ih

/-- a table of the other map -/
theorem Reordered.mem {t t' : TableMap} (h : Reordered t t') {e : Nat × Table} (he : e ∈ t') :
    ∃ a ∈ t, a.1 = e.1 ∧ SameTable a.2 e.2 := by
  obtain ⟨m, h1, h2⟩ := h
  have : ∃ a ∈ m, a.1 = e.1 ∧ SameTable a.2 e.2 := by
    clear h1
    induction h2 with
    | nil => cases he
    | cons h _ ih =>
      rcases List.mem_cons.mp he with rfl | he
      · exact ⟨_, by simp, h⟩
      · obtain ⟨a, ha, hr⟩ := ih he
        exact ⟨a, by simp [ha], hr⟩
  obtain ⟨a, ha, hr⟩ := this
  exact ⟨a, h1.mem_iff.mpr ha, hr⟩

/-! ## Loops over the tables -/

theorem SameTable.map {f : Nat × Index → Nat × Index} {a b : Table} (h : SameTable a b) :
    SameTable { a with indexes := a.indexes.map f } { b with indexes := b.indexes.map f } :=
  ⟨h.1.map f, by rw [h.2]⟩

theorem attachFields_reordered (m : GoMap (List IdxField)) {t t' : TableMap} (h : Reordered t t') :
    Reordered (attachFields m t) (attachFields m t') := by
  obtain ⟨n, h1, h2⟩ := h
  refine ⟨attachFields m n, h1.map _, ?_⟩
  clear h1
  unfold attachFields
  induction h2 with
  | nil => exact .nil
  | cons h _ ih => exact .cons ⟨h.1, h.2.map⟩ ih

theorem mapTables_perm (f : Nat → Table → Option Table) {t t' : TableMap} (h : t.Perm t') :
    (mapTables f t = none ∧ mapTables f t' = none) ∨ ∃ r r', mapTables f t = some r ∧ mapTables f t' = some r' ∧ r.Perm r' := by
  have hc : ∀ e : Nat × Table, ∀ es, mapTables f (e :: es) = (f e.1 e.2).bind fun t => (mapTables f es).bind fun rest => some ((e.1, t) :: rest) :=
    fun _ _ => rfl
  induction h with
  | nil => exact .inr ⟨[], [], rfl, rfl, .refl _⟩
  | cons e _ ih =>
    rw [hc, hc]
    cases f e.1 e.2 with
    | none => exact .inl ⟨rfl, rfl⟩
    | some x =>
      rcases ih with ⟨h1, h2⟩ | ⟨r, r', h1, h2, h3⟩
      · rw [h1, h2]; exact .inl ⟨rfl, rfl⟩
      · rw [h1, h2]; exact .inr ⟨_, _, rfl, rfl, h3.cons _⟩
  | swap e e' l =>
    rw [hc, hc, hc, hc]
    cases f e.1 e.2 with
    | none => cases f e'.1 e'.2 <;> exact .inl ⟨rfl, rfl⟩
    | some x =>
      cases f e'.1 e'.2 with
      | none => exact .inl ⟨rfl, rfl⟩
      | some y =>
        cases mapTables f l with
        | none => exact .inl ⟨rfl, rfl⟩
        | some r => exact .inr ⟨_, _, rfl, rfl, .swap _ _ _⟩
  | trans _ _ ih1 ih2 =>
    rcases ih1 with ⟨h1, h2⟩ | ⟨r, r', h1, h2, h3⟩
    · rcases ih2 with ⟨_, h4⟩ | ⟨_, _, h4, _⟩
      · exact .inl ⟨h1, h4⟩
      · rw [h2] at h4; cases h4
    · rcases ih2 with ⟨h4, _⟩ | ⟨s, s', h4, h5, h6⟩
      · rw [h2] at h4; cases h4
      · rw [h2] at h4
        injection h4 with h4
        subst h4
        exact .inr ⟨_, _, h1, h5, h3.trans h6⟩

theorem mapTables_reordered (f : Nat → Table → Option Table) {t t' : TableMap} (h : Reordered t t')
    (hf : ∀ e ∈ t, ∀ b, SameTable e.2 b →
      (f e.1 e.2 = none ∧ f e.1 b = none) ∨ ∃ x y, f e.1 e.2 = some x ∧ f e.1 b = some y ∧ SameTable x y) :
    (mapTables f t = none ∧ mapTables f t' = none) ∨ ∃ r r', mapTables f t = some r ∧ mapTables f t' = some r' ∧ Reordered r r' := by
  obtain ⟨m, h1, h2⟩ := h
  have hm : (mapTables f m = none ∧ mapTables f t' = none) ∨
      ∃ r r', mapTables f m = some r ∧ mapTables f t' = some r' ∧ All2 (fun a b => a.1 = b.1 ∧ SameTable a.2 b.2) r r' := by
    replace hf : ∀ e ∈ m, ∀ b, SameTable e.2 b → _ := fun e he => hf e (h1.mem_iff.mpr he)
    clear h1
    have hc : ∀ e : Nat × Table, ∀ es, mapTables f (e :: es) = (f e.1 e.2).bind fun t => (mapTables f es).bind fun rest => some ((e.1, t) :: rest) :=
      fun _ _ => rfl
    induction h2 with
    | nil => exact .inr ⟨[], [], rfl, rfl, .nil⟩
    | cons h _ ih =>
      rw [hc, hc, ← h.1]
      rcases hf _ (by simp) _ h.2 with ⟨e1, e2⟩ | ⟨x, y, e1, e2, e3⟩
      · rw [e1, e2]; exact .inl ⟨rfl, rfl⟩
      · rw [e1, e2]
        rcases ih fun e he => hf e (by simp [he]) with ⟨e4, e5⟩ | ⟨r, r', e4, e5, e6⟩
        · rw [e4, e5]; exact .inl ⟨rfl, rfl⟩
        · rw [e4, e5]; exact .inr ⟨_, _, rfl, rfl, .cons ⟨rfl, e3⟩ e6⟩
  rcases mapTables_perm f h1 with ⟨e1, e2⟩ | ⟨r, r', e1, e2, e3⟩
  · rcases hm with ⟨_, e4⟩ | ⟨_, _, e4, _⟩
    · exact .inl ⟨e1, e4⟩
    · rw [e2] at e4; cases e4
  · rcases hm with ⟨e4, _⟩ | ⟨s, s', e4, e5, e6⟩
    · rw [e2] at e4; cases e4
    · rw [e2] at e4
      injection e4 with e4
      subst e4
      exact .inr ⟨_, _, e1, e5, _, e3, e6⟩

/-! ## Loops over the indexes -/

/-- the name of a clustered index, as the tool recognises it -/
def clusteredName (ix : Nat × Index) : Bool := trimSpace ix.2.name == b! "PRIMARY" || trimSpace ix.2.name == b! "GEN_CLUST_INDEX"

theorem movePrimaryTable_filter (ixs : List (Nat × Index)) (cols : List Column) :
    movePrimaryTable ixs cols = movePrimaryTable (ixs.filter clusteredName) cols := by
  induction ixs generalizing cols with
  | nil => rfl
  | cons ix ixs ih =>
    rw [movePrimaryTable, List.filter_cons]
    by_cases h : ix.2.name = b! "PRIMARY"
    · have hc : clusteredName ix = true := by unfold clusteredName; rw [h]; decide
      rw [if_pos hc, if_pos h, movePrimaryTable, if_pos h]
      simp only [ih]
    · rw [if_neg h]
      show movePrimaryTable ixs cols = _
      rw [ih]
      split
      · rw [movePrimaryTable, if_neg h]; rfl
      · rfl

theorem addInternalTable_filter (id : Nat) (ixs : List (Nat × Index)) (cols : List Column) :
    addInternalTable id ixs cols = addInternalTable id (ixs.filter clusteredName) cols := by
  induction ixs generalizing cols with
  | nil => rfl
  | cons ix ixs ih =>
    by_cases hc : clusteredName ix = true
    · rw [List.filter_cons, if_pos hc, addInternalTable, addInternalTable]
      simp only [ih]
    · have h1 : ix.2.name ≠ b! "PRIMARY" := fun h => hc (by unfold clusteredName; rw [h]; decide)
      have h2 : ix.2.name ≠ b! "GEN_CLUST_INDEX" := fun h => hc (by unfold clusteredName; rw [h]; decide)
      rw [List.filter_cons, if_neg hc, addInternalTable, if_neg h1, if_neg h2, ← ih]
      rfl

theorem getPrimaryKey_filter (ixs : List (Nat × Index)) (fs : List IdxField) :
    getPrimaryKey ixs fs = getPrimaryKey (ixs.filter clusteredName) fs := by
  induction ixs generalizing fs with
  | nil => rfl
  | cons ix ixs ih =>
    rw [getPrimaryKey, List.filter_cons]
    by_cases hc : clusteredName ix = true
    · rw [if_pos hc, getPrimaryKey]
      simp only [← ih]
    · rw [if_neg hc, ← ih]
      have : ¬ (trimSpace ix.2.name = b! "PRIMARY" ∨ trimSpace ix.2.name = b! "GEN_CLUST_INDEX") := by
        intro h
        unfold clusteredName at hc
        simp [h] at hc
      rw [if_neg this]

/-- at most one index of the table has the name of a clustered index -/
def OneClustered (t : Table) : Prop := (t.indexes.filter clusteredName).length ≤ 1

theorem filter_perm_eq {α : Type} {p : α → Bool} {l l' : List α} (h : (l.filter p).length ≤ 1) (hp : l.Perm l') :
    l'.filter p = l.filter p := by
  have := hp.filter p
  match hl : l.filter p with
  | [] => rw [hl] at this; exact this.symm.eq_nil
  | [x] => rw [hl] at this; exact List.perm_singleton.mp this.symm
  | _ :: _ :: _ => rw [hl] at h; simp at h

theorem SameTable.clustered {a b : Table} (h : SameTable a b) (ho : OneClustered a) :
    b.indexes.filter clusteredName = a.indexes.filter clusteredName := filter_perm_eq ho h.1

theorem SameTable.one {a b : Table} (h : SameTable a b) (ho : OneClustered a) : OneClustered b := by
  unfold OneClustered
  rw [h.clustered ho]
  exact ho

theorem SameTable.primaryKey {a b : Table} (h : SameTable a b) (ho : OneClustered a) :
    getPrimaryKey b.indexes [] = getPrimaryKey a.indexes [] := by
  rw [getPrimaryKey_filter, h.clustered ho, ← getPrimaryKey_filter]

theorem SameTable.columns {a b : Table} (h : SameTable a b) : b.columns = a.columns := by rw [h.2]

theorem move_same {a b : Table} (h : SameTable a b) (ho : OneClustered a) :
    movePrimaryTable b.indexes b.columns = movePrimaryTable a.indexes a.columns := by
  rw [movePrimaryTable_filter, h.clustered ho, ← movePrimaryTable_filter, h.columns]

theorem internal_same (id : Nat) {a b : Table} (h : SameTable a b) (ho : OneClustered a) :
    addInternalTable id b.indexes b.columns = addInternalTable id a.indexes a.columns := by
  rw [addInternalTable_filter, h.clustered ho, ← addInternalTable_filter, h.columns]

theorem setColumns_same {a b : Table} (h : SameTable a b) (c : List Column) : SameTable { a with columns := c } { b with columns := c } :=
  ⟨h.1, by rw [h.2]⟩

theorem movePrimaryKeyFirst_reordered {t t' : TableMap} (h : Reordered t t') (ho : ∀ e ∈ t, OneClustered e.2) :
    (movePrimaryKeyFirst t = none ∧ movePrimaryKeyFirst t' = none) ∨
      ∃ r r', movePrimaryKeyFirst t = some r ∧ movePrimaryKeyFirst t' = some r' ∧ Reordered r r' := by
  refine mapTables_reordered _ h fun e he b hs => ?_
  rw [move_same hs (ho e he)]
  cases movePrimaryTable e.2.indexes e.2.columns with
  | none => exact .inl ⟨rfl, rfl⟩
  | some c => exact .inr ⟨_, _, rfl, rfl, setColumns_same hs c⟩

theorem addInternalColumns_reordered {t t' : TableMap} (h : Reordered t t') (ho : ∀ e ∈ t, OneClustered e.2) :
    (addInternalColumns t = none ∧ addInternalColumns t' = none) ∨
      ∃ r r', addInternalColumns t = some r ∧ addInternalColumns t' = some r' ∧ Reordered r r' := by
  refine mapTables_reordered _ h fun e he b hs => ?_
  rw [internal_same _ hs (ho e he)]
  cases addInternalTable e.1 e.2.indexes e.2.columns with
  | none => exact .inl ⟨rfl, rfl⟩
  | some c => exact .inr ⟨_, _, rfl, rfl, setColumns_same hs c⟩

/-- what the arranging functions keep of a table -/
theorem mapTables_mem {f : Nat → Table → Option Table} {t r : TableMap} (h : mapTables f t = some r) {e : Nat × Table} (he : e ∈ r) :
    ∃ a ∈ t, a.1 = e.1 ∧ f a.1 a.2 = some e.2 := by
  induction t generalizing r with
  | nil => injection h with h; subst h; cases he
  | cons x t ih =>
    have hc : mapTables f (x :: t) = (f x.1 x.2).bind fun y => (mapTables f t).bind fun rest => some ((x.1, y) :: rest) := rfl
    rw [hc] at h
    cases h1 : f x.1 x.2 with
    | none => rw [h1] at h; cases h
    | some y =>
      cases h2 : mapTables f t with
      | none => rw [h1, h2] at h; cases h
      | some rest =>
        rw [h1, h2] at h
        injection h with h
        subst h
        rcases List.mem_cons.mp he with rfl | he
        · exact ⟨x, by simp, rfl, h1⟩
        · obtain ⟨a, ha, hr⟩ := ih h2 he
          exact ⟨a, by simp [ha], hr⟩

theorem mapTables_keys {f : Nat → Table → Option Table} {t r : TableMap} (h : mapTables f t = some r) : r.map (·.1) = t.map (·.1) := by
  induction t generalizing r with
  | nil => injection h with h; subst h; rfl
  | cons x t ih =>
    have hc : mapTables f (x :: t) = (f x.1 x.2).bind fun y => (mapTables f t).bind fun rest => some ((x.1, y) :: rest) := rfl
    rw [hc] at h
    cases h1 : f x.1 x.2 with
    | none => rw [h1] at h; cases h
    | some y =>
      cases h2 : mapTables f t with
      | none => rw [h1, h2] at h; cases h
      | some rest =>
        rw [h1, h2] at h
        injection h with h
        subst h
        rw [List.map_cons, List.map_cons, ih h2]

theorem move_mem {t r : TableMap} (h : movePrimaryKeyFirst t = some r) {e : Nat × Table} (he : e ∈ r) :
    ∃ a ∈ t, a.1 = e.1 ∧ e.2 = { a.2 with columns := e.2.columns } := by
  obtain ⟨a, ha, h1, h2⟩ := mapTables_mem h he
  refine ⟨a, ha, h1, ?_⟩
  cases h3 : movePrimaryTable a.2.indexes a.2.columns with
  | none => rw [h3] at h2; cases h2
  | some c => rw [h3] at h2; injection h2 with h2; rw [← h2]

theorem internal_mem {t r : TableMap} (h : addInternalColumns t = some r) {e : Nat × Table} (he : e ∈ r) :
    ∃ a ∈ t, a.1 = e.1 ∧ e.2 = { a.2 with columns := e.2.columns } := by
  obtain ⟨a, ha, h1, h2⟩ := mapTables_mem h he
  refine ⟨a, ha, h1, ?_⟩
  cases h3 : addInternalTable a.1 a.2.indexes a.2.columns with
  | none => rw [h3] at h2; cases h2
  | some c => rw [h3] at h2; injection h2 with h2; rw [← h2]

/-! ## Decoding pages -/

theorem recOffsets_reordered {t t' : TableMap} (h : Reordered t t') (hw : t.WF) (d : Bytes) (c : Bool) (o : Nat) (cols : List Column) :
    recOffsets t' d c o cols = recOffsets t d c o cols := by
  unfold recOffsets
  cases sliceFrom d o with
  | none => rfl
  | some _ =>
    cases c with
    | false => rfl
    | true =>
      cases cols[0]? with
      | none => rfl
      | some c0 =>
        rcases h.get? hw c0.tableId with ⟨h1, h2⟩ | ⟨a, b, h1, h2, h3⟩
        · simp only [Option.bind_eq_bind, Option.bind_some, h1, h2]
        · have : ∀ offs, ibRecInitOffsetsNew d o offs b = ibRecInitOffsetsNew d o offs a := by
            intro offs
            rw [h3.2]
            rfl
          simp only [Option.bind_eq_bind, Option.bind_some, h1, h2, this]

theorem parseOne_reordered (env : Env) {t t' : TableMap} (h : Reordered t t') (hw : t.WF) (d : Bytes) (c : Bool) (o : Nat) :
    parseOne env t' d c o = parseOne env t d c o := by
  unfold parseOne
  simp only [recOffsets_reordered h hw]

theorem walk_reordered (env : Env) {t t' : TableMap} (h : Reordered t t') (hw : t.WF) (d : Bytes) (c : Bool) (fuel o : Nat)
    (rows : List (List Column)) : walk env t' d c fuel o rows = walk env t d c fuel o rows := by
  induction fuel generalizing o rows with
  | zero => rfl
  | succ fuel ih =>
    unfold walk
    rw [parseOne_reordered env h hw]
    simp only [ih]

theorem parsePage_reordered (env : Env) {t t' : TableMap} (h : Reordered t t') (hw : t.WF) (d : Bytes) (r : Bool) (f : Nat) :
    parsePage env t' d r f = parsePage env t d r f := by
  unfold parsePage
  simp only [walk_reordered env h hw]

theorem dataPagesLoop_reordered (env : Env) {t t' : TableMap} (h : Reordered t t') (hw : t.WF) (db name : Bytes) (r : Bool) (ps : List Page) :
    dataPagesLoop env t' db name r ps = dataPagesLoop env t db name r ps := by
  induction ps with
  | nil => rfl
  | cons p ps ih =>
    unfold dataPagesLoop printPage
    simp only [ih, parsePage_reordered env h hw]

/-! ## Decoding undo records -/

/-- two dictionaries that the log decoder cannot tell apart -/
def SameDict (cfg cfg' : RCfg) : Prop :=
  cfg' = { cfg with tables := cfg'.tables } ∧ Reordered cfg.tables cfg'.tables ∧ cfg.tables.WF ∧ ∀ e ∈ cfg.tables, OneClustered e.2

theorem pkLoop_same (env : Env) (t t' : TableMap) (tn dn : Bytes) (s : Stream) {a b : Table} (h : SameTable a b) (fs : List IdxField) :
    pkLoop ⟨env, t', tn, dn⟩ s b fs = pkLoop ⟨env, t, tn, dn⟩ s a fs := by
  induction fs with
  | nil => rfl
  | cons f fs ih =>
    unfold pkLoop
    simp only [ih]
    have : getColumnsByName b f.name = getColumnsByName a f.name := by unfold getColumnsByName; rw [h.columns]
    rw [this]

theorem updLoop_same (env : Env) (t t' : TableMap) (tn dn : Bytes) (s : Stream) {a b : Table} (h : SameTable a b) (n : Nat) :
    updLoop ⟨env, t', tn, dn⟩ s b n = updLoop ⟨env, t, tn, dn⟩ s a n := by
  induction n with
  | zero => rfl
  | succ n ih =>
    unfold updLoop
    have : ∀ p, getColumnByPos b p = getColumnByPos a p := fun p => by unfold getColumnByPos; rw [h.columns]
    simp only [ih, this]
    rfl

theorem undoTable_same (env : Env) (t t' : TableMap) (tn dn : Bytes) (s : Stream) {a b : Table} (h : SameTable a b) (ho : OneClustered a)
    (p n u : Nat) : undoTable ⟨env, t', tn, dn⟩ s p n u b = undoTable ⟨env, t, tn, dn⟩ s p n u a := by
  have h1 : filterPrints ⟨env, t', tn, dn⟩ b = filterPrints ⟨env, t, tn, dn⟩ a := by
    rw [h.2]; rfl
  have h2 : ∀ pk cols, makeSQL env.ff b pk cols = makeSQL env.ff a pk cols := by
    intro pk cols
    rw [h.2]; rfl
  unfold undoTable
  simp only [h.primaryKey ho, pkLoop_same env t t' tn dn s h, updLoop_same env t t' tn dn s h, h1, h2]

theorem undoBody_same {cfg cfg' : RCfg} (h : SameDict cfg cfg') (s : Stream) (p n : Nat) : undoBody cfg' s p n = undoBody cfg s p n := by
  obtain ⟨h0, h1, h2, h3⟩ := h
  unfold undoBody
  refine bind_congr fun b => bind_congr fun _ => bind_congr fun rest => bind_congr fun x => ?_
  rcases x with ⟨no, e⟩
  cases e with
  | some e => rfl
  | none =>
    refine bind_congr fun _ => bind_congr fun rest => bind_congr fun x => ?_
    rcases x with ⟨id, e⟩
    cases e with
    | some e => rfl
    | none =>
      refine bind_congr fun _ => bind_congr fun _ => ?_
      rcases h1.get? h2 id with ⟨e1, e2⟩ | ⟨a, b, e1, e2, e3⟩
      · rw [e1, e2]
      · rw [e1, e2, h0]
        exact undoTable_same _ _ _ _ _ s e3 (h3 (id, a) ((GoMap.get?_iff h2 id a).mp e1)) p n _

theorem dispatch_same {cfg cfg' : RCfg} (h : SameDict cfg cfg') (s : Stream) (t : Nat) : dispatch cfg' s t = dispatch cfg s t := by
  have : mlogUndoInsert cfg' s = mlogUndoInsert cfg s := by
    unfold mlogUndoInsert
    simp only [undoBody_same h]
  unfold dispatch
  rw [this]

theorem redoLoop_same {cfg cfg' : RCfg} (h : SameDict cfg cfg') (s : Stream) (fuel : Nat) : redoLoop cfg' s fuel = redoLoop cfg s fuel := by
  induction fuel with
  | zero => rfl
  | succ fuel ih =>
    have : redoStep cfg' s = redoStep cfg s := by
      unfold redoStep
      simp only [dispatch_same h]
    unfold redoLoop
    rw [this]
    simp only [ih]

theorem parseRedoLogs_same {cfg cfg' : RCfg} (h : SameDict cfg cfg') (files : List File) (spare : Nat) :
    parseRedoLogs cfg' files spare = parseRedoLogs cfg files spare := by
  unfold parseRedoLogs
  split
  · rfl
  · rfl
  · unfold parseRedoBlockData
    rw [redoLoop_same h]

/-! ## Keys are unique in every loaded dictionary -/

theorem foldRows_inv {β : Type} {f : β → List Column → Option β} {P : β → Prop} (h : ∀ b r b', f b r = some b' → P b → P b')
    {rows : List (List Column)} {b b' : β} (hf : foldRows f b rows = some b') (hb : P b) : P b' := by
  induction rows generalizing b with
  | nil => injection hf with hf; exact hf ▸ hb
  | cons r rows ih =>
    have hc : foldRows f b (r :: rows) = (f b r).bind fun b => foldRows f b rows := rfl
    rw [hc] at hf
    cases h1 : f b r with
    | none => rw [h1] at hf; cases hf
    | some b1 => rw [h1] at hf; exact ih hf (h b r b1 h1 hb)

theorem addTableRow_WF {t t' : TableMap} {row : List Column} (h : addTableRow t row = some t') (hw : t.WF) : t'.WF := by
  unfold addTableRow at h
  simp only [Option.bind_eq_bind, Option.bind_eq_some_iff, Option.pure_def] at h
  obtain ⟨_, _, h⟩ := h
  split at h <;> simp only [Option.bind_eq_some_iff, Option.some.injEq, exists_eq_left'] at h
  · obtain ⟨_, _, _, _, _, _, _, _, rfl⟩ := h
    exact GoMap.put_WF hw _ _
  · obtain ⟨_, _, _, _, rfl⟩ := h
    exact GoMap.put_WF hw _ _

theorem addColumnRow_WF {t t' : TableMap} {row : List Column} (h : addColumnRow t row = some t') (hw : t.WF) : t'.WF := by
  unfold addColumnRow at h
  simp only [Option.bind_eq_bind, Option.bind_eq_some_iff, Option.pure_def] at h
  obtain ⟨_, _, h⟩ := h
  split at h
  · injection h with h; exact h ▸ hw
  · simp only [Option.bind_eq_some_iff] at h
    obtain ⟨_, _, _, _, h⟩ := h
    split at h <;> simp only [Option.bind_eq_some_iff, Option.some.injEq, exists_eq_left'] at h
    · obtain ⟨_, _, _, _, _, _, rfl⟩ := h
      exact GoMap.put_WF hw _ _
    · obtain ⟨_, _, _, _, rfl⟩ := h
      exact GoMap.put_WF hw _ _

theorem addIndexRow_WF {ff : FloatFmt} {t : TableMap} {e : Option Bytes} {b : TableMap × Option Bytes} {row : List Column}
    (h : addIndexRow ff t e row = some b) (hw : t.WF) : b.1.WF := by
  unfold addIndexRow at h
  simp only [Option.bind_eq_bind, Option.bind_eq_some_iff, Option.pure_def] at h
  obtain ⟨_, _, h⟩ := h
  split at h
  · simp only [Option.bind_eq_some_iff, Option.some.injEq] at h
    obtain ⟨_, _, _, _, _, _, _, _, rfl⟩ := h
    exact GoMap.put_WF hw _ _
  · simp only [Option.bind_eq_some_iff, Option.some.injEq] at h
    obtain ⟨_, _, rfl⟩ := h
    exact hw

theorem attachFields_WF (m : GoMap (List IdxField)) {t : TableMap} (hw : t.WF) : (attachFields m t).WF := by
  unfold attachFields GoMap.WF
  rw [List.map_map]
  exact hw

theorem allTablesLoop_WF (env : Env) (dts : List DataDict) (cols : List Column) : Keeps (fun s : DState => s.tables.WF) (allTablesLoop env dts cols) := by
  induction dts generalizing cols with
  | nil => exact Keeps.pure _
  | cons dt dts ih =>
    intro s hs
    unfold allTablesLoop
    cases parsePage env s.tables dt.data false 0 ⟨cols, s.out⟩ with
    | ok rows p =>
      dsimp only
      cases h : foldRows addTableRow s.tables rows with
      | none => exact hs
      | some t => exact ih p.cols _ (foldRows_inv (fun _ _ _ h => addTableRow_WF h) h hs)
    | panic p => exact hs
    | hang p => exact hs

end Verif
