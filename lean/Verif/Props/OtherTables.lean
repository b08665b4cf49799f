import Verif.Proofs.Reuse
import Verif.Proofs.DictMove
import Verif.Props.RedoPrefix
/-!
# Other tables in the dictionary (C104)

The system tablespace describes all tables of the server.  What the data command prints for one of them depends only on the dictionary
rows of this table.
-/

namespace Verif.Props
open Verif Spec

/-- The rows of the table in SYS_COLUMNS, SYS_INDEXES and SYS_FIELDS are the same in both dictionaries, in the same order. -/
structure SameRows (id : Nat) (crs : List ColumnRow) (irs : List IndexRow) (frs : List FieldRow) (crs' : List ColumnRow) (irs' : List IndexRow)
    (frs' : List FieldRow) : Prop where
  columns : crs.filter (·.tableId == id) = crs'.filter (·.tableId == id)
  indexes : irs.filter (·.tableId == id) = irs'.filter (·.tableId == id)
  fields : ∀ r ∈ irs, r.tableId = id → frs.filter (·.indexId == r.id) = frs'.filter (·.indexId == r.id)

/-! ## The columns of the table -/

theorem own_index {id : Nat} {irs irs' : List IndexRow} (h : irs.filter (·.tableId == id) = irs'.filter (·.tableId == id)) (r : IndexRow)
    (hr : r.tableId = id) : r ∈ irs ↔ r ∈ irs' := by
  have : r ∈ irs.filter (·.tableId == id) ↔ r ∈ irs'.filter (·.tableId == id) := by rw [h]
  simpa [List.mem_filter, hr] using this

theorem arranged_same {id : Nat} {crs crs' : List ColumnRow} {irs irs' : List IndexRow} {frs frs' : List FieldRow}
    (h : SameRows id crs irs frs crs' irs' frs') {l : List Column} (ha : Arranged irs frs id (columnsOf crs id) l) :
    Arranged irs' frs' id (columnsOf crs' id) l := by
  have hc : columnsOf crs' id = columnsOf crs id := by unfold columnsOf; rw [h.columns]
  have hk : ∀ {r}, ClusteredBy irs id r → ClusteredBy irs' id r := by
    rintro r ⟨h1, h2, h3⟩
    exact ⟨(own_index h.indexes r h2).mp h1, h2, fun x hx hi => h3 x ((own_index h.indexes x hi).mpr hx) hi⟩
  rw [hc]
  cases ha with
  | plain hs => exact .plain fun x hx hi => hs x ((own_index h.indexes x hi).mpr hx) hi
  | generated h1 h2 => exact .generated (hk h1) h2
  | @primary r moved h1 h2 h3 h4 h5 =>
    have : fieldsOf frs r = fieldsOf frs' r := by unfold fieldsOf; rw [h.fields r h1.1 h1.2.1]
    rw [this] at h5
    exact .primary (hk h1) h2 h3 h4 h5

theorem moveInner_mem (i : Nat) (fs : List IdxField) (j : Nat) (columns r : List Column) (h : moveInner i fs j columns = some r) :
    ∀ c ∈ r, c ∈ columns := by
  induction fs generalizing j columns with
  | nil => cases h; exact fun c hc => hc
  | cons f fs ih =>
    rcases moveInner_cons h with ⟨c, _, _, h⟩ | ⟨c, hc, _, _, h⟩
    · exact ih _ _ h
    · intro x hx
      rcases List.mem_cons.mp (ih _ _ h x hx) with rfl | hx
      · exact List.mem_of_getElem? hc
      · rcases List.mem_append.mp hx with hx | hx
        · exact List.mem_of_mem_take hx
        · exact List.mem_of_mem_drop hx

theorem moveOuter_mem (fs : List IdxField) (k i : Nat) (columns r : List Column) (h : moveOuter fs k i columns = some r) :
    ∀ c ∈ r, c ∈ columns := by
  induction k generalizing i columns with
  | zero => cases h; exact fun c hc => hc
  | succ k ih =>
    unfold moveOuter at h
    cases hm : moveInner i fs 0 columns with
    | none => rw [hm] at h; cases h
    | some m =>
      rw [hm] at h
      exact fun c hc => moveInner_mem _ _ _ _ _ hm c (ih _ _ h c hc)

theorem arranged_ids {irs : List IndexRow} {frs : List FieldRow} {crs : List ColumnRow} {id : Nat} {l : List Column}
    (h : Arranged irs frs id (columnsOf crs id) l) : ∀ c ∈ l, c.tableId = id := by
  have hid := fun c hc => (columnsOf_fields (crs := crs) (id := id) (c := c) hc).1
  cases h with
  | plain => exact hid
  | generated =>
    intro c hc
    simp only [List.mem_cons] at hc
    rcases hc with rfl | rfl | rfl | hc
    · rfl
    · rfl
    · rfl
    · exact hid c hc
  | @primary r moved h1 h2 h3 h4 h5 =>
    have hm : ∀ c ∈ moved, c ∈ columnsOf crs id := by
      cases h5 with
      | single hp _ _ =>
        intro c hc
        rcases List.mem_or_eq_of_mem_set hc with hc | rfl
        · exact hc
        · exact List.getElem_mem hp
      | leading _ _ =>
        intro c hc
        rcases List.mem_append.mp hc with hc | hc
        · exact List.mem_of_mem_take (List.mem_reverse.mp hc)
        · exact List.mem_of_mem_drop hc
      | other _ h => exact moveOuter_mem _ _ _ _ _ h
    intro c hc
    unfold withInternal at hc
    simp only [List.mem_append, List.mem_cons, List.not_mem_nil, or_false] at hc
    rcases hc with (hc | rfl | rfl) | hc
    · exact hid c (hm c (List.mem_of_mem_take hc))
    · rfl
    · rfl
    · exact hid c (hm c (List.mem_of_mem_drop hc))

/-! ## The decoder -/

/-- both dictionaries have the table, with the same columns -/
structure SameEntry (m m' : TableMap) (id : Nat) : Prop where
  entry : ∃ t t', m.get? id = some t ∧ m'.get? id = some t' ∧ t'.columns = t.columns ∧ t'.nullCount = t.nullCount

theorem recOffsets_entry {m m' : TableMap} {id : Nat} (h : SameEntry m m' id) (d : Bytes) (compact : Bool) (o : Nat) (cs : List Column)
    (hc : ∀ c ∈ cs, c.tableId = id) : recOffsets m' d compact o cs = recOffsets m d compact o cs := by
  obtain ⟨t, t', h1, h2, h3, h4⟩ := h.entry
  unfold recOffsets
  cases compact with
  | false => rfl
  | true =>
    cases hs : sliceFrom d o with
    | none => rfl
    | some _ =>
      cases hc0 : cs[0]? with
      | none => rfl
      | some c =>
        have : ∀ offs, ibRecInitOffsetsNew d o offs t' = ibRecInitOffsetsNew d o offs t := by
          intro offs
          unfold ibRecInitOffsetsNew
          simp only [h3, h4]
        simp only [Option.bind_eq_bind, Option.bind_some, if_true, hc c (List.mem_of_getElem? hc0), h1, h2, this]

/-- the definitions of the columns are those of `K` -/
def Kept (K : List Column) (s : PState) : Prop := s.cols.map (skelB true) = K

theorem kept_ids {K : List Column} {id : Nat} (hK : ∀ c ∈ K, c.tableId = id) {s : PState} (h : Kept K s) : ∀ c ∈ s.cols, c.tableId = id := by
  intro c hc
  have := hK (skelB true c) (by rw [← h]; exact List.mem_map_of_mem hc)
  exact this

theorem parseOne_kept (env : Env) (m : TableMap) (d : Bytes) (compact : Bool) (o : Nat) (K : List Column) :
    Keeps (Kept K) (parseOne env m d compact o) := by
  intro s h
  have := parseOne_static true _ (stable_prefix []) env m d compact o K s s ⟨h, h, rfl⟩
  generalize parseOne env m d compact o s = r at this
  cases this with
  | ok _ hs => exact hs.1
  | panic hs => exact hs.1
  | hang hs => exact hs.1

theorem parseOne_entry {m m' : TableMap} {id : Nat} (h : SameEntry m m' id) (env : Env) (d : Bytes) (compact : Bool) (o : Nat)
    {K : List Column} (hK : ∀ c ∈ K, c.tableId = id) {s : PState} (hs : Kept K s) :
    parseOne env m' d compact o s = parseOne env m d compact o s := by
  unfold parseOne
  rw [GoM.get_bind, GoM.get_bind, recOffsets_entry h d compact o s.cols (kept_ids hK hs)]

theorem walk_entry {m m' : TableMap} {id : Nat} (h : SameEntry m m' id) (env : Env) (d : Bytes) (compact : Bool)
    {K : List Column} (hK : ∀ c ∈ K, c.tableId = id) (fuel o : Nat) (rows : List (List Column)) (s : PState) (hs : Kept K s) :
    walk env m' d compact fuel o rows s = walk env m d compact fuel o rows s := by
  induction fuel generalizing o rows s with
  | zero => rfl
  | succ fuel ih =>
    unfold walk
    by_cases hc : o < 16384 - 6 ∧ o ≠ pageSupremum compact
    · rw [if_pos hc, if_pos hc, GoM.bind_run, GoM.bind_run, parseOne_entry h env d compact o hK hs]
      have hk := parseOne_kept env m d compact o K s hs
      generalize parseOne env m d compact o s = r at hk
      cases r with
      | panic _ => rfl
      | hang _ => rfl
      | ok x t =>
        cases x with
        | none => rfl
        | some c =>
          dsimp only
          cases nextOffset d compact o with
          | none => rfl
          | some n =>
            rw [GoM.lift_some_bind, GoM.lift_some_bind]
            cases n with
            | none => rfl
            | some o' => exact ih _ _ _ hk
    · rw [if_neg hc, if_neg hc]

theorem parsePage_entry {m m' : TableMap} {id : Nat} (h : SameEntry m m' id) (env : Env) (d : Bytes) (recovery : Bool) (free : Nat)
    {K : List Column} (hK : ∀ c ∈ K, c.tableId = id) (s : PState) (hs : Kept K s) :
    parsePage env m' d recovery free s = parsePage env m d recovery free s := by
  unfold parsePage
  cases pageIsCompact d with
  | none => exact Eq.trans (b := R.panic s) rfl rfl
  | some x =>
    rw [GoM.lift_some_bind, GoM.lift_some_bind]
    dsimp only
    cases read2 d (pageInfimum (x != 0) - 2) with
    | none => exact Eq.trans (b := R.panic s) rfl rfl
    | some b =>
      rw [GoM.lift_some_bind, GoM.lift_some_bind]
      generalize walkFuel = fuel
      exact walk_entry h env d _ hK _ _ _ s hs

theorem pagesRun_entry {m m' : TableMap} {id : Nat} (h : SameEntry m m' id) (env : Env) (db name : Bytes) (recovery : Bool)
    (hcols : ∀ c ∈ getTableColumnsFromDict m db name, c.tableId = id) (ds : List Bytes) (hd : ∀ d ∈ ds, d.length = 16384) (s : PState)
    (hs : Kept ((getTableColumnsFromDict m db name).map (skelB true)) s) :
    pagesRun env m' db name recovery ds s = pagesRun env m db name recovery ds s := by
  have hK : ∀ c ∈ (getTableColumnsFromDict m db name).map (skelB true), c.tableId = id := by
    intro c hc
    obtain ⟨c', hc', rfl⟩ := List.mem_map.mp hc
    exact hcols c' hc'
  induction ds generalizing s with
  | nil => exact Eq.trans (b := R.ok () s) rfl rfl
  | cons d ds ih =>
    rw [pagesRun_cons, pagesRun_cons, GoM.bind_run, GoM.bind_run, printPage_full, printPage_full, parsePage_entry h env d recovery _ hK s hs]
    have hk := pagesRun_cols env m db name recovery [d] (by simpa using hd d (by simp)) s hs
    rw [pagesRun_cons, GoM.bind_run, printPage_full] at hk
    generalize parsePage env m d recovery (field d PAGE_FREE) s = r at hk
    cases r with
    | panic t => exact Eq.trans (b := R.panic t) rfl rfl
    | hang t => exact Eq.trans (b := R.hang t) rfl rfl
    | ok rows t =>
      dsimp only at hk ⊢
      exact ih (fun x hx => hd x (by simp [hx])) _ hk

/-! ## The command -/

/-- **C104.** Two system files with any dictionaries in which the table has the same rows: for every data file, whatever it contains, and
every operation the command prints the same for both and ends in the same way. -/
theorem C104_other_tables (env : Env) (a : FromData) (sys sys' : Bytes) (trs trs' : List TableRow) (crs crs' : List ColumnRow)
    (irs irs' : List IndexRow) (frs frs' : List FieldRow) (t : TableRow) (hdict : Dictionary sys trs crs irs frs)
    (hdict' : Dictionary sys' trs' crs' irs' frs') (hkeys : ∀ t ∈ trs, UsualKeys irs frs crs t.id)
    (hkeys' : ∀ t ∈ trs', UsualKeys irs' frs' crs' t.id) (ht : t ∈ trs) (ht' : t ∈ trs') (hname : t.name = a.db ++ b! "/" ++ a.table)
    (hrows : SameRows t.id crs irs frs crs' irs' frs') (out : Out) :
    fromDataFile env { a with sysFile := .ok sys } out = fromDataFile env { a with sysFile := .ok sys' } out := by
  obtain ⟨lay, hload, hlay⟩ := loads_arranged env sys trs crs irs frs hdict.file hdict.indexes hkeys
  obtain ⟨tables, dict, h1, h2, h3⟩ := hload out
  obtain ⟨tb, hgt, hcols, hnull, hget⟩ := loaded_table hdict.ids hdict.names h2 h3 ht hname
  obtain ⟨lay', hload', hlay'⟩ := loads_arranged env sys' trs' crs' irs' frs' hdict'.file hdict'.indexes hkeys'
  obtain ⟨tables', dict', h1', h2', h3'⟩ := hload' out
  obtain ⟨tb', hgt', hcols', hnull', hget'⟩ := loaded_table hdict'.ids hdict'.names h2' h3' ht' hname
  obtain ⟨l, hl⟩ := (hkeys t ht).arranged
  rw [hlay t ht l hl] at hcols hget
  rw [hlay' t ht' l (arranged_same hrows hl)] at hcols' hget'
  have hc : columnsOf crs' t.id = columnsOf crs t.id := by unfold columnsOf; rw [hrows.columns]
  have he : SameEntry tables tables' t.id := ⟨tb, tb', hgt, hgt', hcols'.trans hcols.symm, by rw [hnull, hnull', hc]⟩
  unfold fromDataFile
  dsimp only
  rw [h1, h1']
  dsimp only
  cases hf : a.tableFile with
  | error e => rfl
  | ok ibd =>
    rw [parseDataPage_run, parseDataPage_run]
    dsimp only
    rw [hget, hget', pagesRun_entry he env a.db a.table _ (by rw [hget]; exact arranged_ids hl) _ (by
      intro d hd
      unfold selectedPages at hd
      obtain ⟨k, _, rfl⟩ := List.mem_map.mp (List.mem_filter.mp hd).1
      exact pageImage_length ibd k) ⟨l, out⟩ (by rw [hget]; rfl)]
    generalize pagesRun env tables a.db a.table _ _ _ = r
    cases r <;> rfl

/-- The table `shop`.`t` prints the same with and without another table in the dictionary. -/
example (env : Env) (ibd op : Bytes) (out : Out) :
    fromDataFile env ⟨.ok (shopFile idKey), .ok ibd, b! "shop", b! "t", op⟩ out =
      fromDataFile env ⟨.ok mixSys, .ok ibd, b! "shop", b! "t", op⟩ out :=
  C104_other_tables env ⟨.error [], .ok ibd, b! "shop", b! "t", op⟩ _ _ _ _ _ _ _ _ _ _ ⟨b! "shop/t", 20, 5⟩ (shop_dictionary (.inl rfl)) mix_dictionary
    shop_arranged mix_usual (by decide) (by decide) rfl ⟨by decide, by decide, by decide⟩ out

end Verif.Props
