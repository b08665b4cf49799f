import Verif.Props.Writer
import Verif.Props.DataCut
/-!
# C57: files with given rows on any number of pages
-/

namespace Verif.Props
open Verif Spec

/-- the records in use and the deleted records of a page -/
abbrev Leaf := List (List Cell) × List (List Cell)

/-- the records of a page that are asked for -/
def Leaf.asked (deleted : Bool) (p : Leaf) : List (List Cell) := if deleted then p.2 else p.1

/-- the pages of a table, numbered from `n` on -/
def writeLeaves (cid : Nat) (defs : List ColDef) : Nat → List Leaf → List Bytes
  | _, [] => []
  | n, p :: ps => fill (writePage true n cid (p.1.map fun c => newRec (rowOf defs c)) (p.2.map fun c => newRec (rowOf defs c))) ::
      writeLeaves cid defs (n + 1) ps

/-- the file of a table with these pages -/
def writePages (cid : Nat) (defs : List ColDef) (ps : List Leaf) : Bytes := (writeLeaves cid defs 3 ps).flatten

/-- a page of the file -/
def LeafPage (cid : Nat) (defs : List ColDef) (d : Bytes) (p : Leaf) : Prop :=
  ∃ n, PageOf d true n cid (p.1.map fun c => newRec (rowOf defs c)) (p.2.map fun c => newRec (rowOf defs c))

theorem writeLeaves_pages (cid : Nat) (defs : List ColDef) (n : Nat) (ps : List Leaf) (hcid : cid < 2 ^ 64) (hn : n + ps.length ≤ 2 ^ 32)
    (hfit : ∀ p ∈ ps, 120 + rowsSize defs p.1 + rowsSize defs p.2 < 16384 - 8) :
    All2 (LeafPage cid defs) (writeLeaves cid defs n ps) ps ∧ (writeLeaves cid defs n ps).map pageNumber = List.range' n ps.length := by
  induction ps generalizing n with
  | nil => exact ⟨.nil, rfl⟩
  | cons p ps ih =>
    rw [List.length_cons] at hn
    obtain ⟨h1, h2⟩ := ih (n + 1) (by omega) fun q hq => hfit q (by simp [hq])
    have hp := writePage_page true n cid (p.1.map fun c => newRec (rowOf defs c)) (p.2.map fun c => newRec (rowOf defs c))
      (fun r hr => by obtain ⟨c, -, rfl⟩ := List.mem_map.mp hr; exact newRec_good _)
      (fun r hr => by obtain ⟨c, -, rfl⟩ := List.mem_map.mp hr; exact newRec_good _) (hfit p (by simp)) (by omega) hcid
    refine ⟨.cons ⟨n, hp⟩ h1, ?_⟩
    show pageNumber _ :: (writeLeaves cid defs (n + 1) ps).map pageNumber = _
    rw [h2, hp.number, List.length_cons, List.range'_succ]

theorem leaf_free {cid : Nat} {defs : List ColDef} {d : Bytes} {p : Leaf} (h : LeafPage cid defs d p) : field d PAGE_FREE = 0 ↔ p.2 = [] := by
  obtain ⟨n, h⟩ := h
  rw [h.free]
  cases p.2 with
  | nil => exact ⟨fun _ => rfl, fun _ => rfl⟩
  | cons r rs => exact ⟨fun e => absurd e (by show 120 + _ + _ ≠ 0; omega), fun e => by cases e⟩

theorem leaf_isLeaf {cid : Nat} {defs : List ColDef} {d : Bytes} {p : Leaf} (h : LeafPage cid defs d p) (deleted : Bool) :
    isLeaf cid deleted d = (!deleted || !p.2.isEmpty) := by
  have hf := leaf_free h
  obtain ⟨n, h⟩ := h
  unfold isLeaf
  rw [h.ptype, h.level, h.index]
  cases deleted with
  | false => simp
  | true =>
    cases hp : p.2 with
    | nil => rw [hf.mpr hp]; simp
    | cons x xs =>
      have : field d PAGE_FREE ≠ 0 := fun e => by rw [hf.mp e] at hp; cases hp
      simp [this]

/-- a page of the file holds its records -/
theorem leaf_holds {cid : Nat} {defs : List ColDef} {d : Bytes} {p : Leaf} (h : LeafPage cid defs d p) (deleted : Bool)
    (hs : ∀ c ∈ Leaf.asked deleted p, Storable defs c) (hl : isLeaf cid deleted d = true) : PageHolds defs deleted d (Leaf.asked deleted p) := by
  have hi := leaf_isLeaf h deleted
  obtain ⟨n, hp⟩ := h
  have hrow : ∀ (os : List Nat) (cs : List (List Cell)), (∀ c ∈ cs, Storable defs c) →
      All2 (fun o r => Written d o r ∧ o + r.data.length ≤ 16384 - 8) os (cs.map fun c => newRec (rowOf defs c)) →
      All2 (fun o cells => CompactRow d defs o cells ∧ o + (rowData (rowOf defs cells)).length ≤ 16384 - 8) os cs := by
    intro os cs hc h
    induction cs generalizing os with
    | nil => cases h; exact .nil
    | cons c cs ih =>
      cases h with
      | cons h1 h2 => exact .cons ⟨⟨hc c (by simp), written_new h1.1⟩, h1.2⟩ (ih _ (fun x hx => hc x (by simp [hx])) h2)
  cases deleted with
  | false => exact .compact hp.fmt (by unfold Records; rw [hp.fmt]; exact hp.linked) (hrow _ _ hs hp.used)
  | true =>
    rw [hl] at hi
    refine .compact hp.fmt (by
      unfold Records
      rw [hp.fmt]
      refine hp.freed fun e => ?_
      rw [List.map_eq_nil_iff] at e
      rw [e] at hi
      cases hi) (hrow _ _ hs hp.gone)

theorem all2_split {α β : Type} {R : α → β → Prop} {as bs : List α} {cs : List β} (h : All2 R (as ++ bs) cs) :
    ∃ xs ys, cs = xs ++ ys ∧ All2 R as xs ∧ All2 R bs ys := by
  induction as generalizing cs with
  | nil => exact ⟨[], cs, rfl, .nil, h⟩
  | cons a as ih =>
    cases h with
    | cons h1 h2 =>
      obtain ⟨xs, ys, rfl, h3, h4⟩ := ih h2
      exact ⟨_ :: xs, ys, rfl, .cons h1 h3, h4⟩

theorem leaves_hold {cid : Nat} {defs : List ColDef} {ds : List Bytes} {ps : List Leaf} (h : All2 (LeafPage cid defs) ds ps) (deleted : Bool)
    (hs : ∀ p ∈ ps, ∀ c ∈ Leaf.asked deleted p, Storable defs c) {Q : List Cell → List (Option TVal) → Prop} {rows : List (List (Option TVal))}
    (hr : All2 Q (ps.flatMap (Leaf.asked deleted)) rows) :
    ∃ rss, rows = rss.flatten ∧ All2 (fun d rs => ∃ cellss, PageHolds defs deleted d cellss ∧ All2 Q cellss rs) (ds.filter (isLeaf cid deleted)) rss := by
  induction h generalizing rows with
  | nil => cases hr; exact ⟨[], rfl, .nil⟩
  | @cons d p ds ps hd _ ih =>
    rw [List.flatMap_cons] at hr
    obtain ⟨xs, ys, rfl, h1, h2⟩ := all2_split hr
    obtain ⟨rss, rfl, h3⟩ := ih (fun q hq => hs q (by simp [hq])) h2
    by_cases hl : isLeaf cid deleted d = true
    · rw [List.filter_cons_of_pos hl]
      exact ⟨xs :: rss, rfl, .cons ⟨_, leaf_holds hd deleted (hs p (by simp)) hl, h1⟩ h3⟩
    · rw [List.filter_cons_of_neg hl]
      have hi := leaf_isLeaf hd deleted
      cases deleted with
      | false => rw [hi] at hl; exact absurd rfl hl
      | true =>
        cases hp : p.2 with
        | cons x l => rw [hi, hp] at hl; exact absurd rfl hl
        | nil =>
          have : Leaf.asked true p = [] := hp
          rw [this] at h1
          cases h1
          exact ⟨rss, rfl, h3⟩

theorem leaves_length {cid : Nat} {defs : List ColDef} {ds : List Bytes} {ps : List Leaf} (h : All2 (LeafPage cid defs) ds ps) :
    ∀ d ∈ ds, d.length = 16384 := by
  intro d hd
  obtain ⟨p, _, n, hp⟩ := all2_left h d hd
  exact hp.length

/-- what is asked of the pages -/
structure Fits (cid : Nat) (defs : List ColDef) (ps : List Leaf) : Prop where
  index : cid < 2 ^ 64
  count : 3 + ps.length ≤ 2 ^ 32
  size : ∀ p ∈ ps, 120 + rowsSize defs p.1 + rowsSize defs p.2 < 16384 - 8

theorem writeLeaves_nodup (cid : Nat) (defs : List ColDef) (ps : List Leaf) (hf : Fits cid defs ps) :
    ((writeLeaves cid defs 3 ps).map pageNumber).Nodup := by
  rw [(writeLeaves_pages cid defs 3 ps hf.index hf.count hf.size).2]
  exact List.nodup_range'

/-- The file holds the rows that were written. -/
theorem pages_written (env : Env) (cid : Nat) (cols l : List Column) (defs : List ColDef) (ps : List Leaf) (deleted : Bool)
    (rows : List (List (Option TVal))) (names : (cols.map (·.name)).Nodup ∧ ∀ c ∈ cols, c.name ∉ internalNames)
    (bits : ∀ c ∈ cols, c.mtype = MYSQL_TYPE_BIT → c.ftype = DATA_FIXBINARY) (desc : All2 Describes l defs) (hf : Fits cid defs ps)
    (hs : ∀ p ∈ ps, ∀ c ∈ Leaf.asked deleted p, Storable defs c)
    (stores : All2 (fun cells row => All2 (Stores l cells) cols row) (ps.flatMap (Leaf.asked deleted)) rows)
    (typed : ∀ row ∈ rows, All2 (fun c x => ∀ v, x = some v → v.Of c ∧ v.Fits env.zone) cols row) :
    TableFile env (writePages cid defs ps) cid cols l defs deleted rows := by
  have h := (writeLeaves_pages cid defs 3 ps hf.index hf.count hf.size).1
  refine ⟨names, bits, desc, ?_, typed⟩
  unfold writePages
  rw [leafPages_flatten _ (leaves_length h) (writeLeaves_nodup cid defs ps hf)]
  exact leaves_hold h deleted hs stores

theorem pages_marked (cid : Nat) (defs : List ColDef) (ps : List Leaf) (deleted : Bool) (hf : Fits cid defs ps) :
    Marked (writePages cid defs ps) cid deleted := by
  have h := (writeLeaves_pages cid defs 3 ps hf.index hf.count hf.size).1
  constructor
  · intro d hd _ _
    unfold writePages filePages at hd
    rw [images_flatten _ (leaves_length h) (writeLeaves_nodup cid defs ps hf)] at hd
    obtain ⟨p, _, n, hp⟩ := all2_left h d hd
    rw [hp.index, hp.trx]
    simp
  · rintro rfl d hd
    unfold writePages at hd
    rw [leafPages_flatten _ (leaves_length h) (writeLeaves_nodup cid defs ps hf), List.mem_filter] at hd
    obtain ⟨p, _, hlp⟩ := all2_left h d hd.1
    have hi := leaf_isLeaf hlp true
    rw [hd.2] at hi
    obtain ⟨n, hp⟩ := hlp
    rw [hp.garbage]
    cases hp2 : p.2 with
    | nil => rw [hp2] at hi; cases hi
    | cons c cs =>
      rw [List.map_cons, total_cons]
      have := newHead_length (rowOf defs c) 0
      have : (newRec (rowOf defs c)).n = (newHead (rowOf defs c) 0).length := rfl
      omega

theorem pages_compact (cid : Nat) (defs : List ColDef) (ps : List Leaf) (deleted : Bool) (hf : Fits cid defs ps) :
    ∀ d ∈ leafPages (writePages cid defs ps) cid deleted, isCompact d = true := by
  have h := (writeLeaves_pages cid defs 3 ps hf.index hf.count hf.size).1
  intro d hd
  unfold writePages at hd
  rw [leafPages_flatten _ (leaves_length h) (writeLeaves_nodup cid defs ps hf), List.mem_filter] at hd
  obtain ⟨p, _, n, hp⟩ := all2_left h d hd.1
  exact hp.fmt

/-- **C57**, in part, for tables of any size: the records of a table are written on as many pages as given, the dictionary rows into a
system file; the command prints one statement for each record in use (or each deleted record), which puts its values into the table.
Missing: what is missing in `C57_command_partial`. -/
theorem C57_written_pages_partial (env : Env) (a : FromData) (trs : List TableRow) (crs : List ColumnRow) (irs : List IndexRow)
    (frs : List FieldRow) (t : TableRow) (r : IndexRow) (l : List Column) (defs : List ColDef) (ps : List Leaf) (deleted : Bool)
    (rows : List (List (Option TVal))) (hsys : a.sysFile = .ok (writeSystem trs crs irs frs))
    (hibd : a.tableFile = .ok (writePages r.id defs ps)) (hw : Writable trs crs irs frs) (hindexes : ∀ r ∈ irs, ∃ t ∈ trs, t.id = r.tableId)
    (hids : (trs.map (·.id)).Nodup) (hnames : (trs.map (·.name)).Nodup ∧ ∀ t ∈ trs, TableName t.name)
    (ht : t ∈ trs) (hname : t.name = a.db ++ b! "/" ++ a.table) (hl : Layout irs frs t.id (columnsOf crs t.id) l)
    (names : ((columnsOf crs t.id).map (·.name)).Nodup ∧ ∀ c ∈ columnsOf crs t.id, c.name ∉ internalNames)
    (bits : ∀ c ∈ columnsOf crs t.id, c.mtype = MYSQL_TYPE_BIT → c.ftype = DATA_FIXBINARY) (desc : All2 Describes l defs)
    (hf : Fits r.id defs ps) (hs : ∀ p ∈ ps, ∀ c ∈ Leaf.asked deleted p, Storable defs c)
    (stores : All2 (fun cells row => All2 (Stores l cells) (columnsOf crs t.id) row) (ps.flatMap (Leaf.asked deleted)) rows)
    (typed : ∀ row ∈ rows, All2 (fun c x => ∀ v, x = some v → v.Of c ∧ v.Fits env.zone) (columnsOf crs t.id) row)
    (hop : deleted = true ↔ a.opType = b! "RecoveryData") (harr : ∀ t ∈ trs, UsualKeys irs frs crs t.id) (hh : Handled irs frs crs t.id)
    (hread : ∀ k ∈ defs, k.kind.Readable) (hvalues : ∀ row ∈ rows, All2 (Restored env.ff) (columnsOf crs t.id) row) (hdb : 96 ∉ a.db)
    (htab : 96 ∉ a.table) (out : Out) :
    ∃ lines, fromDataFile env a out = .ok () (out ++ lines) ∧ All2 (Printed env.ff a.db a.table) lines rows :=
  C57_command_partial env a _ _ trs crs irs frs t r l defs deleted rows hsys hibd ⟨system_written trs crs irs frs hw, hindexes, hids, hnames⟩ ht hname
    hl (pages_written env r.id _ l defs ps deleted rows names bits desc hf hs stores typed) hop harr hh
    (pages_marked r.id defs ps deleted hf) (fun _ _ _ => hread)
    (fun d hd hc => by rw [pages_compact r.id defs ps deleted hf d hd] at hc; cases hc) hvalues hdb htab out

end Verif.Props
