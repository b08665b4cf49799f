import Verif.Proofs.Writer
import Verif.Props.DataCommand
/-!
# C57: files with given rows

For all rows that fit on a page, the file of `Spec/Writer` holds them.
-/

namespace Verif.Props
open Verif Spec

/-- a file with one COMPACT page: records in use and deleted records of the index `cid` -/
def writeTable (cid : Nat) (defs : List ColDef) (live dead : List (List Cell)) : Bytes :=
  writeFile [writePage true 3 cid (live.map fun c => newRec (rowOf defs c)) (dead.map fun c => newRec (rowOf defs c))]

def rowsSize (defs : List ColDef) (rows : List (List Cell)) : Nat := total (rows.map fun c => newRec (rowOf defs c))

theorem table_page (cid : Nat) (defs : List ColDef) (live dead : List (List Cell)) (hcid : cid < 2 ^ 64)
    (hfit : 120 + rowsSize defs live + rowsSize defs dead < 16384 - 8) :
    ∃ d, filePages (writeTable cid defs live dead) = [d] ∧
      PageOf d true 3 cid (live.map fun c => newRec (rowOf defs c)) (dead.map fun c => newRec (rowOf defs c)) := by
  have hp := writePage_page true 3 cid (live.map fun c => newRec (rowOf defs c)) (dead.map fun c => newRec (rowOf defs c))
    (fun r hr => by obtain ⟨c, -, rfl⟩ := List.mem_map.mp hr; exact newRec_good _)
    (fun r hr => by obtain ⟨c, -, rfl⟩ := List.mem_map.mp hr; exact newRec_good _) hfit (by decide) hcid
  refine ⟨_, ?_, hp⟩
  refine images_flatten _ ?_ (by simp)
  intro d hd
  cases List.mem_singleton.mp hd
  exact hp.length

theorem table_free {d : Bytes} {cid : Nat} {live dead : List WRec} (h : PageOf d true 3 cid live dead) : field d PAGE_FREE = 0 ↔ dead = [] := by
  rw [h.free]
  cases dead with
  | nil => exact ⟨fun _ => rfl, fun _ => rfl⟩
  | cons r rs => exact ⟨fun e => absurd e (by show 120 + _ + _ ≠ 0; omega), fun e => by cases e⟩

theorem table_leaf {d : Bytes} {cid : Nat} {defs : List ColDef} {live dead : List (List Cell)} {wl wd : List WRec}
    (hf : filePages (writeTable cid defs live dead) = [d]) (h : PageOf d true 3 cid wl wd) (deleted : Bool) :
    leafPages (writeTable cid defs live dead) cid deleted = if deleted = true ∧ wd = [] then [] else [d] := by
  unfold leafPages
  rw [hf, List.filter_cons, List.filter_nil, h.ptype, h.level, h.index]
  cases deleted with
  | false => simp
  | true =>
    by_cases hw : wd = []
    · rw [(table_free h).mpr hw]
      simp [hw]
    · have : field d PAGE_FREE ≠ 0 := fun e => hw ((table_free h).mp e)
      simp [this, hw]

/-- The file holds the rows that were written. -/
theorem table_written (env : Env) (cid : Nat) (cols l : List Column) (defs : List ColDef) (live dead : List (List Cell)) (deleted : Bool)
    (rows : List (List (Option TVal))) (names : (cols.map (·.name)).Nodup ∧ ∀ c ∈ cols, c.name ∉ internalNames)
    (bits : ∀ c ∈ cols, c.mtype = MYSQL_TYPE_BIT → c.ftype = DATA_FIXBINARY) (desc : All2 Describes l defs) (hcid : cid < 2 ^ 64)
    (hl : ∀ c ∈ live, Storable defs c) (hd : ∀ c ∈ dead, Storable defs c) (hfit : 120 + rowsSize defs live + rowsSize defs dead < 16384 - 8)
    (stores : All2 (fun cells row => All2 (Stores l cells) cols row) (if deleted then dead else live) rows)
    (typed : ∀ row ∈ rows, All2 (fun c x => ∀ v, x = some v → v.Of c ∧ v.Fits env.zone) cols row) :
    TableFile env (writeTable cid defs live dead) cid cols l defs deleted rows := by
  obtain ⟨d, hf, hp⟩ := table_page cid defs live dead hcid hfit
  refine ⟨names, bits, desc, ?_, typed⟩
  rw [table_leaf hf hp]
  by_cases hx : deleted = true ∧ dead.map (fun c => newRec (rowOf defs c)) = []
  · obtain ⟨rfl, h2⟩ := hx
    rw [List.map_eq_nil_iff] at h2
    subst h2
    cases stores
    exact ⟨[], rfl, by simp only [List.map_nil, and_self, if_true]; exact .nil⟩
  rw [if_neg hx]
  refine ⟨[rows], by simp, .cons ⟨_, ?_, stores⟩ .nil⟩
  have hrow : ∀ (os : List Nat) (cs : List (List Cell)), (∀ c ∈ cs, Storable defs c) →
      All2 (fun o r => Written d o r ∧ o + r.data.length ≤ 16384 - 8) os (cs.map fun c => newRec (rowOf defs c)) →
      All2 (fun o cells => CompactRow d defs o cells ∧ o + (rowData (rowOf defs cells)).length ≤ 16384 - 8) os cs := by
    intro os cs hc h
    induction cs generalizing os with
    | nil => cases h; exact .nil
    | cons c cs ih =>
      cases h with
      | cons h1 h2 => exact .cons ⟨⟨hc c (by simp), written_new h1.1⟩, h1.2⟩ (ih _ (fun x hx => hc x (by simp [hx])) h2)
  cases deleted with
  | false => exact .compact hp.fmt (by unfold Records; rw [hp.fmt]; exact hp.linked) (hrow _ _ hl hp.used)
  | true =>
    refine .compact hp.fmt (by unfold Records; rw [hp.fmt]; exact hp.freed fun e => hx ⟨rfl, e⟩) (hrow _ _ hd hp.gone)

theorem table_marked (cid : Nat) (defs : List ColDef) (live dead : List (List Cell)) (deleted : Bool) (hcid : cid < 2 ^ 64)
    (hfit : 120 + rowsSize defs live + rowsSize defs dead < 16384 - 8) : Marked (writeTable cid defs live dead) cid deleted := by
  obtain ⟨d, hf, hp⟩ := table_page cid defs live dead hcid hfit
  constructor
  · intro d' hd' _ _
    rw [hf] at hd'
    cases List.mem_singleton.mp hd'
    rw [hp.index, hp.trx]
    simp
  · rintro rfl d' hd'
    rw [table_leaf hf hp] at hd'
    split at hd'
    · cases hd'
    · next hx =>
      cases List.mem_singleton.mp hd'
      rw [hp.garbage]
      cases dead with
      | nil => exact absurd ⟨rfl, rfl⟩ hx
      | cons c cs =>
        rw [List.map_cons, total_cons]
        have := newHead_length (rowOf defs c) 0
        have : (newRec (rowOf defs c)).n = (newHead (rowOf defs c) 0).length := rfl
        omega

theorem table_compact (cid : Nat) (defs : List ColDef) (live dead : List (List Cell)) (hcid : cid < 2 ^ 64)
    (hfit : 120 + rowsSize defs live + rowsSize defs dead < 16384 - 8) (deleted : Bool) :
    ∀ d ∈ leafPages (writeTable cid defs live dead) cid deleted, isCompact d = true := by
  obtain ⟨d, hf, hp⟩ := table_page cid defs live dead hcid hfit
  intro d' hd'
  rw [table_leaf hf hp] at hd'
  split at hd'
  · cases hd'
  · cases List.mem_singleton.mp hd'
    exact hp.fmt

/-- **C57**, in part, with files that are functions of their contents: the dictionary rows `trs`, `crs`, `irs`, `frs` and the records `live` and
`dead` of a table, as many as fit on one page each, are written into files, and the command prints one statement for each record in use (or
each deleted record), which puts its values into the table.  Missing: files with several pages, which `C57_command_partial` covers, and what is
missing there. -/
theorem C57_written_partial (env : Env) (a : FromData) (trs : List TableRow) (crs : List ColumnRow) (irs : List IndexRow)
    (frs : List FieldRow) (t : TableRow) (r : IndexRow) (l : List Column) (defs : List ColDef) (live dead : List (List Cell)) (deleted : Bool)
    (rows : List (List (Option TVal))) (hsys : a.sysFile = .ok (writeSystem trs crs irs frs))
    (hibd : a.tableFile = .ok (writeTable r.id defs live dead)) (hw : Writable trs crs irs frs) (hindexes : ∀ r ∈ irs, ∃ t ∈ trs, t.id = r.tableId)
    (hids : (trs.map (·.id)).Nodup) (hnames : (trs.map (·.name)).Nodup ∧ ∀ t ∈ trs, TableName t.name)
    (ht : t ∈ trs) (hname : t.name = a.db ++ b! "/" ++ a.table) (hl : Layout irs frs t.id (columnsOf crs t.id) l)
    (names : ((columnsOf crs t.id).map (·.name)).Nodup ∧ ∀ c ∈ columnsOf crs t.id, c.name ∉ internalNames)
    (bits : ∀ c ∈ columnsOf crs t.id, c.mtype = MYSQL_TYPE_BIT → c.ftype = DATA_FIXBINARY) (desc : All2 Describes l defs) (hcid : r.id < 2 ^ 64)
    (hlive : ∀ c ∈ live, Storable defs c) (hdead : ∀ c ∈ dead, Storable defs c)
    (hfit : 120 + rowsSize defs live + rowsSize defs dead < 16384 - 8)
    (stores : All2 (fun cells row => All2 (Stores l cells) (columnsOf crs t.id) row) (if deleted then dead else live) rows)
    (typed : ∀ row ∈ rows, All2 (fun c x => ∀ v, x = some v → v.Of c ∧ v.Fits env.zone) (columnsOf crs t.id) row)
    (hop : deleted = true ↔ a.opType = b! "RecoveryData") (harr : ∀ t ∈ trs, UsualKeys irs frs crs t.id) (hh : Handled irs frs crs t.id)
    (hread : ∀ k ∈ defs, k.kind.Readable) (hvalues : ∀ row ∈ rows, All2 (Restored env.ff) (columnsOf crs t.id) row) (hdb : 96 ∉ a.db)
    (htab : 96 ∉ a.table) (out : Out) :
    ∃ lines, fromDataFile env a out = .ok () (out ++ lines) ∧ All2 (Printed env.ff a.db a.table) lines rows :=
  C57_command_partial env a _ _ trs crs irs frs t r l defs deleted rows hsys hibd ⟨system_written trs crs irs frs hw, hindexes, hids, hnames⟩ ht hname
    hl (table_written env r.id _ l defs live dead deleted rows names bits desc hcid hlive hdead hfit stores typed) hop harr hh
    (table_marked r.id defs live dead deleted hcid hfit) (fun _ _ _ => hread)
    (fun d hd hc => by rw [table_compact r.id defs live dead hcid hfit deleted d hd] at hc; cases hc) hvalues hdb htab out

end Verif.Props
