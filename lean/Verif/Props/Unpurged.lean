import Verif.Props.DataExact
import Verif.Props.FullText
/-!
# C102: deleted rows that are not yet purged

A DELETE only marks the record of the row; purge moves the record to the free list of its page later.  Until then the row is deleted for
every reader, and its record is still linked.  The recovery of data walks only the free lists.
-/

set_option linter.unusedSimpArgs false

namespace Verif.Props
open Verif Spec

/-- the rows whose records carry the given mark -/
def withMark (m : Bool) (rows : List (List (Option TVal))) (marks : List Bool) : List (List (Option TVal)) :=
  ((rows.zip marks).filter fun e => e.2 == m).map (·.1)

/-- **C102**, as stated: the recovery of data prints a statement for each deleted row, in some order: the rows `gone` of the free lists and those
of the linked rows `rows` that are delete-marked. -/
def C102_statement : Prop :=
  ∀ (env : Env) (a : FromData) (sys ibd : Bytes) (trs : List TableRow) (crs : List ColumnRow) (irs : List IndexRow) (frs : List FieldRow)
    (t : TableRow) (r : IndexRow) (l : List Column) (defs : List ColDef) (rows gone : List (List (Option TVal))) (mss : List (List Bool)),
    PrintableFile env a sys ibd trs crs irs frs t r l defs true gone → TableFile env ibd r.id (columnsOf crs t.id) l defs true gone →
    TableFile env ibd r.id (columnsOf crs t.id) l defs false rows → All2 PageMarks (leafPages ibd r.id false) mss → a.tableFile = .ok ibd →
    ∀ out, ∃ lines found, fromDataFile env a out = .ok () (out ++ lines) ∧ found.Perm (withMark true rows mss.flatten ++ gone) ∧
      All2 (Printed env.ff a.db a.table) lines found

theorem file_marks {env : Env} {ibd : Bytes} {cid : Nat} {cols l : List Column} {defs : List ColDef} {rows : List (List (Option TVal))}
    {mss : List (List Bool)} (hfile : TableFile env ibd cid cols l defs false rows) (hms : All2 PageMarks (leafPages ibd cid false) mss) :
    mss.flatten.length = rows.length := by
  obtain ⟨rss, rfl, h⟩ := hfile.pages
  clear * - h hms
  generalize leafPages ibd cid false = ds at h hms
  induction hms generalizing rss with
  | nil => cases h; rfl
  | cons hm _ ih =>
    cases h with
    | cons hp hps =>
      obtain ⟨cellss, k1, k2⟩ := hp
      rw [List.flatten_cons, List.flatten_cons, List.length_append, List.length_append, ih _ hps, holds_marks k1 hm, all2_length k2]

theorem withMark_nil {m : Bool} {rows : List (List (Option TVal))} {marks : List Bool} (hlen : marks.length = rows.length) :
    withMark m rows marks = [] ↔ m ∉ marks := by
  unfold withMark
  rw [List.map_eq_nil_iff, List.filter_eq_nil_iff]
  constructor
  · intro h hm
    obtain ⟨i, hi, he⟩ := List.mem_iff_getElem.mp hm
    have := h ((rows.zip marks)[i]'(by rw [List.length_zip]; omega)) (List.getElem_mem _)
    rw [List.getElem_zip] at this
    simp [he] at this
  · intro hm e he h
    have := (List.of_mem_zip he).2
    rw [show e.2 = m by simpa using h] at this
    exact hm this

/-- **C102, exactly.** The recovery prints the rows of the free lists and no others, so the claim holds if and only if no linked record is
delete-marked. -/
theorem C102_iff (env : Env) (a : FromData) (sys ibd : Bytes) (trs : List TableRow) (crs : List ColumnRow) (irs : List IndexRow)
    (frs : List FieldRow) (t : TableRow) (r : IndexRow) (l : List Column) (defs : List ColDef) (rows gone : List (List (Option TVal)))
    (mss : List (List Bool)) (hp : PrintableFile env a sys ibd trs crs irs frs t r l defs true gone)
    (hf : TableFile env ibd r.id (columnsOf crs t.id) l defs true gone) (hlive : TableFile env ibd r.id (columnsOf crs t.id) l defs false rows)
    (hms : All2 PageMarks (leafPages ibd r.id false) mss) (hibd : a.tableFile = .ok ibd) (out : Out) :
    (∃ lines found, fromDataFile env a out = .ok () (out ++ lines) ∧ found.Perm (withMark true rows mss.flatten ++ gone) ∧
      All2 (Printed env.ff a.db a.table) lines found) ↔ true ∉ mss.flatten := by
  obtain ⟨lines, h1, h2⟩ := C57_command_partial env a sys ibd trs crs irs frs t r l defs true gone hp.sysFile hibd hp.dict hp.table hp.name hp.layout hf
    hp.op hp.keys hp.handled hp.mark hp.compact hp.redundant hp.values hp.db hp.tab out
  rw [← withMark_nil (file_marks hlive hms)]
  constructor
  · rintro ⟨lines', found, h3, h4, h5⟩
    rw [h1] at h3
    injection h3 with _ h3
    cases List.append_cancel_left h3
    have e := h4.length_eq
    rw [← all2_length h5, all2_length h2, List.length_append] at e
    exact List.length_eq_zero_iff.mp (by omega)
  · intro h
    rw [h]
    exact ⟨lines, gone, h1, .refl _, h2⟩

/-- **C102 (partial).** The rows of the free lists are recovered, all of them and in order.  Missing: the rows that are only delete-marked, which are
never recovered (`C102_iff`, `C102_false`). -/
theorem C102_freed_partial (env : Env) (a : FromData) (sys ibd : Bytes) (trs : List TableRow) (crs : List ColumnRow) (irs : List IndexRow)
    (frs : List FieldRow) (t : TableRow) (r : IndexRow) (l : List Column) (defs : List ColDef) (rows gone : List (List (Option TVal)))
    (mss : List (List Bool)) (hp : PrintableFile env a sys ibd trs crs irs frs t r l defs true gone)
    (hf : TableFile env ibd r.id (columnsOf crs t.id) l defs true gone) (hlive : TableFile env ibd r.id (columnsOf crs t.id) l defs false rows)
    (hms : All2 PageMarks (leafPages ibd r.id false) mss) (hibd : a.tableFile = .ok ibd) (hno : true ∉ mss.flatten) (out : Out) :
    ∃ lines, fromDataFile env a out = .ok () (out ++ lines) ∧ All2 (Printed env.ff a.db a.table) lines gone ∧
      withMark true rows mss.flatten = [] := by
  obtain ⟨lines, h1, h2⟩ := C57_command_partial env a sys ibd trs crs irs frs t r l defs true gone hp.sysFile hibd hp.dict hp.table hp.name hp.layout hf
    hp.op hp.keys hp.handled hp.mark hp.compact hp.redundant hp.values hp.db hp.tab out
  exact ⟨lines, h1, h2, (withMark_nil (file_marks hlive hms)).mpr hno⟩

/-! ### Files with delete-marked records -/

/-- the bytes before the origin of a COMPACT record, with the delete mark `m` -/
def markHead (m : Bool) (row : Row) (next : Nat) : Bytes := compactPrefix row ([if m then 32 else 0, 0, 0] ++ beEnc 2 next)

def markRec (m : Bool) (row : Row) : WRec := ⟨markHead m row, (markHead m row 0).length, rowData row⟩

theorem markHead_length (m : Bool) (row : Row) (x : Nat) :
    (markHead m row x).length = (lens row).length + (packBits (nullBits row)).length + 5 := by
  unfold markHead compactPrefix
  simp only [List.length_append, List.length_reverse, List.length_cons, List.length_nil, beEnc_length']

theorem markRec_good (m : Bool) (row : Row) : (markRec m row).Good := by
  intro x
  refine ⟨(lens row).reverse ++ (packBits (nullBits row)).reverse ++ [if m then 32 else 0, 0, 0], by simp [markRec, markHead, compactPrefix], ?_⟩
  show _ = (markHead m row 0).length
  rw [markHead_length]
  simp only [List.length_append, List.length_reverse, List.length_cons, List.length_nil]

theorem written_mark {d : Bytes} {o : Nat} {m : Bool} {row : Row} (h : Written d o (markRec m row)) :
    CompactAt d o row ∧ deleteMarked d true o = m := by
  obtain ⟨pre, x, post, h1, h2, h3⟩ := h
  have hn : (markRec m row).n = (markHead m row x).length := by
    show (markHead m row 0).length = _
    rw [markHead_length, markHead_length]
  constructor
  · exact ⟨pre, [if m then 32 else 0, 0, 0] ++ beEnc 2 x, post, h3, by simp [beEnc_length'], h1, by rw [h2, hn, List.length_append]; rfl⟩
  · unfold deleteMarked
    rw [if_pos rfl]
    have e : d = (pre ++ (lens row).reverse ++ (packBits (nullBits row)).reverse) ++
        ((if m then 32 else 0) :: ([0, 0] ++ beEnc 2 x ++ (markRec m row).data ++ post)) := by
      rw [h1]
      simp [markRec, markHead, compactPrefix]
    have ho : o - 5 = (pre ++ (lens row).reverse ++ (packBits (nullBits row)).reverse).length := by
      rw [h2, hn, markHead_length]
      simp only [List.length_append, List.length_reverse]
      omega
    rw [ho, e, List.getD_eq_getElem?_getD, List.getElem?_append_right (Nat.le_refl _), Nat.sub_self, List.getElem?_cons_zero]
    cases m <;> rfl

/-- a file with one COMPACT page: linked records with their delete marks, and records of the free list -/
def writeMarked (cid : Nat) (defs : List ColDef) (live : List (Bool × List Cell)) (dead : List (List Cell)) : Bytes :=
  writeFile [writePage true 3 cid (live.map fun e => markRec e.1 (rowOf defs e.2)) (dead.map fun c => newRec (rowOf defs c))]

def markedSize (defs : List ColDef) (rows : List (Bool × List Cell)) : Nat := total (rows.map fun e => markRec e.1 (rowOf defs e.2))

theorem marked_page (cid : Nat) (defs : List ColDef) (live : List (Bool × List Cell)) (dead : List (List Cell)) (hcid : cid < 2 ^ 64)
    (hfit : 120 + markedSize defs live + rowsSize defs dead < 16384 - 8) :
    ∃ d, filePages (writeMarked cid defs live dead) = [d] ∧
      PageOf d true 3 cid (live.map fun e => markRec e.1 (rowOf defs e.2)) (dead.map fun c => newRec (rowOf defs c)) := by
  have hp := writePage_page true 3 cid (live.map fun e => markRec e.1 (rowOf defs e.2)) (dead.map fun c => newRec (rowOf defs c))
    (fun r hr => by obtain ⟨c, -, rfl⟩ := List.mem_map.mp hr; exact markRec_good _ _)
    (fun r hr => by obtain ⟨c, -, rfl⟩ := List.mem_map.mp hr; exact newRec_good _)
    (by unfold markedSize rowsSize at hfit; rw [show pageBase true = 120 from rfl]; exact hfit) (by decide) hcid
  refine ⟨_, ?_, hp⟩
  refine images_flatten _ ?_ (by simp)
  intro d hd
  cases List.mem_singleton.mp hd
  exact hp.length

theorem marked_leaf {d file : Bytes} {cid : Nat} {wl wd : List WRec}
    (hf : filePages file = [d]) (h : PageOf d true 3 cid wl wd) (deleted : Bool) :
    leafPages file cid deleted = if deleted = true ∧ wd = [] then [] else [d] := by
  unfold leafPages
  rw [hf, List.filter_cons, List.filter_nil, h.ptype, h.level, h.index]
  cases deleted with
  | false => simp
  | true =>
    by_cases hw : wd = []
    · rw [(table_free h).mpr hw]
      simp [hw]
    · have : field d PAGE_FREE ≠ 0 := fun e => hw ((table_free h).mp e)
      simp [this, hw]

/-- The linked rows of the file are those that were written, with their marks. -/
theorem marked_written (env : Env) (cid : Nat) (cols l : List Column) (defs : List ColDef) (live : List (Bool × List Cell)) (dead : List (List Cell))
    (rows : List (List (Option TVal))) (names : (cols.map (·.name)).Nodup ∧ ∀ c ∈ cols, c.name ∉ internalNames)
    (bits : ∀ c ∈ cols, c.mtype = MYSQL_TYPE_BIT → c.ftype = DATA_FIXBINARY) (desc : All2 Describes l defs) (hcid : cid < 2 ^ 64)
    (hl : ∀ e ∈ live, Storable defs e.2) (hfit : 120 + markedSize defs live + rowsSize defs dead < 16384 - 8)
    (stores : All2 (fun cells row => All2 (Stores l cells) cols row) (live.map (·.2)) rows)
    (typed : ∀ row ∈ rows, All2 (fun c x => ∀ v, x = some v → v.Of c ∧ v.Fits env.zone) cols row) :
    TableFile env (writeMarked cid defs live dead) cid cols l defs false rows ∧
      All2 PageMarks (leafPages (writeMarked cid defs live dead) cid false) [live.map (·.1)] := by
  obtain ⟨d, hf, hp⟩ := marked_page cid defs live dead hcid hfit
  have hleaf := marked_leaf hf hp false
  rw [if_neg (by simp)] at hleaf
  have hrow : ∀ (os : List Nat) (cs : List (Bool × List Cell)), (∀ e ∈ cs, Storable defs e.2) →
      All2 (fun o r => Written d o r ∧ o + r.data.length ≤ 16384 - 8) os (cs.map fun e => markRec e.1 (rowOf defs e.2)) →
      All2 (fun o cells => CompactRow d defs o cells ∧ o + (rowData (rowOf defs cells)).length ≤ 16384 - 8) os (cs.map (·.2)) ∧
        cs.map (·.1) = os.map (deleteMarked d true) := by
    intro os cs hc h
    induction cs generalizing os with
    | nil => cases h; exact ⟨.nil, rfl⟩
    | cons c cs ih =>
      cases h with
      | cons h1 h2 =>
        obtain ⟨k1, k2⟩ := written_mark h1.1
        obtain ⟨k3, k4⟩ := ih _ (fun x hx => hc x (by simp [hx])) h2
        exact ⟨.cons ⟨⟨hc c (by simp), k1⟩, h1.2⟩ k3, by rw [List.map_cons, List.map_cons, k2, k4]⟩
  obtain ⟨k1, k2⟩ := hrow _ _ hl hp.used
  constructor
  · refine ⟨names, bits, desc, ?_, typed⟩
    rw [hleaf]
    exact ⟨[rows], by simp, .cons ⟨_, .compact hp.fmt (by unfold Records; rw [hp.fmt]; exact hp.linked) k1, stores⟩ .nil⟩
  · rw [hleaf]
    exact .cons ⟨_, by rw [hp.fmt]; exact hp.linked, by rw [hp.fmt]; exact k2⟩ .nil

/-- The rows of the free list are those that were written. -/
theorem freed_written (env : Env) (cid : Nat) (cols l : List Column) (defs : List ColDef) (live : List (Bool × List Cell)) (dead : List (List Cell))
    (rows : List (List (Option TVal))) (names : (cols.map (·.name)).Nodup ∧ ∀ c ∈ cols, c.name ∉ internalNames)
    (bits : ∀ c ∈ cols, c.mtype = MYSQL_TYPE_BIT → c.ftype = DATA_FIXBINARY) (desc : All2 Describes l defs) (hcid : cid < 2 ^ 64)
    (hd : ∀ c ∈ dead, Storable defs c) (hfit : 120 + markedSize defs live + rowsSize defs dead < 16384 - 8)
    (stores : All2 (fun cells row => All2 (Stores l cells) cols row) dead rows)
    (typed : ∀ row ∈ rows, All2 (fun c x => ∀ v, x = some v → v.Of c ∧ v.Fits env.zone) cols row) :
    TableFile env (writeMarked cid defs live dead) cid cols l defs true rows := by
  obtain ⟨d, hf, hp⟩ := marked_page cid defs live dead hcid hfit
  refine ⟨names, bits, desc, ?_, typed⟩
  rw [marked_leaf hf hp]
  by_cases hx : dead = []
  · subst hx
    cases stores
    exact ⟨[], rfl, by simp only [List.map_nil, and_self, if_true]; exact .nil⟩
  rw [if_neg (by simp [hx])]
  have hrow : ∀ (os : List Nat) (cs : List (List Cell)), (∀ c ∈ cs, Storable defs c) →
      All2 (fun o r => Written d o r ∧ o + r.data.length ≤ 16384 - 8) os (cs.map fun c => newRec (rowOf defs c)) →
      All2 (fun o cells => CompactRow d defs o cells ∧ o + (rowData (rowOf defs cells)).length ≤ 16384 - 8) os cs := by
    intro os cs hc h
    induction cs generalizing os with
    | nil => cases h; exact .nil
    | cons c cs ih =>
      cases h with
      | cons h1 h2 => exact .cons ⟨⟨hc c (by simp), written_new h1.1⟩, h1.2⟩ (ih _ (fun x hx => hc x (by simp [hx])) h2)
  exact ⟨[rows], by simp, .cons ⟨_, .compact hp.fmt (by unfold Records; rw [hp.fmt]; exact hp.freed (by simp [hx])) (hrow _ _ hd hp.gone), stores⟩ .nil⟩

theorem marked_marked (cid : Nat) (defs : List ColDef) (live : List (Bool × List Cell)) (dead : List (List Cell)) (deleted : Bool) (hcid : cid < 2 ^ 64)
    (hfit : 120 + markedSize defs live + rowsSize defs dead < 16384 - 8) : Marked (writeMarked cid defs live dead) cid deleted := by
  obtain ⟨d, hf, hp⟩ := marked_page cid defs live dead hcid hfit
  constructor
  · intro d' hd' _ _
    rw [hf] at hd'
    cases List.mem_singleton.mp hd'
    rw [hp.index, hp.trx]
    simp
  · rintro rfl d' hd'
    rw [marked_leaf hf hp] at hd'
    split at hd'
    · cases hd'
    · next hx =>
      cases List.mem_singleton.mp hd'
      rw [hp.garbage]
      cases dead with
      | nil => exact absurd ⟨rfl, rfl⟩ hx
      | cons c cs =>
        rw [List.map_cons, total_cons]
        have := newHead_length (rowOf defs c) 0
        have : (newRec (rowOf defs c)).n = (newHead (rowOf defs c) 0).length := rfl
        omega

theorem marked_compact (cid : Nat) (defs : List ColDef) (live : List (Bool × List Cell)) (dead : List (List Cell)) (hcid : cid < 2 ^ 64)
    (hfit : 120 + markedSize defs live + rowsSize defs dead < 16384 - 8) (deleted : Bool) :
    ∀ d ∈ leafPages (writeMarked cid defs live dead) cid deleted, isCompact d = true := by
  obtain ⟨d, hf, hp⟩ := marked_page cid defs live dead hcid hfit
  intro d' hd'
  rw [marked_leaf hf hp] at hd'
  split at hd'
  · cases hd'
  · cases List.mem_singleton.mp hd'
    exact hp.fmt

/-! ### A table with two deleted rows

The table of `FullText`: row 7 is in use, row 8 is deleted and not purged, row 9 is purged. -/

def goneRow (n : Int) : List (Option TVal) := [some (.int 4 n), some (.varchar (b! "ann")), some (.uint 8 1)]
def goneCells (n : Int) : List Cell :=
  [cellOfVal (some (.int 4 n)), .val (zeros 6), .val (zeros 7), cellOfVal (some (.varchar (b! "ann"))), cellOfVal (some (.uint 8 1))]
def goneLive (m : Bool) : List (Bool × List Cell) := [(false, goneCells 7), (m, goneCells 8)]
def goneData (m : Bool) : Bytes := writeMarked 30 textDefs (goneLive m) [goneCells 9]
def goneArgs (m : Bool) (op : Bytes) : FromData :=
  { sysFile := .ok textSys, tableFile := .ok (goneData m), db := b! "shop", table := b! "t", opType := op }

theorem gone_fits (m : Bool) : 120 + markedSize textDefs (goneLive m) + rowsSize textDefs [goneCells 9] < 16384 - 8 := by
  cases m <;> decide

theorem gone_typed (env : Env) (n : Int) (h : n = 7 ∨ n = 8 ∨ n = 9) :
    All2 (fun c x => ∀ v, x = some v → v.Of c ∧ v.Fits env.zone) (columnsOf textColumns 20) (goneRow n) := by
  rw [text_columns]
  refine .cons ?_ (.cons ?_ (.cons ?_ .nil))
  · rintro v ⟨⟩
    refine ⟨⟨rfl, by decide, by decide, rfl, rfl⟩, by decide, ?_⟩
    rcases h with rfl | rfl | rfl <;> exact ⟨by decide, by decide⟩
  · rintro v ⟨⟩
    exact ⟨rfl, trivial⟩
  · rintro v ⟨⟩
    exact ⟨⟨rfl, by decide, by decide, rfl, rfl⟩, by decide, by decide⟩

theorem gone_values (env : Env) (n : Int) : All2 (Restored env.ff) (columnsOf textColumns 20) (goneRow n) := by
  rw [text_columns]
  exact .cons ⟨trivial, trivial⟩ (.cons ⟨trivial, ⟨by decide, by decide⟩⟩ (.cons ⟨fun h => (nomatch h), trivial⟩ .nil))

theorem gone_stores (n : Int) : All2 (Stores textLayout (goneCells n)) (columnsOf textColumns 20) (goneRow n) := by
  rw [text_columns]
  exact .cons ⟨0, rfl, rfl⟩ (.cons ⟨3, rfl, rfl⟩ (.cons ⟨4, rfl, rfl⟩ .nil))

theorem gone_live (env : Env) (m : Bool) :
    TableFile env (goneData m) 30 (columnsOf textColumns 20) textLayout textDefs false [goneRow 7, goneRow 8] ∧
      All2 PageMarks (leafPages (goneData m) 30 false) [[false, m]] :=
  marked_written env 30 _ _ _ (goneLive m) [goneCells 9] _ (by decide) (by decide) (by decide) (by decide) (by cases m <;> decide) (gone_fits m)
    (.cons (gone_stores 7) (.cons (gone_stores 8) .nil))
    (by
      intro row hrow
      rcases List.mem_cons.mp hrow with rfl | hrow
      · exact gone_typed env 7 (by simp)
      · cases List.mem_singleton.mp hrow
        exact gone_typed env 8 (by simp))

theorem gone_freed (env : Env) (m : Bool) : TableFile env (goneData m) 30 (columnsOf textColumns 20) textLayout textDefs true [goneRow 9] :=
  freed_written env 30 _ _ _ (goneLive m) [goneCells 9] _ (by decide) (by decide) (by decide) (by decide) (by decide) (gone_fits m)
    (.cons (gone_stores 9) .nil) (by intro row hrow; cases List.mem_singleton.mp hrow; exact gone_typed env 9 (by simp))

theorem gone_printable (env : Env) (m : Bool) : PrintableFile env (goneArgs m (b! "RecoveryData")) textSys (goneData m) shopTables textColumns
    textIndexes textFields ⟨b! "shop/t", 20, 5⟩ ⟨20, 30, b! "PRIMARY", 1, 3⟩ textLayout textDefs true [goneRow 9] where
  sysFile := rfl
  dict := text_dictionary
  table := by decide
  name := rfl
  layout := (text_printable env).layout
  op := ⟨fun _ => rfl, fun _ => rfl⟩
  keys := (text_printable env).keys
  handled := (text_printable env).handled
  mark := marked_marked 30 textDefs (goneLive m) _ true (by decide) (gone_fits m)
  compact := fun _ _ _ => by decide
  redundant := fun d hd hc => by
    rw [marked_compact 30 textDefs (goneLive m) [goneCells 9] (by decide) (gone_fits m) true d hd] at hc
    cases hc
  values := by
    intro row hrow
    cases List.mem_singleton.mp hrow
    exact gone_values env 9
  db := show 96 ∉ b! "shop" by decide
  tab := show 96 ∉ b! "t" by decide

/-- Row 8 is deleted and not recovered. -/
theorem C102_false : ¬ C102_statement := by
  intro h
  have := (C102_iff testEnv (goneArgs true (b! "RecoveryData")) _ _ _ _ _ _ _ _ _ _ _ _ _ (gone_printable testEnv true) (gone_freed testEnv true)
    (gone_live testEnv true).1 (gone_live testEnv true).2 rfl []).mp
    (h testEnv (goneArgs true (b! "RecoveryData")) _ _ _ _ _ _ _ _ _ _ _ _ _ (gone_printable testEnv true) (gone_freed testEnv true)
    (gone_live testEnv true).1 (gone_live testEnv true).2 rfl [])
  revert this
  decide

/-- the hypotheses of `C102_freed_partial` hold -/
example (env : Env) (out : Out) : ∃ lines, fromDataFile env (goneArgs false (b! "RecoveryData")) out = .ok () (out ++ lines) ∧
    All2 (Printed env.ff (b! "shop") (b! "t")) lines [goneRow 9] ∧ withMark true [goneRow 7, goneRow 8] [false, false] = [] :=
  C102_freed_partial env (goneArgs false (b! "RecoveryData")) _ _ _ _ _ _ _ _ _ _ _ _ _ (gone_printable env false) (gone_freed env false)
    (gone_live env false).1 (gone_live env false).2 rfl (by decide) out

/-- C53 for the same table: row 8 is deleted, and printed as if it were in use. -/
theorem C53_command_marked (env : Env) (out : Out) : ¬ ∃ lines, fromDataFile env (goneArgs true (b! "RecoveryStruct")) out = .ok () (out ++ lines) ∧
    All2 (Printed env.ff (b! "shop") (b! "t")) lines [goneRow 7] := by
  have h := C53_command_iff env (goneArgs true (b! "RecoveryStruct")) _ _ _ _ _ _ ⟨b! "shop/t", 20, 5⟩ ⟨20, 30, b! "PRIMARY", 1, 3⟩ _ _ _ rfl rfl
    text_dictionary (by decide) rfl (text_printable env).layout (gone_live env true).1 (by decide) (text_printable env).keys (text_printable env).handled
    (marked_marked 30 textDefs (goneLive true) _ false (by decide) (gone_fits true)) (fun _ _ _ => by decide)
    (fun d hd hc => by
      rw [marked_compact 30 textDefs (goneLive true) [goneCells 9] (by decide) (gone_fits true) false d hd] at hc
      cases hc)
    (by
      intro row hrow
      rcases List.mem_cons.mp hrow with rfl | hrow
      · exact gone_values env 7
      · cases List.mem_singleton.mp hrow
        exact gone_values env 8)
    (show 96 ∉ b! "shop" by decide) (show 96 ∉ b! "t" by decide) _ (gone_live env true).2 out
  intro h'
  have := h.mp h'
  revert this
  decide

end Verif.Props
