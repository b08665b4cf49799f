import Verif.Props.PageOrder
import Verif.Props.WriterPages
import Verif.Props.Names
import Verif.Props.Script
/-!
# C85 for tables with given rows, and C57 for tables on several pages: examples
-/

namespace Verif.Props
open Verif Spec

theorem all2_perm {α β : Type} {R : α → β → Prop} {as as' : List α} (hp : as.Perm as') : ∀ {bs : List β}, All2 R as bs →
    ∃ bs', bs.Perm bs' ∧ All2 R as' bs' := by
  induction hp with
  | nil => intro bs h; cases h; exact ⟨[], .nil, .nil⟩
  | cons x _ ih =>
    intro bs h
    cases h with
    | cons h1 h2 =>
      obtain ⟨bs', h3, h4⟩ := ih h2
      exact ⟨_ :: bs', h3.cons _, .cons h1 h4⟩
  | swap x y l =>
    intro bs h
    cases h with
    | cons h1 h2 =>
      cases h2 with
      | cons h2 h3 => exact ⟨_, .swap _ _ _, .cons h2 (.cons h1 h3)⟩
  | trans _ _ ih1 ih2 =>
    intro bs h
    obtain ⟨bs', h3, h4⟩ := ih1 h
    obtain ⟨bs'', h5, h6⟩ := ih2 h4
    exact ⟨bs'', h3.trans h5, h6⟩

theorem flatten_perm {α : Type} {ls ls' : List (List α)} (h : ls.Perm ls') : ls.flatten.Perm ls'.flatten := by
  induction h with
  | nil => exact .nil
  | cons x _ ih => exact List.Perm.append_left x ih
  | swap x y l =>
    show (y ++ (x ++ l.flatten)).Perm (x ++ (y ++ l.flatten))
    rw [← List.append_assoc, ← List.append_assoc]
    exact List.perm_append_comm.append_right _
  | trans _ _ ih1 ih2 => exact ih1.trans ih2

theorem leafPages_perm {ps ps' : List Bytes} (h : Pages ps) (hp : ps.Perm ps') (cid : Nat) (deleted : Bool) :
    (leafPages ps.flatten cid deleted).Perm (leafPages ps'.flatten cid deleted) := by
  rw [leafPages_flatten _ h.whole h.numbers, leafPages_flatten _ (h.perm hp).whole (h.perm hp).numbers]
  exact hp.filter _

/-- With its pages in another order, a file holds the same rows in another order. -/
theorem tableFile_perm {env : Env} {ps ps' : List Bytes} (h : Pages ps) (hp : ps.Perm ps') {cid : Nat} {cols l : List Column} {defs : List ColDef}
    {deleted : Bool} {rows : List (List (Option TVal))} (ht : TableFile env ps.flatten cid cols l defs deleted rows) :
    ∃ rows', rows.Perm rows' ∧ TableFile env ps'.flatten cid cols l defs deleted rows' := by
  obtain ⟨rss, e, hpg⟩ := ht.pages
  obtain ⟨rss', h1, h2⟩ := all2_perm (leafPages_perm h hp cid deleted) hpg
  have hr : rows.Perm rss'.flatten := by rw [e]; exact flatten_perm h1
  exact ⟨rss'.flatten, hr, ht.names, ht.bits, ht.desc, ⟨rss', rfl, h2⟩, fun row hrow => ht.typed row (hr.mem_iff.mpr hrow)⟩

theorem printable_perm {env : Env} {a : FromData} {sys : Bytes} {ps ps' : List Bytes} (h : Pages ps) (hp : ps.Perm ps') {trs : List TableRow}
    {crs : List ColumnRow} {irs : List IndexRow} {frs : List FieldRow} {t : TableRow} {r : IndexRow} {l : List Column} {defs : List ColDef}
    {deleted : Bool} {rows rows' : List (List (Option TVal))} (hr : rows.Perm rows')
    (hpr : PrintableFile env a sys ps.flatten trs crs irs frs t r l defs deleted rows) (a' : FromData) (hs : a'.sysFile = a.sysFile)
    (hdb : a'.db = a.db) (htab : a'.table = a.table) (hop : a'.opType = a.opType) :
    PrintableFile env a' sys ps'.flatten trs crs irs frs t r l defs deleted rows' := by
  have hl := leafPages_perm h hp r.id deleted
  have hfp : (filePages ps.flatten).Perm (filePages ps'.flatten) := by
    unfold filePages
    rw [images_flatten _ h.whole h.numbers, images_flatten _ (h.perm hp).whole (h.perm hp).numbers]
    exact hp
  exact ⟨hs.trans hpr.sysFile, hpr.dict, hpr.table, by rw [hdb, htab]; exact hpr.name, hpr.layout, by rw [hop]; exact hpr.op, hpr.keys, hpr.handled,
    ⟨fun d hd => hpr.mark.trx d (hfp.mem_iff.mpr hd), fun hdel d hd => hpr.mark.garbage hdel d (hl.mem_iff.mpr hd)⟩,
    fun d hd => hpr.compact d (hl.mem_iff.mpr hd),
    fun d hd hc => ⟨(hpr.redundant d (hl.mem_iff.mpr hd) hc).1, fun row hrow => (hpr.redundant d (hl.mem_iff.mpr hd) hc).2 row (hr.mem_iff.mpr hrow)⟩,
    fun row hrow => hpr.values row (hr.mem_iff.mpr hrow), by rw [hdb]; exact hpr.db, by rw [htab]; exact hpr.tab⟩

/-- **C85**, in part, for the tables of C57: with the pages of the file in any order, the command prints one statement for each row, which
puts its values into the table.  Missing: what C57 misses. -/
theorem C85_rows_partial (env : Env) (a : FromData) (sys : Bytes) (ps ps' : List Bytes) (trs : List TableRow) (crs : List ColumnRow)
    (irs : List IndexRow) (frs : List FieldRow) (t : TableRow) (r : IndexRow) (l : List Column) (defs : List ColDef) (deleted : Bool)
    (rows : List (List (Option TVal))) (h : Pages ps) (hp : ps.Perm ps')
    (hpr : PrintableFile env a sys ps.flatten trs crs irs frs t r l defs deleted rows)
    (ht : TableFile env ps.flatten r.id (columnsOf crs t.id) l defs deleted rows) (hf : a.tableFile = .ok ps'.flatten) (out : Out) :
    ∃ rows' lines, rows.Perm rows' ∧ fromDataFile env a out = .ok () (out ++ lines) ∧ All2 (Printed env.ff a.db a.table) lines rows' := by
  obtain ⟨rows', hr, ht'⟩ := tableFile_perm h hp ht
  have hq := printable_perm h hp hr hpr a rfl rfl rfl rfl
  obtain ⟨lines, h1, h2⟩ := C57_command_partial env a sys _ trs crs irs frs t r l defs deleted rows' hq.sysFile hf hq.dict hq.table hq.name hq.layout
    ht' hq.op hq.keys hq.handled hq.mark hq.compact hq.redundant hq.values hq.db hq.tab out
  exact ⟨rows', lines, hr, h1, h2⟩

/-- The output, executed on an empty table, gives the rows of the file, whatever the order of its pages. -/
theorem C85_restores_partial (env : Env) (a : FromData) (sys : Bytes) (ps ps' : List Bytes) (trs : List TableRow) (crs : List ColumnRow)
    (irs : List IndexRow) (frs : List FieldRow) (t : TableRow) (r : IndexRow) (l : List Column) (defs : List ColDef) (deleted : Bool)
    (rows : List (List (Option TVal))) (sv : Server) (same : List Orig → List Orig → Bool) (hsym : ∀ r r', same r r' = same r' r)
    (h : Pages ps) (hp : ps.Perm ps') (hpr : PrintableFile env a sys ps.flatten trs crs irs frs t r l defs deleted rows)
    (ht : TableFile env ps.flatten r.id (columnsOf crs t.id) l defs deleted rows) (hf : a.tableFile = .ok ps'.flatten)
    (hn : ∀ row ∈ rows, ∀ x ∈ row, ReadsNumber sv env.ff x) (hd : (rows.map (sqlRow env.ff)).Pairwise (fun r r' => same r r' = false)) :
    ∃ lines after, fromDataFile env a [] = .ok () lines ∧
      execScript sv (columnsOf crs t.id) same a.db a.table (stdout lines) [] = some after ∧ (rows.map (sqlRow env.ff)).Perm after := by
  obtain ⟨rows', hr, ht'⟩ := tableFile_perm h hp ht
  have hq := printable_perm h hp hr hpr a rfl rfl rfl rfl
  have hrm := hr.map (sqlRow env.ff)
  obtain ⟨lines, h1, h2⟩ := C72_restores_partial env a sys _ trs crs irs frs t r l defs deleted rows' sv same hq ht' hf
    (fun row hrow => hn row (hr.mem_iff.mpr hrow)) (hrm.pairwise hd fun h => (hsym _ _).trans h)
  exact ⟨lines, _, h1, h2, hrm⟩

/-! ## Examples -/

/-- two pages: a record in use on the first, a record in use and a deleted one on the second -/
def twoLeaves : List Leaf := [([shopCells 1 (some (b! "ann"))], []), ([shopCells 2 none], [shopCells 3 (some (b! "bob"))])]

def pagesArgs (ibd : Bytes) : FromData :=
  { sysFile := .ok (namedFile (b! "shop/t")), db := b! "shop", table := b! "t", opType := b! "RecoveryStruct", tableFile := .ok ibd }

theorem twoLeaves_fit : Fits 30 shopDefs twoLeaves := ⟨by decide, by decide, by decide⟩

set_option maxRecDepth 4000 in
/-- the hypotheses of `C57_written_pages_partial` hold -/
example (env : Env) (out : Out) :
    ∃ lines, fromDataFile env (pagesArgs (writePages 30 shopDefs twoLeaves)) out = .ok () (out ++ lines) ∧
      All2 (Printed env.ff (b! "shop") (b! "t")) lines (shopRows (b! "ann") false) := by
  have hd := named_dictionary (b! "shop/t") (b! "shop") (b! "t") rfl (by decide) (by decide) (by decide) (by decide)
  have hf := shopData_file env (name := b! "ann") (.inl rfl) false
  exact C57_written_pages_partial env (pagesArgs _) (namedTables (b! "shop/t")) shopColumns (shopIndexes idKey) (shopFields idKey) ⟨b! "shop/t", 20, 5⟩
    ⟨20, 30, b! "PRIMARY", 1, 3⟩ (shopLayout 20) shopDefs twoLeaves false
    (shopRows (b! "ann") false) rfl rfl (named_writable _ (by decide)) hd.indexes hd.ids hd.names (by decide) rfl (shop_layout ⟨b! "shop/t", 20, 5⟩ (by decide))
    hf.names hf.bits hf.desc twoLeaves_fit (by decide) (.cons (shopData_stores 1 (some (b! "ann"))) (.cons (shopData_stores 2 none) .nil))
    hf.typed (by decide) (named_keys _) (shop_handled ⟨b! "shop/t", 20, 5⟩ (by decide)) (by decide) (shop_restored env.ff)
    (show 96 ∉ b! "shop" by decide) (show 96 ∉ b! "t" by decide) out

theorem twoLeaves_pages : Pages (writeLeaves 30 shopDefs 3 twoLeaves) :=
  ⟨leaves_length (writeLeaves_pages 30 shopDefs 3 twoLeaves twoLeaves_fit.index twoLeaves_fit.count twoLeaves_fit.size).1,
    writeLeaves_nodup 30 shopDefs twoLeaves twoLeaves_fit⟩

set_option maxRecDepth 4000 in
/-- the hypotheses of `C85_rows_partial` hold: the two pages in the other order -/
example (env : Env) (out : Out) :
    ∃ rows' lines, (shopRows (b! "ann") false).Perm rows' ∧
      fromDataFile env (pagesArgs (writeLeaves 30 shopDefs 3 twoLeaves).reverse.flatten) out = .ok () (out ++ lines) ∧
      All2 (Printed env.ff (b! "shop") (b! "t")) lines rows' := by
  have hd := named_dictionary (b! "shop/t") (b! "shop") (b! "t") rfl (by decide) (by decide) (by decide) (by decide)
  have hf := shopData_file env (name := b! "ann") (.inl rfl) false
  refine C85_rows_partial env (pagesArgs _) (namedFile (b! "shop/t")) (writeLeaves 30 shopDefs 3 twoLeaves) (writeLeaves 30 shopDefs 3 twoLeaves).reverse
    (namedTables (b! "shop/t")) shopColumns (shopIndexes idKey) (shopFields idKey) ⟨b! "shop/t", 20, 5⟩ ⟨20, 30, b! "PRIMARY", 1, 3⟩ (shopLayout 20)
    shopDefs false (shopRows (b! "ann") false) twoLeaves_pages (List.reverse_perm _).symm ?_ ?_ rfl out
  · constructor
    case sysFile => rfl
    case dict => exact hd
    case table => decide
    case name => rfl
    case layout => exact shop_layout ⟨b! "shop/t", 20, 5⟩ (by decide)
    case op => decide
    case keys => exact named_keys _
    case handled => exact shop_handled ⟨b! "shop/t", 20, 5⟩ (by decide)
    case mark => exact pages_marked 30 shopDefs twoLeaves false twoLeaves_fit
    case compact => intro _ _ _; decide
    case redundant =>
      intro d hd hc
      rw [show isCompact d = true from pages_compact 30 shopDefs twoLeaves false twoLeaves_fit d hd] at hc
      cases hc
    case values => exact shop_restored env.ff
    case db => show 96 ∉ b! "shop"; decide
    case tab => show 96 ∉ b! "t"; decide
  · exact pages_written env 30 _ (shopLayout 20) shopDefs twoLeaves false (shopRows (b! "ann") false) hf.names hf.bits hf.desc twoLeaves_fit (by decide)
      (.cons (shopData_stores 1 (some (b! "ann"))) (.cons (shopData_stores 2 none) .nil)) hf.typed

end Verif.Props
