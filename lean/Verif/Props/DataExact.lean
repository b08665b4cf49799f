import Verif.Props.Width
import Verif.Props.Names
/-!
# C57: values that can be read back; C53: delete-marked rows
-/

set_option linter.unusedSimpArgs false

namespace Verif.Props
open Verif Spec

theorem shown_of_restorable (ff : FloatFmt) (c : Column) (v : TVal) (h : Restorable ff c (origOf ff (some v))) : Shown ff v := by
  cases v <;> trivial

theorem restored_of_restorable (ff : FloatFmt) {c c' : Column} (hm : c.mtype = c'.mtype) {x : Option TVal} (hd : ∀ v, x = some v → TVal.Decodable v)
    (h : Restorable ff c (origOf ff x)) : Restored ff c' x := by
  cases x with
  | none => show c'.mtype ≠ _; rw [← hm]; exact h
  | some v => exact ⟨hd v rfl, shown_of_restorable ff c v h⟩

/-- the user's columns of a row, with their values -/
theorem user_pairs {r : Column → Orig → Prop} {cs : List Column} {os : List Orig} (h : All2 (fun c o => c.name ∉ internalNames → r c o) cs os) :
    All2 r (userColumns cs) (userValues cs os) := by
  induction h with
  | nil => exact .nil
  | @cons c o cs os hc _ ih =>
    unfold userColumns userValues
    by_cases hn : c.name ∈ internalNames
    · rw [if_pos hn, List.filter_cons_of_neg (by simpa using hn)]
      exact ih
    · rw [if_neg hn, List.filter_cons_of_pos (by simpa using hn)]
      exact .cons (hc hn) ih

theorem user_mtypes {cs ds : List Column} (h : cs.map (skelB true) = ds.map (skelB true)) :
    (userColumns cs).map (·.mtype) = (userColumns ds).map (·.mtype) := by
  induction cs generalizing ds with
  | nil =>
    cases ds with
    | nil => rfl
    | cons _ _ => cases h
  | cons c cs ih =>
    cases ds with
    | nil => cases h
    | cons d ds =>
      rw [List.map_cons, List.map_cons] at h
      injection h with h1 h2
      obtain ⟨e1, _, e3, _⟩ := skel_fields h1
      unfold userColumns
      by_cases hn : c.name ∈ internalNames
      · rw [List.filter_cons_of_neg (by simpa using hn), List.filter_cons_of_neg (by rw [← e1]; simpa using hn)]
        exact ih h2
      · rw [List.filter_cons_of_pos (by simpa using hn), List.filter_cons_of_pos (by rw [← e1]; simpa using hn), List.map_cons, List.map_cons, e3]
        exact congrArg _ (ih h2)

theorem restored_row (ff : FloatFmt) {us vs : List Column} (hm : us.map (·.mtype) = vs.map (·.mtype)) {row : List (Option TVal)}
    (hd : All2 (fun _ x => ∀ v, x = some v → TVal.Decodable v) vs row) (h : All2 (Restorable ff) us (row.map (origOf ff))) :
    All2 (Restored ff) vs row := by
  induction hd generalizing us with
  | nil => exact .nil
  | cons h1 _ ih =>
    cases us with
    | nil => cases hm
    | cons u us =>
      rw [List.map_cons, List.map_cons] at hm
      injection hm with e1 e2
      cases h with
      | cons h2 h3 => exact .cons (restored_of_restorable ff e1 h1 h2) (ih e2 h3)

/-! ## Delete-marked records -/

theorem linked_unique {d : Bytes} {compact : Bool} {o : Nat} {os os' : List Nat} (h : Linked d compact o os) (h' : Linked d compact o os') :
    os = os' := by
  induction h generalizing os' with
  | last hs =>
    cases h' with
    | last => rfl
    | next hu =>
      rw [hs] at hu
      exact absurd hu.1 (Nat.lt_irrefl _)
  | next hu _ ih =>
    cases h' with
    | last hs =>
      rw [hs] at hu
      exact absurd hu.1 (Nat.lt_irrefl _)
    | next _ h' => rw [ih h']

/-- The delete marks of the records linked on the page `d`. -/
def PageMarks (d : Bytes) (marks : List Bool) : Prop :=
  ∃ os, Linked d (isCompact d) (infimumAt (isCompact d)) os ∧ marks = os.map (deleteMarked d (isCompact d))

theorem holds_marks {defs : List ColDef} {d : Bytes} {cellss : List (List Cell)} {marks : List Bool} (h : PageHolds defs false d cellss)
    (hm : PageMarks d marks) : marks.length = cellss.length := by
  obtain ⟨os, h1, rfl⟩ := hm
  rw [List.length_map]
  cases h with
  | compact _ hr ha => rw [linked_unique h1 hr]; exact all2_length ha
  | redundant _ hr ha => rw [linked_unique h1 hr, List.length_map]; exact all2_length ha

/-- **C53, the command, exactly.** The rows of a table, printed without recovery, are the rows whose records are not delete-marked exactly
if no record is.  `marks` are the delete marks of the records of `rows`. -/
theorem C53_command_iff (env : Env) (a : FromData) (sys ibd : Bytes) (trs : List TableRow) (crs : List ColumnRow)
    (irs : List IndexRow) (frs : List FieldRow) (t : TableRow) (r : IndexRow) (l : List Column) (defs : List ColDef)
    (rows : List (List (Option TVal))) (hsys : a.sysFile = .ok sys) (hibd : a.tableFile = .ok ibd) (hdict : Dictionary sys trs crs irs frs)
    (ht : t ∈ trs) (hname : t.name = a.db ++ b! "/" ++ a.table) (hl : Layout irs frs t.id (columnsOf crs t.id) l)
    (hfile : TableFile env ibd r.id (columnsOf crs t.id) l defs false rows) (hop : a.opType ≠ b! "RecoveryData")
    (harr : ∀ t ∈ trs, UsualKeys irs frs crs t.id) (hh : Handled irs frs crs t.id)
    (hmark : Marked ibd r.id false)
    (hcompact : ∀ d ∈ leafPages ibd r.id false, isCompact d = true → ∀ k ∈ defs, k.kind.Readable)
    (hredundant : ∀ d ∈ leafPages ibd r.id false, isCompact d = false →
      (∀ k ∈ defs, ∀ m, k.kind = .varcharLatin1 m → m = 0) ∧ ∀ row ∈ rows, none ∉ row)
    (hvalues : ∀ row ∈ rows, All2 (Restored env.ff) (columnsOf crs t.id) row) (hdb : 96 ∉ a.db) (htab : 96 ∉ a.table)
    (mss : List (List Bool)) (hms : All2 PageMarks (leafPages ibd r.id false) mss) (out : Out) :
    let live := ((rows.zip mss.flatten).filter fun e => !e.2).map (·.1)
    (∃ lines, fromDataFile env a out = .ok () (out ++ lines) ∧ All2 (Printed env.ff a.db a.table) lines live) ↔ true ∉ mss.flatten := by
  intro live
  obtain ⟨lines, h1, h2⟩ := C57_command_partial env a sys ibd trs crs irs frs t r l defs false rows hsys hibd hdict ht hname hl hfile
    (by simp [hop]) harr hh hmark hcompact hredundant hvalues hdb htab out
  have hlen : mss.flatten.length = rows.length := by
    obtain ⟨rss, rfl, h⟩ := hfile.pages
    clear * - h hms
    generalize leafPages ibd r.id false = ds at h hms
    induction hms generalizing rss with
    | nil => cases h; rfl
    | cons hm _ ih =>
      cases h with
      | cons hp hps =>
        obtain ⟨cellss, k1, k2⟩ := hp
        rw [List.flatten_cons, List.flatten_cons, List.length_append, List.length_append, ih _ hps, holds_marks k1 hm, all2_length k2]
  constructor
  · rintro ⟨lines', h3, h4⟩ hm
    rw [h1] at h3
    injection h3 with _ h3
    cases List.append_cancel_left h3
    have e : live.length = rows.length := by rw [← all2_length h4, all2_length h2]
    have e : ((rows.zip mss.flatten).filter fun e => !e.2).length = (rows.zip mss.flatten).length := by
      rw [← List.length_map (f := (·.1)), List.length_zip, hlen, Nat.min_self]
      exact e
    have := List.length_filter_eq_length_iff.mp e
    obtain ⟨i, hi, he⟩ := List.mem_iff_getElem.mp hm
    have := this ((rows.zip mss.flatten)[i]'(by rw [List.length_zip]; omega)) (List.getElem_mem _)
    rw [List.getElem_zip] at this
    simp [he] at this
  · intro hm
    have e : live = rows := by
      show ((rows.zip mss.flatten).filter fun e => !e.2).map (·.1) = rows
      rw [List.filter_eq_self.mpr, List.map_fst_zip (by omega)]
      intro e he
      cases h : e.2 with
      | false => rfl
      | true =>
        have := (List.of_mem_zip he).2
        rw [h] at this
        exact absurd this hm
    rw [e]
    exact ⟨lines, h1, h2⟩

theorem shopData_marks : PageMarks (pad (shopDataPage (b! "ann"))) [false, false] := by
  refine ⟨[127, 153], ?_, ?_⟩
  · have := shopData_records (.inl rfl : ShopRow (b! "ann")) false
    exact this
  · rw [shopData_compact (.inl rfl)]
    have h : ∀ o, o - 5 < 190 → deleteMarked (pad (shopDataPage (b! "ann"))) true o = deleteMarked (shopDataPage (b! "ann")) true o := by
      intro o ho
      have := (shopData_length (.inl rfl : ShopRow (b! "ann"))).1
      unfold deleteMarked
      rw [if_pos rfl, show (pad (shopDataPage (b! "ann"))).getD (o - 5) 0 = (shopDataPage (b! "ann")).getD (o - 5) 0 by
        unfold pad
        rw [List.getD_eq_getElem?_getD, List.getD_eq_getElem?_getD, List.getElem?_append_left (by omega)]]
    rw [List.map_cons, List.map_cons, List.map_nil, h _ (by decide), h _ (by decide)]
    decide

/-- The hypotheses of `C53_command_iff` hold for the table of the shop, where no row is delete-marked. -/
example (env : Env) (out : Out) : ∃ lines, fromDataFile env (shopArgs (b! "ann") false) out = .ok () (out ++ lines) ∧
    All2 (Printed env.ff (b! "shop") (b! "t")) lines [[some (.int 4 1), some (.varchar (b! "ann"))], [some (.int 4 2), none]] := by
  have hn : ShopRow (b! "ann") := .inl rfl
  exact (C53_command_iff env (shopArgs (b! "ann") false) _ _ _ _ _ _ ⟨b! "shop/t", 20, 5⟩ ⟨20, 30, b! "PRIMARY", 1, 3⟩ _ _
    (shopRows (b! "ann") false) rfl rfl (shop_dictionary (.inl rfl)) (by decide) (by decide) (shop_layout _ (by decide))
    (shopData_file env hn false) (by decide) shop_arranged (shop_handled _ (by decide)) (shopData_marked hn false)
    (shopData_format hn false).1 (shopData_format hn false).2
    (by
      intro row hrow
      rw [show columnsOf shopColumns 20 = [shopId, shopName] by decide]
      rcases List.mem_cons.mp hrow with rfl | hrow
      · exact .cons ⟨trivial, trivial⟩ (.cons ⟨trivial, ⟨by decide, by decide⟩⟩ .nil)
      · cases List.mem_singleton.mp hrow
        exact .cons ⟨trivial, trivial⟩ (.cons (by show shopName.mtype ≠ _; decide) .nil))
    (show 96 ∉ b! "shop" by decide) (show 96 ∉ b! "t" by decide) [[false, false]]
    (by rw [shopData_leaf hn]; exact .cons shopData_marks .nil) out).mpr (by decide)

end Verif.Props
