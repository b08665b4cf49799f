import Verif.Spec.Names
import Verif.Props.Writer
import Verif.Props.RedoWitness
/-!
# C75: tables whose names are encoded in SYS_TABLES
-/

set_option linter.unusedSimpArgs false

namespace Verif.Props
open Verif Spec

/-- What **C57** has proved of a command, for a table that is recorded as `stored`. -/
def CommandPrints (stored : FromData → Bytes) : Prop :=
  ∀ (env : Env) (a : FromData) (sys ibd : Bytes) (trs : List TableRow) (crs : List ColumnRow) (irs : List IndexRow) (frs : List FieldRow)
    (t : TableRow) (r : IndexRow) (l : List Column) (defs : List ColDef) (deleted : Bool) (rows : List (List (Option TVal))),
    a.sysFile = .ok sys → a.tableFile = .ok ibd → Dictionary sys trs crs irs frs → t ∈ trs → t.name = stored a →
    Layout irs frs t.id (columnsOf crs t.id) l → TableFile env ibd r.id (columnsOf crs t.id) l defs deleted rows →
    (deleted = true ↔ a.opType = b! "RecoveryData") → (∀ t ∈ trs, UsualKeys irs frs crs t.id) → Handled irs frs crs t.id →
    Marked ibd r.id deleted → (∀ d ∈ leafPages ibd r.id deleted, isCompact d = true) → (∀ k ∈ defs, k.kind.Readable) →
    (∀ row ∈ rows, All2 (Restored env.ff) (columnsOf crs t.id) row) → Ascii a.db → Ascii a.table → 96 ∉ a.db → 96 ∉ a.table →
    ∀ out, ∃ lines, fromDataFile env a out = .ok () (out ++ lines) ∧ All2 (Printed env.ff a.db a.table) lines rows

/-- **C75**, as stated: the tables of the user are recorded under their encoded names. -/
def C75_statement : Prop := CommandPrints fun a => encodeName a.db ++ b! "/" ++ encodeName a.table

/-! ## The encoding -/

theorem encodeName_length (n : Bytes) : (encodeName n).length = n.length + 4 * (n.filter fun c => !plain c).length := by
  induction n with
  | nil => rfl
  | cons c n ih =>
    unfold encodeName at ih ⊢
    rw [List.flatMap_cons, List.length_append, ih, List.filter_cons]
    cases h : plain c <;> simp <;> omega

/-- exactly the plain names are recorded as they are -/
theorem encodeName_fixed (n : Bytes) : encodeName n = n ↔ ∀ c ∈ n, plain c = true := by
  constructor
  · intro h c hc
    have := congrArg List.length h
    rw [encodeName_length] at this
    have h0 : (n.filter fun c => !plain c) = [] := List.eq_nil_of_length_eq_zero (by omega)
    rw [List.filter_eq_nil_iff] at h0
    simpa using h0 c hc
  · intro h
    induction n with
    | nil => rfl
    | cons c n ih =>
      have ih := ih fun x hx => h x (by simp [hx])
      unfold encodeName at ih ⊢
      rw [List.flatMap_cons, ih, if_pos (h c (by simp))]
      rfl

theorem hexOf_plain (n : UInt8) (h : n < 16) : plain (hexOf n) = true := by
  have key : ∀ k : Fin 16, plain (hexOf (UInt8.ofNat k)) = true := by decide
  have := key ⟨n.toNat, h⟩
  simpa using this

theorem encodeName_chars (n : Bytes) : ∀ c ∈ encodeName n, plain c = true ∨ c = 64 := by
  intro c hc
  obtain ⟨x, -, hx⟩ := List.mem_flatMap.mp hc
  split at hx
  · next h => cases List.mem_singleton.mp hx; exact .inl h
  · simp only [List.mem_cons, List.not_mem_nil, or_false] at hx
    rcases hx with rfl | rfl | rfl | rfl | rfl
    · exact .inr rfl
    · exact .inl rfl
    · exact .inl rfl
    · exact .inl (hexOf_plain _ (by rw [UInt8.lt_iff_toNat_lt, UInt8.toNat_div]; have := x.toNat_lt; show _ / 16 < 16; omega))
    · exact .inl (hexOf_plain _ (by rw [UInt8.lt_iff_toNat_lt, UInt8.toNat_mod]; show _ % 16 < 16; omega))

/-! ## Tables that are not found -/

theorem records_first {recovery : Bool} {d : Bytes} {os : List Nat} (h : Records recovery d os) (hos : os ≠ []) : HasRecord recovery d := by
  unfold Records at h
  unfold HasRecord firstAt
  cases recovery with
  | true =>
    have : UserAt (isCompact d) (field d PAGE_FREE) := by
      cases h with
      | last h _ => exact h
      | next h _ _ => exact h
    have h1 := this.1
    have h2 := this.2
    exact ⟨by simp only [if_true]; omega, by simp only [if_true]; omega⟩
  | false =>
    have h : Linked d (isCompact d) (infimumAt (isCompact d)) os := h
    cases h with
    | last _ => exact absurd rfl hos
    | next hu _ =>
      have hlt : link d (infimumAt (isCompact d)) < 65536 := numAt_lt d _ 2
      have h1 := hu.1
      have h2 := hu.2
      unfold follow at h1 h2
      cases hc : isCompact d
      · rw [hc] at h1 h2 hlt
        simp only [Bool.false_eq_true, if_false] at h1 h2 ⊢
        omega
      · rw [hc] at h1 h2 hlt
        simp only [Bool.false_eq_true, if_false, if_true, infimumAt, supremumAt] at h1 h2 hlt ⊢
        omega

theorem holds_record {defs : List ColDef} {deleted : Bool} {d : Bytes} {cellss : List (List Cell)} (h : PageHolds defs deleted d cellss)
    (hc : cellss ≠ []) : HasRecord deleted d := by
  cases h with
  | compact _ hr ha => exact records_first hr (by rintro rfl; cases ha; exact hc rfl)
  | redundant _ hr ha => exact records_first hr (by rintro rfl; cases ha; exact hc rfl)

theorem file_record {env : Env} {content : Bytes} {cid : Nat} {cols l : List Column} {defs : List ColDef} {deleted : Bool}
    {rows : List (List (Option TVal))} (h : TableFile env content cid cols l defs deleted rows) (hm : Marked content cid deleted) (hr : rows ≠ []) :
    ∃ d ∈ selectedPages content deleted, HasRecord deleted d := by
  obtain ⟨rss, hrows, hpages⟩ := h.pages
  clear h
  rw [leaf_selected hm (by
    rintro rfl d hd
    obtain ⟨rs, _, cellss, hp, _⟩ := all2_mem hpages d hd
    exact holds_free hp)]
  subst hrows
  generalize leafPages content cid deleted = ds at hpages
  induction hpages with
  | nil => exact absurd rfl hr
  | @cons d rs ds rss hx _ ih =>
    obtain ⟨cellss, hp, ha⟩ := hx
    by_cases he : rs = []
    · subst he
      obtain ⟨d', h1, h2⟩ := ih (by simpa using hr)
      exact ⟨d', by simp [h1], h2⟩
    · exact ⟨d, by simp, holds_record hp (by rintro rfl; cases ha; exact he rfl)⟩

/-- no table with these names is recorded -/
theorem lookup_none {trs : List TableRow} {crs : List ColumnRow} {irs : List IndexRow} {frs : List FieldRow} {lay : Nat → List Column}
    {tables : TableMap} (hw : tables.WF) (h : ∀ id, LoadedTable trs crs irs frs lay id (tables.get? id)) {db table : Bytes}
    (hno : ∀ t ∈ trs, splitName t.name ≠ (db, table)) : ¬ InDictionary tables db table := by
  rintro ⟨e, he, hx⟩
  have := h e.1
  rw [(GoMap.get?_iff hw e.1 e.2).mpr he] at this
  obtain ⟨r, ixs, e1, e2, -⟩ := this
  obtain ⟨hid, hmem⟩ := lastWith_some e1
  refine hno r hmem ?_
  rw [← hx.1, ← hx.2, e2]
  rfl

/-- The command for names that are not recorded: it prints nothing, and aborts if one of the pages it selects has a record. -/
theorem unknown_run (env : Env) (a : FromData) (sys ibd : Bytes) (trs : List TableRow) (crs : List ColumnRow) (irs : List IndexRow)
    (frs : List FieldRow) (hsys : a.sysFile = .ok sys) (hibd : a.tableFile = .ok ibd) (hdict : Dictionary sys trs crs irs frs)
    (harr : ∀ t ∈ trs, UsualKeys irs frs crs t.id) (hno : ∀ t ∈ trs, splitName t.name ≠ (a.db, a.table)) (out : Out) :
    fromDataFile env a out =
      if ∃ d ∈ selectedPages ibd (a.opType == b! "RecoveryData"), HasRecord (a.opType == b! "RecoveryData") d then .panic out else .ok () out := by
  obtain ⟨lay, hload, -⟩ := loads_arranged env sys trs crs irs frs hdict.file hdict.indexes harr
  obtain ⟨tables, dict, h1, h2, h3⟩ := hload out
  unfold fromDataFile
  rw [hsys, h1, hibd]
  dsimp only
  rw [C28_unknown_table_partial env ibd a.db a.table _ ⟨tables, out⟩ (lookup_none h2 h3 hno)]
  by_cases hx : ∃ d ∈ selectedPages ibd (a.opType == b! "RecoveryData"), HasRecord (a.opType == b! "RecoveryData") d
  · rw [if_pos hx, if_pos hx]
  · rw [if_neg hx, if_neg hx]

theorem split_chars (n : Bytes) (h : ∀ c ∈ n, storedChar c = true) : ∀ c, c ∈ (splitName n).1 ∨ c ∈ (splitName n).2 → storedChar c = true := by
  unfold splitName
  intro c hc
  split at hc
  · rcases hc with hc | hc
    · exact h c ((List.takeWhile_prefix _).subset hc)
    · exact h c ((List.dropWhile_suffix _).subset ((List.drop_suffix _ _).subset ((List.takeWhile_prefix _).subset hc)))
  · rcases hc with hc | hc
    · cases hc
    · exact h c hc

/-- a name with a character that is not in recorded names -/
def Special (n : Bytes) : Prop := ∃ c ∈ n, storedChar c = false

instance (n : Bytes) : Decidable (Special n) := inferInstanceAs (Decidable (∃ c ∈ n, storedChar c = false))

/-- **C75**: given the names of a table as the user knows them, with a character that MySQL encodes other than `@`, `#` and `/`, the command
prints no row; it aborts when it comes to the first record. -/
theorem C75_lost (env : Env) (a : FromData) (sys ibd : Bytes) (trs : List TableRow) (crs : List ColumnRow) (irs : List IndexRow)
    (frs : List FieldRow) (cid : Nat) (cols l : List Column) (defs : List ColDef) (deleted : Bool) (rows : List (List (Option TVal)))
    (hsys : a.sysFile = .ok sys) (hibd : a.tableFile = .ok ibd) (hdict : Dictionary sys trs crs irs frs)
    (hfile : TableFile env ibd cid cols l defs deleted rows) (hop : deleted = true ↔ a.opType = b! "RecoveryData")
    (harr : ∀ t ∈ trs, UsualKeys irs frs crs t.id) (hmark : Marked ibd cid deleted) (hch : ∀ t ∈ trs, ∀ c ∈ t.name, storedChar c = true)
    (hsp : Special a.db ∨ Special a.table) (hr : rows ≠ []) (out : Out) : fromDataFile env a out = .panic out := by
  have hdel : (a.opType == b! "RecoveryData") = deleted := by
    rw [Bool.eq_iff_iff, beq_iff_eq]
    exact hop.symm
  rw [unknown_run env a sys ibd trs crs irs frs hsys hibd hdict harr ?_ out, hdel, if_pos (file_record hfile hmark hr)]
  intro t ht he
  have := split_chars t.name (hch t ht)
  rw [he] at this
  rcases hsp with ⟨c, hc, hx⟩ | ⟨c, hc, hx⟩
  · rw [this c (.inl hc)] at hx; cases hx
  · rw [this c (.inr hc)] at hx; cases hx

/-- **C75**, in part: for a table that the tool handles as in C57, whose names have no `@`, `#` or `/`, the command prints its rows exactly if
both names consist of letters, digits and `_`.  Missing: names with other than ASCII characters. -/
theorem C75_exact_partial (env : Env) (a : FromData) (sys ibd : Bytes) (trs : List TableRow) (crs : List ColumnRow) (irs : List IndexRow)
    (frs : List FieldRow) (t : TableRow) (r : IndexRow) (l : List Column) (defs : List ColDef) (deleted : Bool) (rows : List (List (Option TVal)))
    (hsys : a.sysFile = .ok sys) (hibd : a.tableFile = .ok ibd) (hdict : Dictionary sys trs crs irs frs) (ht : t ∈ trs)
    (hname : t.name = encodeName a.db ++ b! "/" ++ encodeName a.table) (hl : Layout irs frs t.id (columnsOf crs t.id) l)
    (hfile : TableFile env ibd r.id (columnsOf crs t.id) l defs deleted rows) (hop : deleted = true ↔ a.opType = b! "RecoveryData")
    (harr : ∀ t ∈ trs, UsualKeys irs frs crs t.id) (hh : Handled irs frs crs t.id) (hmark : Marked ibd r.id deleted)
    (hcompact : ∀ d ∈ leafPages ibd r.id deleted, isCompact d = true) (hread : ∀ k ∈ defs, k.kind.Readable)
    (hvalues : ∀ row ∈ rows, All2 (Restored env.ff) (columnsOf crs t.id) row) (hch : ∀ t ∈ trs, ∀ c ∈ t.name, storedChar c = true)
    (hno : ∀ c ∈ a.db ++ a.table, c ≠ 64 ∧ c ≠ 35 ∧ c ≠ 47) (hr : rows ≠ []) (out : Out) :
    (∃ lines, fromDataFile env a out = .ok () (out ++ lines) ∧ All2 (Printed env.ff a.db a.table) lines rows) ↔
      ∀ c ∈ a.db ++ a.table, plain c = true := by
  constructor
  · rintro ⟨lines, h, -⟩ c hc
    by_contra hp
    have hs : storedChar c = false := by
      obtain ⟨h1, h2, h3⟩ := hno c hc
      unfold storedChar
      simp [h1, h2, h3, eq_false_of_ne_true hp]
    rw [C75_lost env a sys ibd trs crs irs frs r.id _ l defs deleted rows hsys hibd hdict hfile hop harr hmark hch
      ((List.mem_append.mp hc).imp (fun h => ⟨c, h, hs⟩) fun h => ⟨c, h, hs⟩) hr out] at h
    cases h
  · intro hp
    have h1 : ∀ c ∈ a.db, plain c = true := fun c hc => hp c (by simp [hc])
    have h2 : ∀ c ∈ a.table, plain c = true := fun c hc => hp c (by simp [hc])
    rw [(encodeName_fixed a.db).mpr h1, (encodeName_fixed a.table).mpr h2] at hname
    exact C57_command_partial env a sys ibd trs crs irs frs t r l defs deleted rows hsys hibd hdict ht hname hl hfile hop harr hh hmark
      (fun _ _ _ => hread) (fun d hd hc => by rw [hcompact d hd] at hc; cases hc) hvalues (fun h => absurd (h1 96 h) (by decide))
      (fun h => absurd (h2 96 h) (by decide)) out

/-- **C75**: given the recorded names, the command prints the rows, but each statement is for a table of the encoded name. -/
theorem C75_renamed (env : Env) (db table : Bytes) (a : FromData) (sys ibd : Bytes) (trs : List TableRow) (crs : List ColumnRow)
    (irs : List IndexRow) (frs : List FieldRow) (t : TableRow) (r : IndexRow) (l : List Column) (defs : List ColDef) (deleted : Bool)
    (rows : List (List (Option TVal))) (hadb : a.db = encodeName db) (hatab : a.table = encodeName table)
    (hsys : a.sysFile = .ok sys) (hibd : a.tableFile = .ok ibd) (hdict : Dictionary sys trs crs irs frs) (ht : t ∈ trs)
    (hname : t.name = encodeName db ++ b! "/" ++ encodeName table) (hl : Layout irs frs t.id (columnsOf crs t.id) l)
    (hfile : TableFile env ibd r.id (columnsOf crs t.id) l defs deleted rows) (hop : deleted = true ↔ a.opType = b! "RecoveryData")
    (harr : ∀ t ∈ trs, UsualKeys irs frs crs t.id) (hh : Handled irs frs crs t.id) (hmark : Marked ibd r.id deleted)
    (hcompact : ∀ d ∈ leafPages ibd r.id deleted, isCompact d = true) (hread : ∀ k ∈ defs, k.kind.Readable)
    (hvalues : ∀ row ∈ rows, All2 (Restored env.ff) (columnsOf crs t.id) row) (out : Out) :
    ∃ lines, fromDataFile env a out = .ok () (out ++ lines) ∧ All2 (Printed env.ff (encodeName db) (encodeName table)) lines rows ∧
      ((∃ c ∈ db ++ table, plain c = false) → ∀ line ∈ lines, ∀ row, ¬ Printed env.ff db table line row) := by
  have h96 : ∀ n, 96 ∉ encodeName n := fun n h => by rcases encodeName_chars n 96 h with h | h <;> revert h <;> decide
  obtain ⟨lines, h1, h2⟩ := C57_command_partial env a sys ibd trs crs irs frs t r l defs deleted rows hsys hibd hdict ht (by rw [hname, hadb, hatab]) hl
    hfile hop harr hh hmark (fun _ _ _ => hread) (fun d hd hc => by rw [hcompact d hd] at hc; cases hc) hvalues (by rw [hadb]; exact h96 _)
    (by rw [hatab]; exact h96 _) out
  rw [hadb, hatab] at h2
  refine ⟨lines, h1, h2, ?_⟩
  rintro ⟨c, hc, hp⟩ line hline row ⟨vs, hv, -⟩
  obtain ⟨row', -, vs', hv', -⟩ := all2_mem h2 line hline
  rw [hv] at hv'
  injection hv' with hv'
  injection hv' with e1 e2 _
  rcases List.mem_append.mp hc with h | h
  · rw [(encodeName_fixed db).mp e1.symm c h] at hp; cases hp
  · rw [(encodeName_fixed table).mp e2.symm c h] at hp; cases hp

/-! ## The redo command -/

/-- **C75**: of the changes in a log, the redo command prints those of the tables with the given names in the form in which SYS_TABLES
records them; for names with another character it prints nothing. -/
theorem C75_redo_lost (env : Env) (fs : Bytes → File) (a : FromRedo) (spare : Nat) (sys : Bytes) (trs : List TableRow) (crs : List ColumnRow)
    (irs : List IndexRow) (frs : List FieldRow) (names : List Bytes) (parts : List (List Bytes)) (its : List Item) (chs : List (Option Change))
    (hsys : a.sysFile = .ok sys) (hdict : Dictionary sys trs crs irs frs) (hne : names ≠ []) (hn : ∀ n ∈ names, 44 ∉ n)
    (ha : a.redoFile = commaList names) (hp : All2 (fun chunks n => ∃ content, fs n = .ok content ∧ IsLogFile chunks content) parts names)
    (hs : parts.flatten.flatten = its.flatMap Item.enc) (hf : ∀ it ∈ its, it.Fits)
    (harr : ∀ t ∈ trs, UsualKeys irs frs crs t.id) (hfl : All2 (Followed env a trs crs irs frs) its chs)
    (hah : Ahead its) (hlen : (its.flatMap Item.enc).length < 2 ^ 32) (hch : ∀ t ∈ trs, ∀ c ∈ t.name, storedChar c = true)
    (hsp : Special a.db ∨ Special a.table) (out : Out) : fromRedoFile env fs a spare out = .ok () out := by
  rw [C58_lines env fs a spare sys trs crs irs frs names parts its chs hsys hdict hne hn ha hp hs hf harr hfl hah hlen out]
  have hw : ∀ ch ∈ chs.filterMap id, Wanted a ch = false := by
    intro ch hm
    obtain ⟨x, hx, rfl⟩ := List.mem_filterMap.mp hm
    have hx : some ch ∈ chs := hx
    obtain ⟨it, hit⟩ : ∃ it, Followed env a trs crs irs frs it (some ch) := by
      clear * - hfl hx
      induction hfl with
      | nil => cases hx
      | cons h _ ih =>
        rcases List.mem_cons.mp hx with rfl | hm
        · exact ⟨_, h⟩
        · exact ih hm
    obtain ⟨t, ht, hname⟩ : ∃ t ∈ trs, t.name = ch.db ++ b! "/" ++ ch.table := by
      cases followed_logs hit with
      | update h1 _ h3 => exact ⟨_, h1, h3⟩
    have hc : ∀ c, c ∈ ch.db ∨ c ∈ ch.table → storedChar c = true := by
      intro c hc
      refine hch t ht c ?_
      rw [hname]
      rcases hc with hc | hc <;> simp [hc]
    unfold Wanted
    rw [Bool.and_eq_false_iff]
    have key : ∀ n m : Bytes, Special n → (∀ c ∈ m, storedChar c = true) → (n == [] || m == n) = false := by
      rintro n m ⟨c, hc, hx⟩ hm
      rw [Bool.or_eq_false_iff, beq_eq_false_iff_ne, beq_eq_false_iff_ne]
      refine ⟨(by rintro rfl; cases hc), ?_⟩
      intro e
      rw [hm c (e ▸ hc)] at hx
      cases hx
    exact hsp.imp (fun h => key _ _ h fun c hx => hc c (.inl hx)) fun h => key _ _ h fun c hx => hc c (.inr hx)
  rw [List.filter_eq_nil_iff.mpr fun ch hm => by rw [hw ch hm]; exact Bool.false_ne_true]
  simp

/-! ## A table with a hyphen

`CREATE TABLE shop.``my-table`` (id INT PRIMARY KEY, name VARCHAR(10))`, with the data file and the log of the table of `DictWitness`. -/

/-- the table of `DictWitness` under another name -/
def namedTables (n : Bytes) : List TableRow := [⟨n, 20, 5⟩]

def namedFile (n : Bytes) : Bytes := writeSystem (namedTables n) shopColumns (shopIndexes idKey) (shopFields idKey)

set_option maxRecDepth 4000 in
theorem named_writable (n : Bytes) (hlen : n.length < 1000) : Writable (namedTables n) shopColumns (shopIndexes idKey) (shopFields idKey) :=
  { tables := by
      intro r hr
      cases List.mem_singleton.mp hr
      exact ⟨by show 20 < 2 ^ 64; decide, by show 5 < 2 ^ 32; decide⟩
    columns := by decide
    indexes := by decide
    fields := by decide
    onTables := by
      show total [oldRec (tableRec ⟨n, 20, 5⟩)] < _
      have : total [oldRec (tableRec ⟨n, 20, 5⟩)] = 2 * 10 + 6 + (n.length + (6 + (7 + (8 + (4 + (4 + (8 + (4 + (0 + (4 + 0)))))))))) := by
        unfold total
        simp only [List.map_cons, List.map_nil, List.sum_cons, List.sum_nil, WRec.size, oldRec, tableRec, oldData, List.flatMap_cons, List.flatMap_nil,
          List.length_append, wcell, nul_length, beEnc_length', List.length_nil, List.length_cons]
        omega
      omega
    onColumns := by decide
    onIndexes := by decide
    onFields := by decide }

theorem named_dictionary (n : Bytes) (db table : Bytes) (hn : n = db ++ b! "/" ++ table) (h1 : db ≠ []) (h2 : 47 ∉ db) (h3 : 47 ∉ table)
    (hlen : n.length < 1000) : Dictionary (namedFile n) (namedTables n) shopColumns (shopIndexes idKey) (shopFields idKey) where
  file := system_written _ _ _ _ (named_writable n hlen)
  indexes := by
    intro r hr
    cases List.mem_singleton.mp hr
    exact ⟨_, List.mem_singleton.mpr rfl, rfl⟩
  ids := List.nodup_singleton _
  names := ⟨List.nodup_singleton _, fun t ht => by
    cases List.mem_singleton.mp ht
    exact .inr ⟨db, table, hn, h1, h2, h3⟩⟩

def hyName : Bytes := b! "shop/my@002dtable"

theorem hy_dictionary : Dictionary (namedFile hyName) (namedTables hyName) shopColumns (shopIndexes idKey) (shopFields idKey) :=
  named_dictionary _ (b! "shop") (b! "my@002dtable") rfl (by decide) (by decide) (by decide) (by decide)

def hyArgs (table : Bytes) : FromData :=
  { sysFile := .ok (namedFile hyName), tableFile := .ok (shopData (b! "ann")), db := b! "shop", table := table, opType := b! "RecoveryStruct" }

theorem named_keys (n : Bytes) : ∀ t ∈ namedTables n, UsualKeys (shopIndexes idKey) (shopFields idKey) shopColumns t.id := by
  intro t ht
  cases List.mem_singleton.mp ht
  exact shop_arranged ⟨b! "shop/t", 20, 5⟩ (by decide)

theorem shop_restored (ff : FloatFmt) : ∀ row ∈ shopRows (b! "ann") false, All2 (Restored ff) (columnsOf shopColumns 20) row := by
  intro row hrow
  rw [show columnsOf shopColumns 20 = [shopId, shopName] by decide]
  rcases List.mem_cons.mp hrow with rfl | hrow
  · exact .cons ⟨trivial, trivial⟩ (.cons ⟨trivial, ⟨by decide, by decide⟩⟩ .nil)
  · cases List.mem_singleton.mp hrow
    exact .cons ⟨trivial, trivial⟩ (.cons (by show shopName.mtype ≠ _; decide) .nil)

theorem shop_compact : ∀ d ∈ leafPages (shopData (b! "ann")) 30 false, isCompact d = true := by
  intro d hd
  rw [shopData_leaf (.inl rfl)] at hd
  cases List.mem_singleton.mp hd
  exact shopData_compact (.inl rfl)

theorem hy_chars : ∀ t ∈ namedTables hyName, ∀ c ∈ t.name, storedChar c = true := by
  intro t ht
  cases List.mem_singleton.mp ht
  decide

/-- The hypotheses of `C75_lost` hold. -/
theorem hy_lost (env : Env) (out : Out) : fromDataFile env (hyArgs (b! "my-table")) out = .panic out :=
  C75_lost env _ _ _ _ _ _ _ 30 _ _ _ false (shopRows (b! "ann") false) rfl rfl hy_dictionary (shopData_file env (.inl rfl) false) (by decide)
    (named_keys _) (shopData_marked (.inl rfl) false) hy_chars (by decide) (by decide) out

/-- the hypotheses of `C75_exact_partial` hold -/
example (env : Env) (out : Out) : (∃ lines, fromDataFile env (hyArgs (b! "my-table")) out = .ok () (out ++ lines) ∧
    All2 (Printed env.ff (b! "shop") (b! "my-table")) lines (shopRows (b! "ann") false)) ↔ ∀ c ∈ b! "shop" ++ b! "my-table", plain c = true :=
  C75_exact_partial env (hyArgs (b! "my-table")) _ _ _ _ _ _ ⟨hyName, 20, 5⟩ ⟨20, 30, b! "PRIMARY", 1, 3⟩ _ _ false _ rfl rfl hy_dictionary
    (List.mem_singleton.mpr rfl) (by decide) (shop_layout ⟨b! "shop/t", 20, 5⟩ (by decide)) (shopData_file env (.inl rfl) false) (by decide)
    (named_keys _) (shop_handled ⟨b! "shop/t", 20, 5⟩ (by decide)) (shopData_marked (.inl rfl) false) shop_compact (by decide) (shop_restored env.ff)
    hy_chars (by decide) (by decide) out

/-- the hypotheses of `C75_renamed` hold -/
example (env : Env) (out : Out) : ∃ lines, fromDataFile env (hyArgs (b! "my@002dtable")) out = .ok () (out ++ lines) ∧
    All2 (Printed env.ff (b! "shop") (b! "my@002dtable")) lines (shopRows (b! "ann") false) ∧
    ∀ line ∈ lines, ∀ row, ¬ Printed env.ff (b! "shop") (b! "my-table") line row := by
  obtain ⟨lines, h1, h2, h3⟩ := C75_renamed env (b! "shop") (b! "my-table") (hyArgs (b! "my@002dtable")) _ _ _ _ _ _ ⟨hyName, 20, 5⟩
    ⟨20, 30, b! "PRIMARY", 1, 3⟩ _ _ false _ rfl rfl rfl rfl hy_dictionary
    (List.mem_singleton.mpr rfl) (by decide) (shop_layout ⟨b! "shop/t", 20, 5⟩ (by decide)) (shopData_file env (.inl rfl) false) (by decide)
    (named_keys _) (shop_handled ⟨b! "shop/t", 20, 5⟩ (by decide)) (shopData_marked (.inl rfl) false) shop_compact (by decide) (shop_restored env.ff) out
  exact ⟨lines, h1, h2, h3 (by decide)⟩

/-- C75 is false of the code: the rows of the table `my-table` are not printed. -/
theorem C75_false : ¬ C75_statement := by
  intro h
  obtain ⟨lines, h1, -⟩ := h testEnv (hyArgs (b! "my-table")) _ _ _ _ _ _ ⟨hyName, 20, 5⟩ ⟨20, 30, b! "PRIMARY", 1, 3⟩ _ _ false
    (shopRows (b! "ann") false) rfl rfl hy_dictionary
    (List.mem_singleton.mpr rfl) (by decide) (shop_layout ⟨b! "shop/t", 20, 5⟩ (by decide)) (shopData_file testEnv (.inl rfl) false) (by decide)
    (named_keys _) (shop_handled ⟨b! "shop/t", 20, 5⟩ (by decide)) (shopData_marked (.inl rfl) false) shop_compact (by decide) (shop_restored testEnv.ff)
    (by decide) (by decide) (by decide) (by decide) []
  rw [hy_lost] at h1
  cases h1

/-! ### Its log -/

def hyRedo : FromRedo := { sysFile := .ok (namedFile hyName), redoFile := b! "ib_logfile0,ib_logfile1", db := b! "shop", table := b! "my-table" }

def hyChanges : List (Option Change) :=
  [none, none, none, some ⟨b! "shop", b! "my@002dtable", [(b! "name", some (.varchar (b! "bob")))], [(b! "id", .int 4 7)]⟩, none, none]

theorem hy_keyed : Keyed shopColumns (shopIndexes idKey) (shopFields idKey) ⟨hyName, 20, 5⟩ (shopLayout 20) [b! "id"] :=
  ⟨shop_keyed.index, shop_keyed.layout, shop_keyed.names⟩

theorem hy_followed (env : Env) :
    All2 (Followed env hyRedo (namedTables hyName) shopColumns (shopIndexes idKey) (shopFields idKey)) (shopLog (b! "bob")) hyChanges := by
  have hh : Handled (shopIndexes idKey) (shopFields idKey) shopColumns 20 := shop_handled ⟨b! "shop/t", 20, 5⟩ (by decide)
  refine .cons (.other nofun fun _ => trivial) (.cons ?_ (.cons (.other nofun fun _ => trivial) (.cons ?_ (.cons ?_ (.cons (.other nofun fun _ => trivial) .nil)))))
  · exact .notUpdate (t := ⟨hyName, 20, 5⟩) (keys := [.int 4 7]) (List.mem_singleton.mpr rfl) rfl hy_keyed (shop_key_values env) rfl
      (by show 11 ≠ 12; decide) (by show 3 < 2 ^ 32; decide) (by show 20 < 2 ^ 32; decide) hh shop_trimmed (by
        intro v hv
        cases List.mem_singleton.mp hv
        exact ⟨trivial, rfl⟩)
  · refine .update (t := ⟨hyName, 20, 5⟩) (names := [b! "id"]) (keys := [.int 4 7]) (olds := [(3, some (.varchar (b! "bob")))])
      (List.mem_singleton.mpr rfl) rfl rfl hy_keyed
      (shop_key_values env) (shop_old_values env _) ⟨rfl, rfl, rfl⟩
      (by show 3 < 2 ^ 32; decide) (by show 20 < 2 ^ 32; decide) hh shop_trimmed ?_ ?_ ?_ ?_
    · intro v hv
      cases List.mem_singleton.mp hv
      exact ⟨trivial, rfl⟩
    · intro e he v hv
      cases List.mem_singleton.mp he
      cases hv
      trivial
    · intro _
      decide
    · intro h
      have : Wanted hyRedo ⟨b! "shop", b! "my@002dtable", [(b! "name", some (.varchar (b! "bob")))], [b! "id"].zip [.int 4 7]⟩ = false := rfl
      rw [this] at h
      cases h
  · refine .unknown ?_ (by show 3 < 2 ^ 32; decide) (by show 99 < 2 ^ 32; decide)
    intro t ht
    cases List.mem_singleton.mp ht
    show 20 ≠ 99
    decide

/-- the hypotheses of `C75_redo_lost` hold: the change is not printed -/
example (env : Env) (spare : Nat) (out : Out) : fromRedoFile env (shopDisk (b! "bob")) hyRedo spare out = .ok () out :=
  C75_redo_lost env _ hyRedo spare _ _ _ _ _ [b! "ib_logfile0", b! "ib_logfile1"]
    (shopParts (b! "bob")) (shopLog (b! "bob")) hyChanges rfl hy_dictionary (by decide) (by decide) rfl (shop_disk (.inl rfl)) (shop_cut _)
    (shop_log_fits (.inl rfl)) (named_keys _) (hy_followed env) (shop_ahead (.inl rfl)) (shop_log_length (.inl rfl)) hy_chars (by decide) out

/-! ## C57, with written files -/

def writtenArgs : FromData :=
  { sysFile := .ok (namedFile (b! "shop/t")), db := b! "shop", table := b! "t", opType := b! "RecoveryStruct",
    tableFile := .ok (writeTable 30 shopDefs [shopCells 1 (some (b! "ann")), shopCells 2 none] [shopCells 3 (some (b! "bob"))]) }

set_option maxRecDepth 4000 in
/-- the hypotheses of `C57_written_partial` hold -/
theorem written_prints (env : Env) (out : Out) :
    ∃ lines, fromDataFile env writtenArgs out = .ok () (out ++ lines) ∧
      All2 (Printed env.ff (b! "shop") (b! "t")) lines (shopRows (b! "ann") false) := by
  have hd := named_dictionary (b! "shop/t") (b! "shop") (b! "t") rfl (by decide) (by decide) (by decide) (by decide)
  have hf := shopData_file env (name := b! "ann") (.inl rfl) false
  exact C57_written_partial env writtenArgs (namedTables (b! "shop/t")) shopColumns (shopIndexes idKey) (shopFields idKey) ⟨b! "shop/t", 20, 5⟩
    ⟨20, 30, b! "PRIMARY", 1, 3⟩ (shopLayout 20) shopDefs [shopCells 1 (some (b! "ann")), shopCells 2 none] [shopCells 3 (some (b! "bob"))] false
    (shopRows (b! "ann") false) rfl rfl (named_writable _ (by decide)) hd.indexes hd.ids hd.names (by decide) rfl (shop_layout ⟨b! "shop/t", 20, 5⟩ (by decide))
    hf.names hf.bits hf.desc (by decide) (by decide) (by decide) (by decide) (.cons (shopData_stores 1 (some (b! "ann"))) (.cons (shopData_stores 2 none) .nil))
    hf.typed (by decide) (named_keys _) (shop_handled ⟨b! "shop/t", 20, 5⟩ (by decide)) (by decide) (shop_restored env.ff)
    (show 96 ∉ b! "shop" by decide) (show 96 ∉ b! "t" by decide) out

end Verif.Props
