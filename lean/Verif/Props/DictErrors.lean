import Verif.Props.Terminates
import Verif.Props.RedoCommand
/-!
# C63: errors in loading the dictionary
-/

namespace Verif.Props
open Verif Spec

/-- the root pages of the four tables named in the dictionary header (page 7), all 0 if the file has no such page -/
def headerRoots (content : Bytes) : List Nat :=
  match (filePages content).find? fun d => pageNumber d == 7 with
  | some d => [field d DICT_HDR_TABLES, field d DICT_HDR_COLUMNS, field d DICT_HDR_INDEXES, field d DICT_HDR_FIELDS]
  | none => [0, 0, 0, 0]

/-- one of the root pages has this index id -/
def HasRoot (content : Bytes) (id : Nat) : Prop :=
  ∃ d ∈ filePages content, pageNumber d ∈ headerRoots content ∧ field d PAGE_INDEX_ID = id

def noTables : Bytes := b! "sys table's page have not found"
def noColumns : Bytes := b! "sys column's page have not found"
def noIndexes : Bytes := b! "sys indexes' page have not found"
def noFields : Bytes := b! "sys field's page have not found"

/-! ## The pages kept -/

theorem findSysHeader_eq (P : List Bytes) (hP : ∀ d ∈ P, d.length = pageSize) :
    ∃ sp, findSysHeader (P.map rawPage) = some sp ∧ roots sp = (match P.find? fun d => pageNumber d == 7 with
      | some d => [field d DICT_HDR_TABLES, field d DICT_HDR_COLUMNS, field d DICT_HDR_INDEXES, field d DICT_HDR_FIELDS]
      | none => [0, 0, 0, 0]) := by
  induction P with
  | nil => exact ⟨{}, rfl, rfl⟩
  | cons d P ih =>
    by_cases h7 : pageNumber d = 7
    · rw [List.find?_cons_of_pos (by simpa using h7)]
      obtain ⟨sp, h1, h2, h3, h4, h5⟩ := C32_header [] P d (by rw [hP d (by simp)]; decide) h7 (by simp)
      exact ⟨sp, h1, by unfold roots; rw [h2, h3, h4, h5]⟩
    · rw [List.find?_cons_of_neg (by simpa using h7), List.map_cons, findSysHeader,
        if_neg (show ¬ (rawPage d).fh.offset = SystemPageIdx from h7)]
      exact ih fun x hx => hP x (by simp [hx])

theorem keepPages_some (sp : SysHeader) (P : List Bytes) (D : GoMap (List DataDict)) (x : Nat)
    (h : (D.get? x).isSome ∨ ∃ d ∈ P, pageNumber d ∈ roots sp ∧ field d PAGE_INDEX_ID = x) :
    ((P.foldl (keepPage sp) D).get? x).isSome := by
  induction P generalizing D with
  | nil =>
    rcases h with h | ⟨d, hd, _⟩
    · exact h
    · cases hd
  | cons d P ih =>
    rw [List.foldl_cons]
    apply ih
    rw [keepPage_get]
    rcases h with h | ⟨d', hd, h1, h2⟩
    · left
      split
      · split
        · rfl
        · rw [Option.isSome_map]; exact h
      · exact h
    · rcases List.mem_cons.mp hd with rfl | hd
      · left
        rw [if_pos h2, if_pos h1]
        rfl
      · exact .inr ⟨d', hd, h1, h2⟩

/-- `ParseDictPage` after the pages are collected -/
theorem readDict_eq (env : Env) (content : Bytes) (out : Out) : ∃ D : GoMap (List DataDict),
    readDict env content { out := out } = andThen (getAllTables env) (andThen (getAllColumns env) (andThen (getAllIndexes env)
      (getAllFields env))) { dict := D, out := out } ∧ ∀ x, (D.get? x).isSome ↔ HasRoot content x := by
  have hl := filePages_length content
  obtain ⟨sp, h1, h2⟩ := findSysHeader_eq (filePages content) hl
  refine ⟨(filePages content).foldl (keepPage sp) [], ?_, fun x => ?_⟩
  · unfold readDict
    have hfile : parseFile content = some ((filePages content).map rawPage) := by
      rw [parseFile_eq, filePages, List.map_map]
      rfl
    rw [hfile, GoM.lift_some_bind, h1, GoM.lift_some_bind, GoM.get_bind, collectPages_eq sp _ hl, GoM.lift_some_bind, GoM.modify_bind]
  · have he : headerRoots content = roots sp := h2.symm
    unfold HasRoot
    rw [he]
    constructor
    · intro hs
      by_contra hc
      rw [keepPages_none sp _ _ x rfl fun d hd hi hr => hc ⟨d, hd, hr, hi⟩] at hs
      cases hs
    · intro hs
      exact keepPages_some sp _ _ x (.inr hs)

/-! ## The steps -/

/-- What a step returns: `err` exactly if the pages of `id` are missing, otherwise nothing or `other`. -/
def Reports (id : Nat) (err : Bytes) (other : Bytes → Prop) (m : GoM DState (Option Bytes)) : Prop :=
  ∀ s e s', m s = .ok e s' → s'.dict = s.dict ∧
    (s.dict.get? id = none ∧ e = some err ∨ (s.dict.get? id).isSome ∧ (e = none ∨ ∃ x, e = some x ∧ other x))

theorem reports_rows (env : Env) (id : Nat) (cols : List Column) (err : Bytes) (other : Bytes → Prop)
    (k : TableMap → List (List Column) → GoM DState (Option Bytes))
    (hk : ∀ t rows s e s', k t rows s = .ok e s' → s'.dict = s.dict ∧ (e = none ∨ ∃ x, e = some x ∧ other x)) :
    Reports id err other (do
      let s ← GoM.get
      match s.dict.get? id with
      | none => return some err
      | some dts => do
        let rows ← withCols cols (parseDictPages env s.tables dts)
        k s.tables rows) := by
  intro s e s' h
  rw [GoM.get_bind] at h
  cases hg : s.dict.get? id with
  | none => rw [hg] at h; cases h; exact ⟨rfl, .inl ⟨rfl, rfl⟩⟩
  | some dts =>
    rw [hg] at h
    dsimp only at h
    obtain ⟨rows, s1, h1, h⟩ := GoM.bind_eq_ok h
    obtain ⟨h2, h3⟩ := hk _ _ _ _ _ h
    refine ⟨?_, .inr ⟨rfl, h3⟩⟩
    rw [h2]
    unfold withCols at h1
    rw [GoM.zoom_run] at h1
    split at h1
    · cases h1; rfl
    · cases h1
    · cases h1

theorem getAllTables_reports (env : Env) : Reports 1 noTables (fun _ => False) (getAllTables env) := by
  intro s e s' h
  unfold getAllTables at h
  rw [GoM.get_bind] at h
  show _ ∧ (s.dict.get? SysTablesIdx = none ∧ _ ∨ (s.dict.get? SysTablesIdx).isSome ∧ _)
  cases hg : s.dict.get? SysTablesIdx with
  | none => rw [hg] at h; cases h; exact ⟨rfl, .inl ⟨rfl, rfl⟩⟩
  | some dts =>
    rw [hg] at h
    dsimp only at h
    obtain ⟨_, s1, h1, h⟩ := GoM.bind_eq_ok h
    cases h
    exact ⟨allTablesLoop_dict env dts _ s _ _ h1, .inr ⟨rfl, .inl rfl⟩⟩

theorem getAllColumns_reports (env : Env) : Reports 2 noColumns (fun _ => False) (getAllColumns env) := by
  refine reports_rows env SysColumnsIdx makeSysColumnsColumns _ _ (fun t rows => do
    let t ← GoM.lift (foldRows addColumnRow t rows)
    GoM.modify (·.setTables t)
    return none) ?_
  intro t rows s e s' h
  obtain ⟨x, s1, h1, h⟩ := GoM.bind_eq_ok h
  cases hf : foldRows addColumnRow t rows with
  | none => rw [hf] at h1; cases h1
  | some y => rw [hf] at h1; cases h1; cases h; exact ⟨rfl, .inl rfl⟩

theorem getAllFields_reports (env : Env) : Reports 4 noFields (fun _ => False) (getAllFields env) := by
  refine reports_rows env SysFieldsIdx makeSysFieldsColumns _ _ (fun _ rows => do
    let m ← GoM.lift (foldRows addFieldRow [] rows)
    GoM.modify (fun s => s.setTables (attachFields m s.tables))
    return none) ?_
  intro t rows s e s' h
  obtain ⟨x, s1, h1, h⟩ := GoM.bind_eq_ok h
  cases hf : foldRows addFieldRow [] rows with
  | none => rw [hf] at h1; cases h1
  | some y => rw [hf] at h1; cases h1; cases h; exact ⟨rfl, .inl rfl⟩

/-- the error of an index row whose table is unknown -/
def Unknown (x : Bytes) : Prop := ∃ n, x = b! "Table ID have not found " ++ dec n

theorem addIndexRow_error (ff : FloatFmt) (tables : TableMap) (err : Option Bytes) (row : List Column) (t' : TableMap) (err' : Option Bytes)
    (h : addIndexRow ff tables err row = some (t', err')) (he : err = none ∨ ∃ x, err = some x ∧ Unknown x) :
    err' = none ∨ ∃ x, err' = some x ∧ Unknown x := by
  unfold addIndexRow at h
  obtain ⟨tid, h1, h⟩ := Option.bind_eq_some_iff.mp h
  cases hg : tables.get? tid with
  | some t =>
    rw [hg] at h
    dsimp only at h
    obtain ⟨_, _, h⟩ := Option.bind_eq_some_iff.mp h
    obtain ⟨_, _, h⟩ := Option.bind_eq_some_iff.mp h
    obtain ⟨_, _, h⟩ := Option.bind_eq_some_iff.mp h
    obtain ⟨_, _, h⟩ := Option.bind_eq_some_iff.mp h
    cases h
    exact he
  | none =>
    rw [hg] at h
    dsimp only at h
    obtain ⟨c, h2, h⟩ := Option.bind_eq_some_iff.mp h
    cases h
    unfold rowUint at h1
    rw [h2] at h1
    cases hv : c.value <;> simp [hv, Val.asUint] at h1
    exact .inr ⟨_, rfl, _, rfl⟩

theorem addIndexRows_error (ff : FloatFmt) (rows : List (List Column)) (b b' : TableMap × Option Bytes)
    (h : foldRows (fun b r => addIndexRow ff b.1 b.2 r) b rows = some b') (he : b.2 = none ∨ ∃ x, b.2 = some x ∧ Unknown x) :
    b'.2 = none ∨ ∃ x, b'.2 = some x ∧ Unknown x := by
  induction rows generalizing b with
  | nil => cases h; exact he
  | cons r rows ih =>
    rw [foldRows] at h
    obtain ⟨c, h1, h⟩ := Option.bind_eq_some_iff.mp h
    exact ih c h (addIndexRow_error ff b.1 b.2 r c.1 c.2 h1 he)

theorem getAllIndexes_reports (env : Env) : Reports 3 noIndexes Unknown (getAllIndexes env) := by
  refine reports_rows env SysIndexesIdx makeSysIndexesColumns _ _ (fun t rows => do
    let t ← GoM.lift (foldRows (fun b r => addIndexRow env.ff b.1 b.2 r) (t, none) rows)
    GoM.modify (·.setTables t.1)
    return t.2) ?_
  intro t rows s e s' h
  obtain ⟨x, s1, h1, h⟩ := GoM.bind_eq_ok h
  cases hf : foldRows (fun b r => addIndexRow env.ff b.1 b.2 r) (t, none) rows with
  | none => rw [hf] at h1; cases h1
  | some y =>
    rw [hf] at h1
    cases h1
    cases h
    exact ⟨rfl, addIndexRows_error env.ff rows (t, none) _ hf (.inl rfl)⟩

theorem andThen_inv {σ : Type} {m k : GoM σ (Option Bytes)} {s s' : σ} {e : Option Bytes} (h : andThen m k s = .ok e s') :
    (∃ x, e = some x ∧ m s = .ok (some x) s') ∨ ∃ s1, m s = .ok none s1 ∧ k s1 = .ok e s' := by
  unfold andThen at h
  obtain ⟨r, s1, h1, h⟩ := GoM.bind_eq_ok h
  cases r with
  | some x => cases h; exact .inl ⟨x, rfl, h1⟩
  | none => exact .inr ⟨s1, h1, h⟩

/-! ## C63 -/

def Outcome (content : Bytes) (e : Option Bytes) : Prop :=
  (¬ HasRoot content 1 ∧ e = some noTables) ∨
  (HasRoot content 1 ∧ ¬ HasRoot content 2 ∧ e = some noColumns) ∨
  (HasRoot content 1 ∧ HasRoot content 2 ∧ ¬ HasRoot content 3 ∧ e = some noIndexes) ∨
  (HasRoot content 1 ∧ HasRoot content 2 ∧ HasRoot content 3 ∧ ∃ x, e = some x ∧ Unknown x) ∨
  (HasRoot content 1 ∧ HasRoot content 2 ∧ HasRoot content 3 ∧ ¬ HasRoot content 4 ∧ e = some noFields) ∨
  (HasRoot content 1 ∧ HasRoot content 2 ∧ HasRoot content 3 ∧ HasRoot content 4 ∧ e = none)

/-- Every outcome of `ParseDictPage` that is not an abort. -/
theorem dict_outcome (env : Env) (content : Bytes) (out : Out) (e : Option Bytes) (s : DState)
    (h : parseDictPage env (.ok content) { out := out } = .ok e s) : Outcome content e := by
  rw [parseDictPage_split] at h
  obtain ⟨D, h1, hD⟩ := readDict_eq env content out
  have hN : ∀ x, D.get? x = none ↔ ¬ HasRoot content x := by
    intro x
    rw [← hD, ← Option.isNone_iff_eq_none]
    cases D.get? x <;> simp
  have key : ∀ e s, readDict env content { out := out } = .ok e s → Outcome content e := by
    intro e s h
    rw [h1] at h
    rcases andThen_inv h with ⟨x, rfl, g⟩ | ⟨s1, h2, h⟩
    · obtain ⟨_, ⟨a1, a2⟩ | ⟨_, a2 | ⟨_, _, a2⟩⟩⟩ := getAllTables_reports env _ _ _ g
      · exact Or.inl ⟨(hN 1).mp a1, a2⟩
      · cases a2
      · exact a2.elim
    obtain ⟨d1, ⟨_, a2⟩ | ⟨a1, _⟩⟩ := getAllTables_reports env _ _ _ h2
    · cases a2
    have r1 := (hD 1).mp a1
    rcases andThen_inv h with ⟨x, rfl, g⟩ | ⟨s2, h3, h⟩
    · obtain ⟨_, ⟨a1, a2⟩ | ⟨_, a2 | ⟨_, _, a2⟩⟩⟩ := getAllColumns_reports env _ _ _ g
      · rw [d1] at a1
        exact Or.inr (Or.inl ⟨r1, (hN 2).mp a1, a2⟩)
      · cases a2
      · exact a2.elim
    obtain ⟨d2, ⟨_, a2⟩ | ⟨a1, _⟩⟩ := getAllColumns_reports env _ _ _ h3
    · cases a2
    rw [d1] at a1
    have r2 := (hD 2).mp a1
    rcases andThen_inv h with ⟨x, rfl, g⟩ | ⟨s3, h4, h⟩
    · obtain ⟨_, ⟨a1, a2⟩ | ⟨a1, a2 | ⟨y, a2, a3⟩⟩⟩ := getAllIndexes_reports env _ _ _ g
      · rw [d2, d1] at a1
        exact Or.inr (Or.inr (Or.inl ⟨r1, r2, (hN 3).mp a1, a2⟩))
      · cases a2
      · rw [d2, d1] at a1
        exact Or.inr (Or.inr (Or.inr (Or.inl ⟨r1, r2, (hD 3).mp a1, y, a2, a3⟩)))
    obtain ⟨d3, ⟨_, a2⟩ | ⟨a1, _⟩⟩ := getAllIndexes_reports env _ _ _ h4
    · cases a2
    rw [d2, d1] at a1
    have r3 := (hD 3).mp a1
    obtain ⟨_, ⟨a1, a2⟩ | ⟨a1, a2 | ⟨_, _, a2⟩⟩⟩ := getAllFields_reports env _ _ _ h
    · rw [d3, d2, d1] at a1
      exact Or.inr (Or.inr (Or.inr (Or.inr (Or.inl ⟨r1, r2, r3, (hN 4).mp a1, a2⟩))))
    · rw [d3, d2, d1] at a1
      exact Or.inr (Or.inr (Or.inr (Or.inr (Or.inr ⟨r1, r2, r3, (hD 4).mp a1, a2⟩))))
    · exact a2.elim
  rcases andThen_inv h with ⟨x, rfl, g⟩ | ⟨s1, h2, h⟩
  · exact key _ _ g
  · have := key _ _ h2
    have he : e = none := by
      unfold arrangeDict at h
      rw [GoM.get_bind] at h
      obtain ⟨t, s2, _, h⟩ := GoM.bind_eq_ok h
      obtain ⟨t, s3, _, h⟩ := GoM.bind_eq_ok h
      obtain ⟨t, s4, _, h⟩ := GoM.bind_eq_ok h
      cases h
      rfl
    rw [he]
    exact this

/-- **C63.**  If `ParseDictPage` does not abort on a readable file, it reports the first of SYS_TABLES, SYS_COLUMNS, SYS_INDEXES for
which none of the root pages named in the dictionary header has its index id; if these three have a root page, an index row with unknown table;
then a missing root of SYS_FIELDS; and otherwise no error. -/
theorem C63_missing_root (env : Env) (content : Bytes) (out : Out) (e : Option Bytes) (s : DState)
    (h : parseDictPage env (.ok content) { out := out } = .ok e s) :
    (e = some (b! "sys table's page have not found") ↔ ¬ HasRoot content 1) ∧
    (e = some (b! "sys column's page have not found") ↔ HasRoot content 1 ∧ ¬ HasRoot content 2) ∧
    (e = some (b! "sys indexes' page have not found") ↔ HasRoot content 1 ∧ HasRoot content 2 ∧ ¬ HasRoot content 3) ∧
    (e = some (b! "sys field's page have not found") → HasRoot content 1 ∧ HasRoot content 2 ∧ HasRoot content 3 ∧ ¬ HasRoot content 4) ∧
    (e = none → HasRoot content 1 ∧ HasRoot content 2 ∧ HasRoot content 3 ∧ HasRoot content 4) ∧
    (∀ x, e = some x → x ∈ [b! "sys table's page have not found", b! "sys column's page have not found", b! "sys indexes' page have not found",
      b! "sys field's page have not found"] ∨ ∃ n, x = b! "Table ID have not found " ++ dec n) := by
  have hu : ∀ {x y : Bytes}, Unknown x → y.head? ≠ some 84 → x ≠ y := by
    rintro x y ⟨n, rfl⟩ hy rfl
    exact hy rfl
  have d12 : noTables ≠ noColumns := by decide
  have d13 : noTables ≠ noIndexes := by decide
  have d14 : noTables ≠ noFields := by decide
  have d23 : noColumns ≠ noIndexes := by decide
  have d24 : noColumns ≠ noFields := by decide
  have d34 : noIndexes ≠ noFields := by decide
  show (e = some noTables ↔ _) ∧ (e = some noColumns ↔ _) ∧ (e = some noIndexes ↔ _) ∧ (e = some noFields → _) ∧ (e = none → _) ∧
    (∀ x, e = some x → x ∈ [noTables, noColumns, noIndexes, noFields] ∨ _)
  rcases dict_outcome env content out e s h with ⟨r1, rfl⟩ | ⟨r1, r2, rfl⟩ | ⟨r1, r2, r3, rfl⟩ | ⟨r1, r2, r3, x, rfl, hx⟩ |
    ⟨r1, r2, r3, r4, rfl⟩ | ⟨r1, r2, r3, r4, rfl⟩
  · simp [r1, d12, d13, d14]
  · simp [r1, r2, d12.symm, d23, d24]
  · simp [r1, r2, r3, d13.symm, d23.symm, d34]
  · have n1 := hu hx (y := noTables) (by decide)
    have n2 := hu hx (y := noColumns) (by decide)
    have n3 := hu hx (y := noIndexes) (by decide)
    have n4 := hu hx (y := noFields) (by decide)
    refine ⟨by simp [r1, n1], by simp [r2, n2], by simp [r3, n3], by simp [n4], by simp, ?_⟩
    rintro y hy
    cases hy
    exact .inr hx
  · simp [r1, r2, r3, r4, d14.symm, d24.symm, d34.symm]
  · simp [r1, r2, r3, r4]

/-- **C63**, no dictionary at all: without a root page of SYS_TABLES the dictionary is not loaded, whatever else the file contains (an empty
file, a file of another kind); the commands do not abort: `FromDataFile` prints exactly this error and `FromRedoFile` nothing. -/
theorem C63_no_dictionary (env : Env) (content : Bytes) (h : ¬ HasRoot content 1) (out : Out) :
    (∃ s, parseDictPage env (.ok content) { out := out } = .ok (some (b! "sys table's page have not found")) s) ∧
    (∀ a : FromData, a.sysFile = .ok content → fromDataFile env a out = .ok () (out ++ [b! "sys table's page have not found"])) ∧
    ∀ (a : FromRedo) (fs : Bytes → File) (spare : Nat), a.sysFile = .ok content → fromRedoFile env fs a spare out = .ok () out := by
  obtain ⟨D, h1, hD⟩ := readDict_eq env content out
  have hn : D.get? 1 = none := by
    rw [← Option.isNone_iff_eq_none]
    have := (hD 1).not.mpr h
    revert this
    cases D.get? 1 <;> simp
  have key : parseDictPage env (.ok content) { out := out } = .ok (some (b! "sys table's page have not found")) { dict := D, out := out } := by
    rw [parseDictPage_split]
    refine andThen_error ?_
    rw [h1]
    refine andThen_error ?_
    unfold getAllTables
    rw [GoM.get_bind]
    rw [show (DState.dict { dict := D, out := out }).get? SysTablesIdx = none from hn]
    rfl
  refine ⟨⟨_, key⟩, fun a ha => ?_, fun a fs spare ha => ?_⟩
  · exact C51_dictionary_error env a out _ _ (by rw [ha]; exact key)
  · have ho := dict_out env _ out key
    unfold fromRedoFile
    rw [ha, key]

/-- an empty system file -/
example : ¬ HasRoot [] 1 := by
  rintro ⟨d, hd, _⟩
  have : filePages [] = [] := by decide
  rw [this] at hd
  cases hd

/-- **C63**, index rows of unknown tables: an intact dictionary in which an index row belongs to no table is not loaded; the error names the
last unknown table id.  `FromDataFile` prints only this error and `FromRedoFile` nothing. -/
theorem C63_unknown_table (env : Env) (content : Bytes) (trs : List TableRow) (crs : List ColumnRow) (irs : List IndexRow)
    (frs : List FieldRow) (h : SystemFile content trs crs irs frs) (pre post : List IndexRow) (r : IndexRow) (hi : irs = pre ++ r :: post)
    (hr : ∀ t ∈ trs, t.id ≠ r.tableId) (hpost : ∀ x ∈ post, ∃ t ∈ trs, t.id = x.tableId) (out : Out) :
    (∃ s, parseDictPage env (.ok content) { out := out } = .ok (some (b! "Table ID have not found " ++ dec r.tableId)) s) ∧
    (∀ a : FromData, a.sysFile = .ok content → fromDataFile env a out = .ok () (out ++ [b! "Table ID have not found " ++ dec r.tableId])) ∧
    ∀ (a : FromRedo) (fs : Bytes → File) (spare : Nat), a.sysFile = .ok content → fromRedoFile env fs a spare out = .ok () out := by
  obtain ⟨tables, t3, dict, h1, _⟩ := dict_rows env content trs crs irs frs h out
  have hu : unknownTable trs irs = some (b! "Table ID have not found " ++ dec r.tableId) := by
    unfold unknownTable lastWith
    rw [hi, List.reverse_append, List.reverse_cons, List.append_assoc, List.find?_append]
    have : (post.reverse.find? fun r : IndexRow => trs.all (·.id != r.tableId)) = none := by
      rw [List.find?_eq_none]
      intro x hx hc
      obtain ⟨t, ht, he⟩ := hpost x (by simpa using hx)
      have := List.all_eq_true.mp hc t ht
      simp [he] at this
    rw [this, Option.none_or, List.singleton_append, List.find?_cons_of_pos]
    · rfl
    · exact List.all_eq_true.mpr fun t ht => by simpa using hr t ht
  rw [hu] at h1
  have key := (parseDictPage_split env content) ▸ (andThen_error (k := arrangeDict) h1)
  refine ⟨⟨_, key⟩, fun a ha => ?_, fun a fs spare ha => ?_⟩
  · exact C51_dictionary_error env a out _ _ (by rw [ha]; exact key)
  · unfold fromRedoFile
    rw [ha, key]

/-! ### A dictionary with an index of an unknown table -/

def orphanIndexRec : List OldCell :=
  [cellOf (beEnc 8 21), cellOf (beEnc 8 30), cellOf (zeros 6), cellOf (zeros 7), cellOf (b! "PRIMARY"), cellOf (beEnc 4 1), cellOf (beEnc 4 3),
    cellOf (beEnc 4 5), cellOf (beEnc 4 3)]
def orphanIndexes : List IndexRow := [⟨21, 30, b! "PRIMARY", 1, 3⟩]
def orphanIndexesPage : Bytes := indexTop 11 3 140 ++ oldRecord 1 orphanIndexRec 116 ++ oldData orphanIndexRec
def orphanPages : List Bytes :=
  [shopHeader, shopTablesPage, shopColumnsRoot, orphanIndexesPage, shopFieldsPage idKey, shopColumnsPage]
def orphanFile : Bytes := (orphanPages.map pad).flatten

set_option maxRecDepth 4000 in
theorem orphan_length : ∀ p ∈ orphanPages, 90 ≤ p.length ∧ p.length ≤ 300 := by decide

theorem orphan_pages : filePages orphanFile = orphanPages.map pad := by
  refine images_flatten _ ?_ ?_
  · intro d hd
    obtain ⟨p, hp, rfl⟩ := List.mem_map.mp hd
    exact pad_length p (by have := orphan_length p hp; omega)
  · rw [List.map_map, List.map_congr_left (f := pageNumber ∘ pad) (g := pageNumber) fun p hp =>
      numAt_pad p 4 4 (by have := orphan_length p hp; omega)]
    decide

theorem orphan_filter (id : Nat) : (filePages orphanFile).filter (fun d => field d PAGE_INDEX_ID == id) =
    (orphanPages.filter fun d => field d PAGE_INDEX_ID == id).map pad := by
  rw [orphan_pages, List.filter_map]
  refine congrArg (List.map pad) (List.filter_congr fun p hp => ?_)
  rw [Function.comp_apply, show field (pad p) PAGE_INDEX_ID = field p PAGE_INDEX_ID from
    numAt_pad p 66 8 (by have := orphan_length p hp; omega)]

set_option maxRecDepth 4000 in
theorem orphan_indexesPage : TreePage IndexesLeaf [some 8, some 8] (pad orphanIndexesPage) orphanIndexes :=
  .leaf (padOld (by decide) (by decide))
    (padLinked (by decide) (by decide) (show link orphanIndexesPage 101 = 140 by decide) (by decide) (padLast (by decide) (by decide) (by decide)))
    (.cons (padRecord (w := 1) (next := 116) (row := orphanIndexRec) (by decide) (by decide) (by decide) (by decide)) .nil)
    (.cons ⟨by decide, by decide, by decide, by decide, zeros 6, zeros 7, beEnc 4 5, beEnc 4 3, by decide⟩ .nil)

set_option maxRecDepth 4000 in
theorem orphan_system : SystemFile orphanFile shopTables shopColumns orphanIndexes (shopFields idKey) := by
  refine ⟨pad shopHeader, by rw [orphan_pages]; exact List.mem_map_of_mem (by simp [orphanPages]), shop_field shopHeader (4, 4) 7 (by decide) (by decide),
    ?_, ?_, ?_, ?_⟩
  · rw [shop_field shopHeader DICT_HDR_TABLES 8 (by decide) (by decide)]
    exact ⟨pad shopTablesPage, [], [shopTables], by rw [orphan_filter]; exact congrArg (List.map pad) (a₂ := [shopTablesPage]) (by decide),
      shop_field shopTablesPage (4, 4) 8 (by decide) (by decide), .cons shop_tablesPage .nil, rfl⟩
  · rw [shop_field shopHeader DICT_HDR_COLUMNS 10 (by decide) (by decide)]
    exact ⟨pad shopColumnsRoot, [pad shopColumnsPage], [[], shopColumns],
      by rw [orphan_filter]; exact congrArg (List.map pad) (a₂ := [shopColumnsRoot, shopColumnsPage]) (by decide),
      shop_field shopColumnsRoot (4, 4) 10 (by decide) (by decide), .cons shop_columnsRoot (.cons shop_columnsPage .nil), rfl⟩
  · rw [shop_field shopHeader DICT_HDR_INDEXES 11 (by decide) (by decide)]
    exact ⟨pad orphanIndexesPage, [], [orphanIndexes], by rw [orphan_filter]; exact congrArg (List.map pad) (a₂ := [orphanIndexesPage]) (by decide),
      shop_field orphanIndexesPage (4, 4) 11 (by decide) (by decide), .cons orphan_indexesPage .nil, rfl⟩
  · rw [shop_field shopHeader DICT_HDR_FIELDS 12 (by decide) (by decide)]
    exact ⟨pad (shopFieldsPage idKey), [], [shopFields idKey], by rw [orphan_filter]; exact congrArg (List.map pad) (a₂ := [shopFieldsPage idKey]) (by decide),
      shop_field (shopFieldsPage idKey) (4, 4) 12 (by decide) (by decide), .cons (shop_fieldsPage (.inl rfl)) .nil, rfl⟩

example (env : Env) (data : File) (db name op : Bytes) :
    fromDataFile env ⟨.ok orphanFile, data, db, name, op⟩ [] = .ok () [b! "Table ID have not found 21"] :=
  (C63_unknown_table env _ _ _ _ _ orphan_system [] [] ⟨21, 30, b! "PRIMARY", 1, 3⟩ rfl (by decide) (by simp) []).2.1 _ rfl

/-- the roots of an intact dictionary -/
example : HasRoot (shopFile idKey) 1 ∧ HasRoot (shopFile idKey) 2 ∧ HasRoot (shopFile idKey) 3 ∧ HasRoot (shopFile idKey) 4 := by
  obtain ⟨tables, dict, h, _⟩ := shop_loads someEnv []
  exact (C63_missing_root someEnv _ [] none _ h).2.2.2.2.1 rfl

end Verif.Props
