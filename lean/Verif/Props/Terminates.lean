import Verif.Props.DataWitness
import Verif.Props.WalkWitness
import Verif.Props.RedoLoop
import Verif.Props.Output
/-!
# C60: the commands come to an end
-/

set_option linter.unusedSimpArgs false

namespace Verif.Props
open Verif Spec

/-- **C60**, as stated: every run of the two commands ends, whatever the files contain. -/
def C60_statement : Prop :=
  (∀ (env : Env) (a : FromData) (out o : Out), fromDataFile env a out ≠ .hang o) ∧
  ∀ (env : Env) (fs : Bytes → File) (a : FromRedo) (spare : Nat) (out o : Out), fromRedoFile env fs a spare out ≠ .hang o

/-- The record links from the first visited record do not lead into a cycle. -/
def Acyclic (d : Bytes) (recovery : Bool) : Prop := ¬ LeadsToCycle d (isCompact d) (firstRecord d recovery (field d PAGE_FREE))

/-! ## Well-formed record lists are acyclic -/

theorem no_cycle_stop {d : Bytes} {c : Bool} {o : Nat} (h : ∀ o', ¬ Next d c o o') : ¬ LeadsToCycle d c o := by
  rintro ⟨x, hx, hc⟩
  have hox : o = x := by
    rcases Relation.ReflTransGen.cases_head hx with h1 | ⟨y, h1, _⟩
    · exact h1
    · exact absurd h1 (h y)
  subst hox
  obtain ⟨y, h1, _⟩ := Relation.TransGen.head'_iff.mp hc
  exact h y h1

theorem no_cycle_step {d : Bytes} {c : Bool} {o : Nat} (h : ¬ LeadsToCycle d c (follow d c o)) : ¬ LeadsToCycle d c o := by
  rintro ⟨x, hx, hc⟩
  apply h
  rcases Relation.ReflTransGen.cases_head hx with h1 | ⟨y, h1, h2⟩
  · subst h1
    obtain ⟨y, h1, h2⟩ := Relation.TransGen.head'_iff.mp hc
    obtain rfl : y = follow d c o := h1.2.2.2
    exact ⟨_, .refl, .tail' h2 h1⟩
  · obtain rfl : y = follow d c o := h1.2.2.2
    exact ⟨x, h2, hc⟩

theorem linked_no_cycle {d : Bytes} {c : Bool} {o : Nat} {os : List Nat} (h : Linked d c o os) : ¬ LeadsToCycle d c (follow d c o) := by
  induction h with
  | last h => exact no_cycle_stop fun o' hn => hn.2.1 h
  | next _ _ ih => exact no_cycle_step ih

theorem freeList_no_cycle {d : Bytes} {c : Bool} {o : Nat} {os : List Nat} (h : FreeList d c o os) : ¬ LeadsToCycle d c o := by
  induction h with
  | last _ h => exact no_cycle_stop fun o' hn => hn.2.2.1 h
  | next _ _ _ ih => exact no_cycle_step ih

/-- On a page whose records are properly linked, parsing does not run into a cycle. -/
theorem linked_acyclic {d : Bytes} {os : List Nat} (h : Linked d (isCompact d) (infimumAt (isCompact d)) os) : Acyclic d false :=
  linked_no_cycle h

theorem freeList_acyclic {d : Bytes} {os : List Nat} (h : FreeList d (isCompact d) (field d PAGE_FREE) os) : Acyclic d true :=
  freeList_no_cycle h

/-! ## Steps that end -/

theorem NoHang.andThen {σ : Type} {m k : GoM σ (Option Bytes)} (hm : NoHang m) (hk : NoHang k) : NoHang (andThen m k) := by
  refine NoHang.bind hm fun e => ?_
  cases e with
  | some e => exact NoHang.pure _
  | none => exact hk

theorem parsePage_ends (env : Env) (tables : TableMap) (d : Bytes) (r : Bool) (free : Nat) (hd : d.length = 16384)
    (hf : r = true → free = field d PAGE_FREE) (h : Acyclic d r) :
    NoHang (parsePage env tables d r free) := by
  intro s s'
  refine C24_acyclic_partial env tables d r free s s' hd ?_
  unfold Acyclic firstRecord at h
  unfold firstRecord
  cases r with
  | false => exact h
  | true => rw [hf rfl]; exact h

/-! ## The dictionary -/

/-- a page on which parsing ends -/
def Fine (d : Bytes) (r : Bool := false) : Prop := d.length = 16384 ∧ Acyclic d r

theorem parseDictPages_ends (env : Env) (tables : TableMap) (dts : List DataDict) (h : ∀ x ∈ dts, Fine x.data) :
    NoHang (parseDictPages env tables dts) := by
  induction dts with
  | nil => exact NoHang.pure _
  | cons x dts ih =>
    have hx := h x (by simp)
    exact NoHang.bind (parsePage_ends env tables x.data false 0 hx.1 (fun h => nomatch h) hx.2) fun _ =>
      NoHang.bind (ih fun y hy => h y (by simp [hy])) fun _ => NoHang.pure _

theorem allTablesLoop_ends (env : Env) (dts : List DataDict) (cols : List Column) (h : ∀ x ∈ dts, Fine x.data) :
    NoHang (allTablesLoop env dts cols) := by
  induction dts generalizing cols with
  | nil => exact NoHang.pure _
  | cons x dts ih =>
    intro s s' he
    have hx := h x (by simp)
    rw [allTablesLoop] at he
    have hp := parsePage_ends env s.tables x.data false 0 hx.1 (fun h => nomatch h) hx.2 ⟨cols, s.out⟩
    beta_reduce at he
    generalize parsePage env s.tables x.data false 0 ⟨cols, s.out⟩ = r at he hp
    cases r with
    | ok rows p =>
      dsimp only at he
      cases hf : foldRows addTableRow s.tables rows with
      | none => rw [hf] at he; cases he
      | some t => rw [hf] at he; exact ih p.cols (fun y hy => h y (by simp [hy])) _ _ he
    | panic p => cases he
    | hang p => exact hp _ rfl

/-- the kept pages of the four tables -/
def FineDict (D : GoMap (List DataDict)) : Prop :=
  ∀ id dts, id ∈ [1, 2, 3, 4] → D.get? id = some dts → ∀ x ∈ dts, Fine x.data

/-- a run from a state with fine pages, ending in one, does not hang -/
def EndsD (m : GoM DState (Option Bytes)) : Prop :=
  ∀ s, FineDict s.dict → (∀ s', m s ≠ .hang s') ∧ ∀ e s', m s = .ok e s' → s'.dict = s.dict

theorem EndsD.andThen {m k : GoM DState (Option Bytes)} (hm : EndsD m) (hk : EndsD k) : EndsD (andThen m k) := by
  intro s hs
  obtain ⟨h1, h2⟩ := hm s hs
  unfold Verif.andThen
  rw [GoM.bind_run]
  cases hr : m s with
  | panic t => exact ⟨fun s' h => (by cases h), fun e s' h => (by cases h)⟩
  | hang t => exact absurd hr (h1 t)
  | ok e t =>
    have ht := h2 e t hr
    cases e with
    | some e => exact ⟨fun s' h => (by cases h), fun e s' h => by cases h; exact ht⟩
    | none =>
      obtain ⟨k1, k2⟩ := hk t (by rw [ht]; exact hs)
      exact ⟨k1, fun e s' h => by rw [k2 e s' h, ht]⟩

theorem allTablesLoop_dict (env : Env) (dts : List DataDict) (cols : List Column) (s : DState) (e : Unit) (s' : DState)
    (h : allTablesLoop env dts cols s = .ok e s') : s'.dict = s.dict := by
  induction dts generalizing cols s with
  | nil => cases h; rfl
  | cons x dts ih =>
    rw [allTablesLoop] at h
    beta_reduce at h
    generalize parsePage env s.tables x.data false 0 ⟨cols, s.out⟩ = r at h
    cases r with
    | ok rows p =>
      dsimp only at h
      cases hf : foldRows addTableRow s.tables rows with
      | none => rw [hf] at h; cases h
      | some t => rw [hf] at h; exact ih p.cols { s with tables := t, out := p.out } h
    | panic p => cases h
    | hang p => cases h

theorem getAllTables_ends (env : Env) : EndsD (getAllTables env) := by
  intro s hs
  unfold getAllTables
  rw [GoM.get_bind]
  cases hg : s.dict.get? SysTablesIdx with
  | none => exact ⟨fun s' h => (by cases h), fun e s' h => by cases h; rfl⟩
  | some dts =>
    dsimp only
    have hf := hs _ dts (by decide) hg
    refine ⟨NoHang.bind (allTablesLoop_ends env dts _ hf) (fun _ => NoHang.pure _) s, ?_⟩
    intro e s' h
    obtain ⟨_, s1, h1, h⟩ := GoM.bind_eq_ok h
    cases h
    exact allTablesLoop_dict env dts _ s _ _ h1

/-- the other three tables are read in the same way -/
theorem readRows_ends (env : Env) (id : Nat) (hid : id ∈ [1, 2, 3, 4]) (cols : List Column) (err : Bytes)
    (k : TableMap → List (List Column) → GoM DState (Option Bytes)) (hk : ∀ t rows, NoHang (k t rows))
    (hkd : ∀ t rows s e s', k t rows s = .ok e s' → s'.dict = s.dict) :
    EndsD (do
      let s ← GoM.get
      match s.dict.get? id with
      | none => return some err
      | some dts => do
        let rows ← withCols cols (parseDictPages env s.tables dts)
        k s.tables rows) := by
  intro s hs
  rw [GoM.get_bind]
  cases hg : s.dict.get? id with
  | none => exact ⟨fun s' h => (by cases h), fun e s' h => by cases h; rfl⟩
  | some dts =>
    dsimp only
    have hf := hs _ dts hid hg
    refine ⟨NoHang.bind (NoHang.zoom _ _ (parseDictPages_ends env s.tables dts hf)) (fun rows => hk _ rows) s, ?_⟩
    intro e s' h
    obtain ⟨rows, s1, h1, h⟩ := GoM.bind_eq_ok h
    rw [hkd _ _ _ _ _ h]
    unfold withCols at h1
    rw [GoM.zoom_run] at h1
    split at h1
    · cases h1; rfl
    · cases h1
    · cases h1

theorem getAllColumns_ends (env : Env) : EndsD (getAllColumns env) := by
  refine readRows_ends env SysColumnsIdx (by decide) makeSysColumnsColumns _ (fun t rows => do
    let t ← GoM.lift (foldRows addColumnRow t rows)
    GoM.modify (·.setTables t)
    return none) (fun t rows => NoHang.bind (NoHang.lift _) fun _ => NoHang.bind (NoHang.modify _) fun _ => NoHang.pure _) ?_
  intro t rows s e s' h
  obtain ⟨x, s1, h1, h⟩ := GoM.bind_eq_ok h
  cases hf : foldRows addColumnRow t rows with
  | none => rw [hf] at h1; cases h1
  | some y => rw [hf] at h1; cases h1; cases h; rfl

theorem getAllIndexes_ends (env : Env) : EndsD (getAllIndexes env) := by
  refine readRows_ends env SysIndexesIdx (by decide) makeSysIndexesColumns _ (fun t rows => do
    let t ← GoM.lift (foldRows (fun b r => addIndexRow env.ff b.1 b.2 r) (t, none) rows)
    GoM.modify (·.setTables t.1)
    return t.2) (fun t rows => NoHang.bind (NoHang.lift _) fun _ => NoHang.bind (NoHang.modify _) fun _ => NoHang.pure _) ?_
  intro t rows s e s' h
  obtain ⟨x, s1, h1, h⟩ := GoM.bind_eq_ok h
  cases hf : foldRows (fun b r => addIndexRow env.ff b.1 b.2 r) (t, none) rows with
  | none => rw [hf] at h1; cases h1
  | some y => rw [hf] at h1; cases h1; cases h; rfl

theorem getAllFields_ends (env : Env) : EndsD (getAllFields env) := by
  refine readRows_ends env SysFieldsIdx (by decide) makeSysFieldsColumns _ (fun _ rows => do
    let m ← GoM.lift (foldRows addFieldRow [] rows)
    GoM.modify (fun s => s.setTables (attachFields m s.tables))
    return none) (fun t rows => NoHang.bind (NoHang.lift _) fun _ => NoHang.bind (NoHang.modify _) fun _ => NoHang.pure _) ?_
  intro t rows s e s' h
  obtain ⟨x, s1, h1, h⟩ := GoM.bind_eq_ok h
  cases hf : foldRows addFieldRow [] rows with
  | none => rw [hf] at h1; cases h1
  | some y => rw [hf] at h1; cases h1; cases h; rfl

/-- every kept page is a page of the file with the index id under which it is kept -/
theorem kept_pages (sp : SysHeader) (P : List Bytes) (D : GoMap (List DataDict))
    (Q : Nat → Bytes → Prop) (hQ : ∀ d ∈ P, Q (field d PAGE_INDEX_ID) d)
    (hD : ∀ id dts, D.get? id = some dts → ∀ x ∈ dts, Q id x.data) :
    ∀ id dts, (P.foldl (keepPage sp) D).get? id = some dts → ∀ x ∈ dts, Q id x.data := by
  induction P generalizing D with
  | nil => exact hD
  | cons d P ih =>
    rw [List.foldl_cons]
    refine ih _ (fun x hx => hQ x (by simp [hx])) ?_
    have hd := hQ d (by simp)
    intro id dts hg x hx
    unfold keepPage at hg
    split at hg
    · by_cases he : id = field d PAGE_INDEX_ID
      · subst he
        rw [GoMap.get?_put, if_pos (by simp)] at hg
        cases hg
        cases List.mem_singleton.mp hx
        exact hd
      · rw [GoMap.get?_put, if_neg (by simpa using he)] at hg
        exact hD _ _ hg x hx
    · split at hg
      · rename_i ds hds
        by_cases he : id = field d PAGE_INDEX_ID
        · subst he
          rw [GoMap.get?_put, if_pos (by simp)] at hg
          cases hg
          rcases List.mem_append.mp hx with hx | hx
          · exact hD _ _ hds x hx
          · cases List.mem_singleton.mp hx
            exact hd
        · rw [GoMap.get?_put, if_neg (by simpa using he)] at hg
          exact hD _ _ hg x hx
      · exact hD _ _ hg x hx

/-- The record links on the pages of the four dictionary tables (the pages with their index ids) do not lead into a cycle. -/
def DictionaryAcyclic (f : File) : Prop :=
  ∀ content, f = .ok content → ∀ d ∈ filePages content, field d PAGE_INDEX_ID ∈ [1, 2, 3, 4] → Acyclic d false

theorem parseDictPage_ends (env : Env) (f : File) (h : DictionaryAcyclic f) (out : Out) (s' : DState) :
    parseDictPage env f { out := out } ≠ .hang s' := by
  cases f with
  | error e => intro h; cases h
  | ok content =>
    have hl := filePages_length content
    have hP := h content rfl
    rw [parseDictPage_split]
    have harr : NoHang arrangeDict := NoHang.bind NoHang.get fun _ => NoHang.bind (NoHang.lift _) fun _ => NoHang.bind (NoHang.lift _) fun _ =>
      NoHang.bind (NoHang.modify _) fun _ => NoHang.pure _
    have hread : ∀ s', readDict env content { out := out } ≠ .hang s' := by
      intro s'
      unfold readDict
      have hfile : parseFile content = some ((filePages content).map rawPage) := by
        rw [parseFile_eq, filePages, List.map_map]
        rfl
      rw [hfile, GoM.lift_some_bind]
      cases hsp : findSysHeader ((filePages content).map rawPage) with
      | none => rw [GoM.lift_none_bind]; intro h; cases h
      | some sp =>
        rw [GoM.lift_some_bind, GoM.get_bind]
        rw [collectPages_eq sp _ hl, GoM.lift_some_bind, GoM.modify_bind]
        refine ((getAllTables_ends env).andThen ((getAllColumns_ends env).andThen ((getAllIndexes_ends env).andThen
          (getAllFields_ends env))) _ ?_).1 s'
        intro id dts hid hg x hx
        refine kept_pages sp (filePages content) [] (fun id d => id ∈ [1, 2, 3, 4] → Fine d) ?_ ?_ id dts hg x hx hid
        · intro d hd hid
          exact ⟨hl d hd, hP d hd hid⟩
        · intro id dts hg
          cases hg
    unfold andThen
    rw [GoM.bind_run]
    cases hr : readDict env content { out := out } with
    | panic t => intro h; cases h
    | hang t => exact absurd hr (hread t)
    | ok e t =>
      cases e with
      | some e => intro h; cases h
      | none => exact harr t s'

/-! ## The commands -/

/-- The record links on the pages that the data command decodes do not lead into a cycle. -/
def DataAcyclic (f : File) (recovery : Bool) : Prop :=
  ∀ content, f = .ok content → ∀ d ∈ filePages content, Selected recovery d → Acyclic d recovery

theorem pagesRun_ends (env : Env) (tables : TableMap) (db name : Bytes) (recovery : Bool) (ds : List Bytes) (h : ∀ d ∈ ds, Fine d recovery) :
    NoHang (pagesRun env tables db name recovery ds) := by
  induction ds with
  | nil => exact NoHang.pure _
  | cons d ds ih =>
    have hd := h d (by simp)
    rw [pagesRun_cons]
    refine NoHang.bind ?_ fun _ => ih fun x hx => h x (by simp [hx])
    intro s s' he
    rw [printPage_full] at he
    have hp := parsePage_ends env tables d recovery (field d PAGE_FREE) hd.1 (fun _ => rfl) hd.2 s
    generalize parsePage env tables d recovery (field d PAGE_FREE) s = r at he hp
    cases r with
    | ok rows t => cases he
    | panic t => cases he
    | hang t => exact hp _ rfl

/-- **C60 (partial), data command.** It ends if the record links from the first visited record do not lead into a cycle, on the
dictionary pages of the system file and on the decoded pages of the data file.  Missing: files with such a cycle (`C60_false`). -/
theorem C60_data_partial (env : Env) (a : FromData) (out o : Out) (hs : DictionaryAcyclic a.sysFile)
    (ht : DataAcyclic a.tableFile (a.opType == b! "RecoveryData")) : fromDataFile env a out ≠ .hang o := by
  unfold fromDataFile
  cases hr : parseDictPage env a.sysFile { out := out } with
  | panic s => intro h; cases h
  | hang s => exact absurd hr (parseDictPage_ends env a.sysFile hs out s)
  | ok e s =>
    cases e with
    | some e => intro h; cases h
    | none =>
      dsimp only
      cases hf : a.tableFile with
      | error e => intro h; cases h
      | ok content =>
        rw [parseDataPage_run]
        have hp := pagesRun_ends env s.tables a.db a.table (a.opType == b! "RecoveryData")
          (selectedPages content (a.opType == b! "RecoveryData")) (by
            intro d hd
            obtain ⟨h1, h2⟩ := List.mem_filter.mp hd
            exact ⟨filePages_length content d h1, ht content hf d h1 (by simpa using h2)⟩)
          ⟨getTableColumnsFromDict s.tables a.db a.table, s.out⟩
        intro h
        generalize pagesRun env s.tables a.db a.table (a.opType == b! "RecoveryData") (selectedPages content (a.opType == b! "RecoveryData"))
          ⟨getTableColumnsFromDict s.tables a.db a.table, s.out⟩ = r at hp h
        cases r with
        | ok e t => cases h
        | panic t => cases h
        | hang t => exact hp _ rfl

/-- **C60 (partial), redo command.** It ends, whatever the log files contain, if the record links on the dictionary pages of the
system file do not lead from the first record into a cycle.  Missing: system files with such a cycle (`C60_false_redo`). -/
theorem C60_redo_partial (env : Env) (fs : Bytes → File) (a : FromRedo) (spare : Nat) (out o : Out)
    (hs : DictionaryAcyclic a.sysFile) : fromRedoFile env fs a spare out ≠ .hang o := by
  unfold fromRedoFile
  cases hr : parseDictPage env a.sysFile { out := out } with
  | panic s => intro h; cases h
  | hang s => exact absurd hr (parseDictPage_ends env a.sysFile hs out s)
  | ok e s =>
    cases e with
    | some e => intro h; cases h
    | none =>
      dsimp only
      intro h
      have hp := C40_files ⟨env, s.tables, a.table, a.db⟩ ((splitComma a.redoFile).map fs) spare s.out
      generalize parseRedoLogs ⟨env, s.tables, a.table, a.db⟩ ((splitComma a.redoFile).map fs) spare s.out = r at hp h
      cases r with
      | ok e t => cases e <;> cases h
      | panic t => cases h
      | hang t => exact hp _ rfl

/-! ## Well-formed files -/

theorem all2_right {α β : Type} {R : α → β → Prop} {xs : List α} {ys : List β} (h : All2 R xs ys) : ∀ x ∈ xs, ∃ y, R x y := by
  induction h with
  | nil => intro x hx; cases hx
  | cons h1 _ ih =>
    intro x hx
    rcases List.mem_cons.mp hx with rfl | hx
    · exact ⟨_, h1⟩
    · exact ih x hx

theorem tree_acyclic {ρ : Type} {pages : List Bytes} {root id : Nat} {leaf : ρ → List OldCell → Prop} {key : List (Option Nat)}
    {rows : List ρ} (h : Tree pages root id leaf key rows) {d : Bytes} (hd : d ∈ pages) (hid : field d PAGE_INDEX_ID = id) : Acyclic d false := by
  obtain ⟨d0, ds, rss, hf, _, h2, _⟩ := h
  have hm : d ∈ d0 :: ds := by
    rw [← hf]
    exact List.mem_filter.mpr ⟨hd, by rw [hid]; simp⟩
  obtain ⟨rs, hr⟩ := all2_right h2 d hm
  cases hr with
  | leaf hc hl _ _ => exact linked_acyclic (by rw [hc]; exact hl)
  | node hc hl _ _ => exact linked_acyclic (by rw [hc]; exact hl)

/-- The record links of the dictionary pages of a system file do not lead into a cycle. -/
theorem systemFile_acyclic {content : Bytes} {trs : List TableRow} {crs : List ColumnRow} {irs : List IndexRow} {frs : List FieldRow}
    (h : SystemFile content trs crs irs frs) : DictionaryAcyclic (.ok content) := by
  intro c hc d hd hid
  cases hc
  obtain ⟨_, _, _, h1, h2, h3, h4⟩ := h
  simp only [List.mem_cons, List.not_mem_nil, or_false] at hid
  rcases hid with hid | hid | hid | hid
  · exact tree_acyclic h1 hd hid
  · exact tree_acyclic h2 hd hid
  · exact tree_acyclic h3 hd hid
  · exact tree_acyclic h4 hd hid

/-- **C60 for intact system files, redo command:** it ends, whatever the log files contain. -/
theorem C60_redo_system (env : Env) (fs : Bytes → File) (content names db name : Bytes) (trs : List TableRow) (crs : List ColumnRow)
    (irs : List IndexRow) (frs : List FieldRow) (h : SystemFile content trs crs irs frs) (spare : Nat) (out o : Out) :
    fromRedoFile env fs ⟨.ok content, names, db, name⟩ spare out ≠ .hang o :=
  C60_redo_partial env fs _ spare out o (systemFile_acyclic h)

/-- **C60 for intact files, data command:** it ends if the record lists of the decoded pages are properly linked, whatever their
records contain. -/
theorem C60_data_system (env : Env) (content data db name op : Bytes) (trs : List TableRow) (crs : List ColumnRow)
    (irs : List IndexRow) (frs : List FieldRow) (h : SystemFile content trs crs irs frs)
    (hd : ∀ d ∈ filePages data, Selected (op == b! "RecoveryData") d → ∃ os, Records (op == b! "RecoveryData") d os) (out o : Out) :
    fromDataFile env ⟨.ok content, .ok data, db, name, op⟩ out ≠ .hang o := by
  refine C60_data_partial env _ out o (systemFile_acyclic h) ?_
  intro c hc d hm hs
  cases hc
  obtain ⟨os, hr⟩ := hd d hm hs
  dsimp only
  generalize (op == b! "RecoveryData") = r at hr
  cases r with
  | true => exact freeList_acyclic hr
  | false => exact linked_acyclic hr

/-- The hypotheses hold for the system file and the data file of the shop. -/
example (env : Env) (deleted : Bool) (out o : Out) : fromDataFile env (shopArgs (b! "ann") deleted) out ≠ .hang o :=
  C60_data_system env _ _ _ _ _ _ _ _ _ (shop_system (.inl rfl)) (by
    intro d hd _
    rw [shopData_pages (.inl rfl)] at hd
    cases List.mem_singleton.mp hd
    have := shopData_records (name := b! "ann") (.inl rfl) deleted
    cases deleted with
    | true => exact ⟨_, this⟩
    | false => exact ⟨_, this⟩) out o

/-- With this system file, the redo command ends on all log files. -/
example (env : Env) (fs : Bytes → File) (names db name : Bytes) (out o : Out) :
    fromRedoFile env fs ⟨.ok (shopFile idKey), names, db, name⟩ 0 out ≠ .hang o :=
  C60_redo_system env fs _ _ _ _ _ _ _ _ (shop_system (.inl rfl)) 0 out o

/-! ## Files on which the commands never end -/

/-- a page with a SYS_TABLES record whose link leads to itself -/
def loopPage : Bytes := indexTop 0 1 141 ++ oldRecord 1 shopTableRec 141 ++ oldData shopTableRec
/-- a system file that consists of this page -/
def loopFile : Bytes := ([loopPage].map pad).flatten

set_option maxRecDepth 4000 in
theorem loop_length : loopPage.length ≤ 300 := by decide

theorem loop_pages : filePages loopFile = [pad loopPage] := by
  refine images_flatten _ ?_ ?_
  · intro d hd
    obtain ⟨p, hp, rfl⟩ := List.mem_map.mp hd
    cases List.mem_singleton.mp hp
    exact pad_length _ (Nat.le_trans loop_length (by decide))
  · exact List.nodup_singleton _

set_option maxRecDepth 4000 in
theorem loop_record : OldRecordAt (pad loopPage) 141 shopTableRec :=
  padRecord (w := 1) (next := 141) (by decide) (by decide) (by decide) (by decide)

set_option maxRecDepth 4000 in
theorem loop_leaf : TablesLeaf ⟨b! "shop/t", 20, 5⟩ shopTableRec :=
  ⟨by decide, by decide, zeros 6, zeros 7, beEnc 4 2, beEnc 4 1, zeros 8, zeros 4, [], by decide⟩

set_option maxRecDepth 4000 in
theorem loop_hangs (env : Env) (tables : TableMap) (out : Out) :
    ∃ s', parsePage env tables (pad loopPage) false 0 ⟨makeSysTablesColumns, out⟩ = .hang s' := by
  have hlen : (pad loopPage).length = 16384 := pad_length _ (Nat.le_trans loop_length (by decide))
  have hold : isCompact (pad loopPage) = false := padOld (by decide) (by decide)
  have hl : ∀ o, o ≤ loopPage.length → 2 ≤ o → link (pad loopPage) o = link loopPage o := fun o h1 h2 => link_pad _ o h1 h2
  have hfit := sysTables_table.fit _ _ loop_leaf
  have hskel : makeSysTablesColumns.map skel = makeSysTablesColumns := by decide
  obtain ⟨cols', e1, _, _⟩ := sysParseOne env tables makeSysTablesColumns sysTables_table.cols sysTables_table.len3 shopTableRec hfit
    (pad loopPage) hlen 141 loop_record ⟨makeSysTablesColumns, []⟩ (by decide)
  have hn : nextOffset (pad loopPage) false 141 = some (some 141) := by
    unfold nextOffset
    rw [read_link _ _ (by decide) (by rw [hlen]; decide) (by rw [hlen]; decide), hl 141 (by decide) (by decide),
      show link loopPage 141 = 141 by decide]
    rfl
  have hstep : stepC env tables (pad loopPage) false makeSysTablesColumns 141 = some 141 := by
    unfold stepC
    rw [if_pos (by decide), e1, hn]
    rfl
  have hs : (steps (stepC env tables (pad loopPage) false makeSysTablesColumns) walkFuel 141).isSome :=
    steps_cycle _ (m := 1) (by decide) (by unfold steps; rw [hstep]; rfl) _
  rw [parsePage_start env tables (pad loopPage) 0 hlen hold, hl 101 (by decide) (by decide), show link loopPage 101 = 141 by decide]
  exact (walk_hang_iff env tables (pad loopPage) false _ walkFuel 141 [] ⟨makeSysTablesColumns, out⟩ hskel).mpr hs

/-- a file with a single page, the root of SYS_TABLES, on which the walk does not end -/
theorem dict_hangs (env : Env) (content d : Bytes) (hp : filePages content = [d]) (hl : d.length = 16384) (h0 : pageNumber d = 0)
    (hid : field d PAGE_INDEX_ID = 1) (out : Out)
    (hh : ∃ s', parsePage env [] d false 0 ⟨makeSysTablesColumns, out⟩ = .hang s') :
    ∃ s', parseDictPage env (.ok content) { out := out } = .hang s' := by
  obtain ⟨s', hh⟩ := hh
  have hfile : parseFile content = some [rawPage d] := by
    have : parseFile content = some ((filePages content).map rawPage) := by
      rw [parseFile_eq, filePages, List.map_map]
      rfl
    rw [this, hp]
    rfl
  have hoff : (rawPage d).fh.offset = 0 := h0
  have hsp : findSysHeader [rawPage d] = some {} := by
    rw [findSysHeader, if_neg (by rw [hoff]; decide)]
    rfl
  have hcol : ∀ D, collectPages {} [rawPage d] D = some (D.put 1 [entryOf d]) := by
    intro D
    have := collectPages_eq {} [d] (by intro x hx; cases List.mem_singleton.mp hx; exact hl) D
    rw [List.map_cons, List.map_nil] at this
    rw [this, List.foldl_cons, List.foldl_nil, keepPage, if_pos (by rw [h0]; decide), hid]
  have hall : getAllTables env { out := out, dict := [(1, [entryOf d])] } = .hang { out := s'.out, dict := [(1, [entryOf d])] } := by
    unfold getAllTables
    rw [GoM.get_bind]
    show (allTablesLoop env [entryOf d] makeSysTablesColumns >>= fun _ => pure none) _ = _
    rw [GoM.bind_run]
    have : allTablesLoop env [entryOf d] makeSysTablesColumns { out := out, dict := [(1, [entryOf d])] } =
        .hang { out := s'.out, dict := [(1, [entryOf d])] } := by
      rw [allTablesLoop]
      beta_reduce
      rw [show (entryOf d).data = d from rfl, hh]
    rw [this]
  refine ⟨{ out := s'.out, dict := [(1, [entryOf d])] }, ?_⟩
  unfold parseDictPage
  dsimp only
  rw [hfile, GoM.lift_some_bind, hsp, GoM.lift_some_bind, GoM.get_bind, hcol, GoM.lift_some_bind, GoM.modify_bind]
  unfold andThen
  rw [GoM.bind_run]
  rw [show ({ tables := _, dict := GoMap.put _ 1 [entryOf d], out := _ } : DState) = { out := out, dict := [(1, [entryOf d])] } from rfl, hall]

set_option maxRecDepth 4000 in
theorem loop_dict (env : Env) (out : Out) : ∃ s', parseDictPage env (.ok loopFile) { out := out } = .hang s' :=
  dict_hangs env loopFile (pad loopPage) loop_pages (pad_length _ (Nat.le_trans loop_length (by decide)))
    (shop_field loopPage (4, 4) 0 (by decide) (by decide)) (shop_field loopPage PAGE_INDEX_ID 1 (by decide) (by decide)) out (loop_hangs env [] out)

theorem data_hangs (env : Env) (f t : File) (db name op : Bytes) (out : Out) (h : ∃ s', parseDictPage env f { out := out } = .hang s') :
    ∃ o, fromDataFile env ⟨f, t, db, name, op⟩ out = .hang o := by
  obtain ⟨s', h⟩ := h
  unfold fromDataFile
  dsimp only
  rw [h]
  exact ⟨_, rfl⟩

theorem redo_hangs (env : Env) (fs : Bytes → File) (f : File) (names db name : Bytes) (spare : Nat) (out : Out)
    (h : ∃ s', parseDictPage env f { out := out } = .hang s') : ∃ o, fromRedoFile env fs ⟨f, names, db, name⟩ spare out = .hang o := by
  obtain ⟨s', h⟩ := h
  unfold fromRedoFile
  dsimp only
  rw [h]
  exact ⟨_, rfl⟩

/-- C60 is false of the code: with this system file the data command never ends, whatever the data file contains. -/
theorem C60_false_data (env : Env) (t : File) (db name op : Bytes) (out : Out) :
    ∃ o, fromDataFile env ⟨.ok loopFile, t, db, name, op⟩ out = .hang o := data_hangs env _ t db name op out (loop_dict env out)

/-- The same for the redo command. -/
theorem C60_false_redo (env : Env) (fs : Bytes → File) (names db name : Bytes) (spare : Nat) (out : Out) :
    ∃ o, fromRedoFile env fs ⟨.ok loopFile, names, db, name⟩ spare out = .hang o := redo_hangs env fs _ names db name spare out (loop_dict env out)

theorem C60_false : ¬ C60_statement := by
  intro h
  obtain ⟨o, ho⟩ := C60_false_redo testEnv (fun _ => .ok []) [] [] [] 0 []
  exact h.2 _ _ _ _ _ _ ho

end Verif.Props
