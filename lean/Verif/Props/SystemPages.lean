import Verif.Props.OtherPages
import Verif.Props.DictErrors
import Verif.Props.DictExact
import Verif.Props.Order
import Verif.Props.Names
/-!
# C87: pages of the system file outside the dictionary
-/

namespace Verif.Props
open Verif Spec

/-- the index ids of SYS_TABLES, SYS_COLUMNS, SYS_INDEXES and SYS_FIELDS -/
def dictIds : List Nat := [1, 2, 3, 4]

/-- The page is the dictionary header, or the bytes that are the index id in an index page are one of the four ids. -/
def OfDict (d : Bytes) : Prop := pageNumber d = 7 ∨ field d PAGE_INDEX_ID ∈ dictIds

instance (d : Bytes) : Decidable (OfDict d) := inferInstanceAs (Decidable (_ ∨ _))

/-! ## The pages collected -/

/-- the pages kept agree for the four tables -/
def SameIds (D D' : GoMap (List DataDict)) : Prop := ∀ x ∈ dictIds, D.get? x = D'.get? x

theorem keepPage_agree {sp : SysHeader} {D D' : GoMap (List DataDict)} (h : SameIds D D') (d : Bytes) :
    SameIds (keepPage sp D d) (keepPage sp D' d) := by
  intro x hx
  rw [keepPage_get, keepPage_get, h x hx]

theorem keepPage_skip {sp : SysHeader} {D D' : GoMap (List DataDict)} (h : SameIds D D') {d : Bytes} (hd : ¬ OfDict d) :
    SameIds (keepPage sp D d) D' := by
  intro x hx
  rw [keepPage_get, if_neg, h x hx]
  intro e
  exact hd (.inr (e ▸ hx))

theorem keepPages_filter (sp : SysHeader) (P : List Bytes) (D D' : GoMap (List DataDict)) (h : SameIds D D') :
    SameIds (P.foldl (keepPage sp) D) ((P.filter fun d => decide (OfDict d)).foldl (keepPage sp) D') := by
  induction P generalizing D D' with
  | nil => exact h
  | cons d P ih =>
    by_cases hd : OfDict d
    · rw [List.filter_cons_of_pos (by simpa using hd), List.foldl_cons, List.foldl_cons]
      exact ih _ _ (keepPage_agree h d)
    · rw [List.filter_cons_of_neg (by simpa using hd), List.foldl_cons]
      exact ih _ _ (keepPage_skip h hd)

theorem findSysHeader_filter (P : List Bytes) :
    findSysHeader (P.map rawPage) = findSysHeader ((P.filter fun d => decide (OfDict d)).map rawPage) := by
  induction P with
  | nil => rfl
  | cons d P ih =>
    by_cases h7 : pageNumber d = 7
    · rw [List.filter_cons_of_pos (by simpa using (show OfDict d from .inl h7)), List.map_cons, List.map_cons, findSysHeader, findSysHeader,
        if_pos (show (rawPage d).fh.offset = SystemPageIdx from h7), if_pos (show (rawPage d).fh.offset = SystemPageIdx from h7)]
    · rw [List.map_cons, findSysHeader, if_neg (show ¬ (rawPage d).fh.offset = SystemPageIdx from h7), ih]
      by_cases hd : OfDict d
      · rw [List.filter_cons_of_pos (by simpa using hd), List.map_cons, findSysHeader,
          if_neg (show ¬ (rawPage d).fh.offset = SystemPageIdx from h7)]
      · rw [List.filter_cons_of_neg (by simpa using hd)]

/-! ## The steps -/

/-- the same dictionary and output; the pages kept agree for the four tables -/
def Twin (s s' : DState) : Prop := s.tables = s'.tables ∧ s.out = s'.out ∧ SameIds s.dict s'.dict

theorem tablesLoop_twin (env : Env) (dts : List DataDict) (cols : List Column) {s s' : DState} (h : Twin s s') :
    RRel Twin Eq (allTablesLoop env dts cols s) (allTablesLoop env dts cols s') := by
  induction dts generalizing cols s s' with
  | nil => exact .ok rfl h
  | cons dt dts ih =>
    rw [allTablesLoop]
    beta_reduce
    rw [h.1, h.2.1]
    cases parsePage env s'.tables dt.data false 0 ⟨cols, s'.out⟩ with
    | panic p => exact .panic ⟨rfl, rfl, h.2.2⟩
    | hang p => exact .hang ⟨rfl, rfl, h.2.2⟩
    | ok rows p =>
      dsimp only
      cases foldRows addTableRow s'.tables rows with
      | none => exact .panic ⟨rfl, rfl, h.2.2⟩
      | some t => exact ih p.cols ⟨rfl, rfl, h.2.2⟩

theorem tables_twin (env : Env) {s s' : DState} (h : Twin s s') : RRel Twin Eq (getAllTables env s) (getAllTables env s') := by
  unfold getAllTables
  gom
  rw [h.2.2 SysTablesIdx (by decide)]
  cases s'.dict.get? SysTablesIdx with
  | none => exact .ok rfl h
  | some dts =>
    dsimp only
    exact RRel.bind (tablesLoop_twin env dts _ h) fun _ _ _ _ _ h => .ok rfl h

theorem columns_twin (env : Env) {s s' : DState} (h : Twin s s') : RRel Twin Eq (getAllColumns env s) (getAllColumns env s') := by
  unfold getAllColumns withCols
  gom
  rw [h.2.2 SysColumnsIdx (by decide), h.1]
  cases s'.dict.get? SysColumnsIdx with
  | none => exact .ok rfl h
  | some dts =>
    gom
    rw [h.2.1]
    cases parseDictPages env s'.tables dts ⟨makeSysColumnsColumns, s'.out⟩ with
    | panic p => exact .panic ⟨h.1, rfl, h.2.2⟩
    | hang p => exact .hang ⟨h.1, rfl, h.2.2⟩
    | ok rows p =>
      dsimp only
      cases foldRows addColumnRow s'.tables rows with
      | none => exact .panic ⟨h.1, rfl, h.2.2⟩
      | some t => exact .ok rfl ⟨rfl, rfl, h.2.2⟩

theorem indexes_twin (env : Env) {s s' : DState} (h : Twin s s') : RRel Twin Eq (getAllIndexes env s) (getAllIndexes env s') := by
  unfold getAllIndexes withCols
  gom
  rw [h.2.2 SysIndexesIdx (by decide), h.1]
  cases s'.dict.get? SysIndexesIdx with
  | none => exact .ok rfl h
  | some dts =>
    gom
    rw [h.2.1]
    cases parseDictPages env s'.tables dts ⟨makeSysIndexesColumns, s'.out⟩ with
    | panic p => exact .panic ⟨h.1, rfl, h.2.2⟩
    | hang p => exact .hang ⟨h.1, rfl, h.2.2⟩
    | ok rows p =>
      dsimp only
      cases foldRows (fun b r => addIndexRow env.ff b.1 b.2 r) (s'.tables, none) rows with
      | none => exact .panic ⟨h.1, rfl, h.2.2⟩
      | some t => exact .ok rfl ⟨rfl, rfl, h.2.2⟩

theorem fields_twin (env : Env) {s s' : DState} (h : Twin s s') : RRel Twin Eq (getAllFields env s) (getAllFields env s') := by
  unfold getAllFields withCols
  gom
  rw [h.2.2 SysFieldsIdx (by decide), h.1]
  cases s'.dict.get? SysFieldsIdx with
  | none => exact .ok rfl h
  | some dts =>
    gom
    rw [h.2.1]
    cases parseDictPages env s'.tables dts ⟨makeSysFieldsColumns, s'.out⟩ with
    | panic p => exact .panic ⟨h.1, rfl, h.2.2⟩
    | hang p => exact .hang ⟨h.1, rfl, h.2.2⟩
    | ok rows p =>
      dsimp only
      cases foldRows addFieldRow [] rows with
      | none => exact .panic ⟨h.1, rfl, h.2.2⟩
      | some m => exact .ok rfl ⟨congrArg (attachFields m) h.1, rfl, h.2.2⟩

theorem arrange_twin {s s' : DState} (h : Twin s s') : RRel Twin Eq (arrangeDict s) (arrangeDict s') := by
  unfold arrangeDict
  gom
  rw [h.1]
  cases movePrimaryKeyFirst (sortColumns s'.tables) with
  | none => exact .panic h
  | some t =>
    gom
    cases addInternalColumns t with
    | none => exact .panic h
    | some u => exact .ok rfl ⟨rfl, h.2.1, h.2.2⟩

theorem andThen_twin {m k m' k' : GoM DState (Option Bytes)} {s s' : DState} (h : RRel Twin Eq (m s) (m' s'))
    (hk : ∀ t t', Twin t t' → RRel Twin Eq (k t) (k' t')) : RRel Twin Eq (andThen m k s) (andThen m' k' s') := by
  unfold andThen
  refine RRel.bind h fun a b t t' hab ht => ?_
  subst hab
  cases a with
  | some e => exact .ok rfl ht
  | none => exact hk t t' ht

/-- the pages of the dictionary, as they are kept -/
theorem readDict_pages (env : Env) (content : Bytes) (out : Out) : ∃ sp,
    findSysHeader ((filePages content).map rawPage) = some sp ∧
    readDict env content { out := out } = andThen (getAllTables env) (andThen (getAllColumns env) (andThen (getAllIndexes env)
      (getAllFields env))) { dict := (filePages content).foldl (keepPage sp) [], out := out } := by
  have hl := filePages_length content
  obtain ⟨sp, h1, -⟩ := findSysHeader_eq (filePages content) hl
  refine ⟨sp, h1, ?_⟩
  unfold readDict
  have hfile : parseFile content = some ((filePages content).map rawPage) := by
    rw [parseFile_eq, filePages, List.map_map]
    rfl
  rw [hfile, GoM.lift_some_bind, h1, GoM.lift_some_bind, GoM.get_bind, collectPages_eq sp _ hl, GoM.lift_some_bind, GoM.modify_bind]

/-- Loading depends on the dictionary header and on the pages kept under the four ids only. -/
theorem load_alike (env : Env) (c c' : Bytes) (out : Out)
    (hh : findSysHeader ((filePages c).map rawPage) = findSysHeader ((filePages c').map rawPage))
    (hids : ∀ sp, findSysHeader ((filePages c).map rawPage) = some sp →
      SameIds ((filePages c).foldl (keepPage sp) []) ((filePages c').foldl (keepPage sp) [])) :
    RRel (fun s s' : DState => s.tables = s'.tables ∧ s.out = s'.out) Eq
      (parseDictPage env (.ok c) { out := out }) (parseDictPage env (.ok c') { out := out }) := by
  obtain ⟨sp, h1, h2⟩ := readDict_pages env c out
  obtain ⟨sp', h1', h2'⟩ := readDict_pages env c' out
  have hsp : sp = sp' := by
    rw [hh, h1'] at h1
    injection h1 with h1
    exact h1.symm
  subst hsp
  have hids := hids sp h1
  have key : RRel Twin Eq (parseDictPage env (.ok c) { out := out }) (parseDictPage env (.ok c') { out := out }) := by
    rw [parseDictPage_split, parseDictPage_split]
    refine andThen_twin ?_ fun _ _ => arrange_twin
    rw [h2, h2']
    exact andThen_twin (tables_twin env ⟨rfl, rfl, hids⟩) fun _ _ ht => andThen_twin (columns_twin env ht) fun _ _ ht =>
      andThen_twin (indexes_twin env ht) fun _ _ ht => fields_twin env ht
  revert key
  generalize parseDictPage env (.ok c) { out := out } = r
  generalize parseDictPage env (.ok c') { out := out } = r'
  intro key
  cases key with
  | ok e hs => exact .ok e ⟨hs.1, hs.2.1⟩
  | panic hs => exact .panic ⟨hs.1, hs.2.1⟩
  | hang hs => exact .hang ⟨hs.1, hs.2.1⟩

/-- **C87, loading.** Two system files have the same dictionary header and the same pages with the ids of the dictionary tables, in the same
order.  Then the same dictionary is loaded from both, or loading fails in the same way. -/
theorem C87_load (env : Env) (c c' : Bytes) (out : Out)
    (h : (filePages c).filter (fun d => decide (OfDict d)) = (filePages c').filter (fun d => decide (OfDict d))) :
    RRel (fun s s' : DState => s.tables = s'.tables ∧ s.out = s'.out) Eq
      (parseDictPage env (.ok c) { out := out }) (parseDictPage env (.ok c') { out := out }) := by
  refine load_alike env c c' out (by rw [findSysHeader_filter, h, ← findSysHeader_filter]) fun sp _ x hx => ?_
  rw [keepPages_filter sp (filePages c) [] [] (fun _ _ => rfl) x hx, keepPages_filter sp (filePages c') [] [] (fun _ _ => rfl) x hx, h]

/-! ## The commands -/

/-- Running the commands with a system file with this content. -/
def dataWith (env : Env) (a : FromData) (content : Bytes) : GoM Out Unit := fromDataFile env { a with sysFile := .ok content }
def redoWith (env : Env) (fs : Bytes → File) (a : FromRedo) (spare : Nat) (content : Bytes) : GoM Out Unit :=
  fromRedoFile env fs { a with sysFile := .ok content } spare

/-- Both commands print the same with the two system files, and end in the same way. -/
def SameForAll (env : Env) (c c' : Bytes) : Prop :=
  (∀ a, dataWith env a c = dataWith env a c') ∧ ∀ fs a spare, redoWith env fs a spare c = redoWith env fs a spare c'

theorem sameForAll_of_load {env : Env} {c c' : Bytes}
    (h : ∀ out, RRel (fun s s' : DState => s.tables = s'.tables ∧ s.out = s'.out) Eq
      (parseDictPage env (.ok c) { out := out }) (parseDictPage env (.ok c') { out := out })) : SameForAll env c c' := by
  constructor
  · intro a
    funext out
    have hl := h out
    unfold dataWith fromDataFile
    dsimp only
    generalize parseDictPage env (.ok c) { out := out } = r at hl
    generalize parseDictPage env (.ok c') { out := out } = r' at hl
    cases hl with
    | panic hs => dsimp only; rw [hs.2]
    | hang hs => dsimp only; rw [hs.2]
    | ok e hs =>
      subst e
      rename_i e s s'
      cases e with
      | some e => dsimp only; rw [hs.2]
      | none => dsimp only; rw [hs.1, hs.2]
  · intro fs a spare
    funext out
    have hl := h out
    unfold redoWith fromRedoFile
    dsimp only
    generalize parseDictPage env (.ok c) { out := out } = r at hl
    generalize parseDictPage env (.ok c') { out := out } = r' at hl
    cases hl with
    | panic hs => dsimp only; rw [hs.2]
    | hang hs => dsimp only; rw [hs.2]
    | ok e hs =>
      subst e
      rename_i e s s'
      cases e with
      | some e => dsimp only; rw [hs.2]
      | none => dsimp only; rw [hs.1, hs.2]

theorem sameForAll {env : Env} {c c' : Bytes}
    (h : (filePages c).filter (fun d => decide (OfDict d)) = (filePages c').filter (fun d => decide (OfDict d))) : SameForAll env c c' :=
  sameForAll_of_load fun out => C87_load env c c' out h

/-- The full claim of C87: pages of a correct system file that are neither the dictionary header nor index pages may be overwritten with other such
pages, and both commands do the same. -/
def C87_statement : Prop :=
  ∀ (env : Env) (ps ps' : List Bytes), (∀ p ∈ ps, p.length = 16384) → (∀ p ∈ ps', p.length = 16384) →
    All2 (fun p p' => p = p' ∨ (pageNumber p = pageNumber p' ∧ pageNumber p ≠ 7 ∧ field p FIL_PAGE_TYPE ≠ 17855 ∧ field p' FIL_PAGE_TYPE ≠ 17855)) ps ps' →
    (ps.map pageNumber).Nodup → (∃ trs crs irs frs, Dictionary ps.flatten trs crs irs frs) → SameForAll env ps.flatten ps'.flatten

/-- **C87 (partial).** Pages of whatever type that have the same number in both files, have not the number of the dictionary header and in which the
bytes 66 to 73 are not the number 1, 2, 3 or 4 have no influence on either command.  Missing: other pages with such bytes, which
are taken for pages of the dictionary (`C87_false`). -/
theorem C87_in_place_partial (env : Env) (c c' : Bytes) (hn : pageCount c = pageCount c')
    (h : ∀ k < pageCount c, pageImage c k = pageImage c' k ∨ (pageNumber (pageImage c k) = pageNumber (pageImage c' k) ∧
      pageNumber (pageImage c k) ≠ 7 ∧ field (pageImage c k) PAGE_INDEX_ID ∉ [1, 2, 3, 4] ∧ field (pageImage c' k) PAGE_INDEX_ID ∉ [1, 2, 3, 4])) :
    SameForAll env c c' := by
  apply sameForAll
  have hnum : ∀ k < pageCount c, pageNumber (pageImage c k) = pageNumber (pageImage c' k) := by
    intro k hk
    rcases h k hk with h | h
    · rw [h]
    · exact h.1
  have hf : firstCopies c = firstCopies c' := by
    unfold firstCopies
    rw [← hn]
    apply List.filter_congr
    intro k hk
    rw [List.mem_range] at hk
    rw [Bool.eq_iff_iff, List.all_eq_true, List.all_eq_true]
    constructor <;> intro hall i hi <;> have := hall i hi <;> rw [List.mem_range] at hi
    · rwa [hnum i (by omega), hnum k hk] at this
    · rwa [← hnum i (by omega), ← hnum k hk] at this
  unfold filePages
  rw [← hf]
  have hmem : ∀ k ∈ firstCopies c, k < pageCount c := by
    intro k hk
    unfold firstCopies at hk
    exact List.mem_range.mp (List.mem_filter.mp hk).1
  revert hmem
  generalize firstCopies c = l
  intro hmem
  induction l with
  | nil => rw [List.map_nil, List.map_nil]
  | cons k l ih =>
    have ih := ih fun j hj => hmem j (by simp [hj])
    rw [List.map_cons, List.map_cons]
    rcases h k (hmem k (by simp)) with he | ⟨e, h7, h1, h2⟩
    · exact filter_cons_eq he ih
    · have n1 : ¬ OfDict (pageImage c k) := fun ho => ho.elim h7 h1
      have n2 : ¬ OfDict (pageImage c' k) := fun ho => ho.elim (e ▸ h7) h2
      rw [List.filter_cons_of_neg (by simpa using n1), List.filter_cons_of_neg (by simpa using n2), ih]

/-- **C87 (partial), pages appended.** The same of pages at the end of the system file, whatever their numbers are. -/
theorem C87_appended_partial (env : Env) (ps extra : List Bytes) (hl : ∀ p ∈ ps ++ extra, p.length = 16384)
    (h : ∀ p ∈ extra, pageNumber p ≠ 7 ∧ field p PAGE_INDEX_ID ∉ [1, 2, 3, 4]) : SameForAll env (ps ++ extra).flatten ps.flatten := by
  apply sameForAll
  induction extra generalizing ps with
  | nil => rw [List.append_nil]
  | cons p extra ih =>
    have := ih (ps ++ [p]) (fun q hq => hl q (by simpa using hq)) fun q hq => h q (by simp [hq])
    rw [List.append_assoc, List.singleton_append] at this
    rw [this]
    unfold filePages
    rw [images_snoc ps p fun q hq => hl q (by simp at hq ⊢; tauto)]
    have hp : ¬ OfDict p := fun ho => ho.elim (h p (by simp)).1 (h p (by simp)).2
    split
    · rw [List.append_nil]
    · rw [List.filter_append, List.filter_cons_of_neg (by simpa using hp), List.filter_nil, List.append_nil]

/-! ## A page that is not an index page -/

theorem tables_then_bad (env : Env) (ds : List Bytes) (hd : ∀ d ∈ ds, d.length = 16384) (rss : List (List TableRow))
    (hp : All2 (TreePage TablesLeaf [none]) ds rss) (bad : Bytes) (hb : bad.length = 16384) (hc : isCompact bad = false) (hl : link bad 101 = 1)
    (cols : List Column) (hcols : cols.map unval = makeSysTablesColumns) (s : DState) :
    ∃ t, allTablesLoop env ((ds ++ [bad]).map entryOf) cols s = .panic { s with tables := t } := by
  induction hp generalizing cols s with
  | nil =>
    refine ⟨s.tables, ?_⟩
    rw [List.nil_append, List.map_cons, allTablesLoop]
    have e1 : parsePage env s.tables (entryOf bad).data false 0 ⟨cols, s.out⟩ = .panic ⟨cols, s.out⟩ := bad_panics env s.tables bad 0 hb hc hl _
    beta_reduce
    rw [e1]
  | @cons d rs ds rss h1 _ ih =>
    obtain ⟨r, p, e1, e2, e3, e4⟩ := sysPage sysTables_table env s.tables d (hd d (by simp)) rs h1 ⟨cols, s.out⟩ hcols
    have hfold := foldRows_typed addTableRow (fun m r => m.put r.id (tableOf r)) IsTableRow addTableRow_eq r rs e4 s.tables
    obtain ⟨t, f3⟩ := ih (fun x hx => hd x (by simp [hx])) p.cols e3
      { s with tables := rs.foldl (fun m r => m.put r.id (tableOf r)) s.tables, out := p.out }
    refine ⟨t, ?_⟩
    rw [List.cons_append, List.map_cons, allTablesLoop]
    have e1' : parsePage env s.tables (entryOf d).data false 0 ⟨cols, s.out⟩ = .ok r p := e1
    beta_reduce
    rw [e1']
    dsimp only
    rw [hfold]
    dsimp only
    rw [f3]
    dsimp only
    rw [e2]

/-- Appending one page to a correct system file makes both commands abort, if its bytes 66 to 73 are the number 1 and the two bytes before
the infimum record of a page in REDUNDANT format are the number 1: nothing else of it matters, in particular not its type. -/
theorem C87_abort (env : Env) (ps : List Bytes) (p : Bytes) (hl : ∀ q ∈ ps ++ [p], q.length = 16384) (hn : ((ps ++ [p]).map pageNumber).Nodup)
    (trs : List TableRow) (crs : List ColumnRow) (irs : List IndexRow) (frs : List FieldRow) (hs : SystemFile ps.flatten trs crs irs frs)
    (h1 : field p PAGE_INDEX_ID = 1) (hc : isCompact p = false) (hk : link p 101 = 1)
    (hr : ∀ h ∈ ps, pageNumber h = 7 → pageNumber p ∉ [field h DICT_HDR_TABLES, field h DICT_HDR_COLUMNS, field h DICT_HDR_INDEXES, field h DICT_HDR_FIELDS]) :
    (∀ a out, dataWith env a (ps ++ [p]).flatten out = .panic out) ∧
    ∀ fs a spare out, redoWith env fs a spare (ps ++ [p]).flatten out = .panic out := by
  have hl' : ∀ q ∈ ps, q.length = 16384 := fun q hq => hl q (by simp [hq])
  have hn' : (ps.map pageNumber).Nodup := by
    rw [List.map_append, List.nodup_append] at hn
    exact hn.1
  have hfp : filePages (ps ++ [p]).flatten = ps ++ [p] := images_flatten _ hl hn
  have hfp' : filePages ps.flatten = ps := images_flatten _ hl' hn'
  unfold SystemFile at hs
  rw [hfp'] at hs
  obtain ⟨hp, hmem, h7, ⟨d1, ds1, rss1, f1, r1, p1, rfl⟩, ⟨d2, ds2, rss2, f2, r2, -, -⟩, ⟨d3, ds3, rss3, f3, r3, -, -⟩,
    ⟨d4, ds4, rss4, f4, r4, -, -⟩⟩ := hs
  -- the header
  obtain ⟨sp, e1, e2⟩ := readDict_pages env (ps ++ [p]).flatten []
  have key : ∀ out, ∃ s, parseDictPage env (.ok (ps ++ [p]).flatten) { out := out } = .panic s ∧ s.out = out := by
    intro out
    obtain ⟨sp, e1, e2⟩ := readDict_pages env (ps ++ [p]).flatten out
    rw [hfp] at e1 e2
    have hroots : roots sp = [field hp DICT_HDR_TABLES, field hp DICT_HDR_COLUMNS, field hp DICT_HDR_INDEXES, field hp DICT_HDR_FIELDS] := by
      obtain ⟨sp', g1, g2⟩ := findSysHeader_eq (ps ++ [p]) hl
      rw [e1] at g1
      injection g1 with g1
      rw [g1, g2]
      cases hf : (ps ++ [p]).find? fun d => pageNumber d == 7 with
      | none =>
        have := List.find?_eq_none.mp hf hp (by simp [hmem])
        rw [h7] at this
        exact absurd rfl this
      | some d =>
        have hd := List.find?_some hf
        have : d = hp := page_unique hn (List.mem_of_find?_eq_some hf) (by simp [hmem]) (by rw [h7]; simpa using hd)
        rw [this]
    have m1 : d1 ∈ ps ∧ field d1 PAGE_INDEX_ID = 1 := by
      have : d1 ∈ ps.filter fun d => field d PAGE_INDEX_ID == 1 := by rw [f1]; simp
      simpa using this
    have m2 : d2 ∈ ps ∧ field d2 PAGE_INDEX_ID = 2 := by
      have : d2 ∈ ps.filter fun d => field d PAGE_INDEX_ID == 2 := by rw [f2]; simp
      simpa using this
    have m3 : d3 ∈ ps ∧ field d3 PAGE_INDEX_ID = 3 := by
      have : d3 ∈ ps.filter fun d => field d PAGE_INDEX_ID == 3 := by rw [f3]; simp
      simpa using this
    have m4 : d4 ∈ ps ∧ field d4 PAGE_INDEX_ID = 4 := by
      have : d4 ∈ ps.filter fun d => field d PAGE_INDEX_ID == 4 := by rw [f4]; simp
      simpa using this
    have k1 := tree_kept (sp := sp) (P := ps ++ [p]) hl hn (id := 1) (d := d1) (ds := ds1 ++ [p])
      (by rw [List.filter_append, f1, List.filter_cons_of_pos (by simpa using h1)]; rfl) (by rw [hroots, r1]; simp) (by
      intro x hx hi hxr
      rw [hroots, ← r1, ← r2, ← r3, ← r4] at hxr
      simp only [List.mem_cons, List.not_mem_nil, or_false] at hxr
      rcases List.mem_append.mp hx with hx | hx
      · rcases hxr with hr | hr | hr | hr
        · exact page_unique hn' hx m1.1 hr
        · rw [page_unique hn' hx m2.1 hr, m2.2] at hi; cases hi
        · rw [page_unique hn' hx m3.1 hr, m3.2] at hi; cases hi
        · rw [page_unique hn' hx m4.1 hr, m4.2] at hi; cases hi
      · rw [List.mem_singleton] at hx
        subst hx
        refine absurd ?_ (hr hp hmem h7)
        rw [← r1, ← r2, ← r3, ← r4]
        simpa using hxr)
    obtain ⟨t, ht⟩ := tables_then_bad env (d1 :: ds1) (fun d hd => hl' d (by
        have : d ∈ ps.filter fun d => field d PAGE_INDEX_ID == 1 := by rw [f1]; exact hd
        exact (List.mem_filter.mp this).1)) rss1 p1 p (hl p (by simp)) hc hk makeSysTablesColumns (by decide)
      { dict := (ps ++ [p]).foldl (keepPage sp) [], out := out }
    refine ⟨{ tables := t, dict := (ps ++ [p]).foldl (keepPage sp) [], out := out }, ?_, rfl⟩
    rw [parseDictPage_split]
    have hA : getAllTables env { dict := (ps ++ [p]).foldl (keepPage sp) [], out := out } =
        .panic { tables := t, dict := (ps ++ [p]).foldl (keepPage sp) [], out := out } := by
      unfold getAllTables
      rw [GoM.get_bind]
      dsimp only
      rw [show SysTablesIdx = 1 from rfl, k1]
      dsimp only
      rw [GoM.bind_run]
      rw [List.cons_append] at ht
      rw [ht]
    unfold andThen
    rw [GoM.bind_run, e2]
    unfold andThen
    rw [GoM.bind_run, hA]
  constructor
  · intro a out
    obtain ⟨s, h, ho⟩ := key out
    unfold dataWith fromDataFile
    dsimp only
    rw [h]
    dsimp only
    rw [ho]
  · intro fs a spare out
    obtain ⟨s, h, ho⟩ := key out
    unfold redoWith fromRedoFile
    dsimp only
    rw [h]
    dsimp only
    rw [ho]

/-! ## A BLOB in the system tablespace -/

theorem systemFile_congr {c c' : Bytes} {trs : List TableRow} {crs : List ColumnRow} {irs : List IndexRow} {frs : List FieldRow}
    (h : (filePages c).filter (fun d => decide (OfDict d)) = (filePages c').filter (fun d => decide (OfDict d)))
    (hs : SystemFile c trs crs irs frs) : SystemFile c' trs crs irs frs := by
  have hid : ∀ x ∈ dictIds, (filePages c').filter (fun d => field d PAGE_INDEX_ID == x) = (filePages c).filter (fun d => field d PAGE_INDEX_ID == x) := by
    intro x hx
    have key : ∀ P : List Bytes, P.filter (fun d => field d PAGE_INDEX_ID == x) =
        (P.filter fun d => decide (OfDict d)).filter (fun d => field d PAGE_INDEX_ID == x) := by
      intro P
      rw [List.filter_filter]
      apply List.filter_congr
      intro d _
      by_cases hd : field d PAGE_INDEX_ID = x
      · have : OfDict d := .inr (hd ▸ hx)
        simp [hd, this]
      · simp [hd]
    rw [key, key (filePages c), h]
  obtain ⟨hp, hmem, h7, h1, h2, h3, h4⟩ := hs
  refine ⟨hp, ?_, h7, ?_, ?_, ?_, ?_⟩
  · have : hp ∈ (filePages c).filter fun d => decide (OfDict d) := List.mem_filter.mpr ⟨hmem, by simpa using (show OfDict hp from .inl h7)⟩
    rw [h] at this
    exact (List.mem_filter.mp this).1
  · unfold Tree at h1 ⊢; rw [hid 1 (by decide)]; exact h1
  · unfold Tree at h2 ⊢; rw [hid 2 (by decide)]; exact h2
  · unfold Tree at h3 ⊢; rw [hid 3 (by decide)]; exact h3
  · unfold Tree at h4 ⊢; rw [hid 4 (by decide)]; exact h4

/-- a page with a part of a BLOB that is continued on the next page, without the zeros at its end: FIL header with the type 10, length of
the part, number of the next page and the data -/
def blobPage (number : Nat) (data : Bytes) : Bytes :=
  nul 4 ++ beEnc 4 number ++ nul 16 ++ beEnc 2 10 ++ nul 12 ++ beEnc 4 16338 ++ beEnc 4 (number + 1) ++ data

/-- a BLOB of zeros, and one with two bytes 1 among the zeros -/
def harmless : Bytes := nul 60
def harmful : Bytes := nul 27 ++ [1] ++ nul 26 ++ [1] ++ nul 5

/-- the pages of `namedFile (b! "shop/t")` -/
def shopSys : List Bytes :=
  [sysHeader, sysTree 8 1 ((namedTables (b! "shop/t")).map tableRec), sysTree 10 2 (shopColumns.map columnRec),
    sysTree 11 3 ((shopIndexes idKey).map indexRec), sysTree 12 4 ((shopFields idKey).map fieldRec)]

theorem shopSys_file : (shopSys.map pad).flatten = namedFile (b! "shop/t") := rfl

/-- the system file with the page of a BLOB behind it -/
def shopWith (data : Bytes) : List Bytes := shopSys ++ [blobPage 13 data]

set_option maxRecDepth 8000 in
theorem shopWith_length {data : Bytes} (h : data = harmless ∨ data = harmful) : ∀ p ∈ shopWith data, 74 ≤ p.length ∧ p.length ≤ 400 := by
  rcases h with rfl | rfl <;> decide

theorem shopWith_pages {data : Bytes} (h : data = harmless ∨ data = harmful) :
    (∀ p ∈ (shopWith data).map pad, p.length = 16384) ∧ (((shopWith data).map pad).map pageNumber) = [7, 8, 10, 11, 12, 13] := by
  constructor
  · intro d hd
    obtain ⟨p, hp, rfl⟩ := List.mem_map.mp hd
    exact pad_length p (by have := shopWith_length h p hp; omega)
  · rw [List.map_map, List.map_congr_left (f := pageNumber ∘ pad) (g := pageNumber) fun p hp =>
      numAt_pad p 4 4 (by have := shopWith_length h p hp; omega)]
    rcases h with rfl | rfl <;> decide

theorem shopWith_blob : field (pad (blobPage 13 harmful)) PAGE_INDEX_ID = 1 ∧ isCompact (pad (blobPage 13 harmful)) = false ∧
    link (pad (blobPage 13 harmful)) 101 = 1 ∧ field (pad (blobPage 13 harmful)) FIL_PAGE_TYPE = 10 ∧ pageNumber (pad (blobPage 13 harmful)) = 13 :=
  ⟨shop_field _ PAGE_INDEX_ID 1 (by decide) (by decide), padOld (by decide) (by decide), (link_pad _ 101 (by decide) (by decide)).trans (by decide),
    shop_field _ FIL_PAGE_TYPE 10 (by decide) (by decide), shop_field _ (4, 4) 13 (by decide) (by decide)⟩

theorem shopWith_blank : field (pad (blobPage 13 harmless)) PAGE_INDEX_ID = 0 ∧ field (pad (blobPage 13 harmless)) FIL_PAGE_TYPE = 10 ∧
    pageNumber (pad (blobPage 13 harmless)) = 13 :=
  ⟨shop_field _ PAGE_INDEX_ID 0 (by decide) (by decide), shop_field _ FIL_PAGE_TYPE 10 (by decide) (by decide), shop_field _ (4, 4) 13 (by decide) (by decide)⟩

theorem shopWith_append (data : Bytes) : (shopWith data).map pad = shopSys.map pad ++ [pad (blobPage 13 data)] := by
  unfold shopWith
  rw [List.map_append, List.map_cons, List.map_nil]

/-- With the BLOB of zeros the command prints the rows of the table. -/
theorem C87_harmless (env : Env) (out : Out) : ∃ lines,
    dataWith env writtenArgs ((shopWith harmless).map pad).flatten out = .ok () (out ++ lines) ∧
      All2 (Printed env.ff (b! "shop") (b! "t")) lines (shopRows (b! "ann") false) := by
  have h := C87_appended_partial env (shopSys.map pad) [pad (blobPage 13 harmless)] (by
    rw [← shopWith_append]; exact (shopWith_pages (.inl rfl)).1) (by
    intro p hp
    rw [List.mem_singleton] at hp
    rw [hp, shopWith_blank.1, shopWith_blank.2.2]
    decide)
  rw [shopWith_append, h.1 writtenArgs, shopSys_file]
  exact written_prints env out

/-- With the other BLOB it aborts, and so does the redo command. -/
theorem C87_harmful (env : Env) :
    (∀ a out, dataWith env a ((shopWith harmful).map pad).flatten out = .panic out) ∧
    ∀ fs a spare out, redoWith env fs a spare ((shopWith harmful).map pad).flatten out = .panic out := by
  have hp := shopWith_pages (.inr rfl : harmful = harmless ∨ harmful = harmful)
  rw [shopWith_append] at hp ⊢
  obtain ⟨b1, b2, b3, -, b5⟩ := shopWith_blob
  refine C87_abort env _ _ hp.1 (by rw [hp.2]; decide) (namedTables (b! "shop/t")) shopColumns (shopIndexes idKey) (shopFields idKey)
    (by rw [shopSys_file]; exact system_written _ _ _ _ (named_writable _ (by decide))) b1 b2 b3 ?_
  intro h hm h7
  have : h = pad sysHeader := by
    refine page_unique (P := shopSys.map pad ++ [pad (blobPage 13 harmful)]) (by rw [hp.2]; decide) (by simp [hm]) (by simp [shopSys]) ?_
    rw [h7]
    exact (shop_field sysHeader (4, 4) 7 (by decide) (by decide)).symm
  rw [this, b5, show field (pad sysHeader) DICT_HDR_TABLES = 8 from shop_field sysHeader DICT_HDR_TABLES 8 (by decide) (by decide),
    show field (pad sysHeader) DICT_HDR_COLUMNS = 10 from shop_field sysHeader DICT_HDR_COLUMNS 10 (by decide) (by decide),
    show field (pad sysHeader) DICT_HDR_INDEXES = 11 from shop_field sysHeader DICT_HDR_INDEXES 11 (by decide) (by decide),
    show field (pad sysHeader) DICT_HDR_FIELDS = 12 from shop_field sysHeader DICT_HDR_FIELDS 12 (by decide) (by decide)]
  decide

theorem all2_each {α : Type} {R : α → α → Prop} {l : List α} (h : ∀ x ∈ l, R x x) : All2 R l l := by
  induction l with
  | nil => exact .nil
  | cons x l ih => exact .cons (h x (by simp)) (ih fun y hy => h y (by simp [hy]))

/-- C87 is false of the code: the data of a BLOB decide whether another table can be recovered. -/
theorem C87_false : ¬ C87_statement := by
  intro h
  have h1 := shopWith_pages (.inl rfl : harmless = harmless ∨ harmless = harmful)
  have h2 := shopWith_pages (.inr rfl : harmful = harmless ∨ harmful = harmful)
  obtain ⟨-, -, -, b4, b5⟩ := shopWith_blob
  obtain ⟨c1, c2, c3⟩ := shopWith_blank
  have hd := named_dictionary (b! "shop/t") (b! "shop") (b! "t") rfl (by decide) (by decide) (by decide) (by decide)
  have hs := (h testEnv _ _ h1.1 h2.1 (by
    rw [shopWith_append, shopWith_append]
    refine all2_append (all2_each fun p _ => .inl rfl) (.cons (.inr ⟨by rw [c3, b5], by rw [c3]; decide, by rw [c2]; decide, by rw [b4]; decide⟩) .nil))
    (by rw [h1.2]; decide) ⟨namedTables (b! "shop/t"), shopColumns, shopIndexes idKey, shopFields idKey, ⟨?_, hd.indexes, hd.ids, hd.names⟩⟩).1 writtenArgs
  · obtain ⟨lines, e, -⟩ := C87_harmless testEnv []
    rw [hs, (C87_harmful testEnv).1] at e
    cases e
  · refine systemFile_congr ?_ hd.file
    have e1 : filePages ((shopWith harmless).map pad).flatten = (shopWith harmless).map pad := images_flatten _ h1.1 (by rw [h1.2]; decide)
    have hn := h1.2
    have hl := h1.1
    rw [shopWith_append] at e1 hn hl ⊢
    have e2 : filePages (shopSys.map pad).flatten = shopSys.map pad := images_flatten _ (fun p hp => hl p (by simp [hp])) (by
      rw [List.map_append] at hn
      have : ((shopSys.map pad).map pageNumber ++ [pad (blobPage 13 harmless)].map pageNumber).Nodup := by rw [hn]; decide
      exact (List.nodup_append.mp this).1)
    rw [← shopSys_file, e1, e2, List.filter_append, List.filter_cons_of_neg, List.filter_nil, List.append_nil]
    have : ¬ OfDict (pad (blobPage 13 harmless)) := by
      rintro (h | h)
      · rw [c3] at h; cases h
      · rw [c1] at h; revert h; decide
    simpa using this

/-- another BLOB without influence -/
def greeting : Bytes := nul 30 ++ b! "hello, world, hello, world"

set_option maxRecDepth 8000 in
/-- the hypotheses of `C87_in_place_partial` hold -/
example (env : Env) : SameForAll env ((shopWith harmless).map pad).flatten ((shopWith greeting).map pad).flatten := by
  have hl : ∀ data, data = harmless ∨ data = greeting → ∀ p ∈ (shopWith data).map pad, p.length = 16384 := by
    intro data h d hd
    obtain ⟨p, hp, rfl⟩ := List.mem_map.mp hd
    have : ∀ p ∈ shopWith data, p.length ≤ 400 := by rcases h with rfl | rfl <;> decide
    exact pad_length p (by have := this p hp; omega)
  refine C87_in_place_partial env _ _ (by rw [pageCount_flatten _ (hl _ (.inl rfl)), pageCount_flatten _ (hl _ (.inr rfl))]; rfl) fun k hk => ?_
  rw [pageCount_flatten _ (hl _ (.inl rfl)), shopWith_append, List.length_append, List.length_map] at hk
  have hk : k < 5 + 1 := hk
  rcases Nat.lt_succ_iff_lt_or_eq.mp hk with h5 | rfl
  · left
    have h5 : k < (shopSys.map pad).length := by rw [List.length_map]; exact h5
    rw [pageImage_flatten _ (hl _ (.inl rfl)) k (shopSys.map pad)[k] (by rw [shopWith_append, List.getElem?_append_left h5, List.getElem?_eq_getElem h5]),
      pageImage_flatten _ (hl _ (.inr rfl)) k (shopSys.map pad)[k] (by rw [shopWith_append, List.getElem?_append_left h5, List.getElem?_eq_getElem h5])]
  · right
    rw [pageImage_flatten _ (hl _ (.inl rfl)) 5 (pad (blobPage 13 harmless)) (by rw [shopWith_append]; rfl),
      pageImage_flatten _ (hl _ (.inr rfl)) 5 (pad (blobPage 13 greeting)) (by rw [shopWith_append]; rfl), shopWith_blank.1, shopWith_blank.2.2,
      show field (pad (blobPage 13 greeting)) PAGE_INDEX_ID = 0 from shop_field _ PAGE_INDEX_ID 0 (by decide) (by decide),
      show pageNumber (pad (blobPage 13 greeting)) = 13 from shop_field _ (4, 4) 13 (by decide) (by decide)]
    decide

end Verif.Props
