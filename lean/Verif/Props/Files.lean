import Verif.Proofs.Files
import Verif.Proofs.Maps
import Verif.Props.WalkWitness
/-!
# C27–C29: data files and the lookup of tables
-/

namespace Verif.Props
open Verif Spec

/-! ## C27 -/

/-- the pages of a file that are to be decoded -/
def selectedPages (content : Bytes) (recovery : Bool) : List Bytes :=
  ((firstCopies content).map (pageImage content)).filter fun d => decide (Selected recovery d)

/-- Decoding one page on its own, with the columns of the dictionary. -/
def pageAlone (env : Env) (tables : TableMap) (db name : Bytes) (recovery : Bool) (d : Bytes) :
    R PState (List (List Column)) :=
  parsePage env tables d recovery (field d PAGE_FREE) ⟨getTableColumnsFromDict tables db name, []⟩

/-- What is printed for a page on its own: the lines of the decoder and one statement per row; nothing if the page cannot
be decoded. -/
def pageOutput (env : Env) (tables : TableMap) (db name : Bytes) (recovery : Bool) (d : Bytes) : Out :=
  match pageAlone env tables db name recovery d with
  | .ok rows s => s.out ++ rows.map (replaceStmt env.ff db name)
  | _ => []

/-- The dictionary has a table of this database and name. -/
def InDictionary (tables : TableMap) (db name : Bytes) : Prop := ∃ e ∈ tables, e.2.db = db ∧ e.2.name = name

theorem lookup_unknown {tables : TableMap} {db name : Bytes} (h : ¬ InDictionary tables db name) : lookupTable tables db name = none := by
  unfold lookupTable
  rw [List.getLast?_eq_none_iff, List.filter_eq_nil_iff]
  intro e he hh
  refine h ⟨e, he, ?_⟩
  simpa [Bool.and_eq_true] using hh

/-- The full claim of C27: the run over a file succeeds and prints the statements of the selected pages, one after the
other. -/
def C27_statement : Prop :=
  ∀ (env : Env) (content db name : Bytes) (recovery : Bool) (s : IState), InDictionary s.tables db name →
    ∃ s', parseDataPage env (.ok content) db name recovery s = .ok none s' ∧
      s'.out = s.out ++ (selectedPages content recovery).flatMap (pageOutput env s.tables db name recovery)

/-- The records that the walk can reach from its start. -/
def Reached (d : Bytes) (recovery : Bool) (o : Nat) : Prop :=
  Relation.ReflTransGen (Next d (isCompact d))
    (if recovery then field d PAGE_FREE else follow d (isCompact d) (infimumAt (isCompact d))) o

/-- No column of a record of the page lies outside the page without being NULL (see C25). -/
def WithinPage (tables : TableMap) (cols : List Column) (recovery : Bool) (d : Bytes) : Prop :=
  ∀ o offsets j, Reached d recovery o → o < 16384 - 6 → o ≠ supremumAt (isCompact d) → j < cols.length →
    recOffsets tables d (isCompact d) o cols = some (some offsets) → ¬ Outside (d.drop o) offsets j

/-- The page can be decoded on its own, has no column outside the page and no NULL in a binary column (for which `NULL` or
`unhex(NULL)` is printed, see `C25_flag_leaks`). -/
def Sound (env : Env) (tables : TableMap) (db name : Bytes) (recovery : Bool) (d : Bytes) : Prop :=
  WithinPage tables (getTableColumnsFromDict tables db name) recovery d ∧
  ∃ rows s, pageAlone env tables db name recovery d = .ok rows s ∧
    ∀ row ∈ rows, ∀ c ∈ row, setsBinary c.ftype c.mtype = true → c.value ≠ .str (b! "NULL")

theorem stable_prefix (p : Out) : Stable (fun a b => a = p ++ b) := fun a b l h => by rw [h, List.append_assoc]

theorem startOf_eq (d : Bytes) (recovery : Bool) : startOf d recovery (field d PAGE_FREE) =
    (if recovery then field d PAGE_FREE else follow d (isCompact d) (infimumAt (isCompact d))) := rfl

/-- a page within a file behaves as on its own, apart from columns outside the page and NULLs in binary columns -/
theorem page_in_file (env : Env) (tables : TableMap) (db name : Bytes) (recovery : Bool) (d : Bytes) (hd : d.length = 16384)
    (s : PState) (hs : s.cols.map (skelB true) = (getTableColumnsFromDict tables db name).map (skelB true)) :
    RRel (SameDefs true (fun a b => a = s.out ++ b) ((getTableColumnsFromDict tables db name).map (skelB true)))
      (All2 (RowOf true tables d (isCompact d) ((getTableColumnsFromDict tables db name).map (skelB true)) (Reached d recovery)))
      (parsePage env tables d recovery (field d PAGE_FREE) s) (pageAlone env tables db name recovery d) := by
  refine parsePage_static true _ (stable_prefix s.out) env tables d recovery _ _ _ hd ?_ ?_ s _ ⟨hs, rfl, ?_⟩
  · intro o o' h h'
    exact h.tail h'
  · rw [startOf_eq]; exact .refl
  · simp

theorem printPage_sound (env : Env) (tables : TableMap) (db name : Bytes) (recovery : Bool) (d : Bytes)
    (hd : d.length = 16384) (hi : Sound env tables db name recovery d)
    (s : PState) (hs : s.cols.map (skelB true) = (getTableColumnsFromDict tables db name).map (skelB true)) :
    ∃ cols, printPage env tables db name recovery (fullPage d) s =
        .ok () ⟨cols, s.out ++ pageOutput env tables db name recovery d⟩ ∧
      cols.map (skelB true) = (getTableColumnsFromDict tables db name).map (skelB true) := by
  obtain ⟨hw, rows, t, ha, hn⟩ := hi
  have hrel := page_in_file env tables db name recovery d hd s hs
  rw [printPage_full]
  unfold pageOutput
  rw [ha] at hrel ⊢
  generalize parsePage env tables d recovery (field d PAGE_FREE) s = r at hrel
  cases hrel with
  | @ok rows' _ s' _ hrows hst =>
    have he : rows' = rows := by
      refine rows_eq hrows ?_ hn
      intro o offsets j hr h1 h2 h3 ho
      rw [List.length_map] at h3
      refine hw o offsets j hr h1 h2 h3 ?_
      rw [recOffsets_skel tables d (isCompact d) o _ _ (map_skel_idem (f := true) (getTableColumnsFromDict tables db name))] at ho
      exact ho
    subst he
    refine ⟨s'.cols, ?_, hst.1⟩
    dsimp only
    rw [hst.2.2, List.append_assoc]

/-- the loop over the selected pages -/
def pagesRun (env : Env) (tables : TableMap) (db name : Bytes) (recovery : Bool) (ds : List Bytes) : GoM PState Unit :=
  ds.foldr (fun d k => (do printPage env tables db name recovery (fullPage d); k)) (pure ())

theorem pagesRun_cons (env : Env) (tables : TableMap) (db name : Bytes) (recovery : Bool) (d : Bytes) (ds : List Bytes) :
    pagesRun env tables db name recovery (d :: ds) =
      (printPage env tables db name recovery (fullPage d) >>= fun _ => pagesRun env tables db name recovery ds) := rfl

theorem parseDataPage_run (env : Env) (content db name : Bytes) (recovery : Bool) (s : IState) :
    parseDataPage env (.ok content) db name recovery s =
      match pagesRun env s.tables db name recovery (selectedPages content recovery)
          ⟨getTableColumnsFromDict s.tables db name, s.out⟩ with
      | .ok _ t => .ok none ⟨writeBack s.tables db name t.cols, t.out⟩
      | .panic t => .panic ⟨writeBack s.tables db name t.cols, t.out⟩
      | .hang t => .hang ⟨writeBack s.tables db name t.cols, t.out⟩ := by
  unfold parseDataPage
  dsimp only
  rw [parseFile_eq, GoM.lift_some_bind, GoM.get_bind]
  have := C26_selected_pages env s.tables db name recovery ((firstCopies content).map (pageImage content)) (by
    intro d hd
    obtain ⟨k, _, rfl⟩ := List.mem_map.mp hd
    exact pageImage_length content k)
  rw [List.map_map] at this
  change _ = pagesRun env s.tables db name recovery _ at this
  show (GoM.zoom _ _ (dataPagesLoop env s.tables db name recovery
    (List.map (rawPage ∘ pageImage content) (firstCopies content))) >>= _) s = _
  rw [this, GoM.bind_run, GoM.zoom_run]
  unfold selectedPages
  cases pagesRun _ _ _ _ _ _ _ <;> rfl

theorem selectedPages_length {content : Bytes} {recovery : Bool} {d : Bytes} (h : d ∈ selectedPages content recovery) :
    d.length = 16384 := by
  obtain ⟨h, _⟩ := List.mem_filter.mp h
  obtain ⟨k, _, rfl⟩ := List.mem_map.mp h
  exact pageImage_length content k

/-- **C27 (partial).** If all selected pages of the file are sound, the run succeeds and prints exactly what the pages
print on their own, in file order.  Missing: files with a page that cannot be decoded, which ends the program
(`C27_false`, `C27_bad_first_page`), pages with columns outside the page, and NULLs in binary columns (see C25). -/
theorem C27_sound_files_partial (env : Env) (content db name : Bytes) (recovery : Bool) (s : IState)
    (h : ∀ d ∈ selectedPages content recovery, Sound env s.tables db name recovery d) :
    ∃ s', parseDataPage env (.ok content) db name recovery s = .ok none s' ∧
      s'.out = s.out ++ (selectedPages content recovery).flatMap (pageOutput env s.tables db name recovery) := by
  rw [parseDataPage_run]
  have hlen : ∀ d ∈ selectedPages content recovery, d.length = 16384 := fun d hd => selectedPages_length hd
  generalize selectedPages content recovery = ds at *
  have key : ∀ (t : PState), t.cols.map (skelB true) = (getTableColumnsFromDict s.tables db name).map (skelB true) →
      ∃ cols, pagesRun env s.tables db name recovery ds t =
        .ok () ⟨cols, t.out ++ ds.flatMap (pageOutput env s.tables db name recovery)⟩ := by
    induction ds with
    | nil => intro t _; exact ⟨t.cols, by rw [List.flatMap_nil, List.append_nil]; rfl⟩
    | cons d ds ih =>
      intro t ht
      obtain ⟨cols, h1, h2⟩ := printPage_sound env s.tables db name recovery d (hlen d (by simp)) (h d (by simp)) t ht
      obtain ⟨cols', h3⟩ := ih (fun x hx => h x (by simp [hx])) (fun x hx => hlen x (by simp [hx])) ⟨cols, _⟩ h2
      refine ⟨cols', ?_⟩
      rw [pagesRun_cons, GoM.bind_run, h1]
      dsimp only
      rw [h3, List.flatMap_cons, List.append_assoc]
  obtain ⟨cols, h1⟩ := key ⟨getTableColumnsFromDict s.tables db name, s.out⟩ rfl
  rw [h1]
  exact ⟨_, rfl, rfl⟩

/-- **C27, when a run succeeds.** The run over a file succeeds exactly if every selected page can be decoded on its own. -/
theorem C27_success_iff (env : Env) (content db name : Bytes) (recovery : Bool) (s : IState) :
    (∃ e s', parseDataPage env (.ok content) db name recovery s = .ok e s') ↔
      ∀ d ∈ selectedPages content recovery, ∃ rows t, pageAlone env s.tables db name recovery d = .ok rows t := by
  rw [parseDataPage_run]
  have hlen : ∀ d ∈ selectedPages content recovery, d.length = 16384 := fun d hd => selectedPages_length hd
  generalize selectedPages content recovery = ds at *
  have key : ∀ (t : PState), t.cols.map (skelB true) = (getTableColumnsFromDict s.tables db name).map (skelB true) →
      ((∃ t', pagesRun env s.tables db name recovery ds t = .ok () t') ↔
        ∀ d ∈ ds, ∃ rows t, pageAlone env s.tables db name recovery d = .ok rows t) := by
    induction ds with
    | nil => intro t _; exact ⟨fun _ d hd => by simp at hd, fun _ => ⟨t, rfl⟩⟩
    | cons d ds ih =>
      intro t ht
      have hrel := page_in_file env s.tables db name recovery d (hlen d (by simp)) t ht
      rw [pagesRun_cons, GoM.bind_run, printPage_full, List.forall_mem_cons]
      generalize parsePage env s.tables d recovery (field d PAGE_FREE) t = r at hrel
      generalize pageAlone env s.tables db name recovery d = r' at hrel
      cases hrel with
      | ok hrows hst =>
        rename_i rows rows' s1 t1
        dsimp only
        refine (ih (fun x hx => hlen x (by simp [hx])) ⟨s1.cols, s1.out ++ rows.map (replaceStmt env.ff db name)⟩ hst.1).trans ?_
        exact ⟨fun h => ⟨⟨_, _, rfl⟩, h⟩, fun h => h.2⟩
      | panic _ => exact ⟨fun ⟨_, h⟩ => (by cases h), fun ⟨⟨_, _, h⟩, _⟩ => by cases h⟩
      | hang _ => exact ⟨fun ⟨_, h⟩ => (by cases h), fun ⟨⟨_, _, h⟩, _⟩ => by cases h⟩
  refine Iff.trans ?_ (key ⟨getTableColumnsFromDict s.tables db name, s.out⟩ rfl)
  cases pagesRun _ _ _ _ _ _ _ with
  | ok a t => exact ⟨fun _ => ⟨_, rfl⟩, fun _ => ⟨_, _, rfl⟩⟩
  | panic t => exact ⟨fun ⟨_, _, h⟩ => (by cases h), fun ⟨_, h⟩ => by cases h⟩
  | hang t => exact ⟨fun ⟨_, _, h⟩ => (by cases h), fun ⟨_, h⟩ => by cases h⟩

/-! ### Well-formed pages are sound -/

theorem reach_linked {d : Bytes} {c : Bool} {x : Nat} {os : List Nat} (h : Linked d c x os) (o : Nat)
    (hr : Relation.ReflTransGen (Next d c) (follow d c x) o) : o ∈ os ∨ o = supremumAt c := by
  induction h with
  | last h =>
    rw [h] at hr
    right
    rcases Relation.ReflTransGen.cases_head hr with h | ⟨y, hy, _⟩
    · exact h.symm
    · exact absurd rfl hy.2.1
  | next _ _ ih =>
    rcases Relation.ReflTransGen.cases_head hr with h | ⟨y, hy, hr'⟩
    · left; rw [← h]; simp
    · rw [hy.2.2.2] at hr'
      rcases ih hr' with h | h
      · left; simp [h]
      · exact Or.inr h

theorem reach_free {d : Bytes} {c : Bool} {x : Nat} {os : List Nat} (h : FreeList d c x os) (o : Nat)
    (hr : Relation.ReflTransGen (Next d c) x o) : o ∈ os := by
  induction h with
  | last _ h =>
    rcases Relation.ReflTransGen.cases_head hr with h' | ⟨y, hy, _⟩
    · rw [← h']; simp
    · exact absurd h hy.2.2.1
  | next _ _ _ ih =>
    rcases Relation.ReflTransGen.cases_head hr with h | ⟨y, hy, hr'⟩
    · rw [← h]; simp
    · rw [hy.2.2.2] at hr'
      exact List.mem_cons_of_mem _ (ih hr')

theorem all2_mem {α β : Type} {R : α → β → Prop} {as : List α} {bs : List β} (h : All2 R as bs) (a : α) (ha : a ∈ as) :
    ∃ b ∈ bs, R a b := by
  induction h with
  | nil => simp at ha
  | @cons x y _ _ h _ ih =>
    rcases List.mem_cons.mp ha with rfl | ha
    · exact ⟨y, by simp, h⟩
    · obtain ⟨b, hb, hR⟩ := ih ha
      exact ⟨b, by simp [hb], hR⟩

theorem inside_row (a n e : Nat) (row : Row) (z : List Nat) (post : Bytes) (hlt : (rowData row).length < 2 ^ 16) (j : Nat)
    (hj : j < row.length) : ¬ Outside (rowData row ++ post) (offsetsOf a n e row z) j := by
  rintro ⟨data, len, h1, h2, h3⟩
  rw [nthField a n e row z j row[j] (List.getElem?_eq_getElem hj) hlt post] at h1
  simp only [Option.some.injEq, Prod.mk.injEq] at h1
  obtain ⟨rfl, rfl⟩ := h1
  cases hc : row[j].2 with
  | null => rw [hc] at h3; exact h3 rfl
  | val v => rw [hc] at h2; simp [cellLen, Cell.bytes] at h2; omega
  | ext v => rw [hc] at h2; simp [cellLen, Cell.bytes] at h2; omega

theorem inside_compact (tables : TableMap) (defs : List ColDef) (cells : List Cell) (d : Bytes) (o : Nat) (cols : List Column)
    (hk : Known tables cols defs) (h3 : 3 ≤ defs.length) (hd : d.length ≤ 16384) (hrow : CompactRow d defs o cells)
    (hr : ∀ k ∈ defs, k.kind.Readable) (offsets : List Nat) (ho : recOffsets tables d true o cols = some (some offsets))
    (j : Nat) (hj : j < cols.length) : ¬ Outside (d.drop o) offsets j := by
  rw [recOffsets_compact tables defs cells d o cols hk hrow.1 h3 hd hrow.2 hr] at ho
  simp only [Option.some.injEq] at ho
  obtain ⟨hb1, hb2⟩ := compactAt_bounds hrow.2
  rw [← ho, hb2]
  exact inside_row _ _ _ _ _ _ (by omega) j (by rw [rowOf_length hrow.1, ← all2_length hk.desc]; exact hj)

theorem inside_redundant (tables : TableMap) (defs : List ColDef) (r : Nat × List OldCell) (d : Bytes) (o : Nat)
    (cols : List Column) (hk : All2 Describes cols defs) (h3 : 3 ≤ defs.length) (hd : d.length ≤ 16384)
    (hrow : OldRow d defs o r) (offsets : List Nat) (ho : recOffsets tables d false o cols = some (some offsets))
    (j : Nat) (hj : j < cols.length) : ¬ Outside (d.drop o) offsets j := by
  obtain ⟨hst, hat, hw⟩ := hrow
  have hrl : r.2.length = defs.length := (all2_length hst).symm
  have hcl : cols.length = r.2.length := by rw [all2_length hk, hrl]
  rw [recOffsets_redundant tables r.2 d o r.1 cols hcl (by omega) hd hat hw] at ho
  simp only [Option.some.injEq] at ho
  obtain ⟨_, hb1, hb2⟩ := redundantAt_bounds hat
  rw [← ho, hb2, ← rowData_viewOld]
  exact inside_row _ _ _ _ _ _ (by rw [rowData_viewOld]; omega) j (by rw [viewOld_length]; omega)

/-- No record of a well-formed page has a column outside the page. -/
theorem withinPage_print (tables : TableMap) (cols : List Column) (d : Bytes) (os : List Nat)
    (hl : Linked d (isCompact d) (infimumAt (isCompact d)) os)
    (hin : ∀ o ∈ os, ∀ offsets, recOffsets tables d (isCompact d) o cols = some (some offsets) → ∀ j < cols.length,
      ¬ Outside (d.drop o) offsets j) : WithinPage tables cols false d := by
  intro o offsets j hr _ hs hj ho
  rcases reach_linked hl o hr with h | h
  · exact hin o h offsets ho j hj
  · exact absurd h hs

theorem withinPage_recover (tables : TableMap) (cols : List Column) (d : Bytes) (os : List Nat)
    (hl : FreeList d (isCompact d) (field d PAGE_FREE) os)
    (hin : ∀ o ∈ os, ∀ offsets, recOffsets tables d (isCompact d) o cols = some (some offsets) → ∀ j < cols.length,
      ¬ Outside (d.drop o) offsets j) : WithinPage tables cols true d := by
  intro o offsets j hr _ _ hj ho
  exact hin o (reach_free hl o hr) offsets ho j hj

/-- the records of a page in either mode -/
def Records (recovery : Bool) (d : Bytes) (os : List Nat) : Prop :=
  if recovery then FreeList d (isCompact d) (field d PAGE_FREE) os
  else Linked d (isCompact d) (infimumAt (isCompact d)) os

/-- A well-formed COMPACT page of the table has no column outside the page. -/
theorem withinPage_compact (tables : TableMap) (cols : List Column) (recovery : Bool) (defs : List ColDef) (d : Bytes)
    (os : List Nat) (rows : List (List Cell)) (hk : Known tables cols defs) (h3 : 3 ≤ defs.length) (hd : d.length = 16384)
    (hc : isCompact d = true) (hl : Records recovery d os) (hrows : All2 (CompactRow d defs) os rows)
    (hr : ∀ k ∈ defs, k.kind.Readable) : WithinPage tables cols recovery d := by
  have hin : ∀ o ∈ os, ∀ offsets, recOffsets tables d (isCompact d) o cols = some (some offsets) → ∀ j < cols.length,
      ¬ Outside (d.drop o) offsets j := by
    intro o ho offsets hoff j hj
    rw [hc] at hoff
    obtain ⟨cells, _, hrow⟩ := all2_mem hrows o ho
    exact inside_compact tables defs cells d o cols hk h3 (by omega) hrow hr offsets hoff j hj
  cases recovery with
  | false => exact withinPage_print tables cols d os hl hin
  | true => exact withinPage_recover tables cols d os hl hin

/-- A well-formed REDUNDANT page of the table has no column outside the page. -/
theorem withinPage_redundant (tables : TableMap) (cols : List Column) (recovery : Bool) (defs : List ColDef) (d : Bytes)
    (os : List Nat) (rows : List (Nat × List OldCell)) (hk : All2 Describes cols defs) (h3 : 3 ≤ defs.length)
    (hd : d.length = 16384) (hc : isCompact d = false) (hl : Records recovery d os) (hrows : All2 (OldRow d defs) os rows) :
    WithinPage tables cols recovery d := by
  have hin : ∀ o ∈ os, ∀ offsets, recOffsets tables d (isCompact d) o cols = some (some offsets) → ∀ j < cols.length,
      ¬ Outside (d.drop o) offsets j := by
    intro o ho offsets hoff j hj
    rw [hc] at hoff
    obtain ⟨r, _, hrow⟩ := all2_mem hrows o ho
    exact inside_redundant tables defs r d o cols hk h3 (by omega) hrow offsets hoff j hj
  cases recovery with
  | false => exact withinPage_print tables cols d os hl hin
  | true => exact withinPage_recover tables cols d os hl hin

/-! ### An example -/

theorem two_head (next o n : Nat) (h : o + n ≤ 97) : sub (twoPage next) o n = sub twoBase o n := by
  unfold twoPage
  rw [sub_poke_before _ _ _ _ _ (by omega) (by rw [two_len3]; decide),
    sub_poke_before _ _ _ _ _ (by omega) (by rw [two_len2]; decide),
    sub_poke_before _ _ _ _ _ (by omega) (by rw [two_len1]; decide)]

theorem two_type (next : Nat) : field (twoPage next) FIL_PAGE_TYPE = FIL_PAGE_INDEX := by
  show numAt (twoPage next) 24 2 = _
  rw [numAt_sub, two_head _ _ _ (by decide)]
  unfold twoBase
  rw [sub_poke_before _ _ _ _ _ (by decide) (by rw [two_len0]; decide), show (24 : Nat) = 4 + 20 from rfl,
    sub_poke_in _ _ _ (by rw [blank_length]; decide) _ _ (by decide)]
  decide

theorem two_zero (next o n : Nat) (h : 48 ≤ o) (h' : o + n ≤ 97) : sub (twoPage next) o n = List.replicate n 0 := by
  rw [two_head _ _ _ h']
  unfold twoBase
  rw [sub_poke_after _ _ _ _ _ (by simpa using h) (by rw [two_len0]; decide),
    sub_poke_after _ _ _ _ _ (by have : (beEnc 4 3 ++ List.replicate 16 (0 : UInt8) ++ [0x45, 0xBF]).length = 22 := (by decide); omega)
      (by rw [blank_length]; decide), sub_blank _ _ (by omega)]

theorem two_free (next : Nat) : field (twoPage next) PAGE_FREE = 300 := by
  show numAt (twoPage next) 44 2 = _
  rw [numAt_sub, two_head _ _ _ (by decide)]
  unfold twoBase
  rw [show (44 : Nat) = 42 + 2 from rfl, sub_poke_in _ _ _ (by rw [two_len0]; decide) _ _ (by decide)]
  decide

theorem two_garbage (next : Nat) : field (twoPage next) PAGE_GARBAGE = 44 := by
  show numAt (twoPage next) 46 2 = _
  rw [numAt_sub, two_head _ _ _ (by decide)]
  unfold twoBase
  rw [show (46 : Nat) = 42 + 4 from rfl, sub_poke_in _ _ _ (by rw [two_len0]; decide) _ _ (by decide)]
  decide

theorem two_selected (recovery : Bool) (next : Nat) : Selected recovery (twoPage next) := by
  refine ⟨two_type next, ?_, ?_, fun _ => ?_⟩
  · show numAt (twoPage next) (38 + 26) 2 = 0
    rw [numAt_sub, two_zero _ _ _ (by decide) (by decide)]; decide
  · show numAt (twoPage next) (38 + 18) 8 = 0
    rw [numAt_sub, two_zero _ _ _ (by decide) (by decide)]; decide
  · rw [two_free, two_garbage]; decide

/-- a table `d`.`t` with an INT column, as the dictionary has it -/
def twoCols : List Column :=
  [{ name := b! "id", ftype := 6, mtype := 3, len := 4, tableId := 1 },
   { name := b! "DB_TRX_ID", len := 6, tableId := 1 },
   { name := b! "DB_ROLL_PTR", len := 7, tableId := 1 }]

def twoTables : TableMap := [(1, { db := b! "d", name := b! "t", columns := twoCols })]

theorem twoTables_known : Known twoTables twoCols twoDefs := ⟨by decide, _, _, rfl, rfl, by decide, rfl⟩

theorem two_decode (p q : Bytes) : ∃ rows s,
    decodeRows testEnv [(rowOf twoDefs (twoCells 1), p), (rowOf twoDefs (twoCells 2), q)] ⟨twoCols, []⟩ = .ok rows s ∧
    (∀ row ∈ rows, ∀ c ∈ row, setsBinary c.ftype c.mtype = true → c.value ≠ .str (b! "NULL")) ∧
    s.out ++ rows.map (replaceStmt testEnv.ff (b! "d") (b! "t")) =
      [b! "replace into `d`.`t` values ('1');", b! "replace into `d`.`t` values ('2');"] :=
  ⟨_, _, rfl, by decide, by decide⟩

theorem two_alone : pageAlone testEnv twoTables (b! "d") (b! "t") false (twoPage (65536 - 88)) =
    decodeRows testEnv (storedRows (twoPage (65536 - 88)) twoDefs [300, 200] [twoCells 1, twoCells 2]) ⟨twoCols, []⟩ := by
  obtain ⟨_, hd, hc, hl, hrows, hr⟩ := two_wellformed
  exact C22_compact_page_partial testEnv twoTables twoDefs _ _ [300, 200] _ ⟨twoCols, []⟩ twoTables_known (by decide) hd hc hl
    hrows hr

theorem two_sound : Sound testEnv twoTables (b! "d") (b! "t") false (twoPage (65536 - 88)) := by
  obtain ⟨_, hd, hc, hl, hrows, hr⟩ := two_wellformed
  refine ⟨?_, ?_⟩
  · exact withinPage_compact twoTables twoCols false twoDefs _ [300, 200] _ twoTables_known (by decide) hd hc
      (by unfold Records; rw [hc]; exact hl) hrows hr
  · obtain ⟨rows, s, h1, h2, _⟩ := two_decode _ _
    exact ⟨rows, s, two_alone.trans h1, h2⟩

/-- C27: a file consisting of this page, its rows in index order -/
example : ∃ s', parseDataPage testEnv (.ok [twoPage (65536 - 88)].flatten) (b! "d") (b! "t") false ⟨twoTables, []⟩ = .ok none s' ∧
      s'.out = [b! "replace into `d`.`t` values ('1');", b! "replace into `d`.`t` values ('2');"] := by
  have hsel : selectedPages [twoPage (65536 - 88)].flatten false = [twoPage (65536 - 88)] := by
    unfold selectedPages
    rw [images_flatten _ (by simp only [List.mem_singleton, forall_eq]; exact twoPage_length _) (by simp),
      List.filter_cons_of_pos (by rw [decide_eq_true_eq]; exact two_selected false _), List.filter_nil]
  obtain ⟨s', h1, h2⟩ := C27_sound_files_partial testEnv [twoPage (65536 - 88)].flatten (b! "d") (b! "t") false ⟨twoTables, []⟩ (by
    rw [hsel]; simp only [List.mem_singleton, forall_eq]; exact two_sound)
  refine ⟨s', h1, ?_⟩
  obtain ⟨rows, s, h3, _, h4⟩ := two_decode _ _
  rw [h2, hsel, List.flatMap_singleton, ← h4]
  unfold pageOutput
  rw [two_alone.trans h3]
  rfl

/-! ### A page that ends the program -/

/-- a leaf page of type INDEX in the REDUNDANT format whose infimum record points to offset 1 -/
def badPage : Bytes := poke (poke blank 24 [0x45, 0xBF]) 99 [0, 1]

theorem bad_len1 : (poke blank 24 [0x45, 0xBF]).length = 16384 := by
  rw [poke_length _ _ _ (by rw [blank_length]; decide), blank_length]
theorem badPage_length : badPage.length = 16384 := by
  unfold badPage
  rw [poke_length _ _ _ (by rw [bad_len1]; decide), bad_len1]

theorem badPage_zero (o n : Nat) (h : o + n ≤ 24 ∨ 26 ≤ o ∧ o + n ≤ 99) : sub badPage o n = List.replicate n 0 := by
  unfold badPage
  rw [sub_poke_before _ _ _ _ _ (by omega) (by rw [bad_len1]; decide)]
  rcases h with h | h
  · rw [sub_poke_before _ _ _ _ _ (by omega) (by rw [blank_length]; decide), sub_blank _ _ (by omega)]
  · rw [sub_poke_after _ _ _ _ _ (by simpa using h.1) (by rw [blank_length]; decide), sub_blank _ _ (by omega)]

theorem badPage_type : field badPage FIL_PAGE_TYPE = 17855 := by
  show numAt badPage 24 2 = _
  rw [numAt_sub]
  unfold badPage
  rw [sub_poke_before _ _ _ _ _ (by decide) (by rw [bad_len1]; decide), sub_poke _ _ _ (by rw [blank_length]; decide) 2 rfl]
  decide

theorem badPage_link : link badPage 101 = 1 := by
  unfold link
  rw [numAt_sub]
  unfold badPage
  rw [sub_poke _ _ _ (by rw [bad_len1]; decide) 2 rfl]
  decide

theorem badPage_old : isCompact badPage = false := by
  unfold isCompact
  rw [numAt_sub, badPage_zero _ _ (by decide)]
  decide

theorem badPage_selected : Selected false badPage := by
  refine ⟨badPage_type, ?_, ?_, fun h => by cases h⟩
  · show numAt badPage (38 + 26) 2 = 0
    rw [numAt_sub, badPage_zero _ _ (by decide)]; decide
  · show numAt badPage (38 + 18) 8 = 0
    rw [numAt_sub, badPage_zero _ _ (by decide)]; decide

theorem badPage_number : pageNumber badPage = 0 := by
  unfold pageNumber
  rw [numAt_sub, badPage_zero _ _ (by decide)]; decide

theorem setIdx_none_bind {α : Type} (o : Option α) : (o.bind fun _ => (none : Option (List Nat))) = none := by
  cases o <;> rfl

theorem old_at_1 (tables : TableMap) (d : Bytes) (hd : d.length = 16384) (cols : List Column) :
    recOffsets tables d false 1 cols = none := by
  have h1 : recGet1byteOffsFlag d 1 = none := by
    unfold recGet1byteOffsFlag
    unfold recGetBitField1
    rw [show read1 d (sub64 1 3) = none by rw [read1_eq]; unfold readW; rw [if_neg (by rw [hd]; decide)]]
    rfl
  unfold recOffsets
  have h2 : ∀ offsets n, ibRecInitOffsetsOld d 1 offsets n = none := by
    intro offsets n
    unfold ibRecInitOffsetsOld
    rw [h1]
    cases setIdx offsets 2 0 with
    | none => rfl
    | some x =>
      rw [Option.bind_eq_bind, Option.bind_some]
      cases setIdx x 1 n <;> rfl
  simp only [h2]
  cases sliceFrom d 1 <;> rfl

theorem bad_panics (env : Env) (tables : TableMap) (d : Bytes) (free : Nat) (hd : d.length = 16384)
    (hc : isCompact d = false) (hl : link d 101 = 1) (s : PState) : parsePage env tables d false free s = .panic s := by
  rw [parsePage_start env tables d free hd hc s, hl]
  have hp : parseOne env tables d false 1 s = .panic s := by
    unfold parseOne
    rw [GoM.get_bind, old_at_1 tables d hd]
    rfl
  show walk env tables d false (16383 + 1) 1 [] s = _
  unfold walk
  rw [if_pos (by decide), GoM.bind_run, hp]

theorem bad_first (env : Env) (d : Bytes) (hd : d.length = 16384) (hsel : Selected false d) (hc : isCompact d = false)
    (hl : link d 101 = 1) (pages : List Bytes) (hp : ∀ p ∈ pages, p.length = 16384)
    (hn : ((d :: pages).map pageNumber).Nodup) (db name : Bytes) (s : IState) :
    ∃ s', parseDataPage env (.ok (d :: pages).flatten) db name false s = .panic s' ∧ s'.out = s.out := by
  have hp' : ∀ p ∈ d :: pages, p.length = 16384 := by
    intro p h
    rcases List.mem_cons.mp h with h | h
    · rw [h]; exact hd
    · exact hp p h
  rw [parseDataPage_run]
  unfold selectedPages
  rw [images_flatten _ hp' hn, List.filter_cons_of_pos (by simpa using hsel), pagesRun_cons, GoM.bind_run, printPage_full,
    bad_panics env s.tables d _ hd hc hl]
  exact ⟨_, rfl, rfl⟩

/-- One damaged page at the beginning of a file ends the program before anything is printed, whatever the other pages
contain. -/
theorem C27_bad_first_page (env : Env) (pages : List Bytes) (hp : ∀ p ∈ pages, p.length = 16384)
    (hn : ((badPage :: pages).map pageNumber).Nodup) (db name : Bytes) (s : IState) :
    ∃ s', parseDataPage env (.ok (badPage :: pages).flatten) db name false s = .panic s' ∧ s'.out = s.out :=
  bad_first env badPage badPage_length badPage_selected badPage_old badPage_link pages hp hn db name s

/-- C27 is false of the code. -/
theorem C27_false : ¬ C27_statement := by
  intro h
  obtain ⟨s', h1, _⟩ := C27_bad_first_page testEnv [] (by simp) (by simp) [] [] ⟨[(1, {})], []⟩
  have h2 := h testEnv [badPage].flatten [] [] false ⟨[(1, {})], []⟩ ⟨(1, {}), by simp, rfl, rfl⟩
  rw [h1] at h2
  obtain ⟨_, h2, _⟩ := h2
  cases h2

/-! ## C28 -/

/-- The full claim of C28. -/
def C28_statement : Prop :=
  ∀ (env : Env) (content db name : Bytes) (recovery : Bool) (s : IState), ¬ InDictionary s.tables db name →
    ∃ e, parseDataPage env (.ok content) db name recovery s = .ok (some e) s

/-- No error is ever returned for a file that can be read. -/
theorem C28_never_an_error (env : Env) (content db name : Bytes) (recovery : Bool) (s s' : IState) (e : Option Bytes)
    (h : parseDataPage env (.ok content) db name recovery s = .ok e s') : e = none := by
  rw [parseDataPage_run] at h
  cases hr : pagesRun env s.tables db name recovery (selectedPages content recovery)
      ⟨getTableColumnsFromDict s.tables db name, s.out⟩ with
  | ok a t => rw [hr] at h; cases h; rfl
  | panic t => rw [hr] at h; cases h
  | hang t => rw [hr] at h; cases h

/-- C28 is false of the code: no error is returned. -/
theorem C28_false : ¬ C28_statement := by
  intro h
  obtain ⟨e, he⟩ := h testEnv [] [] [] false ⟨[], []⟩ (by rintro ⟨e, he, _⟩; cases he)
  cases C28_never_an_error _ _ _ _ _ _ _ _ he

/-- where the list of records begins -/
def firstAt (recovery : Bool) (d : Bytes) : Nat :=
  if recovery then field d PAGE_FREE else
    if isCompact d then infimumAt true + link d (infimumAt true) else link d (infimumAt false)

/-- the page has a first record -/
def HasRecord (recovery : Bool) (d : Bytes) : Prop :=
  firstAt recovery d < 16384 - 6 ∧ firstAt recovery d ≠ supremumAt (isCompact d)

instance (recovery : Bool) (d : Bytes) : Decidable (HasRecord recovery d) := inferInstanceAs (Decidable (_ ∧ _))

theorem parsePage_first (env : Env) (tables : TableMap) (d : Bytes) (recovery : Bool) (hd : d.length = 16384) (s : PState) :
    parsePage env tables d recovery (field d PAGE_FREE) s =
      walk env tables d (isCompact d) walkFuel (firstAt recovery d) [] s := by
  obtain ⟨v, hv, hc⟩ := pageIsCompact_eq d (by omega)
  have hr : read2 d (pageInfimum (isCompact d) - 2) = some (link d (infimumAt (isCompact d))) := by
    rw [infimum_eq, read2_eq, read_at d _ (by cases isCompact d <;> simp [infimumAt, hd])]
    rfl
  unfold parsePage
  rw [hv, GoM.lift_some_bind, hc, hr, GoM.lift_some_bind]
  have e : (if recovery = true then field d PAGE_FREE else
      if isCompact d = true then pageInfimum (isCompact d) + link d (infimumAt (isCompact d))
      else link d (infimumAt (isCompact d))) = firstAt recovery d := by
    unfold firstAt
    cases isCompact d <;> rfl
  rw [← e]

theorem parseOne_nocols (env : Env) (tables : TableMap) (d : Bytes) (c : Bool) (o : Nat) (out : Out) :
    parseOne env tables d c o ⟨[], out⟩ = .panic ⟨[], out⟩ := by
  have h : recOffsets tables d c o [] = none := by
    unfold recOffsets
    cases sliceFrom d o with
    | none => rfl
    | some x => cases c <;> rfl
  unfold parseOne
  rw [GoM.get_bind, h]
  rfl

theorem parsePage_nocols (env : Env) (tables : TableMap) (d : Bytes) (recovery : Bool) (hd : d.length = 16384) (out : Out) :
    parsePage env tables d recovery (field d PAGE_FREE) ⟨[], out⟩ =
      if HasRecord recovery d then .panic ⟨[], out⟩ else .ok [] ⟨[], out⟩ := by
  rw [parsePage_first env tables d recovery hd]
  show walk env tables d (isCompact d) (16383 + 1) _ [] _ = _
  unfold walk
  rw [supremum_eq]
  by_cases h : HasRecord recovery d
  · have h' := h
    unfold HasRecord at h'
    rw [if_pos h, if_pos h', GoM.bind_run, parseOne_nocols]
  · have h' := h
    unfold HasRecord at h'
    rw [if_neg h, if_neg h', read2_eq, read_at d _ (by omega)]
    rfl

/-- **C28 (partial).** For a table that is not in the dictionary nothing is printed and the dictionary is unchanged, but no
error is reported: the run ends normally if no selected page contains a record, and aborts otherwise.  Missing: the error
(`C28_false`). -/
theorem C28_unknown_table_partial (env : Env) (content db name : Bytes) (recovery : Bool) (s : IState)
    (hno : ¬ InDictionary s.tables db name) :
    parseDataPage env (.ok content) db name recovery s =
      if ∃ d ∈ selectedPages content recovery, HasRecord recovery d then .panic s else .ok none s := by
  have h := lookup_unknown hno
  rw [parseDataPage_run]
  have hlen : ∀ d ∈ selectedPages content recovery, d.length = 16384 := fun d hd => selectedPages_length hd
  generalize selectedPages content recovery = ds at *
  have hcols : getTableColumnsFromDict s.tables db name = [] := by unfold getTableColumnsFromDict; rw [h]
  have hwb : ∀ cols, writeBack s.tables db name cols = s.tables := by intro cols; unfold writeBack; rw [h]
  rw [hcols]
  have key : pagesRun env s.tables db name recovery ds ⟨[], s.out⟩ =
      if ∃ d ∈ ds, HasRecord recovery d then .panic ⟨[], s.out⟩ else .ok () ⟨[], s.out⟩ := by
    induction ds with
    | nil => simp [pagesRun, GoM.pure_run]
    | cons d ds ih =>
      have ih := ih fun x hx => hlen x (by simp [hx])
      rw [pagesRun_cons, GoM.bind_run, printPage_full, parsePage_nocols env _ d recovery (hlen d (by simp))]
      by_cases hd : HasRecord recovery d
      · rw [if_pos hd, if_pos ⟨d, by simp, hd⟩]
      · rw [if_neg hd]
        simp only [List.map_nil, List.append_nil, ih, List.mem_cons, exists_eq_or_imp, hd, false_or]
  rw [key]
  by_cases hex : ∃ d ∈ ds, HasRecord recovery d
  · simp [if_pos hex, hwb]
  · simp [if_neg hex, hwb]

/-- both cases occur, and the table is unknown -/
example : parseDataPage testEnv (.ok []) [1] [2] false ⟨testTables twoDefs, []⟩ = .ok none ⟨testTables twoDefs, []⟩ := by
  rw [C28_unknown_table_partial _ _ _ _ _ _ (by rintro ⟨e, he, h⟩; cases List.mem_singleton.mp he; exact absurd h (by decide)), if_neg (by rintro ⟨d, hd, _⟩; cases hd)]
example : ∃ s', parseDataPage testEnv (.ok [badPage].flatten) [1] [2] false ⟨testTables twoDefs, []⟩ = .panic s' :=
  let ⟨s', h, _⟩ := C27_bad_first_page testEnv [] (by simp) (by simp) [1] [2] ⟨testTables twoDefs, []⟩
  ⟨s', h⟩

/-! ## C29 -/

/-- No two tables have the same database and table name. -/
def NamesUnique (tables : TableMap) : Prop :=
  tables.Nodup ∧ ∀ e ∈ tables, ∀ e' ∈ tables, e.2.db = e'.2.db → e.2.name = e'.2.name → e = e'

/-- **C29.** The lookup finds the table with the given names, wherever it is in the map. -/
theorem C29_lookup (tables : TableMap) (h : NamesUnique tables) (db name : Bytes) (id : Nat) (t : Table)
    (hm : (id, t) ∈ tables) (hdb : t.db = db) (hname : t.name = name) :
    lookupTable tables db name = some (id, t) ∧ getTableFromDict tables db name = t ∧
      getTableColumnsFromDict tables db name = t.columns := by
  have hf : tables.filter (fun e => e.2.db == db && e.2.name == name) = [(id, t)] := by
    have hnd : (tables.filter (fun e => e.2.db == db && e.2.name == name)).Nodup := h.1.filter _
    have hall : ∀ e ∈ tables.filter (fun e => e.2.db == db && e.2.name == name), e = (id, t) := by
      intro e he
      rw [List.mem_filter, Bool.and_eq_true, beq_iff_eq, beq_iff_eq] at he
      exact h.2 e he.1 (id, t) hm (he.2.1.trans hdb.symm) (he.2.2.trans hname.symm)
    have hin : (id, t) ∈ tables.filter (fun e => e.2.db == db && e.2.name == name) := by
      rw [List.mem_filter]; exact ⟨hm, by simp [hdb, hname]⟩
    generalize tables.filter _ = l at *
    match l with
    | [] => simp at hin
    | [x] => rw [hall x (by simp)]
    | x :: y :: l =>
      rw [hall x (by simp), hall y (by simp)] at hnd
      simp at hnd
  have hl : lookupTable tables db name = some (id, t) := by unfold lookupTable; rw [hf]; rfl
  exact ⟨hl, by unfold getTableFromDict; rw [hl], by unfold getTableColumnsFromDict; rw [hl]⟩

/-- **C29, unknown names.** Only such a table is found. -/
theorem C29_unknown (tables : TableMap) (db name : Bytes) :
    lookupTable tables db name = none ↔ ∀ e ∈ tables, ¬ (e.2.db = db ∧ e.2.name = name) := by
  unfold lookupTable
  rw [List.getLast?_eq_none_iff, List.filter_eq_nil_iff]
  simp

/-- **C29, iteration order.** The results do not depend on the order in which the map is iterated. -/
theorem C29_order (tables tables' : TableMap) (h : NamesUnique tables) (hp : tables.Perm tables') (db name : Bytes) :
    lookupTable tables' db name = lookupTable tables db name ∧
    getTableFromDict tables' db name = getTableFromDict tables db name ∧
    getTableColumnsFromDict tables' db name = getTableColumnsFromDict tables db name := by
  have hl : lookupTable tables' db name = lookupTable tables db name := by
    cases hl : lookupTable tables db name with
    | none =>
      rw [C29_unknown] at hl ⊢
      exact fun e he => hl e (hp.mem_iff.mpr he)
    | some e =>
      have hmem := List.mem_of_getLast? hl
      rw [List.mem_filter, Bool.and_eq_true, beq_iff_eq, beq_iff_eq] at hmem
      have h' : NamesUnique tables' := ⟨hp.nodup_iff.mp h.1, fun e he e' he' =>
        h.2 e (hp.mem_iff.mpr he) e' (hp.mem_iff.mpr he')⟩
      exact (C29_lookup tables' h' db name e.1 e.2 (hp.mem_iff.mp hmem.1) hmem.2.1 hmem.2.2).1
  exact ⟨hl, by unfold getTableFromDict; rw [hl], by unfold getTableColumnsFromDict; rw [hl]⟩

/-- **C29, lookup by table id** (used by the redo log parser): the table with that id is found, in every iteration order. -/
theorem C29_by_id (tables tables' : TableMap) (h : tables.WF) (hp : tables.Perm tables') (id : Nat)
    (t : Table) : (tables'.get? id = some t ↔ (id, t) ∈ tables) ∧ tables'.get? id = tables.get? id := by
  rw [GoMap.get?_perm h hp]
  exact ⟨GoMap.get?_iff h id t, rfl⟩

/-- a dictionary with two tables, iterated in the other order -/
example : GoMap.WF (α := Table) [(1, {}), (2, {})] ∧ ([(1, {}), (2, {})] : TableMap).Perm [(2, {}), (1, {})] :=
  ⟨by unfold GoMap.WF; decide, List.Perm.swap _ _ _⟩

/-- Without unique names the order matters. -/
theorem C29_needs_unique : ∃ tables tables' : TableMap, tables.Perm tables' ∧
    getTableFromDict tables [] [] ≠ getTableFromDict tables' [] [] :=
  ⟨[(1, {}), (2, { spaceId := 2 })], [(2, { spaceId := 2 }), (1, {})], List.Perm.swap _ _ _, by decide⟩

/-- a dictionary with two tables of one database -/
example : NamesUnique [(1, { db := b! "d", name := b! "a" }), (2, { db := b! "d", name := b! "b" })] := by
  unfold NamesUnique; decide

end Verif.Props
