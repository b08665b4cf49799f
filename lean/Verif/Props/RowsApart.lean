import Verif.Props.PageOrder
import Verif.Proofs.Writer
/-!
# C25: the lines printed for a page, and the rows of other pages
-/

namespace Verif.Props
open Verif Spec

/-- reading a file made of these pages succeeds and prints these lines -/
def Prints (env : Env) (tables : TableMap) (db name : Bytes) (recovery : Bool) (ps : List Bytes) (lines : Out) : Prop :=
  ∃ m, parseDataPage env (.ok ps.flatten) db name recovery ⟨tables, []⟩ = .ok none ⟨m, lines⟩

/-- The full claim of C25, for files: the lines that a page adds to the output are the same, whatever pages are read before. -/
def C25_statement : Prop :=
  ∀ (env : Env) (tables : TableMap) (db name : Bytes) (recovery : Bool) (ps ps' : List Bytes) (q : Bytes) (before before' lines : Out),
    Pages (ps ++ [q]) → Pages (ps' ++ [q]) → Prints env tables db name recovery ps before → Prints env tables db name recovery ps' before' →
      Prints env tables db name recovery (ps ++ [q]) (before ++ lines) → Prints env tables db name recovery (ps' ++ [q]) (before' ++ lines)

theorem pages_append {env : Env} {tables : TableMap} {db name : Bytes} {recovery : Bool} (ds es : List Bytes) (s : PState) :
    pagesRun env tables db name recovery (ds ++ es) s =
      (pagesRun env tables db name recovery ds >>= fun _ => pagesRun env tables db name recovery es) s := by
  induction ds generalizing s with
  | nil => rfl
  | cons d ds ih =>
    rw [List.cons_append, pagesRun_cons, pagesRun_cons, GoM.bind_run, GoM.bind_run, GoM.bind_run]
    cases printPage env tables db name recovery (fullPage d) s with
    | ok _ t => exact (ih t).trans (GoM.bind_run ..)
    | panic => rfl
    | hang => rfl

/-- a run that succeeds leaves the definitions of the columns as they are -/
theorem pagesRun_skel {env : Env} {tables : TableMap} {db name : Bytes} {recovery : Bool} (ds : List Bytes) (hd : ∀ d ∈ ds, d.length = 16384)
    (s t : PState) (hs : s.cols.map (skelB true) = (getTableColumnsFromDict tables db name).map (skelB true))
    (h : pagesRun env tables db name recovery ds s = .ok () t) :
    t.cols.map (skelB true) = (getTableColumnsFromDict tables db name).map (skelB true) := by
  induction ds generalizing s with
  | nil => cases h; exact hs
  | cons d ds ih =>
    have hrel := page_in_file env tables db name recovery d (hd d (by simp)) s hs
    rw [pagesRun_cons, GoM.bind_run, printPage_full] at h
    generalize parsePage env tables d recovery (field d PAGE_FREE) s = r at hrel h
    generalize pageAlone env tables db name recovery d = r' at hrel
    cases hrel with
    | ok hrows hst =>
      dsimp only at h
      exact ih (fun x hx => hd x (by simp [hx])) _ (by exact hst.1) h
    | panic _ => cases h
    | hang _ => cases h

theorem selected_append {ps : List Bytes} {q : Bytes} (h : Pages (ps ++ [q])) (recovery : Bool) :
    selectedPages (ps ++ [q]).flatten recovery = selectedPages ps.flatten recovery ++ if Selected recovery q then [q] else [] := by
  have h' : Pages ps := ⟨fun p hp => h.whole p (by simp [hp]), by
    have := h.numbers
    rw [List.map_append] at this
    exact (List.nodup_append.mp this).1⟩
  unfold selectedPages
  rw [images_flatten _ h.whole h.numbers, images_flatten _ h'.whole h'.numbers, List.filter_append]
  congr 1
  by_cases hq : Selected recovery q
  · rw [if_pos hq, List.filter_cons_of_pos (by rw [decide_eq_true_eq]; exact hq), List.filter_nil]
  · rw [if_neg hq, List.filter_cons_of_neg (by simp [hq]), List.filter_nil]

/-- what a run prints, by its pages -/
theorem prints_iff {env : Env} {tables : TableMap} {db name : Bytes} {recovery : Bool} {ps : List Bytes} {lines : Out} :
    Prints env tables db name recovery ps lines ↔
      ∃ cols, pagesRun env tables db name recovery (selectedPages ps.flatten recovery) ⟨getTableColumnsFromDict tables db name, []⟩ =
        .ok () ⟨cols, lines⟩ := by
  unfold Prints
  rw [parseDataPage_run]
  dsimp only
  cases pagesRun env tables db name recovery (selectedPages ps.flatten recovery) ⟨getTableColumnsFromDict tables db name, []⟩ with
  | ok _ t =>
    constructor
    · rintro ⟨m, h⟩
      cases h
      exact ⟨_, rfl⟩
    · rintro ⟨cols, h⟩
      cases h
      exact ⟨_, rfl⟩
  | panic => exact ⟨fun ⟨_, h⟩ => (by cases h), fun ⟨_, h⟩ => by cases h⟩
  | hang => exact ⟨fun ⟨_, h⟩ => (by cases h), fun ⟨_, h⟩ => by cases h⟩

/-- **C25**, in part: a page in which no column lies outside the page and no binary column is NULL adds the same lines to the output,
whatever the pages read before, which need not be sound.  Missing: damaged records with a column beyond the end of the page, which print
a value of an earlier record (`C25_false`); for a NULL in a binary column `NULL` or `unhex(NULL)` (`C25_flag_leaks`). -/
theorem C25_pages_partial (env : Env) (tables : TableMap) (db name : Bytes) (recovery : Bool) (ps : List Bytes) (q : Bytes) (before : Out)
    (hp : Pages (ps ++ [q])) (hb : Prints env tables db name recovery ps before)
    (hq : Selected recovery q → Sound env tables db name recovery q) :
    Prints env tables db name recovery (ps ++ [q])
      (before ++ if Selected recovery q then pageOutput env tables db name recovery q else []) := by
  rw [prints_iff] at hb ⊢
  obtain ⟨cols, hb⟩ := hb
  rw [selected_append hp, pages_append, GoM.bind_run, hb]
  have hs := pagesRun_skel _ (fun d hd => selectedPages_length hd) _ _ rfl hb
  by_cases h : Selected recovery q
  · rw [if_pos h, if_pos h]
    obtain ⟨cols', h1, _⟩ := printPage_sound env tables db name recovery q (hp.whole q (by simp)) (hq h) ⟨cols, before⟩ hs
    dsimp only
    rw [pagesRun_cons, GoM.bind_run, h1]
    exact ⟨_, rfl⟩
  · rw [if_neg h, if_neg h, List.append_nil]
    exact ⟨_, rfl⟩

/-! ## Witness -/

/-- the columns of a table with an INT and a VARCHAR column, holding these values -/
def apartCols (id name : Val) : List Column :=
  [{ name := b! "id", ftype := 6, mtype := 3, len := 4, tableId := 1, value := id },
   { name := b! "DB_TRX_ID", len := 6, tableId := 1 },
   { name := b! "DB_ROLL_PTR", len := 7, tableId := 1 },
   { name := b! "name", ftype := 12, mtype := 15, len := 30, tableId := 1, value := name }]

def apartDefs : List ColDef := [⟨.int 4, false⟩, ⟨.system 6, false⟩, ⟨.system 7, false⟩, ⟨.varchar 30, false⟩]

def apartTables : TableMap := [(1, { db := b! "d", name := b! "t", columns := apartCols .nil .nil })]

theorem apart_describes (id name : Val) : All2 Describes (apartCols id name) apartDefs := by
  unfold apartCols apartDefs
  exact .cons ⟨rfl, rfl, rfl⟩ (.cons ⟨rfl, rfl, rfl⟩ (.cons ⟨rfl, rfl, rfl⟩ (.cons ⟨rfl, rfl, rfl⟩ .nil)))

/-- a row of the table as a REDUNDANT record -/
def apartRow (id : UInt8) (name : Bytes) : List OldCell :=
  [⟨[128, 0, 0, id], false⟩, ⟨[0, 0, 0, 0, 0, 0], false⟩, ⟨[0, 0, 0, 0, 0, 0, 0], false⟩, ⟨name, false⟩]

/-- page 3 of the table, with one row -/
def goodPage (name : Bytes) : Bytes := fill (writePage false 3 30 [oldRec (apartRow 1 name)] [])

/-- what the header of the damaged record says of its name -/
def brokenName : Bytes := List.replicate 16360 0

theorem brokenName_length : brokenName.length = 16360 := List.length_replicate

/-- a record whose header gives the last column 16360 bytes, while the record ends with the column before -/
def brokenRec : WRec := ⟨oldHead 2 (apartRow 2 brokenName), 14, oldData (apartRow 2 [])⟩

/-- page 4 of the table, with a damaged record -/
def brokenPage : Bytes := fill (writePage false 4 30 [brokenRec] [])

theorem brokenRec_good : brokenRec.Good := by
  intro x
  refine ⟨_, rfl, ?_⟩
  simp only [List.length_append, endInfos_length, List.length_cons, List.length_nil]
  rfl

theorem brokenPage_of : PageOf brokenPage false 4 30 [brokenRec] [] :=
  writePage_page false 4 30 [brokenRec] [] (by simpa using brokenRec_good) (by simp) (by decide) (by decide) (by decide)

theorem goodPage_of (name : Bytes) (h : name.length ≤ 30) : PageOf (goodPage name) false 3 30 [oldRec (apartRow 1 name)] [] :=
  writePage_page false 3 30 [oldRec (apartRow 1 name)] [] (by simpa using oldRec_good _) (by simp) (by
    have : total [oldRec (apartRow 1 name)] = 31 + name.length := by
      unfold total
      simp [WRec.size, oldRec, oldData, apartRow]
      omega
    rw [this]
    show 125 + _ + 0 < _
    omega) (by decide) (by decide)

theorem page_selected {d : Bytes} {n : Nat} {rs : List WRec} (h : PageOf d false n 30 rs []) : Selected false d :=
  ⟨h.ptype, h.level, h.trx, fun e => by cases e⟩

/-- the name in the good page -/
def someName (b : Bool) : Bytes := if b then b! "ann" else b! "bob"

theorem someName_length (b : Bool) : (someName b).length ≤ 30 := by cases b <;> decide

theorem good_decode (b : Bool) (v w : Val) (post : Bytes) (out : Out) :
    decodeOld testEnv (apartCols v w) ((apartRow 1 (someName b)).map fun x => { x with null := false }) post out =
      .ok (apartCols (.int 1) (.str (someName b))) out := by
  cases b <;> rfl

/-- what a page with one row does -/
theorem good_parse (b : Bool) (v w : Val) (out : Out) :
    parsePage testEnv apartTables (goodPage (someName b)) false (field (goodPage (someName b)) PAGE_FREE) ⟨apartCols v w, out⟩ =
      .ok [apartCols (.int 1) (.str (someName b))] ⟨apartCols (.int 1) (.str (someName b)), out⟩ := by
  have hp := goodPage_of _ (someName_length b)
  rw [C22_visits _ _ _ _ hp.length [139] (by rw [hp.fmt]; exact hp.linked), hp.fmt]
  cases hp.used with
  | cons hu _ =>
    obtain ⟨w', hat, hw⟩ := written_old hu.1
    unfold visit
    rw [GoM.bind_run]
    have := C21_nulls_ignored testEnv apartTables apartDefs (apartRow 1 (someName b)) (goodPage (someName b)) 139 w' ⟨apartCols v w, out⟩ (apart_describes _ _)
      (.cons ⟨fun h => (by cases h), rfl⟩ (.cons ⟨fun h => (by cases h), rfl⟩ (.cons ⟨fun h => (by cases h), rfl⟩ (.cons ⟨fun h => (by cases h), fun h => (by cases h)⟩ .nil)))) (by decide) (by rw [hp.length]) hat hw (by
        intro k hk m; simp [apartDefs] at hk; rcases hk with rfl | rfl | rfl | rfl <;> simp)
    rw [this, good_decode]
    rfl

theorem broken_offsets (cols : List Column) (h : cols.length = 4) :
    recOffsets apartTables brokenPage false 139 cols = some (some [0, 4, 14, 4, 10, 17, 16377, 0]) := by
  have hp := brokenPage_of
  cases hp.used with
  | cons hu _ =>
    obtain ⟨pre, x, post, h1, h2, -⟩ := hu.1
    have hh : RedundantHead brokenPage 139 2 (apartRow 2 brokenName) := by
      refine ⟨pre, [0, 0, 0], 0, beEnc 2 x, brokenRec.data ++ post, rfl, beEnc_length' 2 x, rfl, ?_, ?_⟩
      · rw [h1]
        simp only [brokenRec, oldHead, List.append_assoc]
        rfl
      · refine (show 139 = pre.length + 14 from h2).trans ?_
        simp only [List.length_append, endInfos_length, List.length_cons, List.length_nil, beEnc_length']
        rfl
    have hlen : (oldData (apartRow 2 brokenName)).length = 16377 := by
      simp [oldData, apartRow, brokenName_length]
    have hoff := initOffsetsOld_head brokenPage 139 2 _ hh (Or.inr rfl) (by rw [hp.length]; decide) (by rw [hlen]; decide) (by decide)
    unfold recOffsets
    have hs : sliceFrom brokenPage 139 = some (brokenPage.drop 139) := by
      unfold sliceFrom; rw [if_pos (by rw [hp.length]; decide)]
    have hb : ∀ x : Option (Option (List Nat)), (some (brokenPage.drop 139) >>= fun _ => x) = x := fun _ => rfl
    rw [hs, h, hb, if_neg (by decide)]
    rw [show (4 : Nat) = (apartRow 2 brokenName).length from rfl, hoff]
    simp [offsetsOf, viewOld, apartRow, endVals, Cell.bytes, cellFlag, brokenName_length]

theorem broken_drop : ∃ post, brokenPage.drop 139 = oldData (apartRow 2 []) ++ post ∧ post.length = 16228 := by
  have hp := brokenPage_of
  cases hp.used with
  | cons hu _ =>
    obtain ⟨pre, x, post, h1, h2, -⟩ := hu.1
    have h2 : 139 = pre.length + 14 := h2
    have hh : (pre ++ brokenRec.head x).length = 139 := by
      obtain ⟨p, e1, e2⟩ := brokenRec_good x
      rw [List.length_append, e1, List.length_append, beEnc_length', e2]
      exact h2.symm
    have hd : brokenPage.drop 139 = brokenRec.data ++ post := by
      rw [h1, List.append_assoc, List.drop_left' hh]
    refine ⟨post, hd, ?_⟩
    have := congrArg List.length hd
    rw [List.length_drop, hp.length, List.length_append] at this
    have h17 : brokenRec.data.length = 17 := rfl
    omega

theorem broken_parseOne (v w : Val) (out : Out) :
    parseOne testEnv apartTables brokenPage false 139 ⟨apartCols v w, out⟩ = .ok (some (apartCols (.int 2) w)) ⟨apartCols (.int 2) w, out⟩ := by
  obtain ⟨post, h1, h2⟩ := broken_drop
  rw [parseOne_oneOf testEnv apartTables brokenPage false 139 _ [0, 4, 14, 4, 10, 17, 16377, 0] (oldData (apartRow 2 []) ++ post)
    (broken_offsets _ rfl) (by unfold sliceFrom; rw [if_pos (by rw [brokenPage_of.length]; decide), h1])]
  have hf : ∀ c : Column, parseField testEnv (oldData (apartRow 2 []) ++ post) [0, 4, 14, 4, 10, 17, 16377, 0] 3 c out = .ok c out := by
    intro c
    have : recGetNthField (oldData (apartRow 2 []) ++ post) [0, 4, 14, 4, 10, 17, 16377, 0] 3 = some (post, 16360) := rfl
    unfold parseField
    rw [this, GoM.lift_some_bind]
    dsimp only
    rw [if_pos (by omega), if_neg (by decide)]
    rfl
  have hl : parseRecordsLoop testEnv (oldData (apartRow 2 []) ++ post) [0, 4, 14, 4, 10, 17, 16377, 0] 0 (apartCols v w) out =
      .ok (apartCols (.int 2) w) out := by
    have h3 : parseRecordsLoop testEnv (oldData (apartRow 2 []) ++ post) [0, 4, 14, 4, 10, 17, 16377, 0] 3
        [{ name := b! "name", ftype := 12, mtype := 15, len := 30, tableId := 1, value := w }] out =
          .ok [{ name := b! "name", ftype := 12, mtype := 15, len := 30, tableId := 1, value := w }] out := by
      unfold parseRecordsLoop
      rw [GoM.bind_run, hf]
      rfl
    have h0 : parseField testEnv (oldData (apartRow 2 []) ++ post) [0, 4, 14, 4, 10, 17, 16377, 0] 0
        { name := b! "id", ftype := 6, mtype := 3, len := 4, tableId := 1, value := v } out =
          .ok { name := b! "id", ftype := 6, mtype := 3, len := 4, tableId := 1, value := .int 2 } out := by
      have : recGetNthField (oldData (apartRow 2 []) ++ post) [0, 4, 14, 4, 10, 17, 16377, 0] 0 =
        some (oldData (apartRow 2 []) ++ post, 4) := rfl
      unfold parseField
      rw [this, GoM.lift_some_bind]
      dsimp only
      rw [if_neg (by rw [List.length_append]; show ¬ 17 + _ < 4; omega)]
      rfl
    have h1 : parseField testEnv (oldData (apartRow 2 []) ++ post) [0, 4, 14, 4, 10, 17, 16377, 0] 1
        { name := b! "DB_TRX_ID", len := 6, tableId := 1 } out = .ok { name := b! "DB_TRX_ID", len := 6, tableId := 1 } out := by
      have : recGetNthField (oldData (apartRow 2 []) ++ post) [0, 4, 14, 4, 10, 17, 16377, 0] 1 =
        some ((oldData (apartRow 2 [])).drop 4 ++ post, 6) := rfl
      unfold parseField
      rw [this, GoM.lift_some_bind]
      dsimp only
      rw [if_neg (by rw [List.length_append]; show ¬ 13 + _ < 6; omega)]
      rfl
    have h2 : parseField testEnv (oldData (apartRow 2 []) ++ post) [0, 4, 14, 4, 10, 17, 16377, 0] 2
        { name := b! "DB_ROLL_PTR", len := 7, tableId := 1 } out = .ok { name := b! "DB_ROLL_PTR", len := 7, tableId := 1 } out := by
      have : recGetNthField (oldData (apartRow 2 []) ++ post) [0, 4, 14, 4, 10, 17, 16377, 0] 2 =
        some ((oldData (apartRow 2 [])).drop 10 ++ post, 7) := rfl
      unfold parseField
      rw [this, GoM.lift_some_bind]
      dsimp only
      rw [if_neg (by rw [List.length_append]; show ¬ 7 + _ < 7; omega)]
      rfl
    generalize oldData (apartRow 2 []) ++ post = x at *
    have step : ∀ (i : Nat) (c d : Column) (cs ds : List Column), parseField testEnv x [0, 4, 14, 4, 10, 17, 16377, 0] i c out = .ok d out →
        parseRecordsLoop testEnv x [0, 4, 14, 4, 10, 17, 16377, 0] (i + 1) cs out = .ok ds out →
          parseRecordsLoop testEnv x [0, 4, 14, 4, 10, 17, 16377, 0] i (c :: cs) out = .ok (d :: ds) out := by
      intro i c d cs ds e1 e2
      rw [parseRecordsLoop, GoM.bind_run, e1]
      dsimp only
      rw [GoM.bind_run, e2]
      rfl
    exact step 0 _ _ _ _ h0 (step 1 _ _ _ _ h1 (step 2 _ _ _ _ h2 h3))
  generalize oldData (apartRow 2 []) ++ post = x at *
  have hc : checkFieldSize [0, 4, 14, 4, 10, 17, 16377, 0] (apartCols v w) = some true := rfl
  unfold oneOf parseRecords
  gom
  rw [hc]
  gom
  rw [if_pos trivial]
  gom
  rw [hl]
  rfl

theorem broken_parse (v w : Val) (out : Out) :
    parsePage testEnv apartTables brokenPage false (field brokenPage PAGE_FREE) ⟨apartCols v w, out⟩ =
      .ok [apartCols (.int 2) w] ⟨apartCols (.int 2) w, out⟩ := by
  have hp := brokenPage_of
  rw [C22_visits _ _ _ _ hp.length [139] (by rw [hp.fmt]; exact hp.linked), hp.fmt]
  unfold visit
  rw [GoM.bind_run, broken_parseOne]
  rfl

theorem good_pages (b : Bool) : Pages [goodPage (someName b), brokenPage] := by
  have h1 := goodPage_of _ (someName_length b)
  have h2 := brokenPage_of
  constructor
  · intro p hp
    simp only [List.mem_cons, List.not_mem_nil, or_false] at hp
    rcases hp with rfl | rfl
    · exact h1.length
    · exact h2.length
  · rw [List.map_cons, List.map_cons, List.map_nil, h1.number, h2.number]
    decide

theorem good_prints (b : Bool) : Prints testEnv apartTables (b! "d") (b! "t") false [goodPage (someName b)]
    [b! "replace into `d`.`t` values ('1','" ++ someName b ++ b! "');"] := by
  have h1 := goodPage_of _ (someName_length b)
  rw [prints_iff]
  unfold selectedPages
  rw [images_flatten _ (by simp only [List.mem_singleton, forall_eq]; exact h1.length) (by simp),
    List.filter_cons_of_pos (by rw [decide_eq_true_eq]; exact page_selected h1), List.filter_nil, pagesRun_cons, GoM.bind_run, printPage_full]
  rw [show getTableColumnsFromDict apartTables (b! "d") (b! "t") = apartCols .nil .nil from rfl, good_parse]
  cases b <;> exact ⟨_, rfl⟩

/-- The row of the damaged record is printed with the name of the row of the page before. -/
theorem both_print (b : Bool) : Prints testEnv apartTables (b! "d") (b! "t") false [goodPage (someName b), brokenPage]
    [b! "replace into `d`.`t` values ('1','" ++ someName b ++ b! "');", b! "replace into `d`.`t` values ('2','" ++ someName b ++ b! "');"] := by
  have h1 := goodPage_of _ (someName_length b)
  have h2 := brokenPage_of
  have hp := good_pages b
  rw [prints_iff]
  unfold selectedPages
  rw [images_flatten _ hp.whole hp.numbers, List.filter_cons_of_pos (by rw [decide_eq_true_eq]; exact page_selected h1),
    List.filter_cons_of_pos (by rw [decide_eq_true_eq]; exact page_selected h2), List.filter_nil, pagesRun_cons, GoM.bind_run, printPage_full]
  rw [show getTableColumnsFromDict apartTables (b! "d") (b! "t") = apartCols .nil .nil from rfl, good_parse]
  dsimp only
  rw [pagesRun_cons, GoM.bind_run, printPage_full, broken_parse]
  cases b <;> exact ⟨_, rfl⟩

theorem prints_unique {env : Env} {tables : TableMap} {db name : Bytes} {recovery : Bool} {ps : List Bytes} {l l' : Out}
    (h : Prints env tables db name recovery ps l) (h' : Prints env tables db name recovery ps l') : l = l' := by
  obtain ⟨m, h⟩ := h
  obtain ⟨m', h'⟩ := h'
  cases h.symm.trans h'
  rfl

/-- C25 is false of the code: a damaged record prints the name in the page before. -/
theorem C25_false : ¬ C25_statement := by
  intro h
  have := h testEnv apartTables (b! "d") (b! "t") false [goodPage (someName true)] [goodPage (someName false)] brokenPage _ _ _ (good_pages true)
    (good_pages false) (good_prints true) (good_prints false) (both_print true)
  have := prints_unique this (both_print false)
  revert this
  decide

theorem good_sound (b : Bool) : Sound testEnv apartTables (b! "d") (b! "t") false (goodPage (someName b)) := by
  have hp := goodPage_of _ (someName_length b)
  refine ⟨withinPage_redundant apartTables _ false apartDefs _ [139] [(2, apartRow 1 (someName b))] (apart_describes .nil .nil) (by decide) hp.length
    hp.fmt (by unfold Records; rw [hp.fmt]; exact hp.linked) ?_, ?_⟩
  · cases hp.used with
    | cons hu _ =>
      obtain ⟨pre, x, post, h1, h2, -⟩ := hu.1
      refine .cons ⟨.cons ⟨fun h => (by cases h), rfl⟩ (.cons ⟨fun h => (by cases h), rfl⟩ (.cons ⟨fun h => (by cases h), rfl⟩ (.cons ⟨fun h => (by cases h), fun h => (by cases h)⟩ .nil))), ?_, Or.inr rfl⟩ .nil
      refine ⟨pre, [0, 0, 0], 0, beEnc 2 x, post, rfl, beEnc_length' 2 x, rfl, ?_, ?_⟩
      · rw [h1]
        simp only [oldRec, oldHead, List.append_assoc]
        rfl
      · refine (show 139 = pre.length + 14 from h2).trans ?_
        simp only [List.length_append, endInfos_length, List.length_cons, List.length_nil, beEnc_length']
        rfl
  · have h := good_parse b .nil .nil []
    refine ⟨_, _, h, ?_⟩
    cases b <;> decide

/-- `C25_pages_partial` applies: behind the damaged page, the good page prints its row. -/
example (b : Bool) : ∃ before, Prints testEnv apartTables (b! "d") (b! "t") false [brokenPage] before ∧
    Prints testEnv apartTables (b! "d") (b! "t") false ([brokenPage] ++ [goodPage (someName b)])
      (before ++ [b! "replace into `d`.`t` values ('1','" ++ someName b ++ b! "');"]) := by
  have h1 := goodPage_of _ (someName_length b)
  have h2 := brokenPage_of
  have hb : ∃ before, Prints testEnv apartTables (b! "d") (b! "t") false [brokenPage] before := by
    refine ⟨[b! "replace into `d`.`t` values ('2',NULL);"], ?_⟩
    rw [prints_iff]
    unfold selectedPages
    rw [images_flatten _ (by simp only [List.mem_singleton, forall_eq]; exact h2.length) (by simp),
      List.filter_cons_of_pos (by rw [decide_eq_true_eq]; exact page_selected h2), List.filter_nil, pagesRun_cons, GoM.bind_run, printPage_full]
    rw [show getTableColumnsFromDict apartTables (b! "d") (b! "t") = apartCols .nil .nil from rfl, broken_parse]
    exact ⟨_, rfl⟩
  obtain ⟨before, hb⟩ := hb
  refine ⟨before, hb, ?_⟩
  have h := C25_pages_partial testEnv apartTables (b! "d") (b! "t") false [brokenPage] (goodPage (someName b)) before
    ((good_pages b).perm (List.Perm.swap _ _ _)) hb fun _ => good_sound b
  rw [if_pos (page_selected h1)] at h
  have ho : pageOutput testEnv apartTables (b! "d") (b! "t") false (goodPage (someName b)) =
      [b! "replace into `d`.`t` values ('1','" ++ someName b ++ b! "');"] := by
    have h3 : pageAlone testEnv apartTables (b! "d") (b! "t") false (goodPage (someName b)) = _ := good_parse b .nil .nil []
    unfold pageOutput
    rw [h3]
    cases b <;> rfl
  rw [ho] at h
  exact h

/-! ## C62 -/

/-- reading these files one after the other, with one dictionary, prints these lines -/
def ReadPrints (env : Env) (tables : TableMap) (rs : List Request) (lines : Out) : Prop :=
  ∃ m, readAll env rs ⟨tables, []⟩ = .ok () ⟨m, lines⟩

/-- The full claim of C62: a file prints after other files what it prints when it is read first. -/
def C62_statement : Prop :=
  ∀ (env : Env) (tables : TableMap) (rs : List Request) (r : Request) (before lines : Out), tables.WF →
    ReadPrints env tables rs before → ReadPrints env tables [r] lines → ReadPrints env tables (rs ++ [r]) (before ++ lines)

theorem readAll_append (env : Env) (rs ts : List Request) : readAll env (rs ++ ts) = (readAll env rs >>= fun _ => readAll env ts) := by
  induction rs with
  | nil => rfl
  | cons r rs ih =>
    funext s
    rw [List.cons_append, readAll, readAll, GoM.bind_run, GoM.bind_run, GoM.bind_run]
    cases parseDataPage env (.ok r.content) r.db r.table r.recovery s with
    | ok _ t => dsimp only; rw [ih]; rfl
    | panic => rfl
    | hang => rfl

/-- a run over files that succeeds keeps the definitions in the dictionary -/
theorem readAll_dict (env : Env) (rs : List Request) (s t : IState) (hw : s.tables.WF) (h : readAll env rs s = .ok () t) :
    SameDict s.tables t.tables := by
  induction rs generalizing s with
  | nil => cases h; exact SameDict.refl _
  | cons r rs ih =>
    have hd := (parseDataPage_dict env r.content r.db r.table r.recovery s hw).1
    unfold readAll at h
    rw [GoM.bind_run] at h
    generalize parseDataPage env (.ok r.content) r.db r.table r.recovery s = x at h hd
    cases x with
    | ok e u =>
      dsimp only at h
      have hwu : GoMap.WF u.tables := by
        unfold GoMap.WF
        rw [SameDict.keys (show SameDict s.tables u.tables from hd)]
        exact hw
      exact SameDict.trans hd (ih u hwu h)
    | panic => cases h
    | hang => cases h

/-- **C62**, in part: a file whose pages are sound prints the same after any other files read successfully, which need not be sound.
Missing: files with columns outside the page, which print a value of a file read before (`C62_false`), and NULLs in binary columns. -/
theorem C62_after_partial (env : Env) (tables : TableMap) (rs : List Request) (r : Request) (before : Out) (hw : tables.WF)
    (hb : ReadPrints env tables rs before)
    (hr : ∀ d ∈ selectedPages r.content r.recovery, Sound env tables r.db r.table r.recovery d) :
    ReadPrints env tables [r] (requestOutput env tables r) ∧ ReadPrints env tables (rs ++ [r]) (before ++ requestOutput env tables r) := by
  obtain ⟨m, hb⟩ := hb
  have hd := readAll_dict env rs _ _ hw hb
  have hwm : GoMap.WF m := by
    unfold GoMap.WF
    rw [SameDict.keys hd]
    exact hw
  constructor
  · obtain ⟨m', h, _⟩ := C62_files_partial env [r] ⟨tables, []⟩ hw (by simpa using hr)
    rw [List.flatMap_singleton] at h
    exact ⟨m', h⟩
  · obtain ⟨m', h, _⟩ := C62_files_partial env [r] ⟨m, before⟩ hwm (by
      simp only [List.mem_singleton, forall_eq]
      intro d hd'
      exact (SameDict.sound hd (selectedPages_length hd') (hr d hd')).1)
    refine ⟨m', ?_⟩
    rw [readAll_append, GoM.bind_run, hb]
    dsimp only
    rw [h, List.flatMap_singleton]
    congr 3
    unfold requestOutput
    refine List.flatMap_congr fun d hd' => ?_
    exact (SameDict.sound hd (selectedPages_length hd') (hr d hd')).2

/-- `C62_after_partial` applies: the file with the good page is read after the damaged one. -/
example (b : Bool) (before : Out) (h : ReadPrints testEnv apartTables [⟨[brokenPage].flatten, b! "d", b! "t", false⟩] before) :
    ∃ lines, ReadPrints testEnv apartTables ([⟨[brokenPage].flatten, b! "d", b! "t", false⟩] ++ [⟨[goodPage (someName b)].flatten, b! "d", b! "t", false⟩])
      (before ++ lines) :=
  ⟨_, (C62_after_partial testEnv apartTables _ ⟨[goodPage (someName b)].flatten, b! "d", b! "t", false⟩ before (by unfold GoMap.WF apartTables; simp) h (by
    intro d hd
    have h1 := goodPage_of _ (someName_length b)
    unfold selectedPages at hd
    dsimp only at hd
    rw [images_flatten _ (by simp only [List.mem_singleton, forall_eq]; exact h1.length) (by simp), List.mem_filter, List.mem_singleton] at hd
    rw [hd.1]
    exact good_sound b)).2⟩

theorem single_run {d : Bytes} {n : Nat} {rs : List WRec} (h : PageOf d false n 30 rs []) (tables : TableMap) (out : Out)
    (cols cs : List Column) (hc : getTableColumnsFromDict tables (b! "d") (b! "t") = cols)
    (hp : parsePage testEnv tables d false (field d PAGE_FREE) ⟨cols, out⟩ = .ok [cs] ⟨cs, out⟩) :
    parseDataPage testEnv (.ok [d].flatten) (b! "d") (b! "t") false ⟨tables, out⟩ =
      .ok none ⟨writeBack tables (b! "d") (b! "t") cs, out ++ [replaceStmt testEnv.ff (b! "d") (b! "t") cs]⟩ := by
  rw [parseDataPage_run]
  unfold selectedPages
  rw [images_flatten _ (by simp only [List.mem_singleton, forall_eq]; exact h.length) (by simp),
    List.filter_cons_of_pos (by rw [decide_eq_true_eq]; exact page_selected h), List.filter_nil, pagesRun_cons, GoM.bind_run, printPage_full]
  dsimp only
  rw [hc, hp]
  rfl

/-- The file of one page is read after the file of another page: it prints a name of that file, although it does not hold it. -/
theorem C62_false : ¬ C62_statement := by
  intro h
  have h1 := goodPage_of _ (someName_length true)
  have h2 := brokenPage_of
  have r1 := single_run h1 apartTables [] (apartCols .nil .nil) _ rfl (good_parse true .nil .nil [])
  have hd : SameDict apartTables (writeBack apartTables (b! "d") (b! "t") (apartCols (.int 1) (.str (someName true)))) := by
    have := (parseDataPage_dict testEnv [goodPage (someName true)].flatten (b! "d") (b! "t") false ⟨apartTables, []⟩ (by
      unfold GoMap.WF apartTables; simp)).1
    rw [r1] at this
    exact this
  have r2 : ∀ out, parseDataPage testEnv (.ok [brokenPage].flatten) (b! "d") (b! "t") false ⟨apartTables, out⟩ = _ := fun out =>
    single_run h2 apartTables out (apartCols .nil .nil) _ rfl (broken_parse .nil .nil out)
  have r3 : ∀ out, parseDataPage testEnv (.ok [brokenPage].flatten) (b! "d") (b! "t") false
      ⟨writeBack apartTables (b! "d") (b! "t") (apartCols (.int 1) (.str (someName true))), out⟩ = _ := fun out =>
    single_run h2 _ out (apartCols (.int 1) (.str (someName true))) (apartCols (.int 2) (.str (someName true))) rfl (by
      rw [parsePage_dict hd]; exact broken_parse _ _ _)
  clear h1 h2
  generalize [goodPage (someName true)].flatten = f1 at *
  generalize [brokenPage].flatten = f2 at *
  have := h testEnv apartTables [⟨f1, b! "d", b! "t", false⟩] ⟨f2, b! "d", b! "t", false⟩
    [b! "replace into `d`.`t` values ('1','ann');"] [b! "replace into `d`.`t` values ('2',NULL);"] (by unfold GoMap.WF apartTables; simp)
    ⟨_, by unfold readAll; rw [GoM.bind_run, r1]; rfl⟩ ⟨_, by unfold readAll; rw [GoM.bind_run, r2]; rfl⟩
  obtain ⟨m, this⟩ := this
  have e : ∃ m', readAll testEnv ([⟨f1, b! "d", b! "t", false⟩] ++ [⟨f2, b! "d", b! "t", false⟩]) ⟨apartTables, []⟩ =
      .ok () ⟨m', [b! "replace into `d`.`t` values ('1','ann');", b! "replace into `d`.`t` values ('2','ann');"]⟩ := by
    rw [List.cons_append, List.nil_append, readAll, GoM.bind_run, r1]
    dsimp only
    rw [readAll, GoM.bind_run, r3]
    exact ⟨_, rfl⟩
  obtain ⟨m', e⟩ := e
  have := this.symm.trans e
  injection this with _ this
  injection this with _ this
  revert this
  decide

end Verif.Props
