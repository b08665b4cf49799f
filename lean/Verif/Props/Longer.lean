import Verif.Props.Inject
import Verif.Props.FullText
/-!
# C103: pages at the end of a file
-/

namespace Verif.Props
open Verif Spec

/-- What a run has printed (`x`) is the beginning of what another run prints (`y`); if it did not come to its end, the other one is the same. -/
def GoesOn (x y : R Out Unit) : Prop :=
  match x with
  | .ok _ out => ∃ lines, y.st = out ++ lines
  | .panic _ | .hang _ => y = x

/-! ## The pages -/

theorem pageImage_append (c m : Bytes) {n k : Nat} (hc : c.length = pageSize * n) (hk : k < n) : pageImage (c ++ m) k = pageImage c k := by
  unfold pageImage
  apply List.map_congr_left
  intro j hj
  rw [List.mem_range] at hj
  have h1 : pageSize * k + pageSize ≤ pageSize * n := by
    rw [← Nat.mul_succ]
    exact Nat.mul_le_mul_left _ hk
  rw [List.getD_eq_getElem?_getD, List.getD_eq_getElem?_getD, List.getElem?_append_left (by omega)]

theorem pageCount_whole {c : Bytes} {n : Nat} (hc : c.length = pageSize * n) : pageCount c = n := by
  have hps : pageSize = 16384 := rfl
  unfold pageCount
  rw [hc, hps]
  omega

theorem filePages_append (c m : Bytes) {n : Nat} (hc : c.length = pageSize * n) : ∃ rest, filePages (c ++ m) = filePages c ++ rest := by
  have hps : pageSize = 16384 := rfl
  obtain ⟨k, hk⟩ : ∃ k, pageCount (c ++ m) = n + k := by
    refine ⟨pageCount (c ++ m) - n, ?_⟩
    have : n ≤ pageCount (c ++ m) := by
      unfold pageCount
      rw [List.length_append, hc, hps]
      omega
    omega
  unfold filePages firstCopies
  rw [hk, pageCount_whole hc, List.range_add, List.filter_append, List.map_append]
  refine ⟨_, congrArg (· ++ _) ?_⟩
  have e : ∀ k ∈ List.range n, ((List.range k).all fun i => pageNumber (pageImage (c ++ m) i) != pageNumber (pageImage (c ++ m) k)) =
      (List.range k).all fun i => pageNumber (pageImage c i) != pageNumber (pageImage c k) := by
    intro k hk
    rw [List.mem_range] at hk
    rw [pageImage_append c m hc hk, Bool.eq_iff_iff, List.all_eq_true, List.all_eq_true]
    refine forall₂_congr fun i hi => ?_
    rw [List.mem_range] at hi
    rw [pageImage_append c m hc (by omega)]
  rw [List.filter_congr e]
  apply List.map_congr_left
  intro k hk
  exact pageImage_append c m hc (List.mem_range.mp (List.mem_filter.mp hk).1)

theorem selectedPages_append (c m : Bytes) (recovery : Bool) {n : Nat} (hc : c.length = pageSize * n) :
    ∃ rest, selectedPages (c ++ m) recovery = selectedPages c recovery ++ rest := by
  obtain ⟨rest, h⟩ := filePages_append c m hc
  unfold selectedPages
  unfold filePages at h
  rw [h, List.filter_append]
  exact ⟨_, rfl⟩

/-! ## The output -/

theorem printPage_adds (env : Env) (tables : TableMap) (db name : Bytes) (recovery : Bool) (d : Bytes) (o : Out) :
    Keeps (fun s : PState => ∃ lines, s.out = o ++ lines) (printPage env tables db name recovery (fullPage d)) := by
  rintro s ⟨lines, ho⟩
  obtain ⟨ls, h1, -⟩ := parsePage_noise env tables d recovery (field d PAGE_FREE) s.out s ⟨[], by simp, by simp⟩
  rw [printPage_full]
  generalize parsePage env tables d recovery (field d PAGE_FREE) s = r at h1
  cases r with
  | ok rows s' =>
    change s'.out = _ at h1
    refine ⟨lines ++ ls ++ rows.map (replaceStmt env.ff db name), ?_⟩
    show s'.out ++ _ = _
    rw [h1, ho]
    simp
  | panic s' => exact ⟨lines ++ ls, by rw [← List.append_assoc, ← ho]; exact h1⟩
  | hang s' => exact ⟨lines ++ ls, by rw [← List.append_assoc, ← ho]; exact h1⟩

theorem pagesRun_adds (env : Env) (tables : TableMap) (db name : Bytes) (recovery : Bool) (ds : List Bytes) (o : Out) :
    Keeps (fun s : PState => ∃ lines, s.out = o ++ lines) (pagesRun env tables db name recovery ds) := by
  induction ds with
  | nil => exact Keeps.pure _
  | cons d ds ih => exact Keeps.bind (printPage_adds env tables db name recovery d o) fun _ => ih

theorem pagesRun_append (env : Env) (tables : TableMap) (db name : Bytes) (recovery : Bool) (ds es : List Bytes) (s : PState) :
    pagesRun env tables db name recovery (ds ++ es) s =
      (pagesRun env tables db name recovery ds >>= fun _ => pagesRun env tables db name recovery es) s := by
  induction ds generalizing s with
  | nil => rfl
  | cons d ds ih =>
    rw [List.cons_append, pagesRun_cons, pagesRun_cons, GoM.bind_run, GoM.bind_run, GoM.bind_run]
    cases printPage env tables db name recovery (fullPage d) s with
    | ok _ t =>
      dsimp only
      rw [ih t, GoM.bind_run]
    | panic _ => rfl
    | hang _ => rfl

/-- **C103.** Whatever the files contain: if bytes are appended to a data file of whole pages, the command prints what it printed before, and maybe
more; a run that aborts or loops before is not changed at all. -/
theorem C103_appended (env : Env) (a : FromData) (ibd more : Bytes) (n : Nat) (hlen : ibd.length = 16384 * n) (out : Out) :
    GoesOn (fromDataFile env { a with tableFile := .ok ibd } out) (fromDataFile env { a with tableFile := .ok (ibd ++ more) } out) := by
  unfold fromDataFile
  dsimp only
  cases parseDictPage env a.sysFile { out := out } with
  | panic s => exact rfl
  | hang s => exact rfl
  | ok e s =>
    cases e with
    | some e => exact ⟨[], (List.append_nil _).symm⟩
    | none =>
      dsimp only
      rw [parseDataPage_run, parseDataPage_run]
      obtain ⟨rest, hr⟩ := selectedPages_append ibd more (a.opType == b! "RecoveryData") (n := n) hlen
      rw [hr, pagesRun_append, GoM.bind_run]
      cases pagesRun env s.tables a.db a.table (a.opType == b! "RecoveryData") (selectedPages ibd _) _ with
      | panic t => exact rfl
      | hang t => exact rfl
      | ok _ t =>
        dsimp only
        obtain ⟨lines, h⟩ := pagesRun_adds env s.tables a.db a.table (a.opType == b! "RecoveryData") rest t.out t ⟨[], (List.append_nil _).symm⟩
        refine ⟨lines, ?_⟩
        generalize pagesRun env s.tables a.db a.table _ rest t = r at h
        cases r <;> exact h

/-- **C103, cuts between pages.** What is printed for the first pages of a file is the beginning of what is printed for the file. -/
theorem C103_cut (env : Env) (a : FromData) (ibd : Bytes) (k : Nat) (out : Out) :
    GoesOn (fromDataFile env { a with tableFile := .ok (ibd.take (16384 * k)) } out) (fromDataFile env { a with tableFile := .ok ibd } out) := by
  by_cases h : 16384 * k ≤ ibd.length
  · have := C103_appended env a (ibd.take (16384 * k)) (ibd.drop (16384 * k)) k (by rw [List.length_take]; omega) out
    rwa [List.take_append_drop] at this
  · rw [List.take_of_length_le (by omega)]
    cases fromDataFile env { a with tableFile := .ok ibd } out with
    | ok _ o => exact ⟨[], (List.append_nil _).symm⟩
    | panic _ => rfl
    | hang _ => rfl

/-- **C103, further copies.** Appended pages whose numbers occur in the file change nothing. -/
theorem C103_copies (env : Env) (a : FromData) (ibd more : Bytes) (n : Nat) (hlen : ibd.length = 16384 * n)
    (hmore : ∀ k, k < pageCount more → ∃ i < n, pageNumber (pageImage ibd i) = pageNumber (pageImage more k)) (out : Out) :
    fromDataFile env { a with tableFile := .ok (ibd ++ more) } out = fromDataFile env { a with tableFile := .ok ibd } out := by
  have hps : pageSize = 16384 := rfl
  have hcount : pageCount (ibd ++ more) = n + pageCount more := by
    unfold pageCount
    rw [List.length_append, hlen, hps]
    omega
  have himage : ∀ k, pageImage (ibd ++ more) (n + k) = pageImage more k := by
    intro k
    unfold pageImage
    apply List.map_congr_left
    intro j _
    rw [List.getD_eq_getElem?_getD, List.getD_eq_getElem?_getD, List.getElem?_append_right (by rw [hlen, hps]; omega)]
    congr 2
    rw [hlen, hps]
    omega
  have e : selectedPages (ibd ++ more) (a.opType == b! "RecoveryData") = selectedPages ibd (a.opType == b! "RecoveryData") := by
    unfold selectedPages
    refine congrArg _ ?_
    unfold firstCopies
    rw [hcount, pageCount_whole hlen, List.range_add, List.filter_append]
    have h0 : ∀ l : List Nat, (∀ x ∈ l, ∃ k, k < pageCount more ∧ x = n + k) → l.filter (fun k => (List.range k).all fun i =>
        pageNumber (pageImage (ibd ++ more) i) != pageNumber (pageImage (ibd ++ more) k)) = [] := by
      intro l hl
      rw [List.filter_eq_nil_iff]
      intro x hx
      obtain ⟨k, hk, rfl⟩ := hl x hx
      obtain ⟨i, hi, hn⟩ := hmore k hk
      rw [himage, List.all_eq_true]
      intro h
      have := h i (List.mem_range.mpr (by omega))
      rw [pageImage_append ibd more hlen hi, hn] at this
      simp at this
    rw [h0 (List.map _ _) (by
      intro x hx
      obtain ⟨k, hk, rfl⟩ := List.mem_map.mp hx
      exact ⟨k, List.mem_range.mp hk, rfl⟩), List.append_nil]
    · rw [List.filter_congr (q := fun k => (List.range k).all fun i => pageNumber (pageImage ibd i) != pageNumber (pageImage ibd k))]
      · apply List.map_congr_left
        intro k hk
        exact pageImage_append ibd more hlen (List.mem_range.mp (List.mem_filter.mp hk).1)
      · intro k hk
        rw [List.mem_range] at hk
        rw [pageImage_append ibd more hlen hk, Bool.eq_iff_iff, List.all_eq_true, List.all_eq_true]
        refine forall₂_congr fun i hi => ?_
        rw [List.mem_range] at hi
        rw [pageImage_append ibd more hlen (by omega)]
  unfold fromDataFile
  dsimp only
  cases parseDictPage env a.sysFile { out := out } with
  | panic s => rfl
  | hang s => rfl
  | ok x s =>
    cases x with
    | some x => rfl
    | none =>
      dsimp only
      rw [parseDataPage_run, parseDataPage_run, e]

theorem appended_st (env : Env) (a : FromData) (ibd more : Bytes) (n : Nat) {out out' : Out} {x : Unit} (hlen : ibd.length = 16384 * n)
    (ha : a.tableFile = .ok ibd) (h : fromDataFile env a out = .ok x out') :
    ∃ lines, (fromDataFile env { a with tableFile := .ok (ibd ++ more) } out).st = out' ++ lines := by
  have h' := C103_appended env a ibd more n hlen out
  rw [← ha, h] at h'
  exact h'

theorem text_length : textData.length = 16384 := by
  have h := (writePage_page true 3 30 ([textCells].map fun c => newRec (rowOf textDefs c)) []
    (fun r hr => by obtain ⟨c, -, rfl⟩ := List.mem_map.mp hr; exact newRec_good _) (by simp) (by decide) (by decide) (by decide)).length
  unfold textData writeTable writeFile
  rw [List.map_cons (f := fill), List.map_nil (f := fill), List.flatten_cons, List.flatten_nil, List.append_nil, List.map_nil]
  exact h

/-- The row of the table is printed first, whatever is appended to the file. -/
example (env : Env) (out : Out) (more : Bytes) :
    ∃ lines lines', (fromDataFile env { textArgs with tableFile := .ok (textData ++ more) } out).st = out ++ lines ++ lines' ∧
      All2 (Printed env.ff (b! "shop") (b! "t")) lines [textRow] := by
  have hp := text_printable env
  obtain ⟨lines, h1, h2⟩ := C57_command_partial env textArgs textSys textData _ _ _ _ _ _ _ _ _ _ hp.sysFile rfl hp.dict hp.table hp.name hp.layout
    (text_file env) hp.op hp.keys hp.handled hp.mark hp.compact hp.redundant hp.values hp.db hp.tab out
  obtain ⟨lines', h⟩ := appended_st env textArgs textData more 1 (text_length.trans (Nat.mul_one _).symm) (by rfl) h1
  exact ⟨lines, lines', h, h2⟩

end Verif.Props
