import Verif.Props.Output
import Verif.Props.Own
import Verif.Proofs.Script
/-!
# C37: the lines of all data files
-/

namespace Verif.Props
open Verif Spec

/-- the line that `ParseData` prints for a DECIMAL -/
def decLine : Bytes := b! "test MYSQL_TYPE_NEWDECIMAL"

/-- since the output was `o`, only such lines have been printed -/
def DecimalLines (o out : Out) : Prop := ∃ n, out = o ++ List.replicate n decLine

theorem parseData_decimal (env : Env) (t m : Nat) (data : Bytes) (fl fx : Nat) (u f : Bool) (o : Out) :
    Keeps (DecimalLines o) (parseData env t m data fl fx u f) := by
  by_cases h : isDecimal t m
  · obtain ⟨rfl, rfl⟩ := h
    have hp : Keeps (DecimalLines o) (println decLine) := by
      rintro out ⟨n, rfl⟩
      refine ⟨n + 1, ?_⟩
      rw [List.replicate_succ', ← List.append_assoc]
      rfl
    show Keeps (DecimalLines o) (println decLine >>= fun _ => GoM.lift (sliceTo data fl) >>= fun v => pure (Val.str v, f))
    exact Keeps.bind hp fun _ => Keeps.bind (Keeps.lift _) fun _ => Keeps.pure _
  · intro out ho
    have := parseData_quiet env t m data fl fx u f h out out rfl
    rw [this]
    exact ho

theorem parseField_decimal (env : Env) (d : Bytes) (offsets : List Nat) (i : Nat) (c : Column) (o : Out) :
    Keeps (DecimalLines o) (parseField env d offsets i c) := by
  unfold parseField
  refine Keeps.bind (Keeps.lift _) fun x => ?_
  obtain ⟨data, len⟩ := x
  refine Keeps.ite (fun _ => Keeps.ite (fun _ => Keeps.pure _) (fun _ => Keeps.pure _)) (fun _ => ?_)
  exact Keeps.bind (parseData_decimal env _ _ _ _ _ _ _ o) fun _ => Keeps.pure _

theorem parseRecordsLoop_decimal (env : Env) (d : Bytes) (offsets : List Nat) (i : Nat) (cs : List Column) (o : Out) :
    Keeps (DecimalLines o) (parseRecordsLoop env d offsets i cs) := by
  induction cs generalizing i with
  | nil => exact Keeps.pure _
  | cons c cs ih =>
    unfold parseRecordsLoop
    exact Keeps.bind (parseField_decimal env d offsets i c o) fun _ => Keeps.bind (ih _) fun _ => Keeps.pure _

theorem parseRecords_decimal (env : Env) (d : Bytes) (offsets : List Nat) (o : Out) :
    Keeps (fun s : PState => DecimalLines o s.out) (parseRecords env d offsets) := by
  rintro ⟨cols, out⟩ ho
  have h1 := parseRecordsLoop_decimal env d offsets 0 cols o out ho
  unfold parseRecords
  rw [GoM.get_bind, GoM.bind_run, GoM.zoom_run]
  dsimp only
  cases hr : parseRecordsLoop env d offsets 0 cols out with
  | ok cs t =>
    rw [hr] at h1
    dsimp only
    rw [GoM.modify_bind]
    exact Keeps.bind (P := fun s : PState => DecimalLines o s.out) (Keeps.lift _) (fun _ => Keeps.pure _) _ h1
  | panic t => rw [hr] at h1; exact h1
  | hang t => rw [hr] at h1; exact h1

theorem parseOne_decimal (env : Env) (tables : TableMap) (d : Bytes) (c : Bool) (x : Nat) (o : Out) :
    Keeps (fun s : PState => DecimalLines o s.out) (parseOne env tables d c x) := by
  unfold parseOne
  refine Keeps.bind Keeps.get fun s => Keeps.bind (Keeps.lift _) fun r => ?_
  cases r with
  | none => exact Keeps.pure _
  | some offsets =>
    refine Keeps.bind (Keeps.lift _) fun b => Keeps.ite (fun _ => ?_) (fun _ => Keeps.pure _)
    exact Keeps.bind (Keeps.lift _) fun y => Keeps.bind (parseRecords_decimal env y offsets o) fun _ =>
      Keeps.bind (Keeps.lift _) fun _ => Keeps.pure _

theorem walk_decimal (env : Env) (tables : TableMap) (d : Bytes) (c : Bool) (fuel x : Nat) (rows : List (List Column)) (o : Out) :
    Keeps (fun s : PState => DecimalLines o s.out) (walk env tables d c fuel x rows) := by
  induction fuel generalizing x rows with
  | zero => exact Keeps.hang
  | succ fuel ih =>
    unfold walk
    refine Keeps.ite (fun _ => ?_) (fun _ => Keeps.bind (Keeps.lift _) fun _ => Keeps.pure _)
    refine Keeps.bind (parseOne_decimal env tables d c x o) fun r => ?_
    cases r with
    | none => exact Keeps.pure _
    | some cs =>
      refine Keeps.bind (Keeps.lift _) fun n => ?_
      cases n with
      | none => exact Keeps.pure _
      | some y => exact ih y _

theorem parsePage_decimal (env : Env) (tables : TableMap) (d : Bytes) (recovery : Bool) (free : Nat) (o : Out) :
    Keeps (fun s : PState => DecimalLines o s.out) (parsePage env tables d recovery free) := by
  unfold parsePage
  exact Keeps.bind (Keeps.lift _) fun _ => Keeps.bind (Keeps.lift _) fun _ => walk_decimal env tables d _ _ _ _ o

/-- what has been printed so far -/
def TwoKinds (db name : Bytes) (o : Out) (s : PState) : Prop :=
  ∃ lines, s.out = o ++ lines ∧ ∀ l ∈ lines, l = decLine ∨ ∃ n, IsReplace db name n l

theorem printPage_kinds (env : Env) (tables : TableMap) (db name : Bytes) (recovery : Bool) (d : Bytes) (o : Out) :
    Keeps (TwoKinds db name o) (printPage env tables db name recovery (fullPage d)) := by
  rintro s ⟨lines, ho, hl⟩
  have h := parsePage_decimal env tables d recovery (field d PAGE_FREE) s.out s ⟨0, (List.append_nil _).symm⟩
  rw [printPage_full]
  have more : ∀ n, ∀ l ∈ lines ++ List.replicate n decLine, l = decLine ∨ ∃ n, IsReplace db name n l := by
    intro n l hm
    rcases List.mem_append.mp hm with hm | hm
    · exact hl l hm
    · exact .inl (List.eq_of_mem_replicate hm)
  generalize parsePage env tables d recovery (field d PAGE_FREE) s = r at h
  cases r with
  | ok rows s' =>
    obtain ⟨n, h⟩ := h
    refine ⟨lines ++ List.replicate n decLine ++ rows.map (replaceStmt env.ff db name), ?_, ?_⟩
    · show s'.out ++ _ = _
      change s'.out = _ at h
      rw [h, ho]
      simp only [List.append_assoc]
    · intro l hm
      rcases List.mem_append.mp hm with hm | hm
      · exact more n l hm
      · obtain ⟨row, _, rfl⟩ := List.mem_map.mp hm
        exact .inr ⟨_, C36_one_value_per_column env.ff db name row⟩
  | panic s' =>
    obtain ⟨n, h⟩ := h
    exact ⟨_, by show s'.out = _; change s'.out = _ at h; rw [h, ho, List.append_assoc], more n⟩
  | hang s' =>
    obtain ⟨n, h⟩ := h
    exact ⟨_, by show s'.out = _; change s'.out = _ at h; rw [h, ho, List.append_assoc], more n⟩

theorem pagesRun_kinds (env : Env) (tables : TableMap) (db name : Bytes) (recovery : Bool) (ds : List Bytes) (o : Out) :
    Keeps (TwoKinds db name o) (pagesRun env tables db name recovery ds) := by
  induction ds with
  | nil => exact Keeps.pure _
  | cons d ds ih => exact Keeps.bind (printPage_kinds env tables db name recovery d o) fun _ => ih

/-- **C37, all lines.** For every file and every table, however the run ends: each line printed is a REPLACE statement or exactly the line
`test MYSQL_TYPE_NEWDECIMAL`. -/
theorem C37_two_kinds (env : Env) (file : File) (db name : Bytes) (recovery : Bool) (s : IState) :
    ∃ lines, (parseDataPage env file db name recovery s).st.out = s.out ++ lines ∧
      ∀ l ∈ lines, l = b! "test MYSQL_TYPE_NEWDECIMAL" ∨ ∃ n, IsReplace db name n l := by
  cases file with
  | error e => exact ⟨[], by rw [List.append_nil]; rfl, by simp⟩
  | ok content =>
    rw [parseDataPage_run]
    obtain ⟨lines, h1, h2⟩ := pagesRun_kinds env s.tables db name recovery (selectedPages content recovery) s.out
      ⟨getTableColumnsFromDict s.tables db name, s.out⟩ ⟨[], (List.append_nil _).symm, by simp⟩
    refine ⟨lines, ?_, h2⟩
    generalize pagesRun env s.tables db name recovery _ _ = r at *
    cases r <;> exact h1

/-! ## How many of these lines -/

/-- the number of DECIMAL values of a row that are not NULL -/
def decimals (cols : List Column) (cells : List Cell) : Nat :=
  (cols.zip cells).countP fun e => decide (isDecimal e.1.ftype e.1.mtype ∧ e.2 ≠ .null)

theorem parseData_lines {env : Env} {t m : Nat} {data : Bytes} {fl fx : Nat} {u f : Bool} {out out' : Out} {r : Val × Bool}
    (h : parseData env t m data fl fx u f out = .ok r out') : out' = out ++ List.replicate (if isDecimal t m then 1 else 0) decLine := by
  by_cases hd : isDecimal t m
  · obtain ⟨rfl, rfl⟩ := hd
    have h : (println decLine >>= fun _ => GoM.lift (sliceTo data fl) >>= fun v => pure (Val.str v, f)) out = .ok r out' := h
    obtain ⟨_, s1, h1, h2⟩ := GoM.bind_eq_ok h
    cases h1
    obtain ⟨v, s2, h3, h4⟩ := GoM.bind_eq_ok h2
    cases hs : sliceTo data fl with
    | none => rw [hs] at h3; cases h3
    | some w => rw [hs] at h3; cases h3; cases h4; rfl
  · have := parseData_quiet env t m data fl fx u f hd out out rfl
    rw [h] at this
    have : out' = out := this
    rw [this, if_neg hd, List.replicate_zero, List.append_nil]

theorem decodeCell_lines {env : Env} {c c' : Column} {x : Cell} {rest : Bytes} {out out' : Out} (h : decodeCell env c x rest out = .ok c' out') :
    (out' = out ++ List.replicate (if isDecimal c.ftype c.mtype ∧ x ≠ .null then 1 else 0) decLine) ∧ c'.ftype = c.ftype ∧ c'.mtype = c.mtype := by
  have main : ∀ y : Cell, y ≠ .null → (parseData env c.ftype c.mtype (y.bytes ++ rest) y.bytes.length (getFixedLength c.ftype c.len)
      c.isUnsigned c.isBinary >>= fun p => pure { c with value := p.1, isBinary := p.2 } : GoM Out Column) out = .ok c' out' →
      (out' = out ++ List.replicate (if isDecimal c.ftype c.mtype ∧ y ≠ .null then 1 else 0) decLine) ∧ c'.ftype = c.ftype ∧ c'.mtype = c.mtype := by
    intro y hy h
    obtain ⟨p, s1, h1, h2⟩ := GoM.bind_eq_ok h
    cases h2
    refine ⟨?_, rfl, rfl⟩
    rw [parseData_lines h1]
    simp only [hy, ne_eq, not_false_eq_true, and_true]
  cases x with
  | null =>
    cases h
    refine ⟨?_, rfl, rfl⟩
    rw [if_neg (fun h => h.2 rfl), List.replicate_zero, List.append_nil]
  | val v => exact main (.val v) nofun h
  | ext v => exact main (.ext v) nofun h

theorem replicate_add' {α : Type} (m n : Nat) (a : α) : List.replicate m a ++ List.replicate n a = List.replicate (m + n) a := by
  rw [List.replicate_append_replicate]

theorem decodeRow_lines {env : Env} {cols cs : List Column} {row : Row} {post : Bytes} {out out' : Out} (hl : cols.length = row.length)
    (h : decodeRow env cols row post out = .ok cs out') :
    out' = out ++ List.replicate (decimals cols (row.map (·.2))) decLine ∧ All2 (fun c c' => c'.ftype = c.ftype ∧ c'.mtype = c.mtype) cols cs := by
  induction row generalizing cols cs out out' with
  | nil =>
    cases cols with
    | nil => cases h; exact ⟨(List.append_nil _).symm, .nil⟩
    | cons c cols => cases hl
  | cons x row ih =>
    cases cols with
    | nil => cases hl
    | cons c cols =>
      unfold decodeRow at h
      obtain ⟨c', s1, h1, h2⟩ := GoM.bind_eq_ok h
      obtain ⟨cs', s2, h3, h4⟩ := GoM.bind_eq_ok h2
      cases h4
      obtain ⟨a1, a2⟩ := decodeCell_lines h1
      obtain ⟨b1, b2⟩ := ih (by simpa using hl) h3
      refine ⟨?_, .cons a2 b2⟩
      rw [b1, a1, List.append_assoc, replicate_add']
      congr 2
      unfold decimals
      rw [List.map_cons, List.zip_cons_cons, List.countP_cons]
      simp only [decide_eq_true_eq]
      omega

theorem decimals_types {cols cs : List Column} (h : All2 (fun c c' => c'.ftype = c.ftype ∧ c'.mtype = c.mtype) cols cs) (cells : List Cell) :
    decimals cs cells = decimals cols cells ∧ cs.length = cols.length := by
  induction h generalizing cells with
  | nil => exact ⟨rfl, rfl⟩
  | cons h _ ih =>
    cases cells with
    | nil => exact ⟨rfl, by rw [List.length_cons, List.length_cons, (ih []).2]⟩
    | cons x cells =>
      refine ⟨?_, by rw [List.length_cons, List.length_cons, (ih []).2]⟩
      have := (ih cells).1
      unfold decimals at this ⊢
      rw [List.zip_cons_cons, List.zip_cons_cons, List.countP_cons, List.countP_cons, this]
      simp only [h.1, h.2]

theorem decodeRows_lines {env : Env} {rows : List (Row × Bytes)} {s s' : PState} {rs : List (List Column)}
    (hl : ∀ r ∈ rows, s.cols.length = r.1.length) (h : decodeRows env rows s = .ok rs s') :
    s'.out = s.out ++ List.replicate ((rows.map fun r => decimals s.cols (r.1.map (·.2))).sum) decLine := by
  induction rows generalizing s rs with
  | nil => cases h; exact (List.append_nil _).symm
  | cons r rows ih =>
    obtain ⟨row, post⟩ := r
    unfold decodeRows at h
    obtain ⟨cs, s1, h1, h2⟩ := GoM.bind_eq_ok h
    obtain ⟨rs', s2, h3, h4⟩ := GoM.bind_eq_ok h2
    cases h4
    unfold decodeRowP at h1
    cases hr : decodeRow env s.cols row post s.out with
    | ok cs' out =>
      rw [hr] at h1
      cases h1
      obtain ⟨a1, a2⟩ := decodeRow_lines (hl (row, post) (by simp)) hr
      have hd := fun cells => decimals_types a2 cells
      have := ih (s := ⟨cs, out⟩) (fun r hr => by rw [(hd []).2]; exact hl r (by simp [hr])) h3
      rw [this]
      dsimp only
      rw [a1, List.append_assoc, replicate_add', List.map_cons, List.sum_cons]
      simp only [(hd _).1]
    | panic out => rw [hr] at h1; cases h1
    | hang out => rw [hr] at h1; cases h1

theorem storedRows_decimals (cols : List Column) (d : Bytes) (defs : List ColDef) {os : List Nat} {rows : List (List Cell)}
    (h : All2 (CompactRow d defs) os rows) :
    (storedRows d defs os rows).map (fun r => decimals cols (r.1.map (·.2))) = rows.map (decimals cols) := by
  induction h with
  | nil => rfl
  | @cons o cells os rows h _ ih =>
    show decimals cols ((rowOf defs cells).map (·.2)) :: _ = _
    rw [rowOf_cells h.1, List.map_cons, ih]

/-- **C37, exactly, for the pages of C22 and C23.** For each value in a DECIMAL column that is not NULL there is one such line, and there are no others. -/
theorem C37_page_exact (env : Env) (tables : TableMap) (defs : List ColDef) (d : Bytes) (recovery : Bool) (free : Nat) (os : List Nat)
    (rows : List (List Cell)) (s s' : PState) (rs : List (List Column)) (hk : Known tables s.cols defs) (h3 : 3 ≤ defs.length) (hd : d.length = 16384)
    (hc : isCompact d = true) (hl : if recovery then FreeList d true free os else Linked d true (infimumAt true) os)
    (hrows : All2 (CompactRow d defs) os rows) (hr : ∀ k ∈ defs, k.kind.Readable) (h : parsePage env tables d recovery free s = .ok rs s') :
    s'.out = s.out ++ List.replicate ((rows.map (decimals s.cols)).sum) (b! "test MYSQL_TYPE_NEWDECIMAL") := by
  have h' : decodeRows env (storedRows d defs os rows) s = .ok rs s' := by
    rw [← h]
    cases recovery with
    | false => exact (C22_compact_page_partial env tables defs d free os rows s hk h3 hd hc hl hrows hr).symm
    | true => exact (C23_compact_page_partial env tables defs d free os rows s hk h3 hd hc hl hrows hr).symm
  rw [decodeRows_lines (fun r hr => by rw [storedRows_rowLength d defs os rows hrows r hr, all2_length hk.desc]) h', storedRows_decimals s.cols d defs hrows]
  rfl

/-- the hypotheses can be met: a page with two rows that have a DECIMAL each -/
example : ∃ rs s', parsePage testEnv decTables (twoPage (65536 - 88)) false 0 ⟨decCols, []⟩ = .ok rs s' ∧
    s'.out = [b! "test MYSQL_TYPE_NEWDECIMAL", b! "test MYSQL_TYPE_NEWDECIMAL"] := by
  obtain ⟨_, hd, hc, hl, hrows, _⟩ := two_wellformed
  generalize twoPage (65536 - 88) = d at *
  obtain ⟨rows, s, e1, _⟩ := dec_decode (d.drop (300 + (rowData (rowOf decDefs (twoCells 1))).length))
    (d.drop (200 + (rowData (rowOf decDefs (twoCells 2))).length))
  have hp := C22_compact_page_partial testEnv decTables decDefs d 0 [300, 200] _ ⟨decCols, []⟩ decTables_known (by decide) hd hc hl (dec_rows _ hrows)
    (by decide)
  exact ⟨rows, s, hp.trans e1, C37_page_exact testEnv decTables decDefs d false 0 [300, 200] _ ⟨decCols, []⟩ s rows decTables_known (by decide) hd hc hl
    (dec_rows _ hrows) (by decide) (hp.trans e1)⟩

/-- **C37, what the lines do.** Output that begins with such a line is no script: the line and the first statement behind it are one statement for a
client, and it is not a REPLACE statement. -/
theorem C37_no_script (rest : List Bytes) : readReplaces (stdout (b! "test MYSQL_TYPE_NEWDECIMAL" :: rest)) = none := by
  have h : lex (stdout (b! "test MYSQL_TYPE_NEWDECIMAL" :: rest)) =
      (lex (stdout rest)).map ([.word (b! "test"), .word (b! "mysql_type_newdecimal")] ++ ·) := by
    have := lex_line (b! "test MYSQL_TYPE_NEWDECIMAL") (stdout rest) [.word (b! "test"), .word (b! "mysql_type_newdecimal")] (by decide)
    rw [← this]
    unfold stdout
    rw [List.flatMap_cons, List.append_assoc]
    rfl
  unfold readReplaces
  rw [h]
  cases lex (stdout rest) with
  | none => rfl
  | some ts =>
    have hp : ∀ l, parseReplace (.word (b! "test") :: l) = none := by
      intro l
      unfold parseReplace
      split
      · rename_i heq
        injection heq with h1 _
        injection h1 with h1
        subst h1
        rw [if_neg]
        rintro ⟨h, _⟩
        revert h
        decide
      · rfl
    have key : ∀ (ts acc : List Tok), acc.head? = some (.word (b! "test")) → (statements acc ts).bind (·.mapM parseReplace) = none := by
      intro ts
      induction ts with
      | nil =>
        intro acc ha
        have : acc ≠ [] := by rintro rfl; cases ha
        rw [statements, if_neg this]
        rfl
      | cons t ts ih =>
        intro acc ha
        cases acc with
        | nil => cases ha
        | cons x acc =>
          cases ha
          rw [statements]
          split
          · cases statements [] ts with
            | none => rfl
            | some ss =>
              show List.mapM parseReplace ((.word (b! "test") :: (acc ++ [.sym 59])) :: ss) = none
              rw [List.mapM_cons, hp]
              rfl
          · exact ih _ rfl
    exact key ts [.word (b! "test"), .word (b! "mysql_type_newdecimal")] rfl

end Verif.Props
