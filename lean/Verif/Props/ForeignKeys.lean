import Verif.Props.Script
/-!
# C108: tables that other tables refer to by foreign keys

REPLACE deletes the row that has the key of the new one and inserts the new one; the action of a foreign key for deleted rows (ON DELETE) is taken although
the key is there again.  (Unless the session has switched off foreign_key_checks.)
-/

namespace Verif.Props
open Verif Spec

/-- what happens to the rows that refer to a row that is deleted -/
inductive OnDelete where
  | restrict
  | cascade
  | setNull
  deriving DecidableEq

/-- A foreign key of another table on the table. -/
structure ForeignKey where
  /-- the row of the other table refers to the row of the table -/
  refers : List Orig → List Orig → Bool
  action : OnDelete
  /-- the row of the other table with NULL in the columns of the foreign key -/
  nulled : List Orig → List Orig

/-- a row that has NULL in a foreign key refers to no row -/
def ForeignKey.Fine (fk : ForeignKey) : Prop := ∀ c p p', fk.refers c p = true → fk.refers (fk.nulled c) p' = false

/-- The rows of the table and those of the other one. -/
structure Family where
  parent : List (List Orig)
  child : List (List Orig)

/-- REPLACE on a table that is referred to; `none`: the statement is refused. -/
def replaceReferred (same : List Orig → List Orig → Bool) (fk : ForeignKey) (s : Family) (row : List Orig) : Option Family :=
  let orphan c := (s.parent.filter fun p => same p row).any (fk.refers c)
  let parent := replaceRow same s.parent row
  match fk.action with
  | .restrict => if s.child.any orphan then none else some ⟨parent, s.child⟩
  | .cascade => some ⟨parent, s.child.filter fun c => !orphan c⟩
  | .setNull => some ⟨parent, s.child.map fun c => if orphan c then fk.nulled c else c⟩

/-- Execute statements on the table `db`.`table`; `none`: an error ends the script. -/
def execReferred (sv : Server) (cols : List Column) (same : List Orig → List Orig → Bool) (fk : ForeignKey) (db table : Bytes) :
    Family → List Replace → Option Family
  | s, [] => some s
  | s, st :: ss =>
    if st.db = db ∧ st.table = table then
      (assignRow sv cols st.values).bind fun row => (replaceReferred same fk s row).bind fun s => execReferred sv cols same fk db table s ss
    else none

def execReferredScript (sv : Server) (cols : List Column) (same : List Orig → List Orig → Bool) (fk : ForeignKey) (db table : Bytes) (script : Bytes)
    (s : Family) : Option Family := (readReplaces script).bind (execReferred sv cols same fk db table s)

/-- **C108**, as stated: the output of the data command can be executed and leaves the rows of a table that refers to the table by a foreign key as they
are. -/
def C108_statement : Prop :=
  ∀ (env : Env) (a : FromData) (sys ibd : Bytes) (trs : List TableRow) (crs : List ColumnRow) (irs : List IndexRow) (frs : List FieldRow)
    (t : TableRow) (r : IndexRow) (l : List Column) (defs : List ColDef) (deleted : Bool) (rows : List (List (Option TVal)))
    (sv : Server) (same : List Orig → List Orig → Bool) (fk : ForeignKey) (cur child : List (List Orig)),
    PrintableFile env a sys ibd trs crs irs frs t r l defs deleted rows → TableFile env ibd r.id (columnsOf crs t.id) l defs deleted rows →
    a.tableFile = .ok ibd → (∀ row ∈ rows, ∀ x ∈ row, ReadsNumber sv env.ff x) → fk.Fine →
    ∃ lines after, fromDataFile env a [] = .ok () lines ∧
      execReferredScript sv (columnsOf crs t.id) same fk a.db a.table (stdout lines) ⟨cur, child⟩ = some ⟨after, child⟩

/-- At one of the statements there is a row in the table that has the key of the statement and that the row `c` of the other table refers to. -/
def Touched (same : List Orig → List Orig → Bool) (fk : ForeignKey) (cur rows : List (List Orig)) (c : List Orig) : Prop :=
  ∃ newer row older, rows = newer ++ row :: older ∧ ∃ p ∈ newer.foldl (replaceRow same) cur, same p row = true ∧ fk.refers c p = true

/-- the same for one statement after the other -/
def touched (same : List Orig → List Orig → Bool) (fk : ForeignKey) : List (List Orig) → List (List Orig) → List Orig → Bool
  | _, [], _ => false
  | cur, row :: rows, c => (cur.filter fun p => same p row).any (fk.refers c) || touched same fk (replaceRow same cur row) rows c

theorem touched_iff {same : List Orig → List Orig → Bool} {fk : ForeignKey} {cur rows : List (List Orig)} {c : List Orig} :
    touched same fk cur rows c = true ↔ Touched same fk cur rows c := by
  induction rows generalizing cur with
  | nil =>
    constructor
    · intro h
      cases h
    · rintro ⟨n, r, o, h, -⟩
      simp at h
  | cons row rows ih =>
    rw [touched, Bool.or_eq_true, ih, List.any_eq_true]
    constructor
    · rintro (⟨p, h1, h2⟩ | ⟨n, r, o, rfl, p, h1, h2⟩)
      · obtain ⟨h1, h3⟩ := List.mem_filter.mp h1
        exact ⟨[], row, rows, rfl, p, h1, h3, h2⟩
      · exact ⟨row :: n, r, o, rfl, p, h1, h2⟩
    · rintro ⟨n, r, o, h, p, h1, h2, h3⟩
      cases n with
      | nil =>
        cases h
        exact .inl ⟨p, List.mem_filter.mpr ⟨h1, h2⟩, h3⟩
      | cons x n =>
        cases h
        exact .inr ⟨n, r, o, rfl, p, h1, h2, h3⟩

/-- what becomes of the row `c` of the other table -/
def fate (fk : ForeignKey) (hit : Bool) (c : List Orig) : Option (List Orig) :=
  if hit then match fk.action with
    | .restrict => some c
    | .cascade => none
    | .setNull => some (fk.nulled c)
  else some c

theorem touched_nulled {same : List Orig → List Orig → Bool} {fk : ForeignKey} {c : List Orig} (h : ∀ p, fk.refers c p = false) (cur rows : List (List Orig)) :
    touched same fk cur rows c = false := by
  induction rows generalizing cur with
  | nil => rfl
  | cons row rows ih =>
    rw [touched, ih, Bool.or_false, List.any_eq_false]
    intro p _
    rw [h p]
    simp

/-- the rows, one after the other -/
def runReferred (same : List Orig → List Orig → Bool) (fk : ForeignKey) : Family → List (List Orig) → Option Family
  | s, [] => some s
  | s, row :: rows => (replaceReferred same fk s row).bind fun s => runReferred same fk s rows

theorem run_referred {same : List Orig → List Orig → Bool} {fk : ForeignKey} (hfk : fk.Fine) (rows : List (List Orig)) (cur child : List (List Orig)) :
    runReferred same fk ⟨cur, child⟩ rows =
      if fk.action = .restrict ∧ child.any (touched same fk cur rows) = true then none
      else some ⟨rows.foldl (replaceRow same) cur, child.filterMap fun c => fate fk (touched same fk cur rows c) c⟩ := by
  induction rows generalizing cur child with
  | nil =>
    have h0 : (child.any fun c => touched same fk cur [] c) = false := by simp [touched]
    rw [if_neg (by rintro ⟨-, h⟩; rw [h0] at h; cases h), runReferred]
    simp [touched, fate]
  | cons row rows ih =>
    rw [runReferred]
    cases ha : fk.action with
    | restrict =>
      unfold replaceReferred
      rw [ha]
      dsimp only
      have hf : ∀ b c, fate fk b c = some c := by
        intro b c
        unfold fate
        rw [ha]
        cases b <;> rfl
      simp only [hf, List.filterMap_some, true_and]
      by_cases h : (child.any fun c => (cur.filter fun p => same p row).any (fk.refers c)) = true
      · rw [if_pos h, if_pos]
        · rfl
        · obtain ⟨c, h1, h2⟩ := List.any_eq_true.mp h
          exact List.any_eq_true.mpr ⟨c, h1, by rw [touched, h2, Bool.true_or]⟩
      · rw [if_neg h, Option.bind_some, ih]
        simp only [ha, hf, List.filterMap_some, true_and]
        have : child.any (touched same fk cur (row :: rows)) = child.any (touched same fk (replaceRow same cur row) rows) := by
          rw [Bool.eq_iff_iff, List.any_eq_true, List.any_eq_true]
          refine exists_congr fun c => and_congr_right fun hc => ?_
          have : ((cur.filter fun p => same p row).any (fk.refers c)) = false := by
            rw [Bool.not_eq_true, List.any_eq_false] at h
            simpa using h c hc
          rw [touched, this, Bool.false_or]
        rw [this]
        rfl
    | cascade =>
      unfold replaceReferred
      rw [ha]
      dsimp only
      rw [Option.bind_some, ih, if_neg (by rw [ha]; simp), if_neg (by simp)]
      congr 2
      rw [List.filterMap_filter]
      refine List.filterMap_congr fun c _ => ?_
      unfold fate
      rw [ha, touched]
      cases ((cur.filter fun p => same p row).any (fk.refers c)) <;> rfl
    | setNull =>
      unfold replaceReferred
      rw [ha]
      dsimp only
      rw [Option.bind_some, ih, if_neg (by rw [ha]; simp), if_neg (by simp)]
      congr 2
      rw [List.filterMap_map]
      refine List.filterMap_congr fun c _ => ?_
      rw [Function.comp_apply, touched]
      by_cases h : ((cur.filter fun p => same p row).any (fk.refers c)) = true
      · obtain ⟨p, -, hp⟩ := List.any_eq_true.mp h
        rw [if_pos h, h, touched_nulled fun p' => hfk c p p' hp]
        unfold fate
        rw [ha]
        rfl
      · rw [if_neg h, Bool.eq_false_iff.mpr h, Bool.false_or]

theorem exec_referred {sv : Server} {ff : FloatFmt} {cols : List Column} (same : List Orig → List Orig → Bool) (fk : ForeignKey) {db table : Bytes}
    {lines : List Bytes} {rows : List (List (Option TVal))} (h : All2 (Printed ff db table) lines rows)
    (ht : ∀ row ∈ rows, All2 (fun c x => ∀ v, x = some v → v.Of c) cols row) (hr : ∀ row ∈ rows, ∀ x ∈ row, ReadsNumber sv ff x) (s : Family) :
    execReferredScript sv cols same fk db table (stdout lines) s = runReferred same fk s (rows.map (sqlRow ff)) := by
  have : ∃ ss, All2 (fun l s => readReplace l = some s) lines ss ∧ All2 (fun s row => s.db = db ∧ s.table = table ∧ All2 (Denotes ff) s.values (sqlRow ff row)) ss rows := by
    clear ht hr
    induction h with
    | nil => exact ⟨[], .nil, .nil⟩
    | cons h _ ih =>
      obtain ⟨ss, h1, h2⟩ := ih
      obtain ⟨vs, h3, h4⟩ := h
      exact ⟨_ :: ss, .cons h3 h1, .cons ⟨rfl, rfl, h4⟩ h2⟩
  obtain ⟨ss, h1, h2⟩ := this
  unfold execReferredScript
  rw [readReplaces_lines h1, Option.bind_some]
  clear h h1
  induction h2 generalizing s with
  | nil => rfl
  | @cons st row ss rows h3 _ ih =>
    rw [execReferred, if_pos ⟨h3.1, h3.2.1⟩, assignRow_denotes (ht row List.mem_cons_self) (hr row List.mem_cons_self) h3.2.2, Option.bind_some,
      List.map_cons, runReferred]
    congr 1
    funext s
    exact ih (fun x hx => ht x (List.mem_cons_of_mem _ hx)) (fun x hx => hr x (List.mem_cons_of_mem _ hx)) s

open Classical in
/-- **C108, exactly.** For the files of C57: the rows of the other table that are touched are deleted with ON DELETE CASCADE and refer to nothing with ON DELETE SET
NULL; otherwise the script ends with an error if there is one. -/
theorem C108_exact (env : Env) (a : FromData) (sys ibd : Bytes) (trs : List TableRow) (crs : List ColumnRow) (irs : List IndexRow) (frs : List FieldRow)
    (t : TableRow) (r : IndexRow) (l : List Column) (defs : List ColDef) (deleted : Bool) (rows : List (List (Option TVal)))
    (sv : Server) (same : List Orig → List Orig → Bool) (fk : ForeignKey) (cur child : List (List Orig))
    (hp : PrintableFile env a sys ibd trs crs irs frs t r l defs deleted rows)
    (ht : TableFile env ibd r.id (columnsOf crs t.id) l defs deleted rows) (hf : a.tableFile = .ok ibd)
    (hr : ∀ row ∈ rows, ∀ x ∈ row, ReadsNumber sv env.ff x) (hfk : fk.Fine) :
    ∃ lines, fromDataFile env a [] = .ok () lines ∧
      execReferredScript sv (columnsOf crs t.id) same fk a.db a.table (stdout lines) ⟨cur, child⟩ =
        (let hit := Touched same fk cur (rows.map (sqlRow env.ff))
         let parent := cur.filter (fun r => !(rows.map (sqlRow env.ff)).any (same r)) ++ latest same (rows.map (sqlRow env.ff))
         match fk.action with
         | .restrict => if ∃ c ∈ child, hit c then none else some ⟨parent, child⟩
         | .cascade => some ⟨parent, child.filter fun c => ¬ hit c⟩
         | .setNull => some ⟨parent, child.map fun c => if hit c then fk.nulled c else c⟩) := by
  obtain ⟨lines, h1, h2⟩ := C57_command_partial env a sys ibd trs crs irs frs t r l defs deleted rows hp.sysFile hf hp.dict hp.table hp.name hp.layout
    ht hp.op hp.keys hp.handled hp.mark hp.compact hp.redundant hp.values hp.db hp.tab []
  refine ⟨lines, by simpa using h1, ?_⟩
  rw [exec_referred same fk h2 (fun row hrow => all2_imp (fun c x h v hv => (h v hv).1) (ht.typed row hrow)) hr, run_referred hfk, replaced]
  dsimp only
  generalize rows.map (sqlRow env.ff) = rs
  cases ha : fk.action with
  | restrict =>
    dsimp only
    simp only [true_and, List.any_eq_true, touched_iff]
    congr 3
    refine (List.filterMap_congr fun c _ => ?_).trans (List.filterMap_some (l := child))
    unfold fate
    rw [ha]
    split <;> rfl
  | cascade =>
    rw [if_neg (by simp)]
    dsimp only
    congr 2
    rw [← List.filterMap_eq_filter]
    refine List.filterMap_congr fun c _ => ?_
    unfold fate Option.guard
    rw [ha]
    simp only [← touched_iff]
    cases touched same fk cur rs c <;> simp
  | setNull =>
    rw [if_neg (by simp)]
    dsimp only
    congr 2
    rw [← List.filterMap_eq_map]
    refine List.filterMap_congr fun c _ => ?_
    unfold fate
    rw [ha, Function.comp_apply]
    simp only [← touched_iff]
    cases touched same fk cur rs c <;> simp

/-- **C108, exact condition**: the claim is true of a file and a table exactly if no row of the other table is touched. -/
theorem C108_iff (env : Env) (a : FromData) (sys ibd : Bytes) (trs : List TableRow) (crs : List ColumnRow) (irs : List IndexRow) (frs : List FieldRow)
    (t : TableRow) (r : IndexRow) (l : List Column) (defs : List ColDef) (deleted : Bool) (rows : List (List (Option TVal)))
    (sv : Server) (same : List Orig → List Orig → Bool) (fk : ForeignKey) (cur child : List (List Orig))
    (hp : PrintableFile env a sys ibd trs crs irs frs t r l defs deleted rows)
    (ht : TableFile env ibd r.id (columnsOf crs t.id) l defs deleted rows) (hf : a.tableFile = .ok ibd)
    (hr : ∀ row ∈ rows, ∀ x ∈ row, ReadsNumber sv env.ff x) (hfk : fk.Fine) :
    (∃ lines after, fromDataFile env a [] = .ok () lines ∧
      execReferredScript sv (columnsOf crs t.id) same fk a.db a.table (stdout lines) ⟨cur, child⟩ = some ⟨after, child⟩) ↔
    ∀ c ∈ child, ¬ Touched same fk cur (rows.map (sqlRow env.ff)) c := by
  obtain ⟨lines, h1, h2⟩ := C108_exact env a sys ibd trs crs irs frs t r l defs deleted rows sv same fk cur child hp ht hf hr hfk
  dsimp only at h2
  have hnull : ∀ c, Touched same fk cur (rows.map (sqlRow env.ff)) c → fk.nulled c ≠ c := by
    rintro c ⟨n, r, o, -, p, -, -, h⟩ he
    have := hfk c p p h
    rw [he, h] at this
    cases this
  constructor
  · rintro ⟨lines', after, h3, h4⟩ c hc hit
    rw [h1] at h3
    cases h3
    rw [h2] at h4
    cases ha : fk.action with
    | restrict =>
      rw [ha] at h4
      dsimp only at h4
      rw [if_pos ⟨c, hc, hit⟩] at h4
      cases h4
    | cascade =>
      rw [ha] at h4
      have h4 := congrArg Family.child (Option.some.inj h4)
      have := List.filter_eq_self.mp h4 c hc
      simp [hit] at this
    | setNull =>
      rw [ha] at h4
      have h4 := congrArg Family.child (Option.some.inj h4)
      dsimp only at h4
      have := List.map_inj_left.mp (h4.trans (List.map_id child).symm) c hc
      rw [if_pos hit] at this
      exact hnull c hit this
  · intro h
    refine ⟨lines, cur.filter (fun r => !(rows.map (sqlRow env.ff)).any (same r)) ++ latest same (rows.map (sqlRow env.ff)), h1, h2.trans ?_⟩
    cases ha : fk.action with
    | restrict =>
      dsimp only
      rw [if_neg (by rintro ⟨c, hc, hit⟩; exact h c hc hit)]
    | cascade =>
      dsimp only
      congr 2
      exact List.filter_eq_self.mpr (by intro c hc; simpa using h c hc)
    | setNull =>
      dsimp only
      rw [List.map_congr_left (g := id) (by intro c hc; exact if_neg (h c hc)), List.map_id]

/-- the rows with the key of `row` in the table: those that were there or that have been printed -/
theorem key_there {same : List Orig → List Orig → Bool} (hsym : ∀ a b, same a b = same b a)
    (htrans : ∀ a b c, same a b = true → same b c = true → same a c = true) (newer cur : List (List Orig)) (row : List Orig) :
    (∃ p ∈ newer.foldl (replaceRow same) cur, same p row = true) ↔ ∃ p ∈ cur ++ newer, same p row = true := by
  induction newer generalizing cur with
  | nil => rw [List.append_nil]; rfl
  | cons x newer ih =>
    rw [List.foldl_cons, ih]
    unfold replaceRow
    constructor
    · rintro ⟨p, h1, h2⟩
      refine ⟨p, ?_, h2⟩
      simp only [List.mem_append, List.mem_filter, List.mem_cons, List.not_mem_nil, or_false] at h1 ⊢
      tauto
    · rintro ⟨p, h1, h2⟩
      by_cases hx : same p x = true
      · exact ⟨x, by simp, htrans x p row (by rw [hsym]; exact hx) h2⟩
      · refine ⟨p, ?_, h2⟩
        simp only [List.mem_append, List.mem_filter, List.mem_cons, List.not_mem_nil, or_false] at h1 ⊢
        rcases h1 with h1 | rfl | h1
        · exact .inl (.inl ⟨h1, by simpa using hx⟩)
        · exact .inl (.inr rfl)
        · exact .inr h1

/-- **C108, keys:** if a foreign key refers to rows by their key, a row of the other table is touched exactly if it refers to a printed row whose key is in the
table already, or has been printed before. -/
theorem C108_keys {same : List Orig → List Orig → Bool} {fk : ForeignKey} (hsym : ∀ a b, same a b = same b a)
    (htrans : ∀ a b c, same a b = true → same b c = true → same a c = true) (hkey : ∀ c p p', same p p' = true → fk.refers c p = fk.refers c p')
    (cur rows : List (List Orig)) (c : List Orig) :
    Touched same fk cur rows c ↔ ∃ newer row older, rows = newer ++ row :: older ∧ fk.refers c row = true ∧ ∃ p ∈ cur ++ newer, same p row = true := by
  unfold Touched
  refine exists_congr fun newer => exists_congr fun row => exists_congr fun older => and_congr_right fun _ => ?_
  rw [← key_there hsym htrans]
  constructor
  · rintro ⟨p, h1, h2, h3⟩
    exact ⟨by rw [← hkey c p row h2]; exact h3, p, h1, h2⟩
  · rintro ⟨h3, p, h1, h2⟩
    exact ⟨p, h1, h2, by rw [hkey c p row h2]; exact h3⟩

/-- **C108 (partial).** True if the keys of the rows in the file are different and not in the table, in particular if the table is empty.  Missing: tables that
contain rows with these keys (`C108_exact`, `C108_false`). -/
theorem C108_new_partial (env : Env) (a : FromData) (sys ibd : Bytes) (trs : List TableRow) (crs : List ColumnRow) (irs : List IndexRow) (frs : List FieldRow)
    (t : TableRow) (r : IndexRow) (l : List Column) (defs : List ColDef) (deleted : Bool) (rows : List (List (Option TVal)))
    (sv : Server) (same : List Orig → List Orig → Bool) (fk : ForeignKey) (cur child : List (List Orig))
    (hp : PrintableFile env a sys ibd trs crs irs frs t r l defs deleted rows)
    (ht : TableFile env ibd r.id (columnsOf crs t.id) l defs deleted rows) (hf : a.tableFile = .ok ibd)
    (hr : ∀ row ∈ rows, ∀ x ∈ row, ReadsNumber sv env.ff x) (hfk : fk.Fine)
    (hd : (cur ++ rows.map (sqlRow env.ff)).Pairwise (fun r r' => same r r' = false)) :
    ∃ lines after, fromDataFile env a [] = .ok () lines ∧
      execReferredScript sv (columnsOf crs t.id) same fk a.db a.table (stdout lines) ⟨cur, child⟩ = some ⟨after, child⟩ := by
  refine (C108_iff env a sys ibd trs crs irs frs t r l defs deleted rows sv same fk cur child hp ht hf hr hfk).mpr ?_
  rintro c - ⟨newer, row, older, h, p, h1, h2, -⟩
  have hm : p ∈ cur ++ newer := by
    have : ∀ (n cur : List (List Orig)), p ∈ n.foldl (replaceRow same) cur → p ∈ cur ++ n := by
      intro n
      induction n with
      | nil => intro cur h; simpa using h
      | cons x n ih =>
        intro cur h
        have := ih _ h
        unfold replaceRow at this
        simp only [List.mem_append, List.mem_filter, List.mem_cons, List.not_mem_nil, or_false] at this ⊢
        tauto
    exact this _ _ h1
  rw [h, ← List.append_assoc] at hd
  have := (List.pairwise_append.mp hd).2.2 p hm row List.mem_cons_self
  rw [h2] at this
  cases this

/-! ### The orders of the shop -/

/-- orders that refer to a row of the shop by its id -/
def orders (action : OnDelete) : ForeignKey where
  refers c p := c.getD 1 .null == p.getD 0 .null && c.getD 1 .null != .null
  action := action
  nulled c := [c.getD 0 .null, .null]

theorem orders_fine (action : OnDelete) : (orders action).Fine := by
  intro c p p' _
  simp [orders]

/-- the hypotheses of `C108_new_partial`: an order that refers to row 7 -/
example (env : Env) (sv : Server) (action : OnDelete) : ∃ lines after, fromDataFile env (shopArgs (b! "ann") false) [] = .ok () lines ∧
    execReferredScript sv (columnsOf shopColumns 20) sameFirst (orders action) (b! "shop") (b! "t") (stdout lines)
      ⟨[[.int 7, .text (b! "zoe")]], [[.int 100, .int 7]]⟩ = some ⟨after, [[.int 100, .int 7]]⟩ :=
  C108_new_partial env (shopArgs (b! "ann") false) _ _ _ _ _ _ _ _ _ _ false (shopRows (b! "ann") false) sv sameFirst (orders action) _ _ (shop_whole env false)
    (shopData_file env (.inl rfl) false) rfl (shop_numbers _ _ _ _) (orders_fine action) (by
      show [[Orig.int 7, .text (b! "zoe")], [.int 1, .text (b! "ann")], [.int 2, .null]].Pairwise _
      decide)

/-- Row 1 of the shop is still there: its order is deleted. -/
theorem orders_lost (env : Env) (sv : Server) : ∃ lines, fromDataFile env (shopArgs (b! "ann") false) [] = .ok () lines ∧
    execReferredScript sv (columnsOf shopColumns 20) sameFirst (orders .cascade) (b! "shop") (b! "t") (stdout lines)
      ⟨[[.int 1, .text (b! "ann")]], [[.int 100, .int 1], [.int 101, .int 7]]⟩ =
        some ⟨[[.int 1, .text (b! "ann")], [.int 2, .null]], [[.int 101, .int 7]]⟩ := by
  obtain ⟨lines, h1, h2⟩ := C57_command_partial env (shopArgs (b! "ann") false) _ _ _ _ _ _ _ _ _ _ false (shopRows (b! "ann") false) rfl rfl (shop_whole env false).dict
    (shop_whole env false).table (shop_whole env false).name (shop_whole env false).layout (shopData_file env (.inl rfl) false) (shop_whole env false).op
    (shop_whole env false).keys (shop_whole env false).handled (shop_whole env false).mark (shop_whole env false).compact (shop_whole env false).redundant
    (shop_whole env false).values (shop_whole env false).db (shop_whole env false).tab []
  refine ⟨lines, by simpa using h1, ?_⟩
  rw [show b! "shop" = (shopArgs (b! "ann") false).db from rfl, show b! "t" = (shopArgs (b! "ann") false).table from rfl,
    exec_referred sameFirst (orders .cascade) h2 (fun row hrow => all2_imp (fun c x h v hv => (h v hv).1) ((shopData_file env (.inl rfl) false).typed row hrow))
    (shop_numbers _ _ _ _)]
  rfl

/-- An order of a row that is still in the table is deleted. -/
theorem C108_false : ¬ C108_statement := by
  intro h
  obtain ⟨lines, after, h1, h2⟩ := h testEnv (shopArgs (b! "ann") false) _ _ _ _ _ _ _ _ _ _ false (shopRows (b! "ann") false) anyServer sameFirst (orders .cascade)
    [[.int 1, .text (b! "ann")]] [[.int 100, .int 1], [.int 101, .int 7]] (shop_whole testEnv false) (shopData_file testEnv (.inl rfl) false) rfl (shop_numbers _ _ _ _)
    (orders_fine _)
  obtain ⟨lines', h3, h4⟩ := orders_lost testEnv anyServer
  rw [h1] at h3
  cases h3
  have := h2.symm.trans h4
  have := congrArg (fun f => f.map (·.child.length)) this
  cases this

end Verif.Props
