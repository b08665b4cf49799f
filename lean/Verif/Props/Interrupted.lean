import Verif.Props.Repeat
import Verif.Props.RedoEffect

/-!
# C125: executing a script that was interrupted

The client loses its connection after some statements of the output of a command; the user executes the whole script again.
-/

namespace Verif.Props
open Verif Spec

/-! ## The data command -/

theorem execReplaces_take {sv : Server} {cols : List Column} {same : List Orig → List Orig → Bool} {db table : Bytes} {ss : List Replace}
    {t t' : List (List Orig)} (h : execReplaces sv cols same db table t ss = some t') :
    ∃ rows : List (List Orig), ∀ k u, execReplaces sv cols same db table u (ss.take k) = some ((rows.take k).foldl (replaceRow same) u) := by
  induction ss generalizing t with
  | nil => exact ⟨[], fun k u => by rw [List.take_nil, List.take_nil]; rfl⟩
  | cons s ss ih =>
    rw [execReplaces] at h
    split at h
    · rename_i hs
      cases hr : assignRow sv cols s.values with
      | none => rw [hr] at h; cases h
      | some row =>
        rw [hr, Option.bind_some] at h
        obtain ⟨rows, h1⟩ := ih h
        refine ⟨row :: rows, fun k u => ?_⟩
        cases k with
        | zero => rfl
        | succ k =>
          rw [List.take_succ_cons, List.take_succ_cons, execReplaces, if_pos hs, hr, Option.bind_some, h1]
          rfl
    · cases h

/-- rows that are written before all rows are written make no difference -/
theorem replaced_before {same : List Orig → List Orig → Bool} (hrefl : ∀ r, same r r = true) {pre rows : List (List Orig)} (hp : ∀ r ∈ pre, r ∈ rows)
    (t : List (List Orig)) : rows.foldl (replaceRow same) (pre.foldl (replaceRow same) t) = rows.foldl (replaceRow same) t := by
  rw [replaced same rows (pre.foldl (replaceRow same) t), replaced same pre t, replaced same rows t, List.filter_append, List.filter_filter]
  congr 1
  have hnil : (latest same pre).filter (fun r => !rows.any (same r)) = [] := by
    rw [List.filter_eq_nil_iff]
    intro r hr
    have : rows.any (same r) = true := List.any_eq_true.mpr ⟨r, hp r (latest_mem hr), hrefl r⟩
    simp [this]
  · rw [hnil, List.append_nil]
    refine List.filter_congr fun r _ => ?_
    cases h : rows.any (same r) with
    | true => rfl
    | false =>
      have : pre.any (same r) = false := by
        rw [List.any_eq_false] at h ⊢
        exact fun x hx => h x (hp x hx)
      rw [this]
      rfl

/-- **C125, data command:** whatever the files and however the run of the command ends, if its output is a script of the statements `ss` that can be executed on a
table, its first statements can be executed, and executing the whole script after them gives what executing it at once gives. -/
theorem C125_data (env : Env) (a : FromData) (sv : Server) (cols : List Column) (same : List Orig → List Orig → Bool) (hrefl : ∀ r, same r r = true)
    (db table : Bytes) (cur after : List (List Orig)) (ss : List Replace)
    (hread : readReplaces (stdout (fromDataFile env a []).st) = some ss)
    (h : execScript sv cols same db table (stdout (fromDataFile env a []).st) cur = some after) (k : Nat) :
    ∃ mid, execReplaces sv cols same db table cur (ss.take k) = some mid ∧
      execScript sv cols same db table (stdout (fromDataFile env a []).st) mid = some after := by
  unfold execScript at h ⊢
  rw [hread, Option.bind_some] at h
  rw [hread]
  obtain ⟨rows, h1⟩ := execReplaces_take h
  have h2 : ∀ u, execReplaces sv cols same db table u ss = some (rows.foldl (replaceRow same) u) := by
    intro u
    have := h1 (ss.length + rows.length) u
    rwa [List.take_of_length_le (by omega), List.take_of_length_le (by omega)] at this
  refine ⟨_, h1 k cur, ?_⟩
  rw [Option.bind_some, h2, replaced_before hrefl (fun r hr => List.mem_of_mem_take hr), ← h2, h]

theorem all2_take {α β : Type} {R : α → β → Prop} {l : List α} {m : List β} (h : All2 R l m) (k : Nat) : All2 R (l.take k) (m.take k) := by
  induction h generalizing k with
  | nil => rw [List.take_nil, List.take_nil]; exact .nil
  | cons h _ ih =>
    cases k with
    | zero => exact .nil
    | succ k => exact .cons h (ih k)

/-- **C125, files of C57:** the script that restores the rows of a file (`C72_restores_partial`) restores them also after it was interrupted, after any line. -/
theorem C125_restored (env : Env) (a : FromData) (sys ibd : Bytes) (trs : List TableRow) (crs : List ColumnRow) (irs : List IndexRow) (frs : List FieldRow)
    (t : TableRow) (r : IndexRow) (l : List Column) (defs : List ColDef) (deleted : Bool) (rows : List (List (Option TVal)))
    (sv : Server) (same : List Orig → List Orig → Bool) (hrefl : ∀ r, same r r = true) (hp : PrintableFile env a sys ibd trs crs irs frs t r l defs deleted rows)
    (ht : TableFile env ibd r.id (columnsOf crs t.id) l defs deleted rows) (hf : a.tableFile = .ok ibd)
    (hr : ∀ row ∈ rows, ∀ x ∈ row, ReadsNumber sv env.ff x) (hd : (rows.map (sqlRow env.ff)).Pairwise (fun r r' => same r r' = false)) :
    ∃ lines, fromDataFile env a [] = .ok () lines ∧ ∀ k, ∃ mid, execScript sv (columnsOf crs t.id) same a.db a.table (stdout (lines.take k)) [] = some mid ∧
      execScript sv (columnsOf crs t.id) same a.db a.table (stdout lines) mid = some (rows.map (sqlRow env.ff)) := by
  obtain ⟨lines, h1, h2⟩ := C57_command_partial env a sys ibd trs crs irs frs t r l defs deleted rows hp.sysFile hf hp.dict hp.table hp.name hp.layout
    ht hp.op hp.keys hp.handled hp.mark hp.compact hp.redundant hp.values hp.db hp.tab []
  have htyped := fun row hrow => all2_imp (fun c x (h : ∀ v, x = some v → _) v hv => (h v hv).1) (ht.typed row hrow)
  refine ⟨lines, by simpa using h1, fun k => ⟨_, exec_printed same (all2_take h2 k) (fun row hrow => htyped row (List.mem_of_mem_take hrow))
    (fun row hrow => hr row (List.mem_of_mem_take hrow)) [], ?_⟩⟩
  rw [exec_printed same h2 htyped hr, replaced_before hrefl, replaced, latest_distinct hd]
  · rfl
  · intro x hx
    obtain ⟨y, hy, rfl⟩ := List.mem_map.mp hx
    exact List.mem_map.mpr ⟨y, List.mem_of_mem_take hy, rfl⟩

/-! ## The redo command -/

/-- an UPDATE statement with evaluated literals -/
structure UpdateStep where
  db : Bytes
  table : Bytes
  key : List (Bytes × Orig)
  sets : List (Bytes × Orig)

def UpdateStep.run (s : UpdateStep) (S : Tables) : Tables := updateRows s.db s.table s.key s.sets S

/-- no statement assigns a column that a condition of a statement on the same table names -/
def KeepsKeys (all : List UpdateStep) : Prop := ∀ s ∈ all, ∀ s' ∈ all, s.db = s'.db → s.table = s'.table → ∀ n ∈ s.sets.map (·.1), n ∉ s'.key.map (·.1)

/-- The rows differ only in columns that the statements of `todo` will assign. -/
def Agree (todo : List UpdateStep) (S T : Tables) : Prop := ∀ d t, All2 (fun r q : NamedRow => ∀ n, r n = q n ∨
  ∃ s ∈ todo, s.db = d ∧ s.table = t ∧ hasAll s.key r = true ∧ n ∈ s.sets.map (·.1)) (S d t) (T d t)

theorem hasAll_congr {key : List (Bytes × Orig)} {r q : NamedRow} (h : ∀ n ∈ key.map (·.1), r n = q n) : hasAll key r = hasAll key q := by
  unfold hasAll
  refine Bool.eq_iff_iff.mpr ?_
  rw [List.all_eq_true, List.all_eq_true]
  exact forall_congr' fun k => imp_congr_right fun hk => by rw [h k.1 (List.mem_map.mpr ⟨k, hk, rfl⟩)]

theorem all2_alike {α : Type} {R : α → α → Prop} (h : ∀ x, R x x) (l : List α) : All2 R l l := by
  induction l with
  | nil => exact .nil
  | cons x l ih => exact .cons (h x) ih

theorem all2_mapped {α : Type} {R Q : α → α → Prop} {f g : α → α} (h : ∀ x y, R x y → Q (f x) (g y)) {l m : List α} (hl : All2 R l m) :
    All2 Q (l.map f) (m.map g) := by
  induction hl with
  | nil => exact .nil
  | cons h1 _ ih => exact .cons (h _ _ h1) ih

theorem Agree.step {all todo : List UpdateStep} {s : UpdateStep} (hk : KeepsKeys all) (hs : ∀ x ∈ s :: todo, x ∈ all) {S T : Tables} (h : Agree (s :: todo) S T) :
    Agree todo (s.run S) (s.run T) := by
  intro d t
  unfold UpdateStep.run updateRows
  by_cases e : d = s.db ∧ t = s.table
  · rw [if_pos e, if_pos e]
    refine all2_mapped ?_ (h d t)
    intro r q hrq
    have hkey : hasAll s.key r = hasAll s.key q := by
      refine hasAll_congr fun n hn => (hrq n).resolve_right ?_
      rintro ⟨x, hx, h1, h2, _, h4⟩
      exact hk x (hs x hx) s (hs s List.mem_cons_self) (h1.trans e.1) (h2.trans e.2) n h4 hn
    rw [← hkey]
    by_cases hb : hasAll s.key r = true
    · rw [if_pos hb, if_pos hb]
      intro n
      by_cases hn : n ∈ s.sets.map (·.1)
      · exact .inl (setAll_set r q hn)
      · rw [setAll_other r hn, setAll_other q hn]
        rcases hrq n with h1 | ⟨x, hx, h1, h2, h3, h4⟩
        · exact .inl h1
        · rcases List.mem_cons.mp hx with rfl | hx'
          · exact absurd h4 hn
          · refine .inr ⟨x, hx', h1, h2, ?_, h4⟩
            rw [hasAll_setAll r fun m hm => hk s (hs s List.mem_cons_self) x (hs x hx) (e.1.symm.trans h1.symm) (e.2.symm.trans h2.symm) m hm]
            exact h3
    · rw [if_neg hb, if_neg hb]
      intro n
      rcases hrq n with h1 | ⟨x, hx, h1, h2, h3, h4⟩
      · exact .inl h1
      · rcases List.mem_cons.mp hx with rfl | hx'
        · exact absurd h3 hb
        · exact .inr ⟨x, hx', h1, h2, h3, h4⟩
  · rw [if_neg e, if_neg e]
    refine all2_imp ?_ (h d t)
    intro r q hrq n
    rcases hrq n with h1 | ⟨x, hx, h1, h2, h3, h4⟩
    · exact .inl h1
    · rcases List.mem_cons.mp hx with rfl | hx'
      · exact absurd ⟨h1.symm, h2.symm⟩ e
      · exact .inr ⟨x, hx', h1, h2, h3, h4⟩

theorem Agree.before {all : List UpdateStep} {s : UpdateStep} (hk : KeepsKeys all) (hs : s ∈ all) {S T : Tables} (h : Agree all S T) : Agree all (s.run S) T := by
  intro d t
  unfold UpdateStep.run updateRows
  by_cases e : d = s.db ∧ t = s.table
  · rw [if_pos e]
    have := all2_mapped (Q := fun r q : NamedRow => ∀ n, r n = q n ∨ ∃ s ∈ all, s.db = d ∧ s.table = t ∧ hasAll s.key r = true ∧ n ∈ s.sets.map (·.1))
      (f := fun r => if hasAll s.key r then setAll s.sets r else r) (g := id) ?_ (h d t)
    · rwa [List.map_id] at this
    · intro r q hrq n
      by_cases hb : hasAll s.key r = true
      · simp only [if_pos hb, id]
        have hsame : ∀ x ∈ all, x.db = d → x.table = t → hasAll x.key (setAll s.sets r) = hasAll x.key r := fun x hx h1 h2 =>
          hasAll_setAll r fun m hm => hk s hs x hx (e.1.symm.trans h1.symm) (e.2.symm.trans h2.symm) m hm
        by_cases hn : n ∈ s.sets.map (·.1)
        · exact .inr ⟨s, hs, e.1.symm, e.2.symm, (hsame s hs e.1.symm e.2.symm).trans hb, hn⟩
        · rw [setAll_other r hn]
          rcases hrq n with h1 | ⟨x, hx, h1, h2, h3, h4⟩
          · exact .inl h1
          · exact .inr ⟨x, hx, h1, h2, (hsame x hx h1 h2).trans h3, h4⟩
      · simp only [if_neg hb, id]
        exact hrq n
  · rw [if_neg e]
    exact h d t

/-- **Steps before all steps make no difference.** -/
theorem steps_before {all pre : List UpdateStep} (hk : KeepsKeys all) (hp : ∀ s ∈ pre, s ∈ all) (S : Tables) :
    all.foldl (fun S s => s.run S) (pre.foldl (fun S s => s.run S) S) = all.foldl (fun S s => s.run S) S := by
  have h0 : Agree all (pre.foldl (fun S s => s.run S) S) S := by
    have hS : Agree all S S := fun d t => all2_alike (fun r n => .inl rfl) _
    suffices ∀ T, Agree all T S → Agree all (pre.foldl (fun S s => s.run S) T) S from this S hS
    clear hS
    induction pre with
    | nil => exact fun T h => h
    | cons s pre ih => exact fun T h => ih (fun x hx => hp x (List.mem_cons_of_mem _ hx)) _ (h.before hk (hp s List.mem_cons_self))
  generalize pre.foldl (fun S s => s.run S) S = T at h0
  suffices ∀ todo : List UpdateStep, (∀ x ∈ todo, x ∈ all) → ∀ S T, Agree todo T S → todo.foldl (fun S s => s.run S) T = todo.foldl (fun S s => s.run S) S from
    this all (fun _ h => h) S T h0
  clear h0 hp
  intro todo
  induction todo with
  | nil =>
    intro _ S T h
    funext d t
    have := h d t
    show T d t = S d t
    generalize T d t = l at this
    generalize S d t = m at this
    induction this with
    | nil => rfl
    | cons h1 _ ih =>
      rw [ih]
      congr 1
      funext n
      exact (h1 n).resolve_right (by rintro ⟨x, hx, _⟩; cases hx)
  | cons s todo ih => exact fun hs S T h => ih (fun x hx => hs x (List.mem_cons_of_mem _ hx)) _ _ (h.step hk hs)

/-- the evaluated statement -/
def StepOf (sv : Server) (cols : Bytes → Bytes → List Column) (u : Update) (s : UpdateStep) : Prop :=
  s.db = u.db ∧ s.table = u.table ∧ s.sets.map (·.1) = u.sets.map (·.1) ∧ s.key.map (·.1) = u.conds.map (·.1) ∧
  ∀ S, execUpdate sv cols S u = some (s.run S)

theorem evalNamed_names {sv : Server} {cols : List Column} {es : List (Bytes × List Tok)} {os : List (Bytes × Orig)}
    (h : es.mapM (evalNamed sv cols) = some os) : os.map (·.1) = es.map (·.1) := by
  induction es generalizing os with
  | nil => cases h; rfl
  | cons e es ih =>
    rw [List.mapM_cons] at h
    cases h1 : evalNamed sv cols e with
    | none => rw [h1] at h; cases h
    | some o =>
      cases h2 : es.mapM (evalNamed sv cols) with
      | none => rw [h1, h2] at h; cases h
      | some os' =>
        rw [h1, h2] at h
        cases h
        have : o.1 = e.1 := by
          unfold evalNamed at h1
          obtain ⟨c, _, h1⟩ := Option.bind_eq_some_iff.mp h1
          obtain ⟨v, _, h1⟩ := Option.bind_eq_some_iff.mp h1
          obtain ⟨x, _, h1⟩ := Option.map_eq_some_iff.mp h1
          rw [← h1]
        rw [List.map_cons, List.map_cons, ih h2, this]

theorem steps_of {sv : Server} {cols : Bytes → Bytes → List Column} {us : List Update} {S S' : Tables}
    (h : us.foldlM (execUpdate sv cols) S = some S') : ∃ steps, All2 (StepOf sv cols) us steps := by
  induction us generalizing S with
  | nil => exact ⟨[], .nil⟩
  | cons u us ih =>
    rw [List.foldlM_cons] at h
    cases h1 : u.sets.mapM (evalNamed sv (cols u.db u.table)) with
    | none => simp [execUpdate, h1] at h
    | some sets =>
      cases h2 : u.conds.mapM (evalNamed sv (cols u.db u.table)) with
      | none => simp [execUpdate, h1, h2] at h
      | some conds =>
        have e : ∀ S, execUpdate sv cols S u = some (updateRows u.db u.table conds sets S) := by
          intro S
          unfold execUpdate
          rw [h1, h2]
          rfl
        rw [e] at h
        obtain ⟨steps, h3⟩ := ih h
        exact ⟨⟨u.db, u.table, conds, sets⟩ :: steps, .cons ⟨rfl, rfl, evalNamed_names h1, evalNamed_names h2, e⟩ h3⟩

theorem steps_run {sv : Server} {cols : Bytes → Bytes → List Column} {us : List Update} {steps : List UpdateStep} (h : All2 (StepOf sv cols) us steps) (k : Nat)
    (S : Tables) : (us.take k).foldlM (execUpdate sv cols) S = some ((steps.take k).foldl (fun S s => s.run S) S) := by
  induction h generalizing k S with
  | nil => rw [List.take_nil, List.take_nil]; rfl
  | cons h _ ih =>
    cases k with
    | zero => rfl
    | succ k =>
      rw [List.take_succ_cons, List.take_succ_cons, List.foldlM_cons, h.2.2.2.2]
      exact ih k _

/-- **C125, redo command:** whatever the files and however the run of the command ends, if its output is a script of the statements `us` that can be executed and none of
which assigns a column that the condition of one on the same table names, its first statements can be executed, and executing the whole script after them gives
what executing it at once gives. -/
theorem C125_redo (env : Env) (fs : Bytes → File) (a : FromRedo) (spare : Nat) (sv : Server) (cols : Bytes → Bytes → List Column) (S S' : Tables) (us : List Update)
    (hread : readUpdates (stdout (fromRedoFile env fs a spare []).st) = some us)
    (hkeys : ∀ u ∈ us, ∀ v ∈ us, u.db = v.db → u.table = v.table → ∀ n ∈ u.sets.map (·.1), n ∉ v.conds.map (·.1))
    (h : execUpdates sv cols (stdout (fromRedoFile env fs a spare []).st) S = some S') (k : Nat) :
    ∃ M, (us.take k).foldlM (execUpdate sv cols) S = some M ∧ execUpdates sv cols (stdout (fromRedoFile env fs a spare []).st) M = some S' := by
  unfold execUpdates at h ⊢
  rw [hread, Option.bind_some] at h
  rw [hread]
  obtain ⟨steps, h1⟩ := steps_of h
  have h2 : ∀ S, us.foldlM (execUpdate sv cols) S = some (steps.foldl (fun S s => s.run S) S) := by
    intro S
    have := steps_run h1 (us.length + steps.length) S
    rwa [List.take_of_length_le (by omega), List.take_of_length_le (by omega)] at this
  have hk : KeepsKeys steps := by
    intro s hs s' hs' e1 e2 n hn
    obtain ⟨u, hu, g1, g2, g3, _⟩ := all2_exists_left h1 s hs
    obtain ⟨v, hv, f1, f2, _, f4, _⟩ := all2_exists_left h1 s' hs'
    rw [f4]
    rw [g3] at hn
    exact hkeys u hu v hv (g1.symm.trans (e1.trans f1)) (g2.symm.trans (e2.trans f2)) n hn
  refine ⟨_, steps_run h1 k S, ?_⟩
  rw [Option.bind_some, h2, steps_before hk fun s hs => List.mem_of_mem_take hs, ← h2, h]

/-- The condition is needed: `update t set id = 9 where id = 8; update t set id = 8 where id = 7;` gives the row 7 the key 8, and after an interruption at the end the key 9. -/
theorem keys_needed : ∃ (all : List UpdateStep) (S : Tables),
    all.foldl (fun S s => s.run S) (all.foldl (fun S s => s.run S) S) ≠ all.foldl (fun S s => s.run S) S := by
  refine ⟨[⟨[], [], [(b! "id", .int 8)], [(b! "id", .int 9)]⟩, ⟨[], [], [(b! "id", .int 7)], [(b! "id", .int 8)]⟩], fun _ _ => [fun _ => .int 7], fun h => ?_⟩
  have := congrArg (fun S : Tables => (S [] []).map fun r => r (b! "id")) h
  exact absurd (this : [Orig.int 9] = [Orig.int 8]) (by decide)

/-- **C125, logs of C58:** the script that undoes updates (`C74_once_partial`) undoes them also after it was interrupted, after any line. -/
theorem C125_undone (env : Env) (fs : Bytes → File) (a : FromRedo) (spare : Nat) (sys : Bytes) (trs : List TableRow) (crs : List ColumnRow)
    (irs : List IndexRow) (frs : List FieldRow) (names : List Bytes) (parts : List (List Bytes)) (its : List Item) (chs : List (Option Change))
    (sv : Server) (cols : Bytes → Bytes → List Column) (pk : Bytes → Bytes → List Bytes) (S S' : Tables)
    (hsys : a.sysFile = .ok sys) (hdict : Dictionary sys trs crs irs frs) (hne : names ≠ []) (hn : ∀ n ∈ names, 44 ∉ n)
    (ha : a.redoFile = commaList names) (hp : All2 (fun chunks n => ∃ content, fs n = .ok content ∧ IsLogFile chunks content) parts names)
    (hs : parts.flatten.flatten = its.flatMap Item.enc) (hf : ∀ it ∈ its, it.Fits)
    (harr : ∀ t ∈ trs, UsualKeys irs frs crs t.id) (hfl : All2 (Followed env a trs crs irs frs) its chs)
    (hplain : ∀ ch, some ch ∈ chs → Wanted a ch = true → Plainly env.ff ch)
    (hah : Ahead its) (hlen : (its.flatMap Item.enc).length < 2 ^ 32)
    (hcols : SameColumns trs crs cols) (hreads : ∀ ch, some ch ∈ chs → ReadsChange sv env.ff ch)
    (hh : Happened cols pk env.ff ((chs.filterMap id).filter (Wanted a)) S S')
    (hapart : ((chs.filterMap id).filter (Wanted a)).Pairwise (Apart env.ff)) :
    ∃ lines, fromRedoFile env fs a spare [] = .ok () lines ∧ ∀ k, ∃ M, execUpdates sv cols (stdout (lines.take k)) S' = some M ∧
      execUpdates sv cols (stdout lines) M = some S := by
  obtain ⟨lines, h1, h2⟩ := C58_command_partial env fs a spare sys trs crs irs frs names parts its chs hsys hdict hne hn ha hp hs hf harr hfl hplain hah hlen []
  have hm : ∀ ch ∈ (chs.filterMap id).filter (Wanted a), some ch ∈ chs := by
    intro ch hch
    obtain ⟨x, hx, rfl⟩ := List.mem_filterMap.mp (List.mem_filter.mp hch).1
    exact hx
  have ht : ∀ ch ∈ (chs.filterMap id).filter (Wanted a), TypedChange cols ch := by
    intro ch hch
    obtain ⟨it, _, hit⟩ := all2_exists_left hfl (some ch) (hm ch hch)
    exact followed_typed hcols hit (happened_columns hh ch hch)
  have hr : ∀ ch ∈ (chs.filterMap id).filter (Wanted a), ReadsChange sv env.ff ch := fun ch hch => hreads ch (hm ch hch)
  refine ⟨lines, by simpa using h1, fun k => ⟨_, exec_lines (all2_take h2 k) (fun ch hch => ht ch (List.mem_of_mem_take hch))
    (fun ch hch => hr ch (List.mem_of_mem_take hch)) S', ?_⟩⟩
  rw [exec_lines h2 ht hr, ← undo_forward hh hapart]
  have hkeys := happened_keys hh
  generalize (chs.filterMap id).filter (Wanted a) = cs at hkeys
  have := steps_before (all := cs.map fun ch => ⟨ch.db, ch.table, ch.keys env.ff, ch.olds env.ff⟩)
    (pre := (cs.take k).map fun ch => ⟨ch.db, ch.table, ch.keys env.ff, ch.olds env.ff⟩) ?_ ?_ S'
  · rw [List.foldl_map, List.foldl_map, List.foldl_map] at this
    exact congrArg some this
  · intro s hs s' hs' e1 e2 n hn
    obtain ⟨c, hc, rfl⟩ := List.mem_map.mp hs
    obtain ⟨d, hd, rfl⟩ := List.mem_map.mp hs'
    have e1 : c.db = d.db := e1
    have e2 : c.table = d.table := e2
    have hn : n ∈ (c.olds env.ff).map (·.1) := hn
    show n ∉ (d.keys env.ff).map (·.1)
    rw [olds_names] at hn
    obtain ⟨x, hx, rfl⟩ := List.mem_map.mp hn
    rw [keys_names, (hkeys d hd).1, ← e1, ← e2]
    exact (hkeys c hc).2 x hx
  · intro s hs
    obtain ⟨c, hc, rfl⟩ := List.mem_map.mp hs
    exact List.mem_map.mpr ⟨c, List.mem_of_mem_take hc, rfl⟩

/-! ## Examples -/

/-- the hypotheses of `C125_data`: the rows of the shop, on a table with another row -/
example (env : Env) (sv : Server) : ∃ ss after, readReplaces (stdout (fromDataFile env (shopArgs (b! "ann") false) []).st) = some ss ∧
    execScript sv (columnsOf shopColumns 20) sameFirst (b! "shop") (b! "t") (stdout (fromDataFile env (shopArgs (b! "ann") false) []).st)
      [[.int 1, .text (b! "zoe")]] = some after ∧ ∀ r, sameFirst r r = true := by
  obtain ⟨lines, after, h1, h2, _⟩ := C86_files_again env (shopArgs (b! "ann") false) _ _ _ _ _ _ _ _ _ _ false (shopRows (b! "ann") false) sv sameFirst
    (fun _ => beq_self_eq_true _) [[.int 1, .text (b! "zoe")]] (shop_whole env false) (shopData_file env (.inl rfl) false) rfl (shop_numbers _ _ _ _)
  rw [h1]
  cases hs : readReplaces (stdout lines) with
  | none =>
    have h2 : execScript sv (columnsOf shopColumns 20) sameFirst (b! "shop") (b! "t") (stdout lines) [[.int 1, .text (b! "zoe")]] = some after := h2
    unfold execScript at h2
    rw [hs] at h2
    cases h2
  | some ss => exact ⟨ss, after, hs, h2, fun _ => beq_self_eq_true _⟩

/-- the hypotheses of `C125_restored`: the rows of the shop -/
example (env : Env) (sv : Server) : ∃ lines, fromDataFile env (shopArgs (b! "ann") false) [] = .ok () lines ∧ ∀ k, ∃ mid,
    execScript sv (columnsOf shopColumns 20) sameFirst (b! "shop") (b! "t") (stdout (lines.take k)) [] = some mid ∧
    execScript sv (columnsOf shopColumns 20) sameFirst (b! "shop") (b! "t") (stdout lines) mid = some [[.int 1, .text (b! "ann")], [.int 2, .null]] :=
  C125_restored env (shopArgs (b! "ann") false) _ _ _ _ _ _ _ _ _ _ false (shopRows (b! "ann") false) sv sameFirst (fun _ => beq_self_eq_true _)
    (shop_whole env false) (shopData_file env (.inl rfl) false) rfl (shop_numbers _ _ _ _) (by
      show [[Orig.int 1, .text (b! "ann")], [.int 2, .null]].Pairwise _
      decide)

/-- the hypotheses of `C125_undone`: two updates -/
theorem shop2_interrupted (env : Env) (spare : Nat) (sv : Server) : ∃ lines, fromRedoFile env (shopDisk2 8) shopRedo2 spare [] = .ok () lines ∧
    ∀ k, ∃ M, execUpdates sv shopCols (stdout (lines.take k)) (shopState [shopRow 7 (b! "zoe"), shopRow 8 (b! "pat")]) = some M ∧
      execUpdates sv shopCols (stdout lines) M = some (shopState [shopRow 7 (b! "bob"), shopRow 8 (b! "eve")]) :=
  C125_undone env (shopDisk2 8) shopRedo2 spare (shopFile idKey) shopTables shopColumns (shopIndexes idKey) (shopFields idKey) [b! "ib_logfile0"]
    [[(shopLog2 8).flatMap Item.enc]] (shopLog2 8) (shopChanges2 8) sv shopCols (fun _ _ => [b! "id"]) _ _ rfl (shop_dictionary (.inl rfl)) (by decide)
    (by decide) rfl (shop2_disk (.inr rfl)) (by simp) (shop2_fits (.inr rfl)) shop_arranged (shop2_followed env (.inr rfl))
    (fun ch hch _ => by
      rcases shop2_mem hch with rfl | rfl
      · exact shopChange2_plainly env (.inl rfl) (.inl rfl)
      · exact shopChange2_plainly env (.inr rfl) (.inr rfl))
    (shop2_ahead (.inr rfl)) (by have := shop2_length (.inr rfl : SevenEight 8); omega) shop2_cols (shop2_reads sv env.ff 8) (shop2_apart env.ff)
    (.cons (by
      intro d hd
      cases List.mem_singleton.mp hd
      right; right; left
      show [(b! "id", Orig.int 7)] ≠ [(b! "id", .int 8)]
      decide) (List.pairwise_singleton _ _))

/-- the hypotheses of `C125_redo`: the two updates are printed as statements on the names, with conditions on the key -/
example (env : Env) (spare : Nat) (sv : Server) : ∃ us S', us.length = 2 ∧
    readUpdates (stdout (fromRedoFile env (shopDisk2 8) shopRedo2 spare []).st) = some us ∧
    (∀ u ∈ us, ∀ v ∈ us, u.db = v.db → u.table = v.table → ∀ n ∈ u.sets.map (·.1), n ∉ v.conds.map (·.1)) ∧
    execUpdates sv shopCols (stdout (fromRedoFile env (shopDisk2 8) shopRedo2 spare []).st) (shopState [shopRow 7 (b! "zoe"), shopRow 8 (b! "pat")]) = some S' := by
  have h0 := C58_lines env (shopDisk2 8) shopRedo2 spare (shopFile idKey) shopTables shopColumns (shopIndexes idKey) (shopFields idKey) [b! "ib_logfile0"]
    [[(shopLog2 8).flatMap Item.enc]] (shopLog2 8) (shopChanges2 8) rfl (shop_dictionary (.inl rfl)) (by decide) (by decide) rfl (shop2_disk (.inr rfl)) (by simp)
    (shop2_fits (.inr rfl)) shop_arranged (shop2_followed env (.inr rfl)) (shop2_ahead (.inr rfl)) (by have := shop2_length (.inr rfl : SevenEight 8); omega) []
  have h0 : fromRedoFile env (shopDisk2 8) shopRedo2 spare [] = .ok () [b! "update `shop`.`t` set `name`='bob' where `id`='7';",
    b! "update `shop`.`t` set `name`='eve' where `id`='8';"] := h0
  obtain ⟨lines, h1, h2⟩ := shop2_interrupted env spare sv
  obtain ⟨M, _, _⟩ := h2 0
  refine ⟨[⟨b! "shop", b! "t", [(b! "name", [.str (b! "bob")])], [(b! "id", [.str (b! "7")])]⟩,
    ⟨b! "shop", b! "t", [(b! "name", [.str (b! "eve")])], [(b! "id", [.str (b! "8")])]⟩], shopState [shopRow 7 (b! "bob"), shopRow 8 (b! "eve")], rfl, ?_, by decide, ?_⟩
  · rw [h0]
    show readUpdates (stdout [b! "update `shop`.`t` set `name`='bob' where `id`='7';", b! "update `shop`.`t` set `name`='eve' where `id`='8';"]) = _
    decide
  · obtain ⟨M, h3, h4⟩ := h2 0
    rw [h1]
    have : M = shopState [shopRow 7 (b! "zoe"), shopRow 8 (b! "pat")] := by
      rw [List.take_zero] at h3
      exact (Option.some.inj h3).symm
    rw [this] at h4
    exact h4

end Verif.Props
