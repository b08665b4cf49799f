import Verif.Props.RedoEffectIff
/-!
# C110: updates that were rolled back

The undo records of a transaction are in the redo log whether it was committed or rolled back.  Rolling back sets the old values and writes no undo
records of its own.
-/

namespace Verif.Props
open Verif Spec

/-- what happens to the tables -/
inductive Step where
  /-- an update of a transaction that is committed -/
  | kept (ch : Change)
  /-- an update that is rolled back later -/
  | rolled (ch : Change)
  /-- this update is rolled back -/
  | back (ch : Change)

/-- the updates with undo records -/
def logged (steps : List Step) : List Change := steps.filterMap fun
  | .kept ch => some ch
  | .rolled ch => some ch
  | .back _ => none

def keptOf (steps : List Step) : List Change := steps.filterMap fun
  | .kept ch => some ch
  | _ => none

/-- These steps took the tables from `S` to `S'`. -/
inductive Ran (cols : Bytes → Bytes → List Column) (pk : Bytes → Bytes → List Bytes) (ff : FloatFmt) : List Step → Tables → Tables → Prop
  | nil {S} : Ran cols pk ff [] S S
  | kept {steps ch S S1 S2} : Ran cols pk ff steps S S1 → Changed cols pk ff ch S1 S2 → Ran cols pk ff (steps ++ [.kept ch]) S S2
  | rolled {steps ch S S1 S2} : Ran cols pk ff steps S S1 → Changed cols pk ff ch S1 S2 → Ran cols pk ff (steps ++ [.rolled ch]) S S2
  /-- The row gets the values of the undo record. -/
  | back {steps ch S S1} : Ran cols pk ff steps S S1 → .rolled ch ∈ steps →
      Ran cols pk ff (steps ++ [.back ch]) S (updateRows ch.db ch.table (ch.keys ff) (ch.olds ff) S1)

/-- All that is to be rolled back is rolled back, and until then the row is locked. -/
def Locked (ff : FloatFmt) (steps : List Step) : Prop :=
  ∀ pre ch post, steps = pre ++ .rolled ch :: post → ∃ mid rest, post = mid ++ .back ch :: rest ∧ ∀ c, .kept c ∈ mid → Apart ff ch c

/-- **C110**, as stated: updates that were rolled back do no harm.  If no column of a row was changed by two of the updates that were not rolled back (so that
these are undone: `C74_once_partial`), the output, executed on the tables after it all, gives the tables before. -/
def C110_statement : Prop :=
  ∀ (env : Env) (fs : Bytes → File) (a : FromRedo) (spare : Nat) (sys : Bytes) (trs : List TableRow) (crs : List ColumnRow)
    (irs : List IndexRow) (frs : List FieldRow) (names : List Bytes) (parts : List (List Bytes)) (its : List Item) (chs : List (Option Change))
    (sv : Server) (cols : Bytes → Bytes → List Column) (pk : Bytes → Bytes → List Bytes) (steps : List Step) (S S' : Tables),
    a.sysFile = .ok sys → Dictionary sys trs crs irs frs → names ≠ [] → (∀ n ∈ names, 44 ∉ n) → a.redoFile = commaList names →
    All2 (fun chunks n => ∃ content, fs n = .ok content ∧ IsLogFile chunks content) parts names →
    parts.flatten.flatten = its.flatMap Item.enc → (∀ it ∈ its, it.Fits) →
    (∀ t ∈ trs, UsualKeys irs frs crs t.id) → All2 (Followed env a trs crs irs frs) its chs →
    (∀ ch, some ch ∈ chs → Wanted a ch = true → Plainly env.ff ch) → Ahead its → (its.flatMap Item.enc).length < 2 ^ 32 →
    SameColumns trs crs cols → (∀ ch, some ch ∈ chs → ReadsChange sv env.ff ch) →
    Ran cols pk env.ff steps S S' → (chs.filterMap id).filter (Wanted a) = logged steps → Locked env.ff steps → (keptOf steps).Pairwise (Apart env.ff) →
    ∃ lines, fromRedoFile env fs a spare [] = .ok () lines ∧ execUpdates sv cols (stdout lines) S' = some S

/-! ### Lemmas -/

theorem logged_append (xs ys : List Step) : logged (xs ++ ys) = logged xs ++ logged ys := List.filterMap_append

theorem logged_rolled {ch : Change} {steps : List Step} (h : .rolled ch ∈ steps) : ch ∈ logged steps := List.mem_filterMap.mpr ⟨_, h, rfl⟩

theorem ran_changes {cols : Bytes → Bytes → List Column} {pk : Bytes → Bytes → List Bytes} {ff : FloatFmt} {steps : List Step} {S S' : Tables}
    (h : Ran cols pk ff steps S S') : ∀ ch ∈ logged steps, ∃ T T', Changed cols pk ff ch T T' := by
  induction h with
  | nil => exact nofun
  | kept _ hc ih =>
    intro ch hch
    rw [logged_append, List.mem_append] at hch
    rcases hch with hch | hch
    · exact ih ch hch
    · cases List.mem_singleton.mp (show ch ∈ [_] from hch)
      exact ⟨_, _, hc⟩
  | rolled _ hc ih =>
    intro ch hch
    rw [logged_append, List.mem_append] at hch
    rcases hch with hch | hch
    · exact ih ch hch
    · cases List.mem_singleton.mp (show ch ∈ [_] from hch)
      exact ⟨_, _, hc⟩
  | back _ _ ih =>
    intro ch hch
    rw [logged_append, List.mem_append] at hch
    exact hch.elim (ih ch) nofun

theorem ran_keeping {cols : Bytes → Bytes → List Column} {pk : Bytes → Bytes → List Bytes} {ff : FloatFmt} {steps : List Step} {S S' : Tables}
    (h : Ran cols pk ff steps S S') : ∀ ch ∈ logged steps, Keeping pk ch := by
  intro ch hch
  obtain ⟨_, _, h⟩ := ran_changes h ch hch
  exact ⟨h.key, fun s hs => (h.columns s hs).2⟩

/-- a statement makes no difference if it is executed again -/
theorem undo_absorbed {pk : Bytes → Bytes → List Bytes} {ff : FloatFmt} {cs : List Change} {ch : Change} (hk : ∀ c ∈ cs, Keeping pk c) (hc : ch ∈ cs) (S : Tables) :
    cs.foldl (fun S ch => ch.undo ff S) (ch.undo ff S) = cs.foldl (fun S ch => ch.undo ff S) S := by
  rw [← List.foldl_cons (f := fun S (ch : Change) => ch.undo ff S)]
  funext db t
  rw [undo_rows, undo_rows]
  refine List.map_congr_left fun r _ => funext fun n => ?_
  have hk' : ∀ c ∈ ch :: cs, Keeping pk c := by
    intro c hm
    rcases List.mem_cons.mp hm with rfl | hm
    · exact hk _ hc
    · exact hk c hm
  by_cases ht : ∃ c ∈ cs, Touches ff db t r n c
  · obtain ⟨as, d, ds, rfl, hd, hds⟩ := last_split _ _ ht
    rw [fold_last hk r n hd hds, ← List.cons_append, fold_last (by rw [List.cons_append]; exact hk') r n hd hds]
  · have ht : ∀ c ∈ cs, ¬ Touches ff db t r n c := fun c hm h => ht ⟨c, hm, h⟩
    rw [fold_untouched hk r n ht, fold_untouched hk' r n fun c hm => by
      rcases List.mem_cons.mp hm with rfl | hm
      · exact ht _ hc
      · exact ht c hm]

/-- from the last to the first, the statements restore the tables -/
theorem ran_reverse {cols : Bytes → Bytes → List Column} {pk : Bytes → Bytes → List Bytes} {ff : FloatFmt} {steps : List Step} {S S' : Tables}
    (h : Ran cols pk ff steps S S') : (logged steps).reverse.foldl (fun S ch => ch.undo ff S) S' = S := by
  induction h with
  | nil => rfl
  | kept _ hc ih =>
    rw [logged_append]
    show ((logged _ ++ [_]).reverse).foldl _ _ = _
    rw [List.reverse_append, List.reverse_singleton, List.singleton_append, List.foldl_cons, undo_changed hc, ih]
  | rolled _ hc ih =>
    rw [logged_append]
    show ((logged _ ++ [_]).reverse).foldl _ _ = _
    rw [List.reverse_append, List.reverse_singleton, List.singleton_append, List.foldl_cons, undo_changed hc, ih]
  | @back steps ch S S1 h hm ih =>
    rw [logged_append]
    show ((logged steps ++ []).reverse).foldl _ (ch.undo ff S1) = _
    rw [List.append_nil, undo_absorbed (fun c hc => ran_keeping h c (List.mem_reverse.mp hc)) (List.mem_reverse.mpr (logged_rolled hm)), ih]

theorem apart_comm {ff : FloatFmt} {c d : Change} (h : Apart ff c d) : Apart ff d c := by
  rcases h with h | h | h | h
  · exact .inl h.symm
  · exact .inr (.inl h.symm)
  · exact .inr (.inr (.inl h.symm))
  · exact .inr (.inr (.inr fun s h1 h2 => h s h2 h1))

/-- what the command prints, and what it does in its own order and in the opposite one -/
theorem rollback_effect (env : Env) (fs : Bytes → File) (a : FromRedo) (spare : Nat) (sys : Bytes) (trs : List TableRow) (crs : List ColumnRow)
    (irs : List IndexRow) (frs : List FieldRow) (names : List Bytes) (parts : List (List Bytes)) (its : List Item) (chs : List (Option Change))
    (sv : Server) (cols : Bytes → Bytes → List Column) (pk : Bytes → Bytes → List Bytes) (steps : List Step) (S S' : Tables)
    (hsys : a.sysFile = .ok sys) (hdict : Dictionary sys trs crs irs frs) (hne : names ≠ []) (hn : ∀ n ∈ names, 44 ∉ n)
    (ha : a.redoFile = commaList names) (hp : All2 (fun chunks n => ∃ content, fs n = .ok content ∧ IsLogFile chunks content) parts names)
    (hs : parts.flatten.flatten = its.flatMap Item.enc) (hf : ∀ it ∈ its, it.Fits)
    (harr : ∀ t ∈ trs, UsualKeys irs frs crs t.id) (hfl : All2 (Followed env a trs crs irs frs) its chs)
    (hplain : ∀ ch, some ch ∈ chs → Wanted a ch = true → Plainly env.ff ch)
    (hah : Ahead its) (hlen : (its.flatMap Item.enc).length < 2 ^ 32)
    (hcols : SameColumns trs crs cols) (hreads : ∀ ch, some ch ∈ chs → ReadsChange sv env.ff ch)
    (hh : Ran cols pk env.ff steps S S') (hlog : (chs.filterMap id).filter (Wanted a) = logged steps) :
    ∃ lines, fromRedoFile env fs a spare [] = .ok () lines ∧
      (∀ T, execUpdates sv cols (stdout lines) T = some ((logged steps).foldl (fun S ch => ch.undo env.ff S) T)) ∧
      ∀ T, execUpdates sv cols (stdout lines.reverse) T = some ((logged steps).reverse.foldl (fun S ch => ch.undo env.ff S) T) := by
  obtain ⟨lines, h1, h2⟩ := C58_command_partial env fs a spare sys trs crs irs frs names parts its chs hsys hdict hne hn ha hp hs hf harr hfl hplain hah hlen []
  have hm : ∀ ch ∈ (chs.filterMap id).filter (Wanted a), some ch ∈ chs := by
    intro ch hch
    obtain ⟨x, hx, rfl⟩ := List.mem_filterMap.mp (List.mem_filter.mp hch).1
    exact hx
  rw [hlog] at hm h2
  have ht : ∀ ch ∈ logged steps, TypedChange cols ch := by
    intro ch hch
    obtain ⟨it, _, hit⟩ := all2_exists_left hfl (some ch) (hm ch hch)
    obtain ⟨_, _, hc⟩ := ran_changes hh ch hch
    exact followed_typed hcols hit fun s hs => (hc.columns s hs).1
  have hr : ∀ ch ∈ logged steps, ReadsChange sv env.ff ch := fun ch hch => hreads ch (hm ch hch)
  refine ⟨lines, by simpa using h1, exec_lines h2 ht hr, exec_lines (all2_reverse h2) ?_ ?_⟩
  · exact fun ch hch => ht ch (List.mem_reverse.mp hch)
  · exact fun ch hch => hr ch (List.mem_reverse.mp hch)

/-! ### The theorems -/

/-- **C110, exactly.** The tables before are restored if and only if each column of a row that was updated, by a transaction that was committed or not,
held at first what it held before its last update. -/
theorem C110_iff (env : Env) (fs : Bytes → File) (a : FromRedo) (spare : Nat) (sys : Bytes) (trs : List TableRow) (crs : List ColumnRow)
    (irs : List IndexRow) (frs : List FieldRow) (names : List Bytes) (parts : List (List Bytes)) (its : List Item) (chs : List (Option Change))
    (sv : Server) (cols : Bytes → Bytes → List Column) (pk : Bytes → Bytes → List Bytes) (steps : List Step) (S S' : Tables)
    (hsys : a.sysFile = .ok sys) (hdict : Dictionary sys trs crs irs frs) (hne : names ≠ []) (hn : ∀ n ∈ names, 44 ∉ n)
    (ha : a.redoFile = commaList names) (hp : All2 (fun chunks n => ∃ content, fs n = .ok content ∧ IsLogFile chunks content) parts names)
    (hs : parts.flatten.flatten = its.flatMap Item.enc) (hf : ∀ it ∈ its, it.Fits)
    (harr : ∀ t ∈ trs, UsualKeys irs frs crs t.id) (hfl : All2 (Followed env a trs crs irs frs) its chs)
    (hplain : ∀ ch, some ch ∈ chs → Wanted a ch = true → Plainly env.ff ch)
    (hah : Ahead its) (hlen : (its.flatMap Item.enc).length < 2 ^ 32)
    (hcols : SameColumns trs crs cols) (hreads : ∀ ch, some ch ∈ chs → ReadsChange sv env.ff ch)
    (hh : Ran cols pk env.ff steps S S') (hlog : (chs.filterMap id).filter (Wanted a) = logged steps) :
    (∃ lines, fromRedoFile env fs a spare [] = .ok () lines ∧ execUpdates sv cols (stdout lines) S' = some S) ↔
      ∀ cs d ds, logged steps = cs ++ d :: ds → (∀ c ∈ ds, Apart env.ff d c) → HasOlds env.ff d S := by
  obtain ⟨lines, h1, h2, _⟩ := rollback_effect env fs a spare sys trs crs irs frs names parts its chs sv cols pk steps S S' hsys hdict hne hn ha hp hs hf harr hfl
    hplain hah hlen hcols hreads hh hlog
  rw [← forward_iff_of_reverse (ran_keeping hh) (ran_reverse hh) fun c hc => by
    rw [← hlog] at hc
    obtain ⟨h3, h4⟩ := List.mem_filter.mp hc
    obtain ⟨x, hx, rfl⟩ := List.mem_filterMap.mp h3
    obtain ⟨s, hs', _⟩ := (hplain c hx h4).sets
    exact ⟨s, hs'⟩]
  constructor
  · rintro ⟨l, e1, e2⟩
    rw [h1] at e1
    cases e1
    rw [h2 S'] at e2
    exact Option.some.inj e2
  · intro e
    exact ⟨lines, h1, by rw [h2 S', e]⟩

/-- **C110 (partial).** True if no column of a row was updated twice, the updates that were rolled back included.  Missing: rows that were updated and were
updated again by a transaction that was rolled back (`C110_false`), or twice by it; see `C110_iff`. -/
theorem C110_once_partial (env : Env) (fs : Bytes → File) (a : FromRedo) (spare : Nat) (sys : Bytes) (trs : List TableRow) (crs : List ColumnRow)
    (irs : List IndexRow) (frs : List FieldRow) (names : List Bytes) (parts : List (List Bytes)) (its : List Item) (chs : List (Option Change))
    (sv : Server) (cols : Bytes → Bytes → List Column) (pk : Bytes → Bytes → List Bytes) (steps : List Step) (S S' : Tables)
    (hsys : a.sysFile = .ok sys) (hdict : Dictionary sys trs crs irs frs) (hne : names ≠ []) (hn : ∀ n ∈ names, 44 ∉ n)
    (ha : a.redoFile = commaList names) (hp : All2 (fun chunks n => ∃ content, fs n = .ok content ∧ IsLogFile chunks content) parts names)
    (hs : parts.flatten.flatten = its.flatMap Item.enc) (hf : ∀ it ∈ its, it.Fits)
    (harr : ∀ t ∈ trs, UsualKeys irs frs crs t.id) (hfl : All2 (Followed env a trs crs irs frs) its chs)
    (hplain : ∀ ch, some ch ∈ chs → Wanted a ch = true → Plainly env.ff ch)
    (hah : Ahead its) (hlen : (its.flatMap Item.enc).length < 2 ^ 32)
    (hcols : SameColumns trs crs cols) (hreads : ∀ ch, some ch ∈ chs → ReadsChange sv env.ff ch)
    (hh : Ran cols pk env.ff steps S S') (hlog : (chs.filterMap id).filter (Wanted a) = logged steps)
    (hapart : (logged steps).Pairwise (Apart env.ff)) :
    ∃ lines, fromRedoFile env fs a spare [] = .ok () lines ∧ execUpdates sv cols (stdout lines) S' = some S := by
  refine (C110_iff env fs a spare sys trs crs irs frs names parts its chs sv cols pk steps S S' hsys hdict hne hn ha hp hs hf harr hfl
    hplain hah hlen hcols hreads hh hlog).mpr ?_
  intro cs d ds hsplit _
  have hk := ran_keeping hh
  rw [← ran_reverse hh]
  rw [hsplit] at hapart hk ⊢
  rw [List.reverse_append, List.reverse_cons, List.append_assoc, List.foldl_append, List.singleton_append, List.foldl_cons]
  have kd := hk d (by simp)
  have hone : ∃ s, d.sets = [s] := by
    have hd : d ∈ (chs.filterMap id).filter (Wanted a) := by rw [hlog, hsplit]; simp
    obtain ⟨h3, h4⟩ := List.mem_filter.mp hd
    obtain ⟨x, hx, rfl⟩ := List.mem_filterMap.mp h3
    obtain ⟨s, hs', _⟩ := (hplain d hx h4).sets
    exact ⟨s, hs'⟩
  obtain ⟨s, hs'⟩ := hone
  refine apart_olds kd (fun c hc => hk c (by simp [List.mem_reverse.mp hc])) ?_ (undo_olds kd.1 kd.2 (by rw [hs']; simp) _)
  intro c hc
  exact apart_comm ((List.pairwise_append.mp hapart).2.2 c (List.mem_reverse.mp hc) d List.mem_cons_self)

/-- **C110, the opposite order:** executed from the last to the first, the lines restore the tables, whatever was rolled back. -/
theorem C110_reverse_partial (env : Env) (fs : Bytes → File) (a : FromRedo) (spare : Nat) (sys : Bytes) (trs : List TableRow) (crs : List ColumnRow)
    (irs : List IndexRow) (frs : List FieldRow) (names : List Bytes) (parts : List (List Bytes)) (its : List Item) (chs : List (Option Change))
    (sv : Server) (cols : Bytes → Bytes → List Column) (pk : Bytes → Bytes → List Bytes) (steps : List Step) (S S' : Tables)
    (hsys : a.sysFile = .ok sys) (hdict : Dictionary sys trs crs irs frs) (hne : names ≠ []) (hn : ∀ n ∈ names, 44 ∉ n)
    (ha : a.redoFile = commaList names) (hp : All2 (fun chunks n => ∃ content, fs n = .ok content ∧ IsLogFile chunks content) parts names)
    (hs : parts.flatten.flatten = its.flatMap Item.enc) (hf : ∀ it ∈ its, it.Fits)
    (harr : ∀ t ∈ trs, UsualKeys irs frs crs t.id) (hfl : All2 (Followed env a trs crs irs frs) its chs)
    (hplain : ∀ ch, some ch ∈ chs → Wanted a ch = true → Plainly env.ff ch)
    (hah : Ahead its) (hlen : (its.flatMap Item.enc).length < 2 ^ 32)
    (hcols : SameColumns trs crs cols) (hreads : ∀ ch, some ch ∈ chs → ReadsChange sv env.ff ch)
    (hh : Ran cols pk env.ff steps S S') (hlog : (chs.filterMap id).filter (Wanted a) = logged steps) :
    ∃ lines, fromRedoFile env fs a spare [] = .ok () lines ∧ execUpdates sv cols (stdout lines.reverse) S' = some S := by
  obtain ⟨lines, h1, _, h2⟩ := rollback_effect env fs a spare sys trs crs irs frs names parts its chs sv cols pk steps S S' hsys hdict hne hn ha hp hs hf harr hfl
    hplain hah hlen hcols hreads hh hlog
  exact ⟨lines, h1, by rw [h2, ran_reverse hh]⟩

/-! ### Logs -/

/-- row 7 is updated, the update of row 8 is rolled back -/
theorem shop_rolled (ff : FloatFmt) : Ran shopCols (fun _ _ => [b! "id"]) ff
    [.kept (shopChange2 7 (b! "bob")), .rolled (shopChange2 8 (b! "eve")), .back (shopChange2 8 (b! "eve"))]
    (shopState [shopRow 7 (b! "bob"), shopRow 8 (b! "eve")]) (shopState [shopRow 7 (b! "zoe"), shopRow 8 (b! "eve")]) := by
  have h1 : Changed shopCols (fun _ _ => [b! "id"]) ff (shopChange2 7 (b! "bob")) (shopState [shopRow 7 (b! "bob"), shopRow 8 (b! "eve")])
      (shopState [shopRow 7 (b! "zoe"), shopRow 8 (b! "eve")]) := by
    refine shopState_changed ff 7 _ (b! "zoe") _ _ ?_ ?_
    all_goals simp [shopRow_has, shopRow_set]
  have h2 : Changed shopCols (fun _ _ => [b! "id"]) ff (shopChange2 8 (b! "eve")) (shopState [shopRow 7 (b! "zoe"), shopRow 8 (b! "eve")])
      (shopState [shopRow 7 (b! "zoe"), shopRow 8 (b! "pat")]) := by
    refine shopState_changed ff 8 _ (b! "pat") _ _ ?_ ?_
    all_goals simp [shopRow_has, shopRow_set]
  have := Ran.back (.rolled (.kept .nil h1) h2) (ch := shopChange2 8 (b! "eve")) (by simp)
  have e : updateRows (b! "shop") (b! "t") ((shopChange2 8 (b! "eve")).keys ff) ((shopChange2 8 (b! "eve")).olds ff)
      (shopState [shopRow 7 (b! "zoe"), shopRow 8 (b! "pat")]) = shopState [shopRow 7 (b! "zoe"), shopRow 8 (b! "eve")] := undo_changed h2
  exact e ▸ this

/-- row 7 is updated, and a second update of it is rolled back -/
theorem shop_rolled_same (ff : FloatFmt) : Ran shopCols (fun _ _ => [b! "id"]) ff
    [.kept (shopChange2 7 (b! "bob")), .rolled (shopChange2 7 (b! "eve")), .back (shopChange2 7 (b! "eve"))]
    (shopState [shopRow 7 (b! "bob")]) (shopState [shopRow 7 (b! "eve")]) := by
  have h1 : Changed shopCols (fun _ _ => [b! "id"]) ff (shopChange2 7 (b! "bob")) (shopState [shopRow 7 (b! "bob")]) (shopState [shopRow 7 (b! "eve")]) := by
    refine shopState_changed ff 7 _ (b! "eve") _ _ ?_ ?_
    all_goals simp [shopRow_has, shopRow_set]
  have h2 : Changed shopCols (fun _ _ => [b! "id"]) ff (shopChange2 7 (b! "eve")) (shopState [shopRow 7 (b! "eve")]) (shopState [shopRow 7 (b! "zoe")]) := by
    refine shopState_changed ff 7 _ (b! "zoe") _ _ ?_ ?_
    all_goals simp [shopRow_has, shopRow_set]
  have := Ran.back (.rolled (.kept .nil h1) h2) (ch := shopChange2 7 (b! "eve")) (by simp)
  have e : updateRows (b! "shop") (b! "t") ((shopChange2 7 (b! "eve")).keys ff) ((shopChange2 7 (b! "eve")).olds ff) (shopState [shopRow 7 (b! "zoe")]) =
      shopState [shopRow 7 (b! "eve")] := undo_changed h2
  exact e ▸ this

/-- the hypotheses of `C110_once_partial` -/
example (env : Env) (spare : Nat) (sv : Server) : ∃ lines, fromRedoFile env (shopDisk2 8) shopRedo2 spare [] = .ok () lines ∧
    execUpdates sv shopCols (stdout lines) (shopState [shopRow 7 (b! "zoe"), shopRow 8 (b! "eve")]) =
      some (shopState [shopRow 7 (b! "bob"), shopRow 8 (b! "eve")]) :=
  C110_once_partial env (shopDisk2 8) shopRedo2 spare (shopFile idKey) shopTables shopColumns (shopIndexes idKey) (shopFields idKey) [b! "ib_logfile0"]
    [[(shopLog2 8).flatMap Item.enc]] (shopLog2 8) (shopChanges2 8) sv shopCols (fun _ _ => [b! "id"]) _ _ _ rfl (shop_dictionary (.inl rfl)) (by decide)
    (by decide) rfl (shop2_disk (.inr rfl)) (by simp) (shop2_fits (.inr rfl)) shop_arranged (shop2_followed env (.inr rfl))
    (fun ch hch _ => by
      rcases shop2_mem hch with rfl | rfl
      · exact shopChange2_plainly env (.inl rfl) (.inl rfl)
      · exact shopChange2_plainly env (.inr rfl) (.inr rfl))
    (shop2_ahead (.inr rfl)) (by have := shop2_length (.inr rfl : SevenEight 8); omega) shop2_cols (shop2_reads sv env.ff 8) (shop_rolled env.ff) rfl
    (.cons (by
      intro d hd
      cases List.mem_singleton.mp hd
      right; right; left
      show [(b! "id", Orig.int 7)] ≠ [(b! "id", .int 8)]
      decide) (List.pairwise_singleton _ _))

/-- the hypotheses of `C110_iff` and `C110_reverse_partial`: of the row that was updated and updated again by a transaction that was rolled back, the printed lines
restore nothing; in the opposite order they do -/
theorem shop_rolled_effect (env : Env) (spare : Nat) (sv : Server) : ∃ lines, fromRedoFile env (shopDisk2 7) shopRedo2 spare [] = .ok () lines ∧
    execUpdates sv shopCols (stdout lines) (shopState [shopRow 7 (b! "eve")]) ≠ some (shopState [shopRow 7 (b! "bob")]) ∧
    execUpdates sv shopCols (stdout lines.reverse) (shopState [shopRow 7 (b! "eve")]) = some (shopState [shopRow 7 (b! "bob")]) := by
  have hplain : ∀ ch, some ch ∈ shopChanges2 7 → Wanted shopRedo2 ch = true → Plainly env.ff ch := fun ch hch _ => by
    rcases shop2_mem hch with rfl | rfl
    · exact shopChange2_plainly env (.inl rfl) (.inl rfl)
    · exact shopChange2_plainly env (.inl rfl) (.inr rfl)
  have h1 := C110_iff env (shopDisk2 7) shopRedo2 spare (shopFile idKey) shopTables shopColumns (shopIndexes idKey) (shopFields idKey)
    [b! "ib_logfile0"] [[(shopLog2 7).flatMap Item.enc]] (shopLog2 7) (shopChanges2 7) sv shopCols (fun _ _ => [b! "id"]) _ _ _ rfl
    (shop_dictionary (.inl rfl)) (by decide) (by decide) rfl (shop2_disk (.inl rfl)) (by simp) (shop2_fits (.inl rfl)) shop_arranged
    (shop2_followed env (.inl rfl)) hplain
    (shop2_ahead (.inl rfl)) (by have := shop2_length (.inl rfl : SevenEight 7); omega) shop2_cols (shop2_reads sv env.ff 7) (shop_rolled_same env.ff) rfl
  obtain ⟨lines, h2, h3⟩ := C110_reverse_partial env (shopDisk2 7) shopRedo2 spare (shopFile idKey) shopTables shopColumns (shopIndexes idKey) (shopFields idKey)
    [b! "ib_logfile0"] [[(shopLog2 7).flatMap Item.enc]] (shopLog2 7) (shopChanges2 7) sv shopCols (fun _ _ => [b! "id"]) _ _ _ rfl
    (shop_dictionary (.inl rfl)) (by decide) (by decide) rfl (shop2_disk (.inl rfl)) (by simp) (shop2_fits (.inl rfl)) shop_arranged
    (shop2_followed env (.inl rfl)) hplain
    (shop2_ahead (.inl rfl)) (by have := shop2_length (.inl rfl : SevenEight 7); omega) shop2_cols (shop2_reads sv env.ff 7) (shop_rolled_same env.ff) rfl
  refine ⟨lines, h2, fun e => ?_, h3⟩
  have := h1.mp ⟨lines, h2, e⟩ [shopChange2 7 (b! "bob")] (shopChange2 7 (b! "eve")) [] rfl (by simp) (shopRow 7 (b! "bob"))
    (by show _ ∈ [shopRow 7 (b! "bob")]; simp) (by rw [shopRow_has]; rfl) (b! "name", .text (b! "eve")) (by show _ ∈ [(b! "name", Orig.text (b! "eve"))]; simp)
  have : Orig.text (b! "bob") = .text (b! "eve") := this
  exact absurd this (by decide)

/-- **C110 is false of the code:** the last statement sets what the row held before the update that was rolled back, that is, what it holds already. -/
theorem C110_false : ¬ C110_statement := by
  intro h
  obtain ⟨lines, h1, h2⟩ := h testEnv (shopDisk2 7) shopRedo2 0 (shopFile idKey) shopTables shopColumns (shopIndexes idKey) (shopFields idKey)
    [b! "ib_logfile0"] [[(shopLog2 7).flatMap Item.enc]] (shopLog2 7) (shopChanges2 7) anyServer shopCols (fun _ _ => [b! "id"]) _ _ _ rfl
    (shop_dictionary (.inl rfl)) (by decide) (by decide) rfl (shop2_disk (.inl rfl)) (by simp) (shop2_fits (.inl rfl)) shop_arranged
    (shop2_followed testEnv (.inl rfl)) (fun ch hch _ => by
      rcases shop2_mem hch with rfl | rfl
      · exact shopChange2_plainly testEnv (.inl rfl) (.inl rfl)
      · exact shopChange2_plainly testEnv (.inl rfl) (.inr rfl))
    (shop2_ahead (.inl rfl)) (by have := shop2_length (.inl rfl : SevenEight 7); omega) shop2_cols (shop2_reads anyServer testEnv.ff 7)
    (shop_rolled_same testEnv.ff) rfl
    (by
      intro pre ch post e
      rcases pre with _ | ⟨x, _ | ⟨y, pre⟩⟩
      · cases e
      · cases e
        exact ⟨[], [], rfl, nofun⟩
      · rcases pre with _ | ⟨z, pre⟩
        · cases e
        · simp at e)
    (List.pairwise_singleton _ _)
  obtain ⟨lines', k1, k2, -⟩ := shop_rolled_effect testEnv 0 anyServer
  rw [k1] at h1
  cases h1
  exact k2 h2

end Verif.Props
