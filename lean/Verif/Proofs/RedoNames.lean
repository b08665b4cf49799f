import Verif.Proofs.RedoQuiet
/-!
# Two runs of the redo parser with different names
-/

namespace Verif

variable {α β : Type}

/-- A printed line, with the table it is a statement for. -/
abbrev Event := Option Table × Bytes

/-- is the line printed when only statements for certain tables are? -/
def Event.kept (keep : Table → Bool) (e : Event) : Bool :=
  match e.1 with
  | none => true
  | some t => keep t

/-- all lines -/
def allLines (es : List Event) : Out := es.map (·.2)

/-- the lines that are printed when only statements for certain tables are -/
def keptLines (keep : Table → Bool) (es : List Event) : Out := (es.filter (Event.kept keep)).map (·.2)

theorem allLines_append (a b : List Event) : allLines (a ++ b) = allLines a ++ allLines b := List.map_append ..
theorem keptLines_append (k : Table → Bool) (a b : List Event) : keptLines k (a ++ b) = keptLines k a ++ keptLines k b := by
  unfold keptLines
  rw [List.filter_append, List.map_append]

/-- lines that are no statements -/
def noise (ls : Out) : List Event := ls.map fun l => (none, l)

theorem allLines_noise (ls : Out) : allLines (noise ls) = ls := by
  unfold allLines noise
  rw [List.map_map]
  exact List.map_id _

theorem keptLines_noise (k : Table → Bool) (ls : Out) : keptLines k (noise ls) = ls := by
  unfold keptLines
  rw [List.filter_eq_self.mpr]
  · exact allLines_noise ls
  · intro e he
    obtain ⟨l, _, rfl⟩ := List.mem_map.mp he
    rfl

/-- an outcome with a cursor, completed with the output -/
def fill (c : R Nat α) (o : Out) : R RS α :=
  match c with
  | .ok a p => .ok a ⟨p, o⟩
  | .panic p => .panic ⟨p, o⟩
  | .hang p => .hang ⟨p, o⟩

/-- the lines of a run satisfy this -/
def Lawful (tables : TableMap) (ff : FloatFmt) (e : Event) : Prop :=
  match e.1 with
  | none => isUpdateLine e.2 = false
  | some t => (∃ id, tables.get? id = some t) ∧ ∃ pk cols, e.2 = updateStmt ff t pk cols

/-- What the simulation depends on: the dictionary, and the tables whose statements each run prints. -/
structure Runs (ι : Type) where
  tables : TableMap
  ff : FloatFmt
  keep : ι → Table → Bool

/-- All runs from the same cursor end in the same way, and print the same lines apart from statements for tables that they
do not print. -/
def Sim {ι : Type} (w : Runs ι) (m : ι → RM α) : Prop :=
  ∀ p, ∃ (c : R Nat α) (es : List Event), (∀ e ∈ es, Lawful w.tables w.ff e) ∧
    ∀ i o, m i ⟨p, o⟩ = fill c (o ++ keptLines (w.keep i) es)

/-- Code that only prints, no statements, and does not look at what has been printed. -/
def Adds (m : GoM Out α) : Prop :=
  ∃ (c : R Unit α) (ls : Out), (∀ l ∈ ls, isUpdateLine l = false) ∧ ∀ o, m o =
    match c with
    | .ok a _ => .ok a (o ++ ls)
    | .panic _ => .panic (o ++ ls)
    | .hang _ => .hang (o ++ ls)

namespace Adds
theorem pure (a : α) : Adds (Pure.pure a : GoM Out α) :=
  ⟨.ok a (), [], by simp, fun o => by show R.ok a o = .ok a (o ++ []); rw [List.append_nil]⟩
theorem lift (x : Option α) : Adds (GoM.lift x) := by
  cases x with
  | none => exact ⟨.panic (), [], by simp, fun o => by show R.panic o = .panic (o ++ []); rw [List.append_nil]⟩
  | some a => exact pure a
theorem println {l : Bytes} (h : isUpdateLine l = false) : Adds (println l) :=
  ⟨.ok () (), [l], by simpa using h, fun _ => rfl⟩
theorem bind {m : GoM Out α} {f : α → GoM Out β} (hm : Adds m) (hf : ∀ a, Adds (f a)) : Adds (m >>= f) := by
  obtain ⟨c, ls, h1, h2⟩ := hm
  cases c with
  | ok a u =>
    obtain ⟨c', ls', h3, h4⟩ := hf a
    refine ⟨c', ls ++ ls', fun l hl => (List.mem_append.mp hl).elim (h1 l) (h3 l), fun o => ?_⟩
    rw [GoM.bind_run, h2, ← List.append_assoc]
    exact h4 _
  | panic u => exact ⟨.panic (), ls, h1, fun o => by rw [GoM.bind_run, h2]⟩
  | hang u => exact ⟨.hang (), ls, h1, fun o => by rw [GoM.bind_run, h2]⟩
theorem ite {c : Prop} [Decidable c] {m n : GoM Out α} (hm : Adds m) (hn : Adds n) : Adds (if c then m else n) := by
  split
  · exact hm
  · exact hn
end Adds

theorem parseData_adds (env : Env) (t m : Nat) (data : Bytes) (fl fx : Nat) (u f : Bool) : Adds (parseData env t m data fl fx u f) := by
  unfold parseData
  dsimp only
  repeat' first
    | exact Adds.pure _
    | exact Adds.lift _
    | exact Adds.println (by decide)
    | refine Adds.bind ?_ fun _ => ?_
    | refine Adds.ite ?_ ?_

theorem printErr_adds {d : Bytes} {pos : Nat} {pc : PC} (h : matchParseCompressed d pos = some pc) : Adds (printErr pc.err) := by
  rcases mpc_err h with h | ⟨h, _⟩
  · rw [h]; exact Adds.pure _
  · rw [h]; exact Adds.println (by decide)

theorem mpc_bind_adds {d : Bytes} {pos : Nat} {f : PC → GoM Out β} (hf : ∀ pc, matchParseCompressed d pos = some pc → Adds (f pc)) :
    Adds (GoM.lift (matchParseCompressed d pos) >>= f) := by
  cases h : matchParseCompressed d pos with
  | none => exact (Adds.lift none : Adds (GoM.lift (none : Option β)))
  | some pc => exact hf pc h

theorem insertExtra_adds (d : Bytes) (p v : Nat) : Adds (insertExtra d p v) := by
  unfold insertExtra
  refine Adds.ite ?_ (Adds.pure _)
  refine Adds.bind (Adds.lift _) fun _ => mpc_bind_adds fun o ho => Adds.bind (printErr_adds ho) fun _ => ?_
  exact mpc_bind_adds fun m hm => Adds.bind (printErr_adds hm) fun _ => Adds.pure _

theorem parseInsertRecord_adds (b : Bool) (d : Bytes) (p : Nat) : Adds (parseInsertRecord b d p) := by
  unfold parseInsertRecord
  refine Adds.bind (Adds.ite (Adds.pure _) (Adds.bind (Adds.lift _) fun _ => Adds.pure _)) fun p =>
    Adds.bind (Adds.lift _) fun pc => ?_
  split
  · exact Adds.pure _
  · exact Adds.ite (Adds.pure _) (Adds.bind (insertExtra_adds _ _ _) fun _ => Adds.pure _)

namespace Sim
variable {ι : Type} {w : Runs ι}

/-- code that prints nothing and ignores the output -/
theorem silent {m : RM α} (f : Nat → R Nat α) (h : ∀ p o, m ⟨p, o⟩ = fill (f p) o) : Sim w fun _ => m :=
  fun p => ⟨f p, [], by simp, fun _ o => (h p o).trans (congrArg _ (List.append_nil o).symm)⟩

theorem pure (a : α) : Sim w fun _ => (Pure.pure a : RM α) := silent (fun p => .ok a p) fun _ _ => rfl
theorem hang : Sim w fun _ => (GoM.hang : RM α) := silent (fun p => .hang p) fun _ _ => rfl
theorem lift (x : Option α) : Sim w fun _ => GoM.lift x := by
  cases x with
  | none => exact silent (fun p => .panic p) fun _ _ => rfl
  | some a => exact pure a
theorem here (f : Bytes → Nat → Option α) (d : Bytes) : Sim w fun _ => here f d := by
  refine silent (fun p => match f d p with | some a => .ok a p | none => .panic p) fun p o => ?_
  rw [here_run]
  dsimp only
  cases f d p <;> rfl
theorem addPos (n : Nat) : Sim w fun _ => addPos n := silent (fun p => .ok () (p + n)) fun _ _ => rfl
theorem setPos (n : Nat) : Sim w fun _ => setPos n := silent (fun _ => .ok () n) fun _ _ => rfl
theorem getPos : Sim w fun _ => getPos := silent (fun p => .ok p p) fun _ _ => rfl

theorem bind {m : ι → RM α} {f : ι → α → RM β} (hm : Sim w m) (hf : ∀ a, Sim w fun i => f i a) : Sim w fun i => m i >>= f i := by
  intro p
  obtain ⟨c, es, h1, h2⟩ := hm p
  cases c with
  | ok a q =>
    obtain ⟨c', es', h3, h4⟩ := hf a q
    refine ⟨c', es ++ es', fun e he => (List.mem_append.mp he).elim (h1 e) (h3 e), fun i o => ?_⟩
    show (m i >>= f i) ⟨p, o⟩ = _
    rw [GoM.bind_run, h2, keptLines_append, ← List.append_assoc]
    exact h4 i _
  | panic q => exact ⟨.panic q, es, h1, fun i o => by show (m i >>= f i) ⟨p, o⟩ = _; rw [GoM.bind_run, h2]; rfl⟩
  | hang q => exact ⟨.hang q, es, h1, fun i o => by show (m i >>= f i) ⟨p, o⟩ = _; rw [GoM.bind_run, h2]; rfl⟩

theorem ite {c : Prop} [Decidable c] {m n : ι → RM α} (hm : Sim w m) (hn : Sim w n) :
    Sim w fun i => if c then m i else n i := by
  split
  · exact hm
  · exact hn

theorem outM {m : GoM Out α} (h : Adds m) : Sim w fun _ => outM m := by
  obtain ⟨c, ls, h1, h2⟩ := h
  have key : ∀ p, ∃ c' : R Nat α, ∀ o, Verif.outM m ⟨p, o⟩ = fill c' (o ++ ls) := by
    intro p
    unfold Verif.outM
    simp only [GoM.zoom_run, h2]
    cases c with
    | ok a _ => exact ⟨.ok a p, fun _ => rfl⟩
    | panic _ => exact ⟨.panic p, fun _ => rfl⟩
    | hang _ => exact ⟨.hang p, fun _ => rfl⟩
  intro p
  obtain ⟨c', key⟩ := key p
  refine ⟨c', noise ls, fun e he => ?_, fun _ o => (key o).trans ?_⟩
  · obtain ⟨l, hl, rfl⟩ := List.mem_map.mp he
    exact h1 l hl
  · rw [keptLines_noise]

theorem recover {m : ι → RM α} {z : α} {f : RS → RS} (g : Nat → Nat) (hf : ∀ s, f s = ⟨g s.pos, s.out⟩) (hm : Sim w m) :
    Sim w fun i => GoM.recover (m i) z f := by
  intro p
  obtain ⟨c, es, h1, h2⟩ := hm p
  refine ⟨match c with | .panic q => .ok z (g q) | c => c, es, h1, fun i o => ?_⟩
  show GoM.recover (m i) z f ⟨p, o⟩ = _
  unfold GoM.recover
  rw [h2]
  cases c <;> simp [fill, hf]

theorem ull (d : Bytes) : Sim w fun _ => ullReadCompressed d := by
  have key : ∀ p, ∃ (c : R Nat Nat) (ls : Out), (∀ l ∈ ls, isUpdateLine l = false) ∧ ∀ o, ullReadCompressed d ⟨p, o⟩ = fill c (o ++ ls) := by
    intro p
    unfold ullReadCompressed
    simp only [GoM.zoom_run]
    unfold matchUllReadComPressed
    dsimp only
    cases hm : matchParseCompressed d p with
    | none => exact ⟨.panic p, [], by simp, fun o => by rw [List.append_nil]; rfl⟩
    | some pc =>
      dsimp only
      generalize (do
        let s ← sliceFrom d (p + pc.num)
        let s ← sliceFrom s (matchGetCompressedSize pc.val)
        matchReadFrom4 s) = low
      rcases mpc_err hm with he | ⟨he, _⟩ <;> rw [he]
      · cases low with
        | none => exact ⟨.panic (p + pc.num), [], by simp, fun o => by rw [List.append_nil]; rfl⟩
        | some low => exact ⟨.ok _ (p + pc.num + 4), [], by simp, fun o => by rw [List.append_nil]; rfl⟩
      · cases low with
        | none => exact ⟨.panic (p + pc.num), [errTooShortCompressed], by decide, fun o => rfl⟩
        | some low => exact ⟨.ok _ (p + pc.num + 4), [errTooShortCompressed], by decide, fun o => rfl⟩
  intro p
  obtain ⟨c, ls, h1, h2⟩ := key p
  refine ⟨c, noise ls, fun e he => ?_, fun _ o => by rw [keptLines_noise]; exact h2 o⟩
  obtain ⟨l, hl, rfl⟩ := List.mem_map.mp he
  exact h1 l hl

end Sim

variable {ι : Type} {w : Runs ι}

theorem parseIndexHere_sim (comp : Bool) (d : Bytes) : Sim w fun _ => parseIndexHere comp d := by
  unfold parseIndexHere
  refine Sim.bind (Sim.here _ _) fun r => ?_
  split
  · exact Sim.pure _
  · exact Sim.bind (Sim.setPos _) fun _ => Sim.pure _

theorem parseInsertHere_sim (b : Bool) (d : Bytes) : Sim w fun _ => parseInsertHere b d := by
  unfold parseInsertHere
  refine Sim.bind Sim.getPos fun p => Sim.bind (Sim.outM (parseInsertRecord_adds _ _ _)) fun r => ?_
  split
  · exact Sim.pure _
  · exact Sim.bind (Sim.setPos _) fun _ => Sim.pure _

theorem copyLoop_sim (d : Bytes) (recEnd fuel : Nat) : Sim w fun _ => copyLoop d recEnd fuel := by
  induction fuel with
  | zero => exact Sim.hang
  | succ fuel ih =>
    rw [copyLoop]
    refine Sim.bind Sim.getPos fun _ => Sim.ite (Sim.bind (parseInsertHere_sim _ _) fun r => ?_) (Sim.pure _)
    split
    · exact Sim.pure _
    · exact ih

theorem updFieldsLoop_sim (d : Bytes) (n : Nat) : Sim w fun _ => updFieldsLoop d n := by
  induction n with
  | zero => exact Sim.pure _
  | succ n ih =>
    rw [updFieldsLoop]
    refine Sim.bind (Sim.here _ _) fun pc => ?_
    split
    · exact Sim.pure _
    · refine Sim.bind (Sim.addPos _) fun _ => Sim.bind (Sim.here _ _) fun pc => ?_
      split
      · exact Sim.pure _
      · exact Sim.bind (Sim.addPos _) fun _ => Sim.bind (Sim.addPos _) fun _ => ih

/-- the configuration with other names -/
def RCfg.names (cfg : RCfg) (n : Bytes × Bytes) : RCfg := { cfg with dbName := n.1, tableName := n.2 }

theorem pkLoop_sim {w : Runs (Bytes × Bytes)} (cfg : RCfg) (s : Stream) (table : Table) (fs : List IdxField) :
    Sim w fun ns => pkLoop (cfg.names ns) s table fs := by
  induction fs with
  | nil => exact Sim.pure _
  | cons f fs ih =>
    simp only [pkLoop]
    refine Sim.bind (Sim.here _ _) fun pc => ?_
    split
    · exact Sim.pure _
    · refine Sim.bind (Sim.addPos _) fun _ => Sim.bind Sim.getPos fun _ => Sim.bind (Sim.lift _) fun _ =>
        Sim.bind (Sim.outM (parseData_adds _ _ _ _ _ _ _ _)) fun x => Sim.bind (Sim.addPos _) fun _ => Sim.bind ih fun r => ?_
      cases r <;> exact Sim.pure _

theorem updValue_sim {w : Runs (Bytes × Bytes)} (cfg : RCfg) (s : Stream) (c : Column) (q n : Nat) :
    Sim w fun ns => updValue (cfg.names ns) s c q n :=
  Sim.ite (Sim.pure _) (Sim.bind (Sim.lift _) fun _ => Sim.bind (Sim.outM (parseData_adds _ _ _ _ _ _ _ _)) fun _ => Sim.pure _)

theorem updLoop_sim {w : Runs (Bytes × Bytes)} (cfg : RCfg) (s : Stream) (table : Table) (n : Nat) :
    Sim w fun ns => updLoop (cfg.names ns) s table n := by
  induction n with
  | zero => exact Sim.pure _
  | succ n ih =>
    simp only [updLoop]
    refine Sim.bind (Sim.here _ _) fun pc => ?_
    split
    · exact Sim.pure _
    · refine Sim.bind (Sim.addPos _) fun _ => ?_
      split
      · exact Sim.pure _
      · refine Sim.bind (Sim.here _ _) fun fl => Sim.bind (Sim.addPos _) fun _ => Sim.bind Sim.getPos fun q =>
          Sim.bind (updValue_sim cfg s _ _ _) fun x => Sim.bind (Sim.addPos _) fun _ => Sim.bind ih fun r => ?_
        cases r <;> exact Sim.pure _

theorem skipSysColumns_sim (d : Bytes) (t : Nat) : Sim w fun _ => skipSysColumns d t :=
  Sim.ite (Sim.bind (Sim.here _ _) fun _ => Sim.bind (Sim.addPos _) fun _ => Sim.bind (Sim.ull _) fun _ =>
    Sim.bind (Sim.ull _) fun _ => Sim.pure _) (Sim.pure _)

theorem ign_sim {m : ι → RM (Option Bytes)} (h : Sim w m) : Sim w fun i => ign (m i) := Sim.bind h fun _ => Sim.pure _
theorem unit_sim {m : ι → RM Unit} (h : Sim w m) : Sim w fun i => unit (m i) := Sim.bind h fun _ => Sim.pure _

/-- the runs with all choices of names -/
def namedRuns (cfg : RCfg) : Runs (Bytes × Bytes) := ⟨cfg.tables, cfg.env.ff, fun ns => filterPrints (cfg.names ns)⟩

/-- the statement, printed by none, one or both -/
theorem print_sim (cfg : RCfg) (table : Table) (pk : List PkVal) (cols : List UpdCol)
    (ht : ∃ id, cfg.tables.get? id = some table) :
    Sim (namedRuns cfg) fun ns => if filterPrints (cfg.names ns) table then makeSQL cfg.env.ff table pk cols else pure () := by
  have key : ∀ (k : Table → Bool) (p : Nat) (o : Out), (if k table then makeSQL cfg.env.ff table pk cols else pure () : RM Unit) ⟨p, o⟩ =
      fill (.ok () p) (o ++ keptLines k [(some table, updateStmt cfg.env.ff table pk cols)]) := by
    intro k p o
    unfold keptLines
    by_cases h : k table = true
    · rw [if_pos h, List.filter_cons_of_pos (show Event.kept k (some table, _) = true from h)]
      rfl
    · rw [if_neg h, List.filter_cons_of_neg (show ¬ Event.kept k (some table, _) = true from h), List.filter_nil, List.map_nil, List.append_nil]
      rfl
  exact fun p => ⟨.ok () p, [(some table, updateStmt cfg.env.ff table pk cols)], fun e he => by
    rw [List.mem_singleton.mp he]
    exact ⟨ht, pk, cols, rfl⟩, fun ns o => key _ p o⟩

theorem undoTable_sim (cfg : RCfg) (s : Stream) (q n t : Nat) (table : Table) (ht : ∃ id, cfg.tables.get? id = some table) :
    Sim (namedRuns cfg) fun ns => undoTable (cfg.names ns) s q n t table := by
  unfold undoTable
  refine Sim.bind (pkLoop_sim cfg s table _) fun r => ?_
  split
  · exact Sim.pure _
  · refine Sim.ite (Sim.bind (Sim.here _ _) fun pc => ?_) (Sim.bind (Sim.setPos _) fun _ => Sim.pure _)
    split
    · exact Sim.pure _
    · refine Sim.bind (Sim.addPos _) fun _ => Sim.bind (updLoop_sim cfg s table _) fun r => ?_
      split
      · exact Sim.pure _
      · exact Sim.bind (print_sim cfg table _ _ ht) fun _ => Sim.bind (Sim.setPos _) fun _ => Sim.pure _

theorem undoBody_sim (cfg : RCfg) (s : Stream) (q n : Nat) :
    Sim (namedRuns cfg) fun ns => undoBody (cfg.names ns) s q n := by
  unfold undoBody
  dsimp only
  refine Sim.bind (Sim.here _ _) fun b => Sim.bind (Sim.addPos _) fun _ => Sim.bind (Sim.here _ _) fun r => Sim.bind (Sim.lift _) fun x => ?_
  split
  · exact Sim.bind (Sim.setPos _) fun _ => Sim.pure _
  · refine Sim.bind (Sim.addPos _) fun _ => Sim.bind (Sim.here _ _) fun r => Sim.bind (Sim.lift _) fun y => ?_
    split
    · exact Sim.bind (Sim.setPos _) fun _ => Sim.pure _
    · refine Sim.bind (Sim.addPos _) fun _ => Sim.bind (skipSysColumns_sim _ _) fun _ => ?_
      change Sim _ fun ns => (match cfg.tables.get? y.1 with | none => _ | some table => _)
      cases ht : cfg.tables.get? y.1 with
      | none => exact Sim.bind (Sim.setPos _) fun _ => Sim.pure _
      | some table => exact undoTable_sim cfg s q n _ table ⟨_, ht⟩

theorem undo_sim (cfg : RCfg) (s : Stream) :
    Sim (namedRuns cfg) fun ns => mlogUndoInsert (cfg.names ns) s := by
  unfold mlogUndoInsert
  exact Sim.bind (Sim.here _ _) fun n => Sim.bind (Sim.addPos _) fun _ => Sim.bind Sim.getPos fun q => Sim.recover (fun _ => q + n) (fun _ => rfl) (undoBody_sim cfg s q n)

/-- proves `Sim` of straight-line handlers -/
macro "sim" : tactic => `(tactic| repeat' with_reducible first
  | exact Sim.pure _
  | exact Sim.here _ _
  | exact Sim.addPos _
  | exact Sim.setPos _
  | exact Sim.getPos
  | exact Sim.lift _
  | exact Sim.ull _
  | exact parseIndexHere_sim _ _
  | exact parseInsertHere_sim _ _
  | exact updFieldsLoop_sim _ _
  | exact copyLoop_sim _ _ _
  | refine Sim.bind ?_ fun _ => ?_
  | refine Sim.ite ?_ ?_
  | split)

theorem dispatch_names (cfg : RCfg) (ns : Bytes × Bytes) (s : Stream) (t : Nat) (ht : t ≠ MLOG_UNDO_INSERT) :
    dispatch (cfg.names ns) s t = dispatch cfg s t := by
  unfold dispatch
  dsimp only
  rw [if_neg ht, if_neg ht]

theorem dispatch_other_sim (cfg : RCfg) (s : Stream) (t : Nat) (ht : t ≠ MLOG_UNDO_INSERT) : Sim w fun _ => dispatch cfg s t := by
  unfold dispatch
  dsimp only
  rw [if_neg ht]
  repeat' with_reducible refine Sim.ite ?_ ?_
  all_goals with_reducible first
    | exact Sim.pure _
    | exact unit_sim (Sim.addPos _)
    | refine ign_sim ?_
    | refine unit_sim ?_
    | skip
  · unfold mlogNBytes; sim
  · unfold mlogRecSecDeleteMark; sim
  · unfold mlogUndoInit; sim
  · unfold mlogUndoHdrReuse; sim
  · unfold mlogUndoHdrCreate; sim
  · unfold mlogWriteString; sim
  · unfold mlogFileOp; sim
  · refine Sim.bind (by unfold mlogRecInsert; sim) fun r => ?_
    cases r <;> exact Sim.pure _
  · unfold mlogRecClustDeleteMark; sim
  · unfold mlogCompRecSecDeleteMark; sim
  · exact Sim.recover (fun p => p) (fun _ => rfl) (by unfold updInPlaceBody; sim)
  · unfold mlogRecDelete mlogDeleteBody; sim
  · unfold mlogListDelete mlogDeleteBody; sim
  · unfold mlogListEndCopyCreated; sim
  · unfold mlogPageReorganize; sim
  · unfold mlogZipWriteNodePtr; sim
  · unfold mlogZipWriteHeader; sim
  · unfold mlogZipPageCompress; sim
  · unfold mlogZipPageCompressNoData; sim

theorem dispatch_sim (cfg : RCfg) (s : Stream) (t : Nat) :
    Sim (namedRuns cfg) fun ns => dispatch (cfg.names ns) s t := by
  by_cases ht : t = MLOG_UNDO_INSERT
  · subst ht
    unfold dispatch
    dsimp only
    exact ign_sim (undo_sim cfg s)
  · simp only [dispatch_names cfg _ s t ht]
    exact dispatch_other_sim cfg s t ht

theorem redoStep_sim (cfg : RCfg) (s : Stream) :
    Sim (namedRuns cfg) fun ns => redoStep (cfg.names ns) s := by
  unfold redoStep
  dsimp only
  refine Sim.bind (Sim.here _ _) fun raw => Sim.bind (Sim.addPos _) fun _ => Sim.bind Sim.getPos fun q => Sim.ite (Sim.pure _) ?_
  refine Sim.ite ?_ (dispatch_sim cfg s _)
  refine Sim.bind (Sim.here _ _) fun sp => Sim.bind (Sim.addPos _) fun _ => ?_
  split
  · exact Sim.pure _
  · refine Sim.bind (Sim.here _ _) fun pg => Sim.bind (Sim.addPos _) fun _ => ?_
    split
    · exact Sim.pure _
    · exact Sim.ite (Sim.bind (Sim.setPos _) fun _ => Sim.pure _) (dispatch_sim cfg s _)

theorem redoLoop_sim (cfg : RCfg) (s : Stream) (fuel : Nat) :
    Sim (namedRuns cfg) fun ns => redoLoop (cfg.names ns) s fuel := by
  induction fuel with
  | zero => exact Sim.hang
  | succ fuel ih =>
    simp only [redoLoop]
    refine Sim.bind Sim.getPos fun p => Sim.ite (Sim.pure _) (Sim.bind (redoStep_sim cfg s) fun r => ?_)
    split
    · exact Sim.pure _
    · exact ih

end Verif
