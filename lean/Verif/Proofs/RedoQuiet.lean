import Verif.Proofs.Redo
/-!
# Which lines the redo parser prints
-/

namespace Verif

variable {α β : Type}

/-- a line that is an UPDATE statement -/
def isUpdateLine (l : Bytes) : Bool := (b! "update `").isPrefixOf l

/-- the UPDATE statements among the printed lines -/
def updates (o : Out) : List Bytes := o.filter isUpdateLine

theorem updates_append (a b : Out) : updates (a ++ b) = updates a ++ updates b := List.filter_append ..

/-- prints no UPDATE statement and takes nothing back -/
def Quiet (m : RM α) : Prop := ∀ us, Keeps (fun s => updates s.out = us) m

/-- the same for code that only prints -/
def QuietOut (m : GoM Out α) : Prop := ∀ us, Keeps (fun o => updates o = us) m

theorem println_quiet {l : Bytes} (h : isUpdateLine l = false) : QuietOut (println l) := by
  intro us o ho
  show updates (o ++ [l]) = us
  rw [updates_append, ho]
  simp [updates, h]

namespace QuietOut
theorem pure (a : α) : QuietOut (Pure.pure a : GoM Out α) := fun _ => Keeps.pure a
theorem lift (o : Option α) : QuietOut (GoM.lift o) := fun _ => Keeps.lift o
theorem bind {m : GoM Out α} {f : α → GoM Out β} (hm : QuietOut m) (hf : ∀ a, QuietOut (f a)) : QuietOut (m >>= f) :=
  fun us => Keeps.bind (hm us) fun a => hf a us
theorem ite {c : Prop} [Decidable c] {m n : GoM Out α} (hm : QuietOut m) (hn : QuietOut n) : QuietOut (if c then m else n) :=
  fun us => Keeps.ite (fun _ => hm us) fun _ => hn us
end QuietOut

theorem parseData_noUpdate (env : Env) (t m : Nat) (data : Bytes) (fl fx : Nat) (u f : Bool) :
    QuietOut (parseData env t m data fl fx u f) := by
  unfold parseData
  dsimp only
  repeat' first
    | exact QuietOut.pure _
    | exact QuietOut.lift _
    | exact println_quiet (by decide)
    | refine QuietOut.bind ?_ fun _ => ?_
    | refine QuietOut.ite ?_ ?_

/-- the only error of the compressed-integer reader -/
theorem mpc_err {d : Bytes} {pos : Nat} {pc : PC} (h : matchParseCompressed d pos = some pc) :
    pc.err = none ∨ (pc.err = some errTooShortCompressed ∧ d.length < pos + 5) := by
  unfold matchParseCompressed at h
  obtain ⟨f, _, h⟩ := Option.bind_eq_some_iff.mp h
  split at h
  · cases h; exact Or.inl rfl
  split at h
  · obtain ⟨v, _, h⟩ := Option.bind_eq_some_iff.mp h; cases h; exact Or.inl rfl
  split at h
  · obtain ⟨v, _, h⟩ := Option.bind_eq_some_iff.mp h; cases h; exact Or.inl rfl
  split at h
  · obtain ⟨v, _, h⟩ := Option.bind_eq_some_iff.mp h; cases h; exact Or.inl rfl
  split at h
  · cases h; exact Or.inr ⟨rfl, by omega⟩
  · obtain ⟨v, _, h⟩ := Option.bind_eq_some_iff.mp h; cases h; exact Or.inl rfl

theorem printErr_mpc {d : Bytes} {pos : Nat} {pc : PC} (h : matchParseCompressed d pos = some pc) : QuietOut (printErr pc.err) := by
  rcases mpc_err h with h | ⟨h, _⟩
  · rw [h]; exact QuietOut.pure _
  · rw [h]; exact println_quiet (by decide)

theorem mpc_bind_quiet {d : Bytes} {pos : Nat} {f : PC → GoM Out β} (hf : ∀ pc, matchParseCompressed d pos = some pc → QuietOut (f pc)) :
    QuietOut (GoM.lift (matchParseCompressed d pos) >>= f) := by
  cases h : matchParseCompressed d pos with
  | none => exact fun _ => Keeps.panic
  | some pc => exact hf pc h

theorem insertExtra_quiet (d : Bytes) (p v : Nat) : QuietOut (insertExtra d p v) := by
  unfold insertExtra
  refine QuietOut.ite ?_ (QuietOut.pure _)
  refine QuietOut.bind (QuietOut.lift _) fun _ => mpc_bind_quiet fun o ho => QuietOut.bind (printErr_mpc ho) fun _ => ?_
  exact mpc_bind_quiet fun m hm => QuietOut.bind (printErr_mpc hm) fun _ => QuietOut.pure _

theorem parseInsertRecord_quiet (b : Bool) (d : Bytes) (p : Nat) : QuietOut (parseInsertRecord b d p) := by
  unfold parseInsertRecord
  refine QuietOut.bind (QuietOut.ite (QuietOut.pure _) (QuietOut.bind (QuietOut.lift _) fun _ => QuietOut.pure _)) fun p =>
    QuietOut.bind (QuietOut.lift _) fun pc => ?_
  split
  · exact QuietOut.pure _
  · exact QuietOut.ite (QuietOut.pure _) (QuietOut.bind (insertExtra_quiet _ _ _) fun _ => QuietOut.pure _)

namespace Quiet
theorem pure (a : α) : Quiet (Pure.pure a : RM α) := fun _ => Keeps.pure a
theorem lift (o : Option α) : Quiet (GoM.lift o) := fun _ => Keeps.lift o
theorem here (f : Bytes → Nat → Option α) (d : Bytes) : Quiet (here f d) := by
  intro us s h
  rw [here_run]
  cases f d s.pos <;> exact h
theorem addPos (n : Nat) : Quiet (addPos n) := fun _ _ h => h
theorem setPos (n : Nat) : Quiet (setPos n) := fun _ _ h => h
theorem getPos : Quiet getPos := fun _ _ h => h
theorem bind {m : RM α} {f : α → RM β} (hm : Quiet m) (hf : ∀ a, Quiet (f a)) : Quiet (m >>= f) :=
  fun us => Keeps.bind (hm us) fun a => hf a us
theorem ite {c : Prop} [Decidable c] {m n : RM α} (hm : Quiet m) (hn : Quiet n) : Quiet (if c then m else n) :=
  fun us => Keeps.ite (fun _ => hm us) fun _ => hn us
theorem outM {m : GoM Out α} (h : QuietOut m) : Quiet (outM m) :=
  fun us => Keeps.zoom (h us) (fun _ h => h) fun _ _ _ h => h
theorem recover {m : RM α} {z : α} {f : RS → RS} (hm : Quiet m) (hf : ∀ s, (f s).out = s.out) : Quiet (GoM.recover m z f) := by
  intro us s hs
  unfold GoM.recover
  have := hm us s hs
  cases hr : m s with
  | ok a t => rw [hr] at this; exact this
  | panic t => rw [hr] at this; show updates (f t).out = us; rw [hf]; exact this
  | hang t => rw [hr] at this; exact this

theorem ull (d : Bytes) : Quiet (ullReadCompressed d) := by
  intro us s h
  unfold ullReadCompressed
  rw [GoM.zoom_run]
  unfold matchUllReadComPressed
  dsimp only
  cases hm : matchParseCompressed d s.pos with
  | none => exact h
  | some pc =>
    have hq : updates (match pc.err with
      | some e => s.out ++ [e]
      | none => s.out) = us := by
      rcases mpc_err hm with he | ⟨he, _⟩
      · rw [he]; exact h
      · rw [he]
        exact println_quiet (l := errTooShortCompressed) (by decide) us s.out h
    dsimp only
    cases (do
      let s ← sliceFrom d (s.pos + pc.num)
      let s ← sliceFrom s (matchGetCompressedSize pc.val)
      matchReadFrom4 s) with
    | none => exact hq
    | some low => exact hq

end Quiet

theorem parseIndexHere_quiet (comp : Bool) (d : Bytes) : Quiet (parseIndexHere comp d) := by
  unfold parseIndexHere
  refine Quiet.bind (Quiet.here _ _) fun r => ?_
  split
  · exact Quiet.pure _
  · exact Quiet.bind (Quiet.setPos _) fun _ => Quiet.pure _

theorem parseInsertHere_quiet (b : Bool) (d : Bytes) : Quiet (parseInsertHere b d) := by
  unfold parseInsertHere
  refine Quiet.bind Quiet.getPos fun p => Quiet.bind (Quiet.outM (parseInsertRecord_quiet _ _ _)) fun r => ?_
  split
  · exact Quiet.pure _
  · exact Quiet.bind (Quiet.setPos _) fun _ => Quiet.pure _

theorem copyLoop_quiet (d : Bytes) (recEnd fuel : Nat) : Quiet (copyLoop d recEnd fuel) := by
  induction fuel with
  | zero => exact fun _ => Keeps.hang
  | succ fuel ih =>
    rw [copyLoop]
    refine Quiet.bind Quiet.getPos fun _ => Quiet.ite (Quiet.bind (parseInsertHere_quiet _ _) fun r => ?_) (Quiet.pure _)
    split
    · exact Quiet.pure _
    · exact ih

theorem updFieldsLoop_quiet (d : Bytes) (n : Nat) : Quiet (updFieldsLoop d n) := by
  induction n with
  | zero => exact Quiet.pure _
  | succ n ih =>
    rw [updFieldsLoop]
    refine Quiet.bind (Quiet.here _ _) fun pc => ?_
    split
    · exact Quiet.pure _
    · refine Quiet.bind (Quiet.addPos _) fun _ => Quiet.bind (Quiet.here _ _) fun pc => ?_
      split
      · exact Quiet.pure _
      · exact Quiet.bind (Quiet.addPos _) fun _ => Quiet.bind (Quiet.addPos _) fun _ => ih

theorem pkLoop_quiet (cfg : RCfg) (s : Stream) (table : Table) (fs : List IdxField) : Quiet (pkLoop cfg s table fs) := by
  induction fs with
  | nil => exact Quiet.pure _
  | cons f fs ih =>
    rw [pkLoop]
    refine Quiet.bind (Quiet.here _ _) fun pc => ?_
    split
    · exact Quiet.pure _
    · refine Quiet.bind (Quiet.addPos _) fun _ => Quiet.bind Quiet.getPos fun _ => Quiet.bind (Quiet.lift _) fun _ =>
        Quiet.bind (Quiet.outM (parseData_noUpdate _ _ _ _ _ _ _ _)) fun x => Quiet.bind (Quiet.addPos _) fun _ =>
        Quiet.bind ih fun r => ?_
      cases r <;> exact Quiet.pure _

theorem updValue_quiet (cfg : RCfg) (s : Stream) (c : Column) (q n : Nat) : Quiet (updValue cfg s c q n) :=
  Quiet.ite (Quiet.pure _) (Quiet.bind (Quiet.lift _) fun _ => Quiet.bind (Quiet.outM (parseData_noUpdate _ _ _ _ _ _ _ _)) fun _ =>
    Quiet.pure _)

theorem updLoop_quiet (cfg : RCfg) (s : Stream) (table : Table) (n : Nat) : Quiet (updLoop cfg s table n) := by
  induction n with
  | zero => exact Quiet.pure _
  | succ n ih =>
    rw [updLoop]
    refine Quiet.bind (Quiet.here _ _) fun pc => ?_
    split
    · exact Quiet.pure _
    · refine Quiet.bind (Quiet.addPos _) fun _ => ?_
      split
      · exact Quiet.pure _
      · refine Quiet.bind (Quiet.here _ _) fun fl => Quiet.bind (Quiet.addPos _) fun _ => Quiet.bind Quiet.getPos fun q =>
          Quiet.bind (updValue_quiet cfg s _ _ _) fun x => Quiet.bind (Quiet.addPos _) fun _ => Quiet.bind ih fun r => ?_
        cases r <;> exact Quiet.pure _

theorem skipSysColumns_quiet (d : Bytes) (t : Nat) : Quiet (skipSysColumns d t) :=
  Quiet.ite (Quiet.bind (Quiet.here _ _) fun _ => Quiet.bind (Quiet.addPos _) fun _ => Quiet.bind (Quiet.ull _) fun _ =>
    Quiet.bind (Quiet.ull _) fun _ => Quiet.pure _) (Quiet.pure _)

theorem ign_quiet {m : RM (Option Bytes)} (h : Quiet m) : Quiet (ign m) := Quiet.bind h fun _ => Quiet.pure _
theorem unit_quiet {m : RM Unit} (h : Quiet m) : Quiet (unit m) := Quiet.bind h fun _ => Quiet.pure _

/-- proves `Quiet` of straight-line handlers -/
macro "quiet" : tactic => `(tactic| repeat' with_reducible first
  | exact Quiet.pure _
  | exact Quiet.here _ _
  | exact Quiet.addPos _
  | exact Quiet.setPos _
  | exact Quiet.getPos
  | exact Quiet.lift _
  | exact Quiet.ull _
  | exact parseIndexHere_quiet _ _
  | exact parseInsertHere_quiet _ _
  | exact updFieldsLoop_quiet _ _
  | exact copyLoop_quiet _ _ _
  | refine Quiet.bind ?_ fun _ => ?_
  | refine Quiet.ite ?_ ?_
  | split)

/-- the handlers of all record types but undo records -/
theorem dispatch_quiet (cfg : RCfg) (s : Stream) (t : Nat) (ht : t ≠ MLOG_UNDO_INSERT) : Quiet (dispatch cfg s t) := by
  unfold dispatch
  dsimp only
  rw [if_neg ht]
  repeat' with_reducible refine Quiet.ite ?_ ?_
  all_goals with_reducible first
    | exact Quiet.pure _
    | exact unit_quiet (Quiet.addPos _)
    | refine ign_quiet ?_
    | refine unit_quiet ?_
    | skip
  · unfold mlogNBytes; quiet
  · unfold mlogRecSecDeleteMark; quiet
  · unfold mlogUndoInit; quiet
  · unfold mlogUndoHdrReuse; quiet
  · unfold mlogUndoHdrCreate; quiet
  · unfold mlogWriteString; quiet
  · unfold mlogFileOp; quiet
  · refine Quiet.bind (by unfold mlogRecInsert; quiet) fun r => ?_
    cases r <;> exact Quiet.pure _
  · unfold mlogRecClustDeleteMark; quiet
  · unfold mlogCompRecSecDeleteMark; quiet
  · exact Quiet.recover (by unfold updInPlaceBody; quiet) fun _ => rfl
  · unfold mlogRecDelete mlogDeleteBody; quiet
  · unfold mlogListDelete mlogDeleteBody; quiet
  · unfold mlogListEndCopyCreated; quiet
  · unfold mlogPageReorganize; quiet
  · unfold mlogZipWriteNodePtr; quiet
  · unfold mlogZipWriteHeader; quiet
  · unfold mlogZipPageCompress; quiet
  · unfold mlogZipPageCompressNoData; quiet

/-! ## Code that prints at most once -/

/-- From states satisfying `P`, the state reached satisfies `Q`, whatever the outcome. -/
def Tr (P Q : RS → Prop) (m : RM α) : Prop := ∀ s, P s → Q (m s).st

namespace Tr
variable {P Q : RS → Prop}

theorem of_keeps {m : RM α} (h : Keeps P m) (hq : ∀ s, P s → Q s) : Tr P Q m := fun s hs => hq _ (h s hs)

theorem bind {m : RM α} {f : α → RM β} (hm : Keeps P m) (hq : ∀ s, P s → Q s) (hf : ∀ a, Tr P Q (f a)) : Tr P Q (m >>= f) := by
  intro s h
  rw [GoM.bind_run]
  have := hm s h
  cases hr : m s with
  | ok a t => rw [hr] at this; exact hf a t this
  | panic t => rw [hr] at this; exact hq t this
  | hang t => rw [hr] at this; exact hq t this

theorem bind' {m : RM α} {f : α → RM β} (hm : Tr P Q m) (hf : ∀ a, Keeps Q (f a)) : Tr P Q (m >>= f) := by
  intro s h
  rw [GoM.bind_run]
  have := hm s h
  cases hr : m s with
  | ok a t => rw [hr] at this; exact hf a t this
  | panic t => rw [hr] at this; exact this
  | hang t => rw [hr] at this; exact this

theorem ite {c : Prop} [Decidable c] {m n : RM α} (hm : c → Tr P Q m) (hn : ¬ c → Tr P Q n) : Tr P Q (if c then m else n) := by
  split
  · exact hm ‹_›
  · exact hn ‹_›

end Tr

/-- the result of processing one undo record of type `t`: no statement, or one for a table that passes the filter -/
def UndoPrints (cfg : RCfg) (t : Nat) (us : List Bytes) (s : RS) : Prop :=
  updates s.out = us ∨ (t &&& 15 = TRX_UNDO_UPD_EXIST_REC ∧ ∃ id table pk cols, cfg.tables.get? id = some table ∧
    filterPrints cfg table = true ∧ updates s.out = us ++ [updateStmt cfg.env.ff table pk cols])

theorem updateStmt_isUpdate (ff : FloatFmt) (t : Table) (pk : List PkVal) (cs : List UpdCol) : isUpdateLine (updateStmt ff t pk cs) = true := by
  unfold updateStmt isUpdateLine
  simp [List.isPrefixOf]

theorem makeSQL_updates (ff : FloatFmt) (t : Table) (pk : List PkVal) (cs : List UpdCol) (s : RS) :
    updates (makeSQL ff t pk cs s).st.out = updates s.out ++ [updateStmt ff t pk cs] := by
  show updates (s.out ++ [updateStmt ff t pk cs]) = _
  rw [updates_append]
  congr 1

end Verif
