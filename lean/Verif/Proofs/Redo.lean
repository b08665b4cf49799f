import Verif.Model.Redo
import Verif.Proofs.Ints
import Verif.Proofs.Keeps
/-!
# Lemmas about the redo parser: progress of the cursor, and loops
-/

namespace Verif

variable {α β σ : Type}

/-! ## Running the primitives -/

theorem here_run (f : Bytes → Nat → Option α) (d : Bytes) (s : RS) :
    here f d s = match f d s.pos with
      | some a => .ok a s
      | none => .panic s := rfl

theorem here_some {f : Bytes → Nat → Option α} {d : Bytes} {s : RS} {a : α} (h : f d s.pos = some a) : here f d s = .ok a s := by
  rw [here_run, h]

theorem here_none {f : Bytes → Nat → Option α} {d : Bytes} {s : RS} (h : f d s.pos = none) : here f d s = .panic s := by
  rw [here_run, h]

theorem here_bind_some {f : Bytes → Nat → Option α} {d : Bytes} {s : RS} {a : α} (h : f d s.pos = some a) (k : α → RM β) :
    (here f d >>= k) s = k a s := GoM.bind_ok (here_some h)

theorem here_bind_none {f : Bytes → Nat → Option α} {d : Bytes} {s : RS} (h : f d s.pos = none) (k : α → RM β) :
    (here f d >>= k) s = .panic s := GoM.bind_panic (here_none h)

@[simp] theorem addPos_run (n : Nat) (s : RS) : addPos n s = .ok () ⟨s.pos + n, s.out⟩ := rfl
@[simp] theorem setPos_run (n : Nat) (s : RS) : setPos n s = .ok () ⟨n, s.out⟩ := rfl
@[simp] theorem getPos_run (s : RS) : getPos s = .ok s.pos s := rfl
theorem addPos_bind (n : Nat) (k : Unit → RM β) (s : RS) : (addPos n >>= k) s = k () ⟨s.pos + n, s.out⟩ := rfl
theorem setPos_bind (n : Nat) (k : Unit → RM β) (s : RS) : (setPos n >>= k) s = k () ⟨n, s.out⟩ := rfl
theorem getPos_bind (k : Nat → RM β) (s : RS) : (getPos >>= k) s = k s.pos s := rfl

/-! ## Code that does not loop forever -/

def Terminates (m : GoM σ α) : Prop := ∀ s t, m s ≠ .hang t

namespace Terminates
theorem pure (a : α) : Terminates (Pure.pure a : GoM σ α) := fun _ _ h => by cases h
theorem lift (o : Option α) : Terminates (GoM.lift o : GoM σ α) := fun s t h => by cases o <;> cases h
theorem modify (f : σ → σ) : Terminates (GoM.modify f) := fun _ _ h => by cases h
theorem bind {m : GoM σ α} {f : α → GoM σ β} (hm : Terminates m) (hf : ∀ a, Terminates (f a)) : Terminates (m >>= f) := by
  intro s t h
  rw [GoM.bind_run] at h
  cases hr : m s with
  | ok a u => rw [hr] at h; exact hf a u t h
  | panic u => rw [hr] at h; cases h
  | hang u => exact hm s u hr
theorem ite {c : Prop} [Decidable c] {m n : GoM σ α} (hm : Terminates m) (hn : Terminates n) : Terminates (if c then m else n) := by
  split <;> assumption
end Terminates

theorem parseData_terminates (env : Env) (t m : Nat) (data : Bytes) (fl fx : Nat) (u f : Bool) : Terminates (parseData env t m data fl fx u f) := by
  unfold parseData
  dsimp only
  repeat' first
    | exact Terminates.pure _
    | exact Terminates.lift _
    | exact Terminates.modify _
    | refine Terminates.bind ?_ fun _ => ?_
    | refine Terminates.ite ?_ ?_

theorem printErr_terminates (e : Option Bytes) : Terminates (printErr e) := by
  cases e
  · exact Terminates.pure _
  · exact Terminates.modify _

theorem insertOffset_terminates (b : Bool) (d : Bytes) (p : Nat) : Terminates (insertOffset b d p) :=
  Terminates.ite (Terminates.pure _) (Terminates.bind (Terminates.lift _) fun _ => Terminates.pure _)

theorem insertExtra_terminates (d : Bytes) (p v : Nat) : Terminates (insertExtra d p v) :=
  Terminates.ite (Terminates.bind (Terminates.lift _) fun _ => Terminates.bind (Terminates.lift _) fun _ => Terminates.bind (printErr_terminates _) fun _ =>
      Terminates.bind (Terminates.lift _) fun _ => Terminates.bind (printErr_terminates _) fun _ => Terminates.pure _) (Terminates.pure _)

theorem parseInsertRecord_terminates (b : Bool) (d : Bytes) (p : Nat) : Terminates (parseInsertRecord b d p) := by
  unfold parseInsertRecord
  refine Terminates.bind (insertOffset_terminates b d p) fun p => Terminates.bind (Terminates.lift _) fun pc => ?_
  split
  · exact Terminates.pure _
  · exact Terminates.ite (Terminates.pure _) (Terminates.bind (insertExtra_terminates _ _ _) fun _ => Terminates.pure _)

/-! ## Code that moves the cursor only forward and does not loop forever -/

/-- Started at or after `p`, the code ends at or after `p`. -/
def Fwd (p : Nat) (m : RM α) : Prop := ∀ s, p ≤ s.pos → match m s with
  | .ok _ t => p ≤ t.pos
  | .panic t => p ≤ t.pos
  | .hang _ => False

namespace Fwd
variable {p : Nat}

theorem pure (a : α) : Fwd p (Pure.pure a : RM α) := fun _ h => h
theorem here (f : Bytes → Nat → Option α) (d : Bytes) : Fwd p (here f d) := by
  intro s h
  rw [here_run]
  cases f d s.pos <;> exact h
theorem lift (o : Option α) : Fwd p (GoM.lift o : RM α) := fun s h => by cases o <;> exact h
theorem addPos (n : Nat) : Fwd p (addPos n) := fun _ h => Nat.le_trans h (Nat.le_add_right _ _)
theorem setPos {n : Nat} (h : p ≤ n) : Fwd p (setPos n) := fun _ _ => h
theorem getPos : Fwd p getPos := fun _ h => h
theorem outM {m : GoM Out α} (h : Terminates m) : Fwd p (outM m) := by
  intro s hs
  unfold Verif.outM
  rw [GoM.zoom_run]
  have := h s.out
  cases hr : m s.out with
  | ok a t => exact hs
  | panic t => exact hs
  | hang t => exact absurd hr (this t)

theorem bind {m : RM α} {f : α → RM β} (hm : Fwd p m) (hf : ∀ a, Fwd p (f a)) : Fwd p (m >>= f) := by
  intro s h
  rw [GoM.bind_run]
  have := hm s h
  cases hr : m s with
  | ok a t => rw [hr] at this; exact hf a t this
  | panic t => rw [hr] at this; exact this
  | hang t => rw [hr] at this; exact this.elim

theorem getPos_bind {f : Nat → RM β} (hf : ∀ q, p ≤ q → Fwd p (f q)) : Fwd p (Verif.getPos >>= f) := by
  intro s h
  exact hf s.pos h s h

theorem ite {c : Prop} [Decidable c] {m n : RM α} (hm : Fwd p m) (hn : Fwd p n) : Fwd p (if c then m else n) := by
  split <;> assumption

theorem recover {m : RM α} {z : α} {h : RS → RS} (hm : Fwd p m) (hh : ∀ s, p ≤ s.pos → p ≤ (h s).pos) :
    Fwd p (GoM.recover m z h) := by
  intro s hs
  unfold GoM.recover
  have := hm s hs
  cases hr : m s with
  | ok a t => rw [hr] at this; exact this
  | panic t => rw [hr] at this; exact hh t this
  | hang t => rw [hr] at this; exact this

theorem mono {q : Nat} {m : RM α} (h : ∀ r, p ≤ r → Fwd r m) (hq : p ≤ q) : Fwd q m := h q hq

theorem ull (d : Bytes) : Fwd p (ullReadCompressed d) := by
  intro s h
  unfold ullReadCompressed
  rw [GoM.zoom_run]
  unfold matchUllReadComPressed
  dsimp only
  cases hm : matchParseCompressed d s.pos with
  | none => exact h
  | some pc =>
    dsimp only
    cases (do
      let s ← sliceFrom d (s.pos + pc.num)
      let s ← sliceFrom s (matchGetCompressedSize pc.val)
      matchReadFrom4 s) with
    | none => exact Nat.le_trans h (Nat.le_add_right _ _)
    | some low => exact Nat.le_trans h (Nat.le_trans (Nat.le_add_right _ _) (Nat.le_add_right _ _))

end Fwd

theorem parseIndexLoop_le (d : Bytes) (n pos q : Nat) (h : parseIndexLoop d n pos = some q) : q = pos + 2 * n := by
  induction n generalizing pos with
  | zero => cases h; rfl
  | succ n ih =>
    rw [parseIndexLoop] at h
    obtain ⟨_, _, h⟩ := Option.bind_eq_some_iff.mp h
    rw [ih _ h]; omega

theorem parseIndex_le {comp : Bool} {d : Bytes} {pos q : Nat} (h : parseIndex comp d pos = some (q, none)) : pos ≤ q := by
  unfold parseIndex at h
  split at h
  · split at h
    · cases h
    · obtain ⟨n, _, h⟩ := Option.bind_eq_some_iff.mp h
      obtain ⟨u, _, h⟩ := Option.bind_eq_some_iff.mp h
      dsimp only at h
      split at h
      · cases h
      · obtain ⟨r, hr, h⟩ := Option.bind_eq_some_iff.mp h
        cases h
        have := parseIndexLoop_le _ _ _ _ hr
        omega
  · cases h; exact Nat.le_refl _

theorem parseIndexHere_fwd {p : Nat} (comp : Bool) (d : Bytes) : Fwd p (parseIndexHere comp d) := by
  intro s h
  unfold parseIndexHere
  cases hr : parseIndex comp d s.pos with
  | none => rw [here_bind_none hr]; exact h
  | some r =>
    rw [here_bind_some hr]
    obtain ⟨q, e⟩ := r
    cases e with
    | some e => exact h
    | none => exact Nat.le_trans h (parseIndex_le hr)

/-- a successful parse of an insert record consumes at least one byte -/
theorem parseInsertRecord_lt {b : Bool} {d : Bytes} {pos q : Nat} {o o' : Out}
    (h : parseInsertRecord b d pos o = .ok (q, none) o') : pos < q := by
  unfold parseInsertRecord at h
  obtain ⟨p1, o1, h1, h⟩ := GoM.bind_eq_ok h
  have e1 : pos ≤ p1 := by
    unfold insertOffset at h1
    cases b
    · rw [if_neg (by decide)] at h1
      obtain ⟨_, _, _, h1⟩ := GoM.bind_eq_ok h1
      cases h1; omega
    · rw [if_pos rfl] at h1
      cases h1; omega
  obtain ⟨pc, o2, h2, h⟩ := GoM.bind_eq_ok h
  have e2 : 1 ≤ pc.num := by
    cases hm : matchParseCompressed d p1 with
    | none => rw [hm] at h2; cases h2
    | some x => rw [hm] at h2; cases h2; exact (mpc_num hm).1
  cases he : pc.err with
  | some e => rw [he] at h; cases h
  | none =>
    rw [he] at h
    dsimp only at h
    by_cases hl : p1 + pc.num > d.length
    · rw [if_pos hl] at h; cases h
    · rw [if_neg hl] at h
      obtain ⟨p2, o3, h3, h⟩ := GoM.bind_eq_ok h
      cases h
      have e3 : p1 + pc.num ≤ p2 := by
        unfold insertExtra at h3
        by_cases hb : pc.val &&& 1 ≠ 0
        · rw [if_pos hb] at h3
          obtain ⟨_, _, _, h3⟩ := GoM.bind_eq_ok h3
          obtain ⟨a, _, _, h3⟩ := GoM.bind_eq_ok h3
          obtain ⟨_, _, _, h3⟩ := GoM.bind_eq_ok h3
          obtain ⟨b, _, _, h3⟩ := GoM.bind_eq_ok h3
          obtain ⟨_, _, _, h3⟩ := GoM.bind_eq_ok h3
          cases h3
          omega
        · rw [if_neg hb] at h3
          cases h3; exact Nat.le_refl _
      omega

/-- what `parseInsertHere` does to the cursor -/
theorem parseInsertHere_spec (b : Bool) (d : Bytes) (s : RS) : match parseInsertHere b d s with
    | .ok none t => s.pos < t.pos
    | .ok (some _) t => s.pos = t.pos
    | .panic t => s.pos = t.pos
    | .hang _ => False := by
  unfold parseInsertHere
  rw [getPos_bind, GoM.bind_run]
  unfold outM
  rw [GoM.zoom_run]
  cases hr : parseInsertRecord b d s.pos s.out with
  | ok r o =>
    obtain ⟨q, e⟩ := r
    dsimp only
    cases e with
    | some e => rfl
    | none => exact parseInsertRecord_lt hr
  | panic o => rfl
  | hang o => exact parseInsertRecord_terminates b d s.pos s.out o hr

theorem parseInsertHere_fwd {p : Nat} (b : Bool) (d : Bytes) : Fwd p (parseInsertHere b d) := by
  intro s h
  have := parseInsertHere_spec b d s
  cases hr : parseInsertHere b d s with
  | ok r t => rw [hr] at this; cases r <;> dsimp only at this ⊢ <;> omega
  | panic t => rw [hr] at this; dsimp only at this ⊢; omega
  | hang t => rw [hr] at this; exact this.elim

theorem copyLoop_fwd {p : Nat} (d : Bytes) (recEnd fuel : Nat) (s : RS) (hf : 1 ≤ fuel) (hp : recEnd + 1 ≤ fuel + s.pos)
    (h : p ≤ s.pos) : match copyLoop d recEnd fuel s with
      | .ok _ t => p ≤ t.pos
      | .panic t => p ≤ t.pos
      | .hang _ => False := by
  induction fuel generalizing s with
  | zero => omega
  | succ fuel ih =>
    rw [copyLoop, getPos_bind]
    by_cases hlt : s.pos < recEnd
    · rw [if_pos hlt, GoM.bind_run]
      have := parseInsertHere_spec true d s
      cases hr : parseInsertHere true d s with
      | ok r t =>
        rw [hr] at this
        cases r with
        | some e => dsimp only at this ⊢; rw [this] at h; exact h
        | none =>
          dsimp only at this ⊢
          exact ih t (by omega) (by omega) (by omega)
      | panic t => rw [hr] at this; dsimp only at this ⊢; rw [this] at h; exact h
      | hang t => rw [hr] at this; exact this.elim
    · rw [if_neg hlt]; exact h

theorem updFieldsLoop_fwd {p : Nat} (d : Bytes) (n : Nat) : Fwd p (updFieldsLoop d n) := by
  induction n with
  | zero => exact Fwd.pure _
  | succ n ih =>
    rw [updFieldsLoop]
    refine Fwd.bind (Fwd.here _ _) fun pc => ?_
    split
    · exact Fwd.pure _
    · refine Fwd.bind (Fwd.addPos _) fun _ => Fwd.bind (Fwd.here _ _) fun pc => ?_
      split
      · exact Fwd.pure _
      · exact Fwd.bind (Fwd.addPos _) fun _ => Fwd.bind (Fwd.addPos _) fun _ => ih

theorem pkLoop_fwd {p : Nat} (cfg : RCfg) (s : Stream) (table : Table) (fs : List IdxField) : Fwd p (pkLoop cfg s table fs) := by
  induction fs with
  | nil => exact Fwd.pure _
  | cons f fs ih =>
    rw [pkLoop]
    refine Fwd.bind (Fwd.here _ _) fun pc => ?_
    split
    · exact Fwd.pure _
    · refine Fwd.bind (Fwd.addPos _) fun _ => Fwd.bind Fwd.getPos fun _ => Fwd.bind (Fwd.lift _) fun _ =>
        Fwd.bind (Fwd.outM (parseData_terminates _ _ _ _ _ _ _ _)) fun x => Fwd.bind (Fwd.addPos _) fun _ => Fwd.bind ih fun r => ?_
      cases r <;> exact Fwd.pure _

theorem updValue_fwd {p : Nat} (cfg : RCfg) (s : Stream) (c : Column) (q n : Nat) : Fwd p (updValue cfg s c q n) :=
  Fwd.ite (Fwd.pure _) (Fwd.bind (Fwd.lift _) fun _ => Fwd.bind (Fwd.outM (parseData_terminates _ _ _ _ _ _ _ _)) fun _ =>
    Fwd.pure _)

theorem updLoop_fwd {p : Nat} (cfg : RCfg) (s : Stream) (table : Table) (n : Nat) : Fwd p (updLoop cfg s table n) := by
  induction n with
  | zero => exact Fwd.pure _
  | succ n ih =>
    rw [updLoop]
    refine Fwd.bind (Fwd.here _ _) fun pc => ?_
    split
    · exact Fwd.pure _
    · refine Fwd.bind (Fwd.addPos _) fun _ => ?_
      split
      · exact Fwd.pure _
      · refine Fwd.bind (Fwd.here _ _) fun fl => Fwd.bind (Fwd.addPos _) fun _ => Fwd.bind Fwd.getPos fun q => ?_
        refine Fwd.bind (updValue_fwd cfg s _ _ _) fun x => ?_
        refine Fwd.bind (Fwd.addPos _) fun _ => Fwd.bind ih fun r => ?_
        cases r <;> exact Fwd.pure _

theorem skipSysColumns_fwd {p : Nat} (d : Bytes) (t : Nat) : Fwd p (skipSysColumns d t) :=
  Fwd.ite (Fwd.bind (Fwd.here _ _) fun _ => Fwd.bind (Fwd.addPos _) fun _ => Fwd.bind (Fwd.ull _) fun _ =>
    Fwd.bind (Fwd.ull _) fun _ => Fwd.pure _) (Fwd.pure _)

theorem makeSQL_fwd {p : Nat} (ff : FloatFmt) (t : Table) (pk : List PkVal) (cs : List UpdCol) : Fwd p (makeSQL ff t pk cs) :=
  Fwd.outM (Terminates.modify _)

theorem undoBody_fwd {p : Nat} (cfg : RCfg) (s : Stream) (q n : Nat) (h : p ≤ q) : Fwd p (undoBody cfg s q n) := by
  have hend : Fwd p (setPos (q + n)) := Fwd.setPos (by omega)
  unfold undoBody undoTable
  dsimp only
  refine Fwd.bind (Fwd.here _ _) fun t => Fwd.bind (Fwd.addPos _) fun _ => Fwd.bind (Fwd.here _ _) fun r =>
    Fwd.bind (Fwd.lift _) fun x => ?_
  split
  · exact Fwd.bind hend fun _ => Fwd.pure _
  · refine Fwd.bind (Fwd.addPos _) fun _ => Fwd.bind (Fwd.here _ _) fun r => Fwd.bind (Fwd.lift _) fun y => ?_
    split
    · exact Fwd.bind hend fun _ => Fwd.pure _
    · refine Fwd.bind (Fwd.addPos _) fun _ => Fwd.bind (skipSysColumns_fwd _ _) fun _ => ?_
      split
      · exact Fwd.bind hend fun _ => Fwd.pure _
      · refine Fwd.bind (pkLoop_fwd _ _ _ _) fun r => ?_
        split
        · exact Fwd.pure _
        · refine Fwd.ite ?_ (Fwd.bind hend fun _ => Fwd.pure _)
          refine Fwd.bind (Fwd.here _ _) fun pc => ?_
          split
          · exact Fwd.pure _
          · refine Fwd.bind (Fwd.addPos _) fun _ => Fwd.bind (updLoop_fwd _ _ _ _) fun r => ?_
            split
            · exact Fwd.pure _
            · exact Fwd.bind (Fwd.ite (makeSQL_fwd _ _ _ _) (Fwd.pure _)) fun _ => Fwd.bind hend fun _ => Fwd.pure _

theorem mlogUndoInsert_fwd {p : Nat} (cfg : RCfg) (s : Stream) : Fwd p (mlogUndoInsert cfg s) := by
  unfold mlogUndoInsert
  refine Fwd.bind (Fwd.here _ _) fun n => Fwd.bind (Fwd.addPos _) fun _ => Fwd.getPos_bind fun q hq => ?_
  exact Fwd.recover (undoBody_fwd cfg s q n hq) fun _ _ => Nat.le_trans hq (Nat.le_add_right _ _)

/-- proves `Fwd` of straight-line handlers -/
macro "fwd" : tactic => `(tactic| repeat' with_reducible first
  | exact Fwd.pure _
  | exact Fwd.here _ _
  | exact Fwd.addPos _
  | exact Fwd.getPos
  | exact Fwd.lift _
  | exact Fwd.ull _
  | exact parseIndexHere_fwd _ _
  | exact parseInsertHere_fwd _ _
  | exact updFieldsLoop_fwd _ _
  | refine Fwd.bind ?_ fun _ => ?_
  | refine Fwd.ite ?_ ?_
  | split)

theorem mlogListEndCopyCreated_fwd {p : Nat} (d : Bytes) (t : Nat) : Fwd p (mlogListEndCopyCreated d t) := by
  unfold mlogListEndCopyCreated
  refine Fwd.bind (parseIndexHere_fwd _ _) fun r => ?_
  split
  · exact Fwd.pure _
  · refine Fwd.bind (Fwd.here _ _) fun n => Fwd.bind (Fwd.addPos _) fun _ => Fwd.getPos_bind fun q hq => ?_
    dsimp only
    refine Fwd.ite (Fwd.pure _) ?_
    intro s hs
    have := copyLoop_fwd (p := p) d (q + n) (q + n + 1) s (by omega) (by omega) hs
    cases hr : copyLoop d (q + n) (q + n + 1) s with
    | ok a t => rw [hr] at this; exact this
    | panic t => rw [hr] at this; exact this
    | hang t => rw [hr] at this; exact this

theorem ign_fwd {p : Nat} {m : RM (Option Bytes)} (h : Fwd p m) : Fwd p (ign m) := Fwd.bind h fun _ => Fwd.pure _
theorem unit_fwd {p : Nat} {m : RM Unit} (h : Fwd p m) : Fwd p (unit m) := Fwd.bind h fun _ => Fwd.pure _

theorem dispatch_fwd {p : Nat} (cfg : RCfg) (s : Stream) (t : Nat) : Fwd p (dispatch cfg s t) := by
  unfold dispatch
  dsimp only
  repeat' with_reducible refine Fwd.ite ?_ ?_
  all_goals with_reducible first
    | exact Fwd.pure _
    | exact unit_fwd (Fwd.addPos _)
    | refine ign_fwd ?_
    | refine unit_fwd ?_
    | skip
  · unfold mlogNBytes; fwd
  · unfold mlogRecSecDeleteMark; fwd
  · exact mlogUndoInsert_fwd cfg s
  · unfold mlogUndoInit; fwd
  · unfold mlogUndoHdrReuse; fwd
  · unfold mlogUndoHdrCreate; fwd
  · unfold mlogWriteString; fwd
  · unfold mlogFileOp; fwd
  · refine Fwd.bind (by unfold mlogRecInsert; fwd) fun r => ?_
    cases r <;> exact Fwd.pure _
  · unfold mlogRecClustDeleteMark; fwd
  · unfold mlogCompRecSecDeleteMark; fwd
  · exact Fwd.recover (by unfold updInPlaceBody; fwd) fun _ h => h
  · unfold mlogRecDelete mlogDeleteBody; fwd
  · unfold mlogListDelete mlogDeleteBody; fwd
  · exact mlogListEndCopyCreated_fwd _ _
  · unfold mlogPageReorganize; fwd
  · unfold mlogZipWriteNodePtr; fwd
  · unfold mlogZipWriteHeader; fwd
  · unfold mlogZipPageCompress; fwd
  · unfold mlogZipPageCompressNoData; fwd

/-- One iteration of the main loop ends normally after consuming at least one byte, or panics. -/
theorem redoStep_progress (cfg : RCfg) (s : Stream) (st : RS) : match redoStep cfg s st with
    | .ok _ t => st.pos < t.pos
    | .panic t => st.pos ≤ t.pos
    | .hang _ => False := by
  unfold redoStep
  cases hr : read1 s.data st.pos with
  | none => rw [here_bind_none hr]; exact Nat.le_refl _
  | some raw =>
    rw [here_bind_some hr, addPos_bind, getPos_bind]
    dsimp only
    by_cases h31 : raw = MLOG_MULTI_REC_END
    · rw [if_pos h31]; exact Nat.lt_succ_self _
    · rw [if_neg h31]
      have key : ∀ m : RM Ctl, Fwd (st.pos + 1) m → match m ⟨st.pos + 1, st.out⟩ with
          | .ok _ t => st.pos < t.pos
          | .panic t => st.pos ≤ t.pos
          | .hang _ => False := by
        intro m hm
        have := hm ⟨st.pos + 1, st.out⟩ (Nat.le_refl _)
        cases hr : m ⟨st.pos + 1, st.out⟩ with
        | ok a t => rw [hr] at this; exact this
        | panic t => rw [hr] at this; exact Nat.le_of_succ_le this
        | hang t => rw [hr] at this; exact this
      apply key
      refine Fwd.ite ?_ (dispatch_fwd _ _ _)
      refine Fwd.bind (Fwd.here _ _) fun sp => Fwd.bind (Fwd.addPos _) fun _ => ?_
      split
      · exact Fwd.pure _
      · refine Fwd.bind (Fwd.here _ _) fun pg => Fwd.bind (Fwd.addPos _) fun _ => ?_
        split
        · exact Fwd.pure _
        · exact Fwd.ite (Fwd.bind (Fwd.setPos (Nat.le_refl _)) fun _ => Fwd.pure _) (dispatch_fwd _ _ _)

theorem redoLoop_terminates (cfg : RCfg) (s : Stream) (fuel : Nat) (st t : RS) (h1 : 1 ≤ fuel)
    (h2 : s.data.length + 1 ≤ fuel + st.pos) : redoLoop cfg s fuel st ≠ .hang t := by
  induction fuel generalizing st with
  | zero => omega
  | succ fuel ih =>
    rw [redoLoop, getPos_bind]
    by_cases hl : s.data.length < st.pos + 5
    · rw [if_pos hl]; intro h; cases h
    · rw [if_neg hl, GoM.bind_run]
      have := redoStep_progress cfg s st
      cases hr : redoStep cfg s st with
      | ok c u =>
        rw [hr] at this
        cases c with
        | ret e => intro h; cases h
        | next => dsimp only at this ⊢; exact ih u (by omega) (by omega)
      | panic u => intro h; cases h
      | hang u => rw [hr] at this; exact this.elim

/-- More fuel does not change the result. -/
theorem redoLoop_fuel (cfg : RCfg) (s : Stream) (fuel k : Nat) (st : RS) (h : ∀ t, redoLoop cfg s fuel st ≠ .hang t) :
    redoLoop cfg s (fuel + k) st = redoLoop cfg s fuel st := by
  induction fuel generalizing st with
  | zero => exact absurd rfl (h st)
  | succ fuel ih =>
    rw [show fuel + 1 + k = (fuel + k) + 1 by omega]
    rw [redoLoop, getPos_bind] at h
    rw [redoLoop, redoLoop, getPos_bind, getPos_bind]
    by_cases hl : s.data.length < st.pos + 5
    · rw [if_pos hl, if_pos hl]
    · rw [if_neg hl] at h
      rw [if_neg hl, if_neg hl, GoM.bind_run, GoM.bind_run]
      rw [GoM.bind_run] at h
      cases hr : redoStep cfg s st with
      | ok c u =>
        rw [hr] at h
        cases c with
        | ret e => rfl
        | next => exact ih u h
      | panic u => rfl
      | hang u => rfl

end Verif
