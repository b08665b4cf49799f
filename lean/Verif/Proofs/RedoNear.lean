import Verif.Proofs.RedoQuiet
import Verif.Props.RedoLoop
import Verif.Props.RedoUndo
/-!
# Where the redo parser can panic
-/

namespace Verif
open Props Spec

variable {α β : Type}

/-- a panic comes at most 16 bytes before the end of the stream -/
def Near (d : Bytes) (m : RM α) : Prop := ∀ s u, m s = .panic u → d.length < u.pos + 17

theorem readW_none {w : Nat} {d : Bytes} {p : Nat} (h : readW w d p = none) : d.length < p + w := by
  rcases Nat.lt_or_ge d.length (p + w) with hl | hl
  · exact hl
  · rw [read_at d p hl] at h; cases h

theorem mpc_none {d : Bytes} {p : Nat} (h : matchParseCompressed d p = none) : d.length < p + 4 := by
  rcases Nat.lt_or_ge d.length (p + 4) with hl | hl
  · exact hl
  · exfalso
    unfold matchParseCompressed at h
    simp only [read1_eq, read2_eq, read3_eq, read4_eq, read_at d p (w := 1) (by omega), read_at d p (w := 2) (by omega),
      read_at d p (w := 3) (by omega), read_at d p (w := 4) (by omega), Option.bind_eq_bind, Option.bind_some] at h
    by_cases h5 : p + 5 > d.length
    · rw [if_pos h5] at h
      repeat' split at h
      all_goals cases h
    · rw [if_neg h5, read_at d (p + 1) (w := 4) (by omega)] at h
      repeat' split at h
      all_goals cases h

namespace Near
variable {d : Bytes}

theorem pure (a : α) : Near d (Pure.pure a : RM α) := fun _ _ h => by cases h
theorem addPos (n : Nat) : Near d (addPos n) := fun _ _ h => by cases h
theorem setPos (n : Nat) : Near d (setPos n) := fun _ _ h => by cases h
theorem getPos : Near d getPos := fun _ _ h => by cases h

theorem here {f : Bytes → Nat → Option α} (hf : ∀ p, f d p = none → d.length < p + 17) : Near d (here f d) := by
  intro s u h
  rw [here_run] at h
  cases e : f d s.pos with
  | some a => rw [e] at h; cases h
  | none => rw [e] at h; cases h; exact hf _ e

theorem read1 : Near d (Verif.here Verif.read1 d) := here fun p h => by rw [read1_eq] at h; have := readW_none h; omega
theorem read2 : Near d (Verif.here Verif.read2 d) := here fun p h => by rw [read2_eq] at h; have := readW_none h; omega
theorem read4 : Near d (Verif.here Verif.read4 d) := here fun p h => by rw [read4_eq] at h; have := readW_none h; omega
theorem read7 : Near d (Verif.here Verif.read7 d) := here fun p h => by rw [read7_eq] at h; have := readW_none h; omega
theorem mpc : Near d (Verif.here matchParseCompressed d) := here fun p h => by have := mpc_none h; omega

theorem bind {m : RM α} {f : α → RM β} (hm : Near d m) (hf : ∀ a, Near d (f a)) : Near d (m >>= f) := by
  intro s u h
  rw [GoM.bind_run] at h
  cases e : m s with
  | ok a t => rw [e] at h; exact hf a t u h
  | panic t => rw [e] at h; cases h; exact hm s u e
  | hang t => rw [e] at h; cases h

theorem ite {c : Prop} [Decidable c] {m n : RM α} (hm : Near d m) (hn : Near d n) : Near d (if c then m else n) := by
  split
  · exact hm
  · exact hn

theorem ull : Near d (ullReadCompressed d) := by
  intro s u h
  unfold ullReadCompressed at h
  rw [GoM.zoom_run] at h
  unfold matchUllReadComPressed at h
  dsimp only at h
  cases e : matchParseCompressed d s.pos with
  | none => rw [e] at h; cases h; have := mpc_none e; show d.length < s.pos + 17; omega
  | some pc =>
    rw [e] at h
    dsimp only at h
    have hn := mpc_num e
    have hs := sizeLe pc.val
    split at h
    · cases h
    · next e2 =>
      split at e2
      · next e3 =>
        cases e2
        cases h
        show d.length < s.pos + pc.num + 17
        rcases Nat.lt_or_ge d.length (s.pos + pc.num + 9) with hl | hl
        · omega
        · exfalso
          unfold sliceFrom at e3
          rw [if_pos (by omega)] at e3
          simp only [Option.bind_eq_bind, Option.bind_some] at e3
          rw [if_pos (by rw [List.length_drop]; omega), Option.bind_some, matchReadFrom4_eq, if_pos (by
            rw [List.length_drop, List.length_drop]; omega)] at e3
          cases e3
      · cases e2
    · cases h
where
  sizeLe (n : Nat) : matchGetCompressedSize n ≤ 5 := by
    unfold matchGetCompressedSize
    repeat' split
    all_goals omega

end Near

theorem parseIndexLoop_inside (d : Bytes) (n p : Nat) (h : p + n * 2 ≤ d.length) : parseIndexLoop d n p = some (p + n * 2) := by
  induction n generalizing p with
  | zero => rfl
  | succ n ih =>
    rw [parseIndexLoop, read2_eq, read_at d p (by omega)]
    show parseIndexLoop d n (p + 2) = _
    rw [ih (p + 2) (by omega)]
    congr 1
    omega

/-- Reading the index description never panics: the length is checked. -/
theorem parseIndex_eq (comp : Bool) (d : Bytes) (p : Nat) : parseIndex comp d p =
    some (if comp = true then
      if d.length < p + 4 ∨ d.length < p + 4 + numAt d p 2 * 2 then (0, some errIndexTooShort) else (p + 4 + numAt d p 2 * 2, none)
    else (p, none)) := by
  unfold parseIndex
  cases comp with
  | false => rfl
  | true =>
    rw [if_pos rfl, if_pos rfl]
    by_cases h : d.length < p + 4
    · rw [if_pos h, if_pos (Or.inl h)]
    · rw [if_neg h]
      simp only [read2_eq, read_at d p (w := 2) (by omega), read_at d (p + 2) (w := 2) (by omega), Option.bind_eq_bind, Option.bind_some]
      by_cases h2 : d.length < p + 4 + numAt d p 2 * 2
      · rw [if_pos (by omega), if_pos (Or.inr h2)]; rfl
      · rw [if_neg (by omega), if_neg (by omega), show p + 2 + 2 = p + 4 from rfl, parseIndexLoop_inside d _ (p + 4) (by omega)]
        rfl

theorem Near.parseIndexHere {d : Bytes} (comp : Bool) : Near d (parseIndexHere comp d) := by
  unfold Verif.parseIndexHere
  refine Near.bind (Near.here fun p h => ?_) fun r => ?_
  · rw [parseIndex_eq] at h; cases h
  · split
    · exact Near.pure _
    · exact Near.bind (Near.setPos _) fun _ => Near.pure _

/-- the same for code that only prints, run at `p` -/
def NearO (d : Bytes) (k : Nat) (m : GoM Out α) : Prop := ∀ o u, m o = .panic u → d.length < k

namespace NearO
variable {d : Bytes} {k : Nat}
theorem pure (a : α) : NearO d k (Pure.pure a : GoM Out α) := fun _ _ h => by cases h
theorem lift_bind {o : Option α} {f : α → GoM Out β} (hn : o = none → d.length < k) (hs : ∀ a, o = some a → NearO d k (f a)) :
    NearO d k (GoM.lift o >>= f) := by
  cases o with
  | none => exact fun _ _ _ => hn rfl
  | some a => exact hs a rfl
theorem bind {m : GoM Out α} {f : α → GoM Out β} (hm : NearO d k m) (hf : ∀ a, NearO d k (f a)) : NearO d k (m >>= f) := by
  intro s u h
  rw [GoM.bind_run] at h
  cases e : m s with
  | ok a t => rw [e] at h; exact hf a t u h
  | panic t => rw [e] at h; cases h; exact hm s u e
  | hang t => rw [e] at h; cases h
theorem printErr (e : Option Bytes) : NearO d k (printErr e) := by
  cases e <;> exact fun _ _ h => by cases h
end NearO

theorem insertExtra_near (d : Bytes) (p v k : Nat) (h : p + 10 ≤ k) : NearO d k (insertExtra d p v) := by
  unfold insertExtra
  split
  · refine NearO.lift_bind (fun e => by rw [read1_eq] at e; have := readW_none e; omega) fun _ _ => ?_
    refine NearO.lift_bind (fun e => by have := mpc_none e; omega) fun o ho => ?_
    refine NearO.bind (NearO.printErr _) fun _ => ?_
    refine NearO.lift_bind (fun e => by have := mpc_none e; have := mpc_num ho; omega) fun m _ => ?_
    exact NearO.bind (NearO.printErr _) fun _ => NearO.pure _
  · exact NearO.pure _

theorem parseInsertRecord_near (b : Bool) (d : Bytes) (p : Nat) : NearO d (p + 17) (parseInsertRecord b d p) := by
  have key : ∀ q, q ≤ p + 2 → NearO d (p + 17) (do
      let pc ← GoM.lift (matchParseCompressed d q)
      match pc.err with
      | some e => return (0, some e)
      | none =>
        if q + pc.num > d.length then return (0, some errInsertTooShort)
        else
          let pos ← insertExtra d (q + pc.num) pc.val
          return (pos + pc.val >>> 1, none)) := by
    intro q hq
    refine NearO.lift_bind (fun e => by have := mpc_none e; omega) fun pc hpc => ?_
    have := mpc_num hpc
    split
    · exact NearO.pure _
    · split
      · exact NearO.pure _
      · exact NearO.bind (insertExtra_near d _ _ _ (by omega)) fun _ => NearO.pure _
  unfold parseInsertRecord insertOffset
  cases b with
  | true => exact key p (by omega)
  | false =>
    intro o u h
    cases e : read2 d p with
    | none => rw [read2_eq] at e; have := readW_none e; omega
    | some v => rw [e] at h; exact key (p + 2) (by omega) o u h

theorem Near.parseInsertHere {d : Bytes} (b : Bool) : Near d (parseInsertHere b d) := by
  intro s u h
  unfold Verif.parseInsertHere at h
  rw [getPos_bind] at h
  rw [GoM.bind_run] at h
  unfold outM at h
  rw [GoM.zoom_run] at h
  cases e : parseInsertRecord b d s.pos s.out with
  | panic o =>
    rw [e] at h
    cases h
    exact parseInsertRecord_near b d s.pos _ _ e
  | hang o => rw [e] at h; cases h
  | ok r o =>
    rw [e] at h
    obtain ⟨q, e2⟩ := r
    cases e2 <;> cases h

theorem Near.copyLoop {d : Bytes} (recEnd fuel : Nat) : Near d (copyLoop d recEnd fuel) := by
  induction fuel with
  | zero => exact fun _ _ h => by cases h
  | succ n ih =>
    unfold Verif.copyLoop
    refine Near.bind Near.getPos fun _ => Near.ite (Near.bind (Near.parseInsertHere true) fun r => ?_) (Near.pure _)
    cases r with
    | some e => exact Near.pure _
    | none => exact ih

theorem Near.ign {d : Bytes} {m : RM (Option Bytes)} (h : Near d m) : Near d (ign m) := Near.bind h fun _ => Near.pure _
theorem Near.unit {d : Bytes} {m : RM Unit} (h : Near d m) : Near d (unit m) := Near.bind h fun _ => Near.pure _

theorem Near.updateInPlace {d : Bytes} (t : Nat) : Near d (mlogRecUpdateInPlace d t) := fun s u h =>
  absurd h (C46_update_in_place d t s u)

theorem Near.undo {cfg : RCfg} {s : Stream} : Near s.data (mlogUndoInsert cfg s) := by
  intro st u h
  unfold mlogUndoInsert at h
  cases e : Verif.read2 s.data st.pos with
  | none =>
    rw [here_bind_none e] at h
    cases h
    rw [read2_eq] at e
    have := readW_none e
    omega
  | some v =>
    rw [here_bind_some e, addPos_bind, getPos_bind] at h
    exact absurd h (recover_noPanic _ _ _ _ _)

/-- decompose code into its reads -/
macro "near" : tactic => `(tactic| repeat' with_reducible first
  | exact Near.pure _
  | exact Near.addPos _
  | exact Near.setPos _
  | exact Near.getPos
  | exact Near.read1
  | exact Near.read2
  | exact Near.read4
  | exact Near.read7
  | exact Near.mpc
  | exact Near.ull
  | exact Near.parseIndexHere _
  | exact Near.parseInsertHere _
  | exact Near.copyLoop _ _
  | exact Near.updateInPlace _
  | exact Near.undo
  | refine Near.ign ?_
  | refine Near.unit ?_
  | refine Near.ite ?_ ?_
  | refine Near.bind ?_ fun _ => ?_
  | split)

theorem dispatch_near (cfg : RCfg) (s : Stream) (t : Nat) : Near s.data (dispatch cfg s t) := by
  unfold dispatch mlogNBytes mlogRecSecDeleteMark mlogUndoInit mlogUndoHdrReuse mlogUndoHdrCreate mlogWriteString mlogFileOp
    mlogRecInsert mlogRecClustDeleteMark mlogCompRecSecDeleteMark mlogRecDelete mlogListDelete mlogDeleteBody mlogListEndCopyCreated
    mlogPageReorganize mlogZipWriteNodePtr mlogZipWriteHeader mlogZipPageCompress mlogZipPageCompressNoData
  dsimp only
  near

theorem redoStep_near (cfg : RCfg) (s : Stream) : Near s.data (redoStep cfg s) := by
  unfold redoStep
  refine Near.bind Near.read1 fun _ => Near.bind (Near.addPos _) fun _ => Near.bind Near.getPos fun _ => Near.ite (Near.pure _) ?_
  refine Near.ite (Near.bind Near.mpc fun _ => Near.bind (Near.addPos _) fun _ => ?_) (dispatch_near cfg s _)
  split
  · exact Near.pure _
  · refine Near.bind Near.mpc fun _ => Near.bind (Near.addPos _) fun _ => ?_
    split
    · exact Near.pure _
    · exact Near.ite (Near.bind (Near.setPos _) fun _ => Near.pure _) (dispatch_near cfg s _)

end Verif
