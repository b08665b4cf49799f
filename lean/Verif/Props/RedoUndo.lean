import Verif.Proofs.RedoQuiet
import Verif.Props.RedoLoop
/-!
# C45, C46, C49: undo records, confinement and output
-/

namespace Verif.Props
open Verif Spec

/-! ## C49 -/

/-- the kind of an undo record: the lower four bits of its first byte -/
def undoKind (b : UInt8) : Nat := b.toNat % 16

set_option maxRecDepth 10000 in
theorem undoKind_eq (b : UInt8) : andNot64 b.toNat TRX_UNDO_UPD_EXTERN &&& (TRX_UNDO_CMPL_INFO_MULT - 1) = undoKind b := by
  have : ∀ n < 256, andNot64 n TRX_UNDO_UPD_EXTERN &&& (TRX_UNDO_CMPL_INFO_MULT - 1) = n % 16 := by decide
  exact this _ (u8lt b)

/-- What is printed while an undo record with body at `p` is processed: no UPDATE statement, or one, for a table of the
dictionary that passes the name filter; and that only if the record is of the kind 12, update of an existing row. -/
def OneUpdate (cfg : RCfg) (d : Bytes) (p : Nat) (before after : List Bytes) : Prop :=
  after = before ∨ ((d[p]?).map undoKind = some 12 ∧ ∃ id table pk cols, cfg.tables.get? id = some table ∧
    filterPrints cfg table = true ∧ after = before ++ [updateStmt cfg.env.ff table pk cols])

theorem undoBody_prints (cfg : RCfg) (s : Stream) (q n : Nat) (st : RS) :
    OneUpdate cfg s.data st.pos (updates st.out) (updates (undoBody cfg s q n st).st.out) := by
  unfold undoBody undoTable
  dsimp only
  cases hb : s.data[st.pos]? with
  | none =>
    have : read1 s.data st.pos = none := by
      rw [read1_eq, readW, if_neg]
      have := List.getElem?_eq_none_iff.mp hb
      omega
    rw [here_bind_none this]
    exact Or.inl rfl
  | some b =>
    rw [here_bind_some (read1_getElem hb), undoKind_eq]
    have hkey : ∀ (P Q : RS → Prop) (m : RM (Option Bytes)) (x : RS), P x → Tr P Q m → Q (m x).st := fun P Q m x h1 h2 => h2 x h1
    apply hkey (fun x => updates x.out = updates st.out) (fun x => OneUpdate cfg s.data st.pos (updates st.out) (updates x.out)) _ _ rfl
    have hq : ∀ x : RS, updates x.out = updates st.out → OneUpdate cfg s.data st.pos (updates st.out) (updates x.out) := fun _ h => Or.inl h
    have quietEnd : ∀ {α : Type} (m : RM α), Quiet m → Tr (fun x => updates x.out = updates st.out)
      (fun x => OneUpdate cfg s.data st.pos (updates st.out) (updates x.out)) m := fun m h => Tr.of_keeps (h _) hq
    refine Tr.bind (Quiet.addPos _ _) hq fun _ => Tr.bind (Quiet.here _ _ _) hq fun r => Tr.bind (Quiet.lift _ _) hq fun x => ?_
    split
    · exact quietEnd _ (Quiet.bind (Quiet.setPos _) fun _ => Quiet.pure _)
    · refine Tr.bind (Quiet.addPos _ _) hq fun _ => Tr.bind (Quiet.here _ _ _) hq fun r => Tr.bind (Quiet.lift _ _) hq fun y => ?_
      split
      · exact quietEnd _ (Quiet.bind (Quiet.setPos _) fun _ => Quiet.pure _)
      · refine Tr.bind (Quiet.addPos _ _) hq fun _ => Tr.bind (skipSysColumns_quiet _ _ _) hq fun _ => ?_
        split
        · exact quietEnd _ (Quiet.bind (Quiet.setPos _) fun _ => Quiet.pure _)
        · rename_i table htab
          refine Tr.bind (pkLoop_quiet _ _ _ _ _) hq fun r => ?_
          split
          · exact quietEnd _ (Quiet.pure _)
          · rename_i pk
            refine Tr.ite (fun hk => ?_) (fun _ => quietEnd _ (Quiet.bind (Quiet.setPos _) fun _ => Quiet.pure _))
            refine Tr.bind (Quiet.here _ _ _) hq fun pc => ?_
            split
            · exact quietEnd _ (Quiet.pure _)
            · refine Tr.bind (Quiet.addPos _ _) hq fun _ => Tr.bind (updLoop_quiet _ _ _ _ _) hq fun r => ?_
              split
              · exact quietEnd _ (Quiet.pure _)
              · rename_i cols
                refine Tr.bind' (Tr.ite (fun hf => ?_) (fun _ => quietEnd _ (Quiet.pure _))) fun _ => ?_
                · intro x hx
                  refine Or.inr ⟨?_, y.1, table, pk, cols, htab, hf, ?_⟩
                  · rw [hb]; exact congrArg some hk
                  · rw [makeSQL_updates]
                    exact congrArg (· ++ _) hx
                · exact Keeps.bind (fun _ h => h) fun _ => Keeps.pure _

theorem recover_prints (cfg : RCfg) (d : Bytes) (p : Nat) (us : List Bytes) (m : RM (Option Bytes)) (z : Option Bytes) (f : RS → RS)
    (hf : ∀ s, (f s).out = s.out) (s : RS) (h : OneUpdate cfg d p us (updates (m s).st.out)) :
    OneUpdate cfg d p us (updates (GoM.recover m z f s).st.out) := by
  unfold GoM.recover
  cases hm : m s with
  | ok a t => rw [hm] at h; exact h
  | panic t => rw [hm] at h; show OneUpdate cfg d p us (updates (f t).out); rw [hf]; exact h
  | hang t => rw [hm] at h; exact h

/-- **C49**, an undo record: at most one UPDATE statement, and only for updates of existing rows of known tables. -/
theorem C49_undo_record (cfg : RCfg) (s : Stream) (st : RS) :
    OneUpdate cfg s.data (st.pos + 2) (updates st.out) (updates (mlogUndoInsert cfg s st).st.out) := by
  unfold mlogUndoInsert
  cases h : read2 s.data st.pos with
  | none => rw [here_bind_none h]; exact Or.inl rfl
  | some n =>
    rw [here_bind_some h, addPos_bind, getPos_bind]
    apply recover_prints
    · exact fun _ => rfl
    exact undoBody_prints cfg s _ n ⟨st.pos + 2, st.out⟩

/-- **C49**, the other record types: no UPDATE statement. -/
theorem C49_other_types (cfg : RCfg) (s : Stream) (t : Nat) (ht : t ≠ 20) (st : RS) :
    updates (dispatch cfg s t st).st.out = updates st.out :=
  dispatch_quiet cfg s t ht _ st rfl

/-- **C49**, one iteration of the loop: an UPDATE statement is printed only for a record of type 20 (undo), at most one, and
under the conditions of `OneUpdate`. -/
theorem C49_step (cfg : RCfg) (s : Stream) (st : RS) : updates (redoStep cfg s st).st.out = updates st.out ∨
    ((s.data[st.pos]?).map typeOf = some 20 ∧
      ∃ p, OneUpdate cfg s.data p (updates st.out) (updates (redoStep cfg s st).st.out)) := by
  unfold redoStep
  cases hb : s.data[st.pos]? with
  | none =>
    have : read1 s.data st.pos = none := by
      rw [read1_eq, readW, if_neg]
      have := List.getElem?_eq_none_iff.mp hb
      omega
    rw [here_bind_none this]
    exact Or.inl rfl
  | some b =>
    rw [here_bind_some (read1_getElem hb), addPos_bind, getPos_bind]
    generalize hx0 : (⟨st.pos + 1, st.out⟩ : RS) = x0
    generalize x0.pos = p0
    have hx0' : updates x0.out = updates st.out := by rw [← hx0]
    by_cases h31 : b.toNat = MLOG_MULTI_REC_END
    · rw [if_pos h31]; exact Or.inl hx0'
    · rw [if_neg h31, typeOf_eq]
      have hd : ∀ x : RS, updates x.out = updates st.out → updates (dispatch cfg s (typeOf b) x).st.out = updates st.out ∨
          (Option.map typeOf (some b) = some 20 ∧
            ∃ p, OneUpdate cfg s.data p (updates st.out) (updates (dispatch cfg s (typeOf b) x).st.out)) := by
        intro x hx
        by_cases h20 : typeOf b = 20
        · right
          refine ⟨congrArg some h20, x.pos + 2, ?_⟩
          rw [h20, ← hx]
          have e : dispatch cfg s 20 = ign (mlogUndoInsert cfg s) := rfl
          rw [e]
          have := C49_undo_record cfg s x
          unfold ign
          rw [GoM.bind_run]
          cases hr : mlogUndoInsert cfg s x with
          | ok a t => rw [hr] at this; exact this
          | panic t => rw [hr] at this; exact this
          | hang t => rw [hr] at this; exact this
        · left
          rw [C49_other_types cfg s _ h20, hx]
      have hkey : ∀ (P Q : RS → Prop) (m : RM Ctl) (x : RS), P x → Tr P Q m → Q (m x).st := fun P Q m x h1 h2 => h2 x h1
      apply hkey (fun x => updates x.out = updates st.out) (fun x => updates x.out = updates st.out ∨
          (Option.map typeOf (some b) = some 20 ∧ ∃ p, OneUpdate cfg s.data p (updates st.out) (updates x.out))) _ x0 hx0'
      have hq : ∀ x : RS, updates x.out = updates st.out → updates x.out = updates st.out ∨
          (Option.map typeOf (some b) = some 20 ∧ ∃ p, OneUpdate cfg s.data p (updates st.out) (updates x.out)) := fun _ h => Or.inl h
      refine Tr.ite (fun _ => ?_) (fun _ => ?_)
      case refine_2 => exact hd
      refine Tr.bind (Quiet.here _ _ _) hq fun sp => Tr.bind (Quiet.addPos _ _) hq fun _ => ?_
      split
      · exact Tr.of_keeps (Keeps.pure _) hq
      · refine Tr.bind (Quiet.here _ _ _) hq fun sp => Tr.bind (Quiet.addPos _ _) hq fun _ => ?_
        split
        · exact Tr.of_keeps (Keeps.pure _) hq
        · refine Tr.ite (fun _ => ?_) (fun _ => ?_)
          · exact Tr.of_keeps (Keeps.bind (Quiet.setPos _ _) fun _ => Keeps.pure _) hq
          · exact hd

/-- a line that the tool may print as an UPDATE statement -/
def StatementOf (cfg : RCfg) (l : Bytes) : Prop :=
  ∃ id table pk cols, cfg.tables.get? id = some table ∧ filterPrints cfg table = true ∧ l = updateStmt cfg.env.ff table pk cols

theorem redoLoop_updates (cfg : RCfg) (s : Stream) (fuel : Nat) (st : RS) : ∃ new,
    updates (redoLoop cfg s fuel st).st.out = updates st.out ++ new ∧ new.length ≤ fuel ∧ ∀ l ∈ new, StatementOf cfg l := by
  induction fuel generalizing st with
  | zero => exact ⟨[], by simp [redoLoop, R.st], by simp, by simp⟩
  | succ fuel ih =>
    rw [redoLoop, getPos_bind]
    by_cases hl : s.data.length < st.pos + 5
    · rw [if_pos hl]; exact ⟨[], by simp [R.st], by simp, by simp⟩
    · rw [if_neg hl, GoM.bind_run]
      have hstep : ∃ new, updates (redoStep cfg s st).st.out = updates st.out ++ new ∧ new.length ≤ 1 ∧
          ∀ l ∈ new, StatementOf cfg l := by
        rcases C49_step cfg s st with h | ⟨_, p, h | ⟨_, id, t, pk, cs, h1, h2, h3⟩⟩
        · exact ⟨[], by simp [h], by simp, by simp⟩
        · exact ⟨[], by simp [h], by simp, by simp⟩
        · refine ⟨[_], h3, by simp, ?_⟩
          intro l hl
          rw [List.mem_singleton] at hl
          exact ⟨id, t, pk, cs, h1, h2, hl⟩
      obtain ⟨new, h1, h2, h3⟩ := hstep
      cases hr : redoStep cfg s st with
      | panic t => rw [hr] at h1; exact ⟨new, h1, by omega, h3⟩
      | hang t => rw [hr] at h1; exact ⟨new, h1, by omega, h3⟩
      | ok c t =>
        rw [hr] at h1
        cases c with
        | ret e => exact ⟨new, h1, by omega, h3⟩
        | next =>
          dsimp only
          obtain ⟨new', g1, g2, g3⟩ := ih t
          have h1' : updates t.out = updates st.out ++ new := h1
          refine ⟨new ++ new', by rw [g1, h1', List.append_assoc], by rw [List.length_append]; omega, ?_⟩
          intro l hl
          rcases List.mem_append.mp hl with hl | hl
          · exact h3 l hl
          · exact g3 l hl

def outOf {α : Type} (r : R Out α) : Out := r.st

/-- **C49**, a whole stream (and C43): every UPDATE statement printed is one for a table of the dictionary that passes the
name filter, whatever the stream contains and however the parsing ends. -/
theorem C49_stream (cfg : RCfg) (s : Stream) (out : Out) : ∃ new,
    updates (outOf (parseRedoBlockData cfg s out)) = updates out ++ new ∧ ∀ l ∈ new, StatementOf cfg l := by
  obtain ⟨new, h1, _, h3⟩ := redoLoop_updates cfg s (s.data.length + 1) ⟨0, out⟩
  refine ⟨new, ?_, h3⟩
  rw [← h1]
  unfold parseRedoBlockData
  cases redoLoop cfg s (s.data.length + 1) ⟨0, out⟩ <;> rfl

/-- with an empty dictionary nothing is printed -/
theorem C49_no_tables (cfg : RCfg) (s : Stream) (out : Out) (h : cfg.tables = []) :
    updates (outOf (parseRedoBlockData cfg s out)) = updates out := by
  obtain ⟨new, h1, h2⟩ := C49_stream cfg s out
  rw [h1]
  cases new with
  | nil => simp
  | cons l new =>
    obtain ⟨id, t, _, _, h3, _⟩ := h2 l (by simp)
    rw [h] at h3
    cases h3

/-- An undo record of a deletion or insertion, or with any other kind, prints no statement. -/
theorem C49_other_kinds (cfg : RCfg) (s : Stream) (st : RS) (b : UInt8) (hb : s.data[st.pos + 2]? = some b) (hk : undoKind b ≠ 12) :
    updates (mlogUndoInsert cfg s st).st.out = updates st.out := by
  rcases C49_undo_record cfg s st with h | ⟨h, _⟩
  · exact h
  · rw [hb] at h
    exact absurd (Option.some.inj h) hk

example : undoKind 0x1B ≠ 12 ∧ undoKind 0x9C = 12 := by decide

/-! ## C46 -/

theorem recover_noPanic {α : Type} (m : RM α) (z : α) (f : RS → RS) (s t : RS) : GoM.recover m z f s ≠ .panic t := by
  unfold GoM.recover
  cases m s <;> intro h <;> cases h

/-- **C46**, update-in-place records: never a panic. -/
theorem C46_update_in_place (d : Bytes) (t : Nat) (st u : RS) : mlogRecUpdateInPlace d t st ≠ .panic u :=
  recover_noPanic _ _ _ _ _

/-- **C46**, undo records: the only panic is the one on a missing length field. -/
theorem C46_undo_iff (cfg : RCfg) (s : Stream) (st : RS) :
    (∃ u, mlogUndoInsert cfg s st = .panic u) ↔ s.data.length < st.pos + 2 := by
  unfold mlogUndoInsert
  constructor
  · rintro ⟨u, h⟩
    rcases Nat.lt_or_ge s.data.length (st.pos + 2) with hl | hl
    · exact hl
    · have hr : read2 s.data st.pos = some (numAt s.data st.pos 2) := by rw [read2_eq, read_at s.data st.pos hl]
      rw [here_bind_some hr, addPos_bind, getPos_bind] at h
      exact absurd h (recover_noPanic _ _ _ _ _)
  · intro hl
    have hr : read2 s.data st.pos = none := by rw [read2_eq, readW, if_neg (by omega)]
    rw [here_bind_none hr]
    exact ⟨_, rfl⟩

/-- **C46**, undo records with a complete length field: never a panic, whatever the body contains. -/
theorem C46_undo_partial (cfg : RCfg) (s : Stream) (st u : RS) (h : st.pos + 2 ≤ s.data.length) :
    mlogUndoInsert cfg s st ≠ .panic u := by
  intro hp
  have := (C46_undo_iff cfg s st).mp ⟨u, hp⟩
  omega

/-- **C46**, as stated: a record of one of these types at any place of any stream does not abort the program. -/
def C46_statement : Prop := ∀ cfg (s : Stream) (st u : RS) (t : Nat), t = 20 ∨ t = 13 ∨ t = 41 → dispatch cfg s t st ≠ .panic u

/-- **C46 is false** when the stream ends inside the length field of an undo record. -/
theorem C46_false : ¬ C46_statement := by
  intro h
  exact h ⟨someEnv, [], [], []⟩ ⟨[20, 0x80, 0, 0x80, 0], 0⟩ ⟨5, []⟩ ⟨5, []⟩ 20 (Or.inl rfl) rfl

/-- This happens when that stream is parsed. -/
theorem C46_false_run : parseRedoBlockData ⟨someEnv, [], [], []⟩ ⟨[20, 0x80, 0, 0x80, 0], 0⟩ [] = .panic [] := by decide

/-- **C46**, both types, with at least two bytes left -/
theorem C46_types_partial (cfg : RCfg) (s : Stream) (st u : RS) (t : Nat) (ht : t = 20 ∨ t = 13 ∨ t = 41)
    (hl : st.pos + 2 ≤ s.data.length) : dispatch cfg s t st ≠ .panic u := by
  have key : ∀ (m : RM (Option Bytes)), (∀ u, m st ≠ .panic u) → ign m st ≠ .panic u := by
    intro m hm h
    unfold ign at h
    rw [GoM.bind_run] at h
    cases hr : m st with
    | ok a t => rw [hr] at h; cases h
    | panic t => exact hm t hr
    | hang t => rw [hr] at h; cases h
  rcases ht with rfl | rfl | rfl
  · exact key _ fun u => C46_undo_partial cfg s st u hl
  · exact key _ fun u => C46_update_in_place s.data 13 st u
  · exact key _ fun u => C46_update_in_place s.data 41 st u

/-! ## C45 -/

theorem lift_ok {α σ : Type} {o : Option α} {s t : σ} {a : α} (h : (GoM.lift o : GoM σ α) s = .ok a t) : o = some a ∧ t = s := by
  cases o with
  | none => cases h
  | some x => cases h; exact ⟨rfl, rfl⟩

theorem here_ok {α : Type} {f : Bytes → Nat → Option α} {d : Bytes} {s t : RS} {a : α} (h : here f d s = .ok a t) :
    f d s.pos = some a ∧ t = s := by
  rw [here_run] at h
  cases hf : f d s.pos with
  | none => rw [hf] at h; cases h
  | some x => rw [hf] at h; cases h; exact ⟨rfl, rfl⟩

/-- the reader's error: the stream ends within five bytes of the cursor -/
def AtEnd (d : Bytes) (e : Bytes) (t : RS) : Prop := e = errTooShortCompressed ∧ d.length < t.pos + 5

theorem mpc_atEnd {d : Bytes} {s : RS} {pc : PC} {e : Bytes} (h : matchParseCompressed d s.pos = some pc) (he : pc.err = some e) :
    AtEnd d e s := by
  rcases mpc_err h with h1 | ⟨h1, h2⟩
  · rw [he] at h1; cases h1
  · rw [he] at h1; cases h1; exact ⟨rfl, h2⟩

theorem pkLoop_error (cfg : RCfg) (s : Stream) (table : Table) (fs : List IdxField) (st t : RS) (e : Bytes)
    (h : pkLoop cfg s table fs st = .ok (.error e) t) : AtEnd s.data e t := by
  induction fs generalizing st with
  | nil => cases h
  | cons f fs ih =>
    rw [pkLoop] at h
    obtain ⟨pc, s1, h1, h⟩ := GoM.bind_eq_ok h
    obtain ⟨g1, e1⟩ := here_ok h1
    cases he : pc.err with
    | some e' => rw [he] at h; cases h; rw [e1]; exact mpc_atEnd g1 he
    | none =>
      rw [he] at h
      obtain ⟨_, s2, _, h⟩ := GoM.bind_eq_ok h
      obtain ⟨_, s3, _, h⟩ := GoM.bind_eq_ok h
      obtain ⟨_, s4, _, h⟩ := GoM.bind_eq_ok h
      obtain ⟨_, s5, _, h⟩ := GoM.bind_eq_ok h
      obtain ⟨_, s6, _, h⟩ := GoM.bind_eq_ok h
      obtain ⟨r, s7, h7, h⟩ := GoM.bind_eq_ok h
      cases r with
      | error e' => cases h; exact ih s6 h7
      | ok rest => cases h

theorem updLoop_error (cfg : RCfg) (s : Stream) (table : Table) (n : Nat) (st t : RS) (e : Bytes)
    (h : updLoop cfg s table n st = .ok (.error e) t) : AtEnd s.data e t ∨ e = b! "field not found" := by
  induction n generalizing st with
  | zero => cases h
  | succ n ih =>
    rw [updLoop] at h
    obtain ⟨pc, s1, h1, h⟩ := GoM.bind_eq_ok h
    obtain ⟨g1, e1⟩ := here_ok h1
    cases he : pc.err with
    | some e' => rw [he] at h; cases h; rw [e1]; exact Or.inl (mpc_atEnd g1 he)
    | none =>
      rw [he] at h
      obtain ⟨_, s2, _, h⟩ := GoM.bind_eq_ok h
      cases hc : getColumnByPos table pc.val with
      | none => rw [hc] at h; cases h; exact Or.inr rfl
      | some c =>
        rw [hc] at h
        obtain ⟨_, s3, _, h⟩ := GoM.bind_eq_ok h
        obtain ⟨_, s4, _, h⟩ := GoM.bind_eq_ok h
        obtain ⟨_, s5, _, h⟩ := GoM.bind_eq_ok h
        obtain ⟨_, s6, _, h⟩ := GoM.bind_eq_ok h
        obtain ⟨_, s7, _, h⟩ := GoM.bind_eq_ok h
        obtain ⟨r, s8, h8, h⟩ := GoM.bind_eq_ok h
        cases r with
        | error e' => cases h; exact ih s7 h8
        | ok rest => cases h

theorem setEnd {n : Nat} {st t : RS} {r x : Option Bytes} (h : (setPos n >>= fun _ => (pure x : RM (Option Bytes))) st = .ok r t) :
    r = x ∧ t.pos = n := by
  cases h; exact ⟨rfl, rfl⟩

theorem undoBody_end (cfg : RCfg) (s : Stream) (q n : Nat) (st t : RS) (r : Option Bytes) (h : undoBody cfg s q n st = .ok r t) :
    t.pos = q + n ∨ ∃ e, r = some e ∧ (AtEnd s.data e t ∨ e = b! "field not found") := by
  unfold undoBody at h
  dsimp only at h
  obtain ⟨_, s1, _, h⟩ := GoM.bind_eq_ok h
  obtain ⟨_, s2, _, h⟩ := GoM.bind_eq_ok h
  obtain ⟨_, s3, _, h⟩ := GoM.bind_eq_ok h
  obtain ⟨x, s4, _, h⟩ := GoM.bind_eq_ok h
  cases hx : x.2 with
  | some e => rw [hx] at h; exact Or.inl (setEnd h).2
  | none =>
    rw [hx] at h
    obtain ⟨_, s5, _, h⟩ := GoM.bind_eq_ok h
    obtain ⟨_, s6, _, h⟩ := GoM.bind_eq_ok h
    obtain ⟨y, s7, _, h⟩ := GoM.bind_eq_ok h
    cases hy : y.2 with
    | some e => rw [hy] at h; exact Or.inl (setEnd h).2
    | none =>
      rw [hy] at h
      obtain ⟨_, s8, _, h⟩ := GoM.bind_eq_ok h
      obtain ⟨_, s9, _, h⟩ := GoM.bind_eq_ok h
      cases ht : cfg.tables.get? y.1 with
      | none => rw [ht] at h; exact Or.inl (setEnd h).2
      | some table =>
        rw [ht] at h
        obtain ⟨r1, s10, h10, h⟩ := GoM.bind_eq_ok h
        cases r1 with
        | error e => cases h; exact Or.inr ⟨e, rfl, Or.inl (pkLoop_error _ _ _ _ _ _ _ h10)⟩
        | ok pk =>
          dsimp only at h
          split at h
          · obtain ⟨pc, s11, h11, h⟩ := GoM.bind_eq_ok h
            obtain ⟨g11, e11⟩ := here_ok h11
            cases he : pc.err with
            | some e => rw [he] at h; cases h; rw [e11]; exact Or.inr ⟨e, rfl, Or.inl (mpc_atEnd g11 he)⟩
            | none =>
              rw [he] at h
              obtain ⟨_, s12, _, h⟩ := GoM.bind_eq_ok h
              obtain ⟨r2, s13, h13, h⟩ := GoM.bind_eq_ok h
              cases r2 with
              | error e => cases h; exact Or.inr ⟨e, rfl, updLoop_error _ _ _ _ _ _ _ h13⟩
              | ok cols =>
                obtain ⟨_, s14, _, h⟩ := GoM.bind_eq_ok h
                exact Or.inl (setEnd h).2
          · exact Or.inl (setEnd h).2

/-- What happens to the cursor: after an undo record with length field `n` it is at the end of the record, except when the
record names a column that the table does not have, or the stream ends within five bytes of the cursor (in which case the
main loop stops). -/
theorem C45_exact (cfg : RCfg) (s : Stream) (st : RS) (n : Nat) (hn : read2 s.data st.pos = some n) :
    ∃ r t, mlogUndoInsert cfg s st = .ok r t ∧ (t.pos = st.pos + 2 + n ∨ s.data.length < t.pos + 5 ∨ r = some (b! "field not found")) := by
  have hl : st.pos + 2 ≤ s.data.length := by
    rw [read2_eq, readW] at hn
    by_cases hc : st.pos + 2 ≤ s.data.length
    · exact hc
    · rw [if_neg hc] at hn
      cases hn
  have hf := mlogUndoInsert_fwd (p := 0) cfg s st (Nat.zero_le _)
  cases hr : mlogUndoInsert cfg s st with
  | hang t => rw [hr] at hf; exact hf.elim
  | panic t => exact absurd hr (C46_undo_partial cfg s st t hl)
  | ok r t =>
    refine ⟨r, t, rfl, ?_⟩
    unfold mlogUndoInsert at hr
    rw [here_bind_some hn, addPos_bind, getPos_bind] at hr
    dsimp only at hr
    unfold GoM.recover at hr
    cases hb : undoBody cfg s (st.pos + 2) n ⟨st.pos + 2, st.out⟩ with
    | hang u => rw [hb] at hr; cases hr
    | panic u => rw [hb] at hr; cases hr; exact Or.inl rfl
    | ok r' t' =>
      rw [hb] at hr
      cases hr
      rcases undoBody_end _ _ _ _ _ _ _ hb with h | ⟨e, rfl, h | h⟩
      · exact Or.inl h
      · exact Or.inr (Or.inl h.2)
      · exact Or.inr (Or.inr (congrArg some h))

/-- **C45**, as stated -/
def C45_statement : Prop := ∀ cfg (s : Stream) (st : RS) (n : Nat), read2 s.data st.pos = some n → st.pos + 2 + n ≤ s.data.length →
  ∃ r t, mlogUndoInsert cfg s st = .ok r t ∧ t.pos = st.pos + 2 + n

/-- **C45**, unless the record names a column that the table does not have or ends with the stream. -/
theorem C45_confined_partial (cfg : RCfg) (s : Stream) (st : RS) (n : Nat) (hn : read2 s.data st.pos = some n) (r : Option Bytes)
    (t : RS) (hr : mlogUndoInsert cfg s st = .ok r t) (hc : r ≠ some (b! "field not found")) (hl : t.pos + 5 ≤ s.data.length) :
    t.pos = st.pos + 2 + n := by
  obtain ⟨r', t', h1, h2⟩ := C45_exact cfg s st n hn
  rw [hr] at h1
  cases h1
  rcases h2 with h | h | h
  · exact h
  · omega
  · exact absurd h hc

/-- An undo record of an update with one column; 30 bytes long, for a table without columns. -/
def strayUndo : Bytes := [0, 30, 12, 0, 1, 0, 0, 0, 0, 0, 0, 0, 0, 0, 0, 0, 1, 0] ++ List.replicate 20 0

/-- **C45 is false**: a column number beyond the table's columns leaves the cursor inside the record. -/
theorem C45_false : ¬ C45_statement := by
  intro h
  obtain ⟨r, t, h1, h2⟩ := h ⟨someEnv, [(1, {})], [], []⟩ ⟨strayUndo, 0⟩ ⟨0, []⟩ 30 (by decide) (by decide)
  have e : mlogUndoInsert ⟨someEnv, [(1, {})], [], []⟩ ⟨strayUndo, 0⟩ ⟨0, []⟩ = .ok (some (b! "field not found")) ⟨18, []⟩ := by decide
  rw [e] at h1
  cases h1
  revert h2
  decide

/-- non-vacuity of `C45_confined_partial`: the same record for an unknown table -/
example : mlogUndoInsert ⟨someEnv, [], [], []⟩ ⟨strayUndo, 0⟩ ⟨0, []⟩ = .ok (some (b! "table not found, table id is 1")) ⟨32, []⟩ := by
  decide

end Verif.Props
