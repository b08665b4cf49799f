import Verif.Model.DataPage
import Verif.Proofs.GoM
/-!
# Invariants of stateful code, and code that prints nothing
-/

namespace Verif

variable {σ τ α β : Type}

/-- the state reached, whatever the outcome -/
def R.st : R σ α → σ
  | .ok _ s => s
  | .panic s => s
  | .hang s => s

/-- `m` preserves `P`, whatever its outcome. -/
def Keeps (P : σ → Prop) (m : GoM σ α) : Prop := ∀ s, P s → P (m s).st

namespace Keeps
variable {P : σ → Prop}

theorem pure (a : α) : Keeps P (pure a : GoM σ α) := fun _ h => h
theorem panic : Keeps P (GoM.panic : GoM σ α) := fun _ h => h
theorem hang : Keeps P (GoM.hang : GoM σ α) := fun _ h => h
theorem get : Keeps P (GoM.get : GoM σ σ) := fun _ h => h
theorem lift (o : Option α) : Keeps P (GoM.lift o : GoM σ α) := fun s h => by cases o <;> exact h
theorem modify (f : σ → σ) (hf : ∀ s, P s → P (f s)) : Keeps P (GoM.modify f) := fun s h => hf s h

theorem bind {m : GoM σ α} {f : α → GoM σ β} (hm : Keeps P m) (hf : ∀ a, Keeps P (f a)) : Keeps P (m >>= f) := by
  intro s h
  rw [GoM.bind_run]
  have := hm s h
  cases hr : m s with
  | ok a t => rw [hr] at this; exact hf a t this
  | panic t => rw [hr] at this; exact this
  | hang t => rw [hr] at this; exact this

theorem ite {c : Prop} [Decidable c] {m n : GoM σ α} (hm : c → Keeps P m) (hn : ¬ c → Keeps P n) :
    Keeps P (if c then m else n) := by
  split
  · exact hm ‹_›
  · exact hn ‹_›

theorem zoom {Q : τ → Prop} {g : σ → τ} {p : τ → σ → σ} {m : GoM τ α} (hm : Keeps Q m) (hg : ∀ s, P s → Q (g s))
    (hp : ∀ s t, P s → Q t → P (p t s)) : Keeps P (GoM.zoom g p m) := by
  intro s h
  rw [GoM.zoom_run]
  have := hm (g s) (hg s h)
  cases hr : m (g s) with
  | ok a t => rw [hr] at this; exact hp s t h this
  | panic t => rw [hr] at this; exact hp s t h this
  | hang t => rw [hr] at this; exact hp s t h this

end Keeps

/-- the type whose decoding prints a line -/
def isDecimal (ftype mtype : Nat) : Prop := ftype = DATA_FIXBINARY ∧ mtype = MYSQL_TYPE_NEWDECIMAL
instance (a b : Nat) : Decidable (isDecimal a b) := inferInstanceAs (Decidable (_ ∧ _))

theorem parseData_quiet (env : Env) (t m : Nat) (data : Bytes) (fl fx : Nat) (u f : Bool) (h : ¬ isDecimal t m) (o : Out) :
    Keeps (· = o) (parseData env t m data fl fx u f) := by
  unfold parseData
  dsimp only
  repeat' first
    | exact Keeps.pure _
    | exact Keeps.lift _
    | refine Keeps.bind (Keeps.lift _) fun _ => ?_
    | refine Keeps.bind ?_ fun _ => ?_
    | (refine Keeps.ite (fun _ => ?_) (fun _ => ?_))
  all_goals exact absurd ⟨by assumption, by assumption⟩ h

/-- No column of the list has that type. -/
def NoDecimal (cols : List Column) : Prop := ∀ c ∈ cols, ¬ isDecimal c.ftype c.mtype

theorem parseField_quiet (env : Env) (d : Bytes) (offsets : List Nat) (i : Nat) (c : Column) (h : ¬ isDecimal c.ftype c.mtype)
    (o : Out) : Keeps (· = o) (parseField env d offsets i c) := by
  unfold parseField
  refine Keeps.bind (Keeps.lift _) fun x => ?_
  obtain ⟨data, len⟩ := x
  refine Keeps.ite (fun _ => Keeps.ite (fun _ => Keeps.pure _) (fun _ => Keeps.pure _)) (fun _ => ?_)
  exact Keeps.bind (parseData_quiet env _ _ _ _ _ _ _ h o) fun _ => Keeps.pure _

theorem parseField_types (env : Env) (d : Bytes) (offsets : List Nat) (i : Nat) (c c' : Column) (o o' : Out)
    (h : parseField env d offsets i c o = .ok c' o') : c'.ftype = c.ftype ∧ c'.mtype = c.mtype := by
  unfold parseField at h
  obtain ⟨⟨data, len⟩, s1, _, h2⟩ := GoM.bind_eq_ok h
  dsimp only at h2
  by_cases hl : data.length < len
  · rw [if_pos hl] at h2
    by_cases hn : len = 0xFFFFFFFF
    · rw [if_pos hn] at h2; cases h2; exact ⟨rfl, rfl⟩
    · rw [if_neg hn] at h2; cases h2; exact ⟨rfl, rfl⟩
  · rw [if_neg hl] at h2
    obtain ⟨⟨v, b⟩, s2, _, h3⟩ := GoM.bind_eq_ok h2
    cases h3
    exact ⟨rfl, rfl⟩

theorem parseRecordsLoop_quiet (env : Env) (d : Bytes) (offsets : List Nat) (i : Nat) (cs : List Column) (h : NoDecimal cs)
    (o : Out) : Keeps (· = o) (parseRecordsLoop env d offsets i cs) ∧
      ∀ cs' o1 o2, parseRecordsLoop env d offsets i cs o1 = .ok cs' o2 → NoDecimal cs' := by
  induction cs generalizing i with
  | nil =>
    refine ⟨Keeps.pure _, ?_⟩
    intro cs' o1 o2 h
    cases h
    intro c hc; cases hc
  | cons c cs ih =>
    have hc := h c (by simp)
    obtain ⟨ih1, ih2⟩ := ih (i + 1) fun x hx => h x (by simp [hx])
    unfold parseRecordsLoop
    refine ⟨Keeps.bind (parseField_quiet env d offsets i c hc o) fun _ => Keeps.bind ih1 fun _ => Keeps.pure _, ?_⟩
    intro cs' o1 o2 hr
    obtain ⟨c', s1, h1, h2⟩ := GoM.bind_eq_ok hr
    obtain ⟨cs'', s2, h3, h4⟩ := GoM.bind_eq_ok h2
    cases h4
    intro x hx
    rcases List.mem_cons.mp hx with rfl | hx
    · obtain ⟨e1, e2⟩ := parseField_types env d offsets i c _ _ _ h1
      rw [e1, e2]; exact hc
    · exact ih2 _ _ _ h3 x hx

/-- the state of a page walk: output `o`, and no column of that type -/
def QuietState (o : Out) (s : PState) : Prop := s.out = o ∧ NoDecimal s.cols

theorem parseRecords_quiet (env : Env) (d : Bytes) (offsets : List Nat) (o : Out) :
    Keeps (QuietState o) (parseRecords env d offsets) := by
  rintro ⟨cols, out⟩ ⟨rfl, hn⟩
  obtain ⟨h1, h2⟩ := parseRecordsLoop_quiet env d offsets 0 cols hn out
  unfold parseRecords
  rw [GoM.get_bind, GoM.bind_run, GoM.zoom_run]
  have h1 := h1 out rfl
  dsimp only
  cases hr : parseRecordsLoop env d offsets 0 cols out with
  | ok cs t =>
    rw [hr] at h1
    have hs : QuietState out ⟨cs, t⟩ := ⟨h1, h2 _ _ _ hr⟩
    dsimp only
    rw [GoM.modify_bind]
    exact Keeps.bind (Keeps.lift _) (fun _ => Keeps.pure _) _ hs
  | panic t => rw [hr] at h1; exact ⟨h1, hn⟩
  | hang t => rw [hr] at h1; exact ⟨h1, hn⟩

theorem parseOne_quiet (env : Env) (tables : TableMap) (d : Bytes) (c : Bool) (x : Nat) (o : Out) :
    Keeps (QuietState o) (parseOne env tables d c x) := by
  unfold parseOne
  refine Keeps.bind Keeps.get fun s => Keeps.bind (Keeps.lift _) fun r => ?_
  cases r with
  | none => exact Keeps.pure _
  | some offsets =>
    refine Keeps.bind (Keeps.lift _) fun b => Keeps.ite (fun _ => ?_) (fun _ => Keeps.pure _)
    exact Keeps.bind (Keeps.lift _) fun y => Keeps.bind (parseRecords_quiet env y offsets o) fun _ =>
      Keeps.bind (Keeps.lift _) fun _ => Keeps.pure _

theorem walk_quiet (env : Env) (tables : TableMap) (d : Bytes) (c : Bool) (fuel x : Nat) (rows : List (List Column)) (o : Out) :
    Keeps (QuietState o) (walk env tables d c fuel x rows) := by
  induction fuel generalizing x rows with
  | zero => exact Keeps.hang
  | succ fuel ih =>
    unfold walk
    refine Keeps.ite (fun _ => ?_) (fun _ => Keeps.bind (Keeps.lift _) fun _ => Keeps.pure _)
    refine Keeps.bind (parseOne_quiet env tables d c x o) fun r => ?_
    cases r with
    | none => exact Keeps.pure _
    | some cs =>
      refine Keeps.bind (Keeps.lift _) fun n => ?_
      cases n with
      | none => exact Keeps.pure _
      | some y => exact ih y _

theorem parsePage_quiet (env : Env) (tables : TableMap) (d : Bytes) (recovery : Bool) (free : Nat) (o : Out) :
    Keeps (QuietState o) (parsePage env tables d recovery free) := by
  unfold parsePage
  exact Keeps.bind (Keeps.lift _) fun _ => Keeps.bind (Keeps.lift _) fun _ => walk_quiet env tables d _ _ _ _ o

end Verif
