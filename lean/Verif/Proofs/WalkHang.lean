import Mathlib.Data.Fintype.Pigeonhole
import Mathlib.Data.Fintype.Card
import Verif.Proofs.Walk
/-! When the walk over the records of a page does not end. -/

set_option linter.unusedSimpArgs false

namespace Verif
open Spec

/-- code without unbounded loops -/
def NoHang {σ α : Type} (m : GoM σ α) : Prop := ∀ s s', m s ≠ .hang s'

theorem NoHang.bind {σ α β : Type} {m : GoM σ α} {f : α → GoM σ β} (h : NoHang m) (hf : ∀ a, NoHang (f a)) :
    NoHang (m >>= f) := by
  intro s s' hh
  rw [GoM.bind_run] at hh
  cases hm : m s with
  | ok a t => rw [hm] at hh; exact hf a t s' hh
  | panic t => rw [hm] at hh; cases hh
  | hang t => exact h s t hm

theorem NoHang.pure {σ α : Type} (a : α) : NoHang (pure a : GoM σ α) := by intro s s' h; cases h
theorem NoHang.lift {σ α : Type} (o : Option α) : NoHang (GoM.lift o : GoM σ α) := by
  intro s s' h; cases o <;> cases h
theorem NoHang.modify {σ : Type} (f : σ → σ) : NoHang (GoM.modify f) := by intro s s' h; cases h
theorem NoHang.get {σ : Type} : NoHang (GoM.get : GoM σ σ) := by intro s s' h; cases h
theorem NoHang.zoom {σ τ α : Type} (g : σ → τ) (p : τ → σ → σ) {m : GoM τ α} (h : NoHang m) : NoHang (GoM.zoom g p m) := by
  intro s s' hh
  rw [GoM.zoom_run] at hh
  cases hm : m (g s) with
  | ok a t => rw [hm] at hh; cases hh
  | panic t => rw [hm] at hh; cases hh
  | hang t => exact h _ _ hm
theorem NoHang.ite {σ α : Type} {c : Prop} [Decidable c] {m n : GoM σ α} (h : NoHang m) (h' : NoHang n) :
    NoHang (if c then m else n) := by split <;> assumption

theorem parseData_noHang (env : Env) (t m : Nat) (data : Bytes) (fl fx : Nat) (u b : Bool) :
    NoHang (parseData env t m data fl fx u b) := by
  unfold parseData println
  repeat' (first
    | exact NoHang.pure _
    | exact NoHang.lift _
    | exact NoHang.modify _
    | refine NoHang.ite ?_ ?_
    | refine NoHang.bind ?_ ?_
    | intro _)

theorem parseRecordsLoop_noHang (env : Env) (o : Bytes) (offsets : List Nat) (i : Nat) (cs : List Column) :
    NoHang (parseRecordsLoop env o offsets i cs) := by
  induction cs generalizing i with
  | nil => exact NoHang.pure _
  | cons c cs ih =>
    unfold parseRecordsLoop
    refine NoHang.bind ?_ fun _ => NoHang.bind (ih _) fun _ => NoHang.pure _
    unfold parseField
    refine NoHang.bind (NoHang.lift _) ?_
    rintro ⟨data, len⟩
    refine NoHang.ite (NoHang.ite (NoHang.pure _) (NoHang.pure _)) (NoHang.bind (parseData_noHang _ _ _ _ _ _ _ _) ?_)
    rintro ⟨v, b⟩
    exact NoHang.pure _

theorem parseOne_noHang (env : Env) (tables : TableMap) (d : Bytes) (c : Bool) (o : Nat) :
    NoHang (parseOne env tables d c o) := by
  unfold parseOne
  refine NoHang.bind NoHang.get fun s => NoHang.bind (NoHang.lift _) fun r => ?_
  cases r with
  | none => exact NoHang.pure _
  | some offsets =>
    refine NoHang.bind (NoHang.lift _) fun b => NoHang.ite ?_ (NoHang.pure _)
    refine NoHang.bind (NoHang.lift _) fun o => NoHang.bind ?_ fun _ => NoHang.bind (NoHang.lift _) fun _ => NoHang.pure _
    unfold parseRecords
    exact NoHang.bind NoHang.get fun _ => NoHang.bind (NoHang.zoom _ _ (parseRecordsLoop_noHang _ _ _ _ _)) fun _ =>
      NoHang.bind (NoHang.modify _) fun _ => NoHang.bind (NoHang.lift _) fun _ => NoHang.pure _

/-! ## Control flow of the walk -/

/-- The record after the one at `o`, if the walk goes on; `K` are the column definitions. -/
def stepC (env : Env) (tables : TableMap) (d : Bytes) (c : Bool) (K : List Column) (o : Nat) : Option Nat :=
  if o < 16384 - 6 ∧ o ≠ supremumAt c then
    match parseOne env tables d c o ⟨K, []⟩ with
    | .ok (some _) _ => (nextOffset d c o).bind id
    | _ => none
  else none

/-- `n` steps -/
def steps (f : Nat → Option Nat) : Nat → Nat → Option Nat
  | 0, o => some o
  | n + 1, o => (f o).bind (steps f n)

theorem stable_true : Stable (fun _ _ => True) := fun _ _ _ _ => trivial

/-- the walk hangs exactly if `fuel` steps are possible -/
theorem walk_hang_iff (env : Env) (tables : TableMap) (d : Bytes) (c : Bool) (K : List Column) (fuel o : Nat)
    (rows : List (List Column)) (s : PState) (hK : s.cols.map skel = K) :
    (∃ s', walk env tables d c fuel o rows s = .hang s') ↔ (steps (stepC env tables d c K) fuel o).isSome := by
  induction fuel generalizing o rows s with
  | zero => exact ⟨fun _ => rfl, fun _ => ⟨s, rfl⟩⟩
  | succ fuel ih =>
    unfold walk steps
    rw [supremum_eq]
    by_cases hc : o < 16384 - 6 ∧ o ≠ supremumAt c
    · rw [if_pos hc]
      have hrel := parseOne_static false (fun _ _ => True) stable_true env tables d c o K s ⟨K, []⟩
        ⟨hK, by rw [← hK]; exact map_skel_idem _, trivial⟩
      have hstep : stepC env tables d c K o = match parseOne env tables d c o ⟨K, []⟩ with
          | .ok (some _) _ => (nextOffset d c o).bind id
          | _ => none := by unfold stepC; rw [if_pos hc]
      rw [hstep]
      have hnh := parseOne_noHang env tables d c o s
      rw [GoM.bind_run]
      generalize parseOne env tables d c o s = r1 at hrel hnh
      generalize parseOne env tables d c o ⟨K, []⟩ = r2 at hrel
      cases hrel with
      | panic _ => simp
      | hang _ => exact absurd rfl (hnh _)
      | @ok a b s1 t1 hp hs =>
        cases a with
        | none =>
          cases b with
          | none => simp
          | some _ => exact absurd hp (by simp [RowRel])
        | some cs =>
          cases b with
          | none => exact absurd hp (by simp [RowRel])
          | some ds =>
            dsimp only
            cases hn : nextOffset d c o with
            | none => simp [GoM.bind_run]
            | some r =>
              cases r with
              | none => simp [GoM.bind_run]
              | some o' =>
                simp only [GoM.bind_run, GoM.lift_some, Option.bind_some, id]
                refine ih o' _ s1 ?_
                exact hs.1
    · rw [if_neg hc]
      have : stepC env tables d c K o = none := by unfold stepC; rw [if_neg hc]
      rw [this]
      cases read2 d (38 + 24) <;> simp [GoM.bind_run]

theorem steps_add (f : Nat → Option Nat) (m n o : Nat) : steps f (m + n) o = (steps f m o).bind (steps f n) := by
  induction m generalizing o with
  | zero => rw [Nat.zero_add]; rfl
  | succ m ih =>
    rw [Nat.add_right_comm]
    show (f o).bind (steps f (m + n)) = ((f o).bind (steps f m)).bind (steps f n)
    cases f o with
    | none => rfl
    | some o' => exact ih o'

theorem steps_le (f : Nat → Option Nat) {m n o : Nat} (h : m ≤ n) (hs : (steps f n o).isSome) : (steps f m o).isSome := by
  obtain ⟨k, rfl⟩ := Nat.exists_eq_add_of_le h
  rw [steps_add] at hs
  cases hm : steps f m o with
  | none => rw [hm] at hs; simp at hs
  | some x => rfl

theorem steps_cycle (f : Nat → Option Nat) {m o : Nat} (hm : 0 < m) (h : steps f m o = some o) (n : Nat) :
    (steps f n o).isSome := by
  have : ∀ k, steps f (k * m) o = some o := by
    intro k
    induction k with
    | zero => rw [Nat.zero_mul]; rfl
    | succ k ih => rw [Nat.add_mul, Nat.one_mul, steps_add, ih, Option.bind_some, h]
  exact steps_le f (Nat.le_mul_of_pos_right n hm) (by rw [this]; rfl)

/-- A function that is defined only below `B`, iterated more than `B` times, runs into a cycle. -/
theorem steps_pigeon (f : Nat → Option Nat) (B : Nat) (hB : ∀ o o', f o = some o' → o < B) (o : Nat)
    (h : (steps f (B + 1) o).isSome) :
    ∃ i m x, 0 < m ∧ steps f i o = some x ∧ steps f m x = some x := by
  have hv : ∀ i : Fin (B + 1), ∃ x, steps f i o = some x ∧ x < B := by
    intro i
    have hi := steps_le f (show i.val + 1 ≤ B + 1 by omega) h
    rw [steps_add] at hi
    cases hx : steps f i o with
    | none => rw [hx] at hi; simp at hi
    | some x =>
      refine ⟨x, rfl, ?_⟩
      rw [hx, Option.bind_some] at hi
      unfold steps at hi
      cases hf : f x with
      | none => rw [hf] at hi; simp at hi
      | some y => exact hB _ _ hf
  choose g hg hgB using hv
  obtain ⟨i, j, hij, he⟩ := Fintype.exists_ne_map_eq_of_card_lt (fun i : Fin (B + 1) => (⟨g i, hgB i⟩ : Fin B)) (by simp)
  simp only [Fin.mk.injEq] at he
  wlog hlt : i.val < j.val generalizing i j with H
  · exact H j i (Ne.symm hij) he.symm (by
      have : i.val ≠ j.val := fun h => hij (Fin.ext h)
      omega)
  refine ⟨i, j - i, g i, by omega, hg i, ?_⟩
  have := hg j
  rw [show j.val = i.val + (j.val - i.val) by omega, steps_add, hg i, Option.bind_some] at this
  rw [this, he]

theorem steps_forever (f : Nat → Option Nat) (B : Nat) (hB : ∀ o o', f o = some o' → o < B) (o : Nat)
    (h : (steps f (B + 1) o).isSome) (n : Nat) : (steps f n o).isSome := by
  obtain ⟨i, m, x, hm, hx, hc⟩ := steps_pigeon f B hB o h
  refine steps_le f (Nat.le_add_left n i) ?_
  rw [steps_add, hx, Option.bind_some]
  exact steps_cycle f hm hc n

theorem stepC_lt (env : Env) (tables : TableMap) (d : Bytes) (c : Bool) (K : List Column) (o o' : Nat)
    (h : stepC env tables d c K o = some o') : o < 16384 - 6 ∧ o ≠ supremumAt c ∧ nextOffset d c o = some (some o') := by
  unfold stepC at h
  split at h
  · rename_i hc
    refine ⟨hc.1, hc.2, ?_⟩
    split at h
    · cases hn : nextOffset d c o with
      | none => rw [hn] at h; simp at h
      | some r => rw [hn] at h; simp at h; rw [h]
    · cases h
  · cases h

end Verif
