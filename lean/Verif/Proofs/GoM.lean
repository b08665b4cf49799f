import Verif.Go
/-! Evaluation lemmas for the Go monad. -/

namespace Verif
variable {σ τ α β : Type}

@[simp] theorem GoM.pure_run (a : α) (s : σ) : (pure a : GoM σ α) s = .ok a s := rfl
theorem GoM.bind_run (m : GoM σ α) (f : α → GoM σ β) (s : σ) :
    (m >>= f) s = match m s with
      | .ok a s' => f a s'
      | .panic s' => .panic s'
      | .hang s' => .hang s' := rfl
@[simp] theorem GoM.lift_some (a : α) (s : σ) : (GoM.lift (some a) : GoM σ α) s = .ok a s := rfl
@[simp] theorem GoM.lift_none (s : σ) : (GoM.lift none : GoM σ α) s = .panic s := rfl
@[simp] theorem GoM.get_run (s : σ) : (GoM.get : GoM σ σ) s = .ok s s := rfl
@[simp] theorem GoM.modify_run (f : σ → σ) (s : σ) : (GoM.modify f : GoM σ Unit) s = .ok () (f s) := rfl
@[simp] theorem GoM.hang_run (s : σ) : (GoM.hang : GoM σ α) s = .hang s := rfl
@[simp] theorem GoM.panic_run (s : σ) : (GoM.panic : GoM σ α) s = .panic s := rfl

theorem GoM.bind_ok {m : GoM σ α} {f : α → GoM σ β} {s s' : σ} {a : α} (h : m s = .ok a s') :
    (m >>= f) s = f a s' := by rw [GoM.bind_run, h]
theorem GoM.bind_panic {m : GoM σ α} {f : α → GoM σ β} {s s' : σ} (h : m s = .panic s') :
    (m >>= f) s = .panic s' := by rw [GoM.bind_run, h]
theorem GoM.bind_hang {m : GoM σ α} {f : α → GoM σ β} {s s' : σ} (h : m s = .hang s') :
    (m >>= f) s = .hang s' := by rw [GoM.bind_run, h]

theorem GoM.bind_eq_ok {m : GoM σ α} {f : α → GoM σ β} {s s' : σ} {b : β} (h : (m >>= f) s = .ok b s') :
    ∃ a s1, m s = .ok a s1 ∧ f a s1 = .ok b s' := by
  rw [GoM.bind_run] at h
  split at h
  · exact ⟨_, _, by assumption, h⟩
  · cases h
  · cases h

@[simp] theorem GoM.pure_bind (a : α) (f : α → GoM σ β) : (pure a >>= f) = f a := rfl
@[simp] theorem GoM.lift_some_bind (a : α) (f : α → GoM σ β) : (GoM.lift (some a) >>= f) = f a := rfl
@[simp] theorem GoM.lift_none_bind (f : α → GoM σ β) : (GoM.lift none >>= f) = GoM.panic := rfl
@[simp] theorem GoM.get_bind (f : σ → GoM σ β) (s : σ) : (GoM.get >>= f) s = f s s := rfl
@[simp] theorem GoM.modify_bind (g : σ → σ) (f : Unit → GoM σ β) (s : σ) : (GoM.modify g >>= f) s = f () (g s) := rfl

theorem GoM.bind_assoc {γ : Type} (m : GoM σ α) (f : α → GoM σ β) (g : β → GoM σ γ) :
    ((m >>= f) >>= g) = (m >>= fun a => f a >>= g) := by
  funext s
  simp only [GoM.bind_run]
  cases m s <;> rfl

theorem GoM.zoom_run (g : σ → τ) (p : τ → σ → σ) (m : GoM τ α) (s : σ) :
    GoM.zoom g p m s = match m (g s) with
      | .ok a t => .ok a (p t s)
      | .panic t => .panic (p t s)
      | .hang t => .hang (p t s) := rfl

/-- run the monad symbolically -/
macro "gom" : tactic => `(tactic| simp only [GoM.bind_run, GoM.pure_run, GoM.lift_some, GoM.lift_none, GoM.get_run,
  GoM.modify_run, GoM.hang_run, GoM.panic_run, GoM.zoom_run])

end Verif
