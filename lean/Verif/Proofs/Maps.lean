import Verif.Model.Ibdata
/-!
# Go maps as association lists
-/

namespace Verif

variable {α : Type}

/-- the keys are pairwise different, as in every Go map -/
def GoMap.WF (m : GoMap α) : Prop := (m.map (·.1)).Nodup

theorem GoMap.get?_iff {m : GoMap α} (h : m.WF) (k : Nat) (v : α) : m.get? k = some v ↔ (k, v) ∈ m := by
  unfold GoMap.get?
  unfold GoMap.WF at h
  induction m with
  | nil => simp
  | cons e m ih =>
    obtain ⟨k', v'⟩ := e
    rw [List.map_cons, List.nodup_cons] at h
    rw [List.lookup_cons]
    by_cases hk : k = k'
    · subst hk
      simp only [beq_self_eq_true, Option.some.injEq, List.mem_cons, Prod.mk.injEq, true_and]
      constructor
      · intro h; exact Or.inl h.symm
      · rintro (h' | h')
        · exact h'.symm
        · exact absurd (List.mem_map_of_mem (f := (·.1)) h') h.1
    · rw [beq_false_of_ne hk]
      simp [ih h.2, hk]

theorem GoMap.get?_none {m : GoMap α} (k : Nat) : m.get? k = none ↔ k ∉ m.map (·.1) := by
  unfold GoMap.get?
  rw [List.lookup_eq_none_iff]
  constructor
  · rintro h hm
    obtain ⟨e, he, rfl⟩ := List.mem_map.mp hm
    simpa using h e he
  · intro h e he
    have : k ≠ e.1 := fun hk => h (hk ▸ List.mem_map_of_mem he)
    simpa using this

theorem GoMap.get?_perm {m m' : GoMap α} (h : m.WF) (hp : m.Perm m') (k : Nat) : m'.get? k = m.get? k := by
  have h' : m'.WF := (hp.map Prod.fst).nodup_iff.mp h
  cases hm : m.get? k with
  | none =>
    rw [GoMap.get?_none] at hm ⊢
    exact fun hc => hm ((hp.map Prod.fst).mem_iff.mpr hc)
  | some v =>
    rw [GoMap.get?_iff h] at hm
    rw [GoMap.get?_iff h']
    exact hp.mem_iff.mp hm

theorem GoMap.get?_nil (k : Nat) : GoMap.get? ([] : GoMap α) k = none := rfl

theorem GoMap.get?_cons (e : Nat × α) (m : GoMap α) (k : Nat) :
    GoMap.get? (e :: m) k = if k = e.1 then some e.2 else GoMap.get? m k := by
  unfold GoMap.get?
  rw [List.lookup_cons]
  by_cases h : k = e.1
  · rw [if_pos h, beq_iff_eq.mpr h]
  · rw [if_neg h, beq_false_of_ne h]

theorem GoMap.get?_append (m m' : GoMap α) (k : Nat) : GoMap.get? (m ++ m') k = (GoMap.get? m k).or (GoMap.get? m' k) := by
  induction m with
  | nil => rfl
  | cons e m ih =>
    rw [List.cons_append, get?_cons, get?_cons, ih]
    split <;> rfl

/-- changing the values only -/
theorem GoMap.get?_map {β : Type} (m : GoMap α) (f : Nat → α → β) (k : Nat) :
    GoMap.get? (m.map fun e => (e.1, f e.1 e.2)) k = (m.get? k).map (f k) := by
  induction m with
  | nil => rfl
  | cons e m ih =>
    rw [List.map_cons, get?_cons, get?_cons, ih]
    split
    · rename_i h; rw [h]; rfl
    · rfl

theorem GoMap.put_eq (m : GoMap α) (k : Nat) (v : α) :
    m.put k v = if (m.get? k).isSome then m.map (fun e => (e.1, if e.1 = k then v else e.2)) else m ++ [(k, v)] := by
  unfold GoMap.put
  have h1 : (m.any (·.1 == k)) = (m.get? k).isSome := by
    induction m with
    | nil => rfl
    | cons e m ih =>
      rw [List.any_cons, ih, get?_cons]
      by_cases h : k = e.1
      · simp [h]
      · rw [if_neg h]
        have : (e.1 == k) = false := beq_false_of_ne (Ne.symm h)
        rw [this, Bool.false_or]
  rw [h1]
  congr 1
  apply List.map_congr_left
  intro e _
  by_cases h : e.1 = k
  · rw [if_pos (by simp [h]), if_pos h, h]
  · rw [if_neg (by simp [h]), if_neg h]

theorem GoMap.get?_put (m : GoMap α) (k : Nat) (v : α) (k' : Nat) :
    (m.put k v).get? k' = if k' = k then some v else m.get? k' := by
  rw [put_eq]
  by_cases h : (m.get? k).isSome
  · rw [if_pos h, get?_map m (fun a x => if a = k then v else x)]
    by_cases hk : k' = k
    · subst hk
      rw [if_pos rfl]
      cases hm : m.get? k' with
      | none => rw [hm] at h; cases h
      | some x => simp
    · simp [hk]
  · rw [if_neg h, get?_append, get?_cons, get?_nil]
    by_cases hk : k' = k
    · subst hk
      rw [if_pos rfl, if_pos rfl]
      cases hm : m.get? k' with
      | none => rfl
      | some x => rw [hm] at h; exact absurd rfl h
    · rw [if_neg hk, if_neg hk, Option.or_none]

theorem GoMap.put_WF {m : GoMap α} (h : m.WF) (k : Nat) (v : α) : (m.put k v).WF := by
  rw [put_eq]
  unfold WF at *
  by_cases hk : (m.get? k).isSome
  · rw [if_pos hk, List.map_map]
    exact h
  · rw [if_neg hk, List.map_append, List.nodup_append]
    refine ⟨h, by simp, ?_⟩
    intro a ha b hb hab
    rw [List.map_singleton, List.mem_singleton] at hb
    subst hab
    rw [hb] at ha
    cases hm : m.get? k with
    | none => exact (GoMap.get?_none (m := m) k).mp hm ha
    | some x => rw [hm] at hk; exact hk rfl

theorem GoMap.nil_WF : GoMap.WF ([] : GoMap α) := List.nodup_nil

end Verif
