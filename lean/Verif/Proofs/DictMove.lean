import Verif.Proofs.DictCols
import Mathlib.Data.List.Perm.Subperm
/-!
# Lemmas about moving the columns of an arbitrary key
-/

namespace Verif
open Spec

theorem moveOne_eq {columns r : List Column} {j : Nat} {c : Column} (h : moveOne columns j c = some r) :
    j < columns.length ∧ r = c :: (columns.take j ++ columns.drop (j + 1)) := by
  unfold moveOne at h
  split at h
  · injection h with h
    exact ⟨by omega, h.symm⟩
  · cases h

/-- one step of the inner loop -/
theorem moveInner_cons {i : Nat} {f : IdxField} {fs : List IdxField} {j : Nat} {columns r : List Column}
    (h : moveInner i (f :: fs) j columns = some r) :
    (∃ c, columns[i]? = some c ∧ f.name ≠ c.name ∧ moveInner i fs (j + 1) columns = some r) ∨
      (∃ c, columns[i]? = some c ∧ f.name = c.name ∧ j < columns.length ∧
        moveInner i fs (j + 1) (c :: (columns.take j ++ columns.drop (j + 1))) = some r) := by
  unfold moveInner at h
  cases hc : columns[i]? with
  | none => rw [hc] at h; cases h
  | some c =>
    rw [hc] at h
    simp only [Option.bind_eq_bind, Option.bind_some] at h
    split at h
    · rename_i hn
      cases hm : moveOne columns j c with
      | none => rw [hm] at h; cases h
      | some r' =>
        rw [hm] at h
        obtain ⟨h1, h2⟩ := moveOne_eq hm
        subst h2
        exact Or.inr ⟨c, rfl, hn, h1, h⟩
    · rename_i hn
      exact Or.inl ⟨c, rfl, hn, h⟩

theorem drop_moved {columns : List Column} {c : Column} {j m : Nat} (hj : j < m) (hl : j < columns.length) :
    (c :: (columns.take j ++ columns.drop (j + 1))).drop m = columns.drop m := by
  obtain ⟨m, rfl⟩ := Nat.exists_eq_add_of_lt hj
  rw [List.drop_succ_cons, List.drop_append, List.drop_eq_nil_of_le (by simp; omega), List.nil_append, List.drop_drop]
  congr 1
  rw [List.length_take]
  omega

theorem take_moved_mem {columns : List Column} {c x : Column} {j m : Nat} (hj : j < m) (hl : j < columns.length)
    (h : x ∈ (c :: (columns.take j ++ columns.drop (j + 1))).take m) : x = c ∨ x ∈ columns.take m := by
  obtain ⟨m, rfl⟩ := Nat.exists_eq_add_of_lt hj
  rw [List.take_succ_cons, List.mem_cons] at h
  rcases h with h | h
  · exact Or.inl h
  · right
    rw [List.take_append, List.mem_append] at h
    rcases h with h | h
    · have h1 := List.mem_of_mem_take h
      exact (List.take_subset_take_left columns (show j ≤ j + m + 1 by omega)) h1
    · rw [List.length_take, show min j columns.length = j by omega, show j + m - j = m by omega] at h
      have h1 : x ∈ (columns.take (j + 1 + m)).drop (j + 1) := by
        rw [List.drop_take, show j + 1 + m - (j + 1) = m by omega]; exact h
      have h2 := List.mem_of_mem_drop h1
      rwa [show j + 1 + m = j + m + 1 by omega] at h2

/-- behind the first `m` columns nothing changes -/
theorem moveInner_drop {i : Nat} {fs : List IdxField} {j m : Nat} {columns r : List Column}
    (h : moveInner i fs j columns = some r) (hm : j + fs.length ≤ m) : r.drop m = columns.drop m := by
  induction fs generalizing j columns with
  | nil => injection h with h; rw [h]
  | cons f fs ih =>
    rw [List.length_cons] at hm
    rcases moveInner_cons h with ⟨c, _, _, h'⟩ | ⟨c, _, _, hl, h'⟩
    · exact ih h' (by omega)
    · rw [ih h' (by omega), drop_moved (by omega) hl]

theorem moveOuter_succ {fs : List IdxField} {k i : Nat} {columns r : List Column}
    (h : moveOuter fs (k + 1) i columns = some r) :
    ∃ r', moveInner i fs 0 columns = some r' ∧ moveOuter fs k (i + 1) r' = some r := by
  unfold moveOuter at h
  cases hm : moveInner i fs 0 columns with
  | none => rw [hm] at h; cases h
  | some r' => rw [hm] at h; exact ⟨r', rfl, h⟩

theorem moveOuter_drop {fs : List IdxField} {k i : Nat} {columns r : List Column}
    (h : moveOuter fs k i columns = some r) : r.drop fs.length = columns.drop fs.length := by
  induction k generalizing i columns with
  | zero => injection h with h; rw [h]
  | succ k ih =>
    obtain ⟨r', h1, h2⟩ := moveOuter_succ h
    rw [ih h2, moveInner_drop h1 (by omega)]

/-- the first columns come from the first columns or are key columns -/
theorem moveInner_take {i : Nat} {fs : List IdxField} {j m : Nat} {columns r : List Column}
    (h : moveInner i fs j columns = some r) (hm : j + fs.length ≤ m) :
    ∀ x ∈ r.take m, x ∈ columns.take m ∨ x.name ∈ fs.map (·.name) := by
  induction fs generalizing j columns with
  | nil => injection h with h; rw [h]; exact fun x hx => Or.inl hx
  | cons f fs ih =>
    rw [List.length_cons] at hm
    intro x hx
    rcases moveInner_cons h with ⟨c, _, _, h'⟩ | ⟨c, _, hn, hl, h'⟩
    · rcases ih h' (by omega) x hx with h1 | h1
      · exact Or.inl h1
      · exact Or.inr (by simp only [List.map_cons, List.mem_cons]; exact Or.inr h1)
    · rcases ih h' (by omega) x hx with h1 | h1
      · rcases take_moved_mem (by omega) hl h1 with h2 | h2
        · right
          rw [h2, ← hn]
          simp
        · exact Or.inl h2
      · exact Or.inr (by simp only [List.map_cons, List.mem_cons]; exact Or.inr h1)

theorem moveOuter_take {fs : List IdxField} {k i : Nat} {columns r : List Column}
    (h : moveOuter fs k i columns = some r) (hk : ∀ x ∈ columns.take fs.length, x.name ∈ fs.map (·.name)) :
    ∀ x ∈ r.take fs.length, x.name ∈ fs.map (·.name) := by
  induction k generalizing i columns with
  | zero => injection h with h; rw [← h]; exact hk
  | succ k ih =>
    obtain ⟨r', h1, h2⟩ := moveOuter_succ h
    refine ih h2 fun x hx => ?_
    rcases moveInner_take h1 (by omega) x hx with h3 | h3
    · exact hk x h3
    · exact h3

/-- every column of the result is a column of the table -/
theorem moveInner_subset {i : Nat} {fs : List IdxField} {j : Nat} {columns r : List Column}
    (h : moveInner i fs j columns = some r) : r ⊆ columns := by
  induction fs generalizing j columns with
  | nil => injection h with h; rw [h]; exact fun x hx => hx
  | cons f fs ih =>
    rcases moveInner_cons h with ⟨c, _, _, h'⟩ | ⟨c, hc, _, _, h'⟩
    · exact ih h'
    · intro x hx
      have h1 := ih h' hx
      rw [List.mem_cons, List.mem_append] at h1
      rcases h1 with h1 | h1 | h1
      · rw [h1]; exact List.mem_of_getElem? hc
      · exact List.mem_of_mem_take h1
      · exact List.mem_of_mem_drop h1

theorem moveOuter_subset {fs : List IdxField} {k i : Nat} {columns r : List Column}
    (h : moveOuter fs k i columns = some r) : r ⊆ columns := by
  induction k generalizing i columns with
  | zero => injection h with h; rw [h]; exact fun x hx => hx
  | succ k ih =>
    obtain ⟨r', h1, h2⟩ := moveOuter_succ h
    exact fun x hx => moveInner_subset h1 (ih h2 hx)

/-- the first column is the old one or the last one moved -/
theorem moveInner_head {i : Nat} {fs : List IdxField} {j : Nat} {columns r : List Column}
    (h : moveInner i fs j columns = some r) :
    r[0]? = columns[0]? ∨ ∃ x, r[0]? = some x ∧ x.name ∈ fs.map (·.name) := by
  induction fs generalizing j columns with
  | nil => injection h with h; rw [h]; exact Or.inl rfl
  | cons f fs ih =>
    rcases moveInner_cons h with ⟨c, _, _, h'⟩ | ⟨c, hc, hn, _, h'⟩
    · rcases ih h' with h1 | ⟨x, h1, h2⟩
      · exact Or.inl h1
      · exact Or.inr ⟨x, h1, by simp only [List.map_cons, List.mem_cons]; exact Or.inr h2⟩
    · rcases ih h' with h1 | ⟨x, h1, h2⟩
      · right
        exact ⟨c, by rw [h1]; rfl, by rw [← hn]; simp⟩
      · exact Or.inr ⟨x, h1, by simp only [List.map_cons, List.mem_cons]; exact Or.inr h2⟩

theorem split_at_name {fs : List IdxField} (hd : (fs.map (·.name)).Nodup) {n : Bytes} (h : n ∈ fs.map (·.name)) :
    ∃ pre f post, fs = pre ++ f :: post ∧ f.name = n ∧ (∀ g ∈ pre, g.name ≠ n) ∧ ∀ g ∈ post, g.name ≠ n := by
  obtain ⟨f, hf, rfl⟩ := List.mem_map.mp h
  obtain ⟨pre, post, rfl⟩ := List.append_of_mem hf
  rw [List.map_append, List.map_cons, List.nodup_append] at hd
  refine ⟨pre, f, post, rfl, rfl, ?_, ?_⟩
  · intro g hg
    exact hd.2.2 _ (List.mem_map_of_mem hg) _ (by simp)
  · intro g hg e
    have := (List.nodup_cons.mp hd.2.1).1
    exact this (e ▸ List.mem_map_of_mem hg)

/-- the inner loop for a column that is a key column beyond the key's length: it is copied to the front -/
theorem moveInner_far {i : Nat} {fs : List IdxField} (hd : (fs.map (·.name)).Nodup) {columns r : List Column} {c : Column}
    (hc : columns[i]? = some c) (hi : fs.length ≤ i) (hn : c.name ∈ fs.map (·.name))
    (h : moveInner i fs 0 columns = some r) : r[0]? = some c := by
  obtain ⟨pre, f, post, rfl, hf, hpre, hpost⟩ := split_at_name hd hn
  rw [moveInner_hit i pre post f 0 columns c hc hpre hf] at h
  cases hm : moveOne columns (0 + pre.length) c with
  | none => rw [hm] at h; cases h
  | some r' =>
    rw [hm, Option.bind_some] at h
    obtain ⟨h1, h2⟩ := moveOne_eq hm
    have hlen : pre.length + (post.length + 1) ≤ i := by simpa using hi
    have hd' : r'.drop i = columns.drop i := by rw [h2, drop_moved (by omega) h1]
    have hc' : r'[i]? = some c := by
      rw [← Nat.add_zero i, ← List.getElem?_drop, hd', List.getElem?_drop, Nat.add_zero, hc]
    rw [moveInner_other i post _ r' c hc' hpost] at h
    injection h with h
    rw [← h, h2]
    rfl

end Verif
