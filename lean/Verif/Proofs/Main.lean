import Verif.Model.Main
import Verif.Spec.Main
import Mathlib.Data.List.Induction
/-!
# Lemmas on the arguments of the program
-/

namespace Verif
open Spec

/-- a name as all options have: not empty, without `=`, not starting with `-`, and not `help` -/
structure GoodName (n : Bytes) : Prop where
  ne : n ≠ []
  eq : (61 : UInt8) ∉ n
  dash : n.head? ≠ some 45
  help : n ≠ b! "help"
  glog : glogFlags n = none

theorem known_good (l : CmdLine) {n : Bytes} (h : n ∈ l.known) : GoodName n := by
  have : ∀ r : Bool, ∀ n ∈ ({ redo := r } : CmdLine).known,
      n ≠ [] ∧ (61 : UInt8) ∉ n ∧ n.head? ≠ some 45 ∧ n ≠ b! "help" ∧ glogFlags n = none := by decide
  obtain ⟨a, b, c, d, e⟩ := this l.redo n h
  exact ⟨a, b, c, d, e⟩

theorem takeWhile_name {n : Bytes} (h : (61 : UInt8) ∉ n) : n.takeWhile (· ≠ 61) = n := by
  induction n with
  | nil => rfl
  | cons a n ih =>
    simp only [List.mem_cons, not_or] at h
    rw [List.takeWhile_cons_of_pos (by simp; exact fun e => h.1 e.symm), ih h.2]

theorem takeWhile_name_eq {n : Bytes} (h : (61 : UInt8) ∉ n) (v : Bytes) : (n ++ 61 :: v).takeWhile (· ≠ 61) = n := by
  induction n with
  | nil => simp
  | cons a n ih =>
    simp only [List.mem_cons, not_or] at h
    rw [List.cons_append, List.takeWhile_cons_of_pos (by simp; exact fun e => h.1 e.symm), ih h.2]

theorem stripFlags_opt {o : Opt} (hn : GoodName o.name) (rest : List Bytes) (hr : o.joined = false → rest ≠ []) :
    stripFlags (o.args ++ rest) = stripFlags rest := by
  obtain ⟨n, v, j⟩ := o
  obtain ⟨h1, h2, h3, _, _⟩ := hn
  simp only at h1 h2 h3 hr
  obtain ⟨c, n, rfl⟩ := List.exists_cons_of_ne_nil h1
  cases j with
  | true =>
    have ht : takesNext (45 :: 45 :: c :: (n ++ 61 :: v)) = false := by simp [takesNext]
    simp only [Opt.args, if_true, List.cons_append, List.nil_append, List.append_assoc]
    rw [stripFlags.eq_def]
    simp [ht]
  | false =>
    obtain ⟨r, rs, rfl⟩ := List.exists_cons_of_ne_nil (hr rfl)
    have : takesNext (45 :: 45 :: c :: n) = true := by
      simp [takesNext]
      simpa using h2
    simp only [Opt.args, Bool.false_eq_true, if_false, List.cons_append, List.nil_append]
    rw [stripFlags.eq_def]
    simp [this]

theorem stripFlags_opts {os : List Opt} (hn : ∀ o ∈ os, GoodName o.name) (rest : List Bytes) (hr : rest ≠ []) :
    stripFlags (os.flatMap Opt.args ++ rest) = stripFlags rest := by
  induction os with
  | nil => rfl
  | cons o os ih =>
    rw [List.flatMap_cons, List.append_assoc, stripFlags_opt (hn o (by simp)) _ (fun _ => by simp [hr]),
      ih fun o h => hn o (by simp [h])]

theorem pflags_opt (redo : Bool) {names : List Bytes} {o : Opt} (hn : GoodName o.name) (hm : o.name ∈ names) (rest : List Bytes)
    (vars : List (Bytes × Bytes)) :
    pflags redo names (o.args ++ rest) vars = pflags redo names rest (vars ++ [(o.name, o.value)]) := by
  obtain ⟨n, v, j⟩ := o
  obtain ⟨h1, h2, h3, h4, _⟩ := hn
  simp only at h1 h2 h3 h4 hm
  obtain ⟨c, n, rfl⟩ := List.exists_cons_of_ne_nil h1
  have c61 : c ≠ 61 := fun e => h2 (by simp [e])
  have c45 : c ≠ 45 := fun e => h3 (by simp [e])
  have t := takeWhile_name h2
  have t' := takeWhile_name_eq h2 v
  rw [List.cons_append] at t'
  cases j with
  | true =>
    have e : (45 :: 45 :: c :: (n ++ 61 :: v)).drop 2 = c :: (n ++ 61 :: v) := rfl
    have d : (c :: (n ++ 61 :: v)).drop ((c :: n).length + 1) = v := by
      simp
    simp only [Opt.args, if_true, List.cons_append, List.nil_append, List.append_assoc, pflags, e, t', if_neg h4]
    simp [hm, c61.symm, c45.symm]
    omega
  | false =>
    have hc : (c :: n).contains 61 = false := by
      rw [List.contains_eq_mem]; exact decide_eq_false h2
    have e : (45 :: 45 :: c :: n).drop 2 = c :: n := rfl
    simp only [Opt.args, Bool.false_eq_true, if_false, List.cons_append, List.nil_append, pflags, e, t, if_neg h4, hc]
    simp [hm, c61.symm, c45.symm]
    omega

theorem pflags_opts (redo : Bool) {names : List Bytes} {os : List Opt} (hn : ∀ o ∈ os, GoodName o.name ∧ o.name ∈ names)
    (vars : List (Bytes × Bytes)) :
    pflags redo names (os.flatMap Opt.args) vars = .body redo (vars ++ os.map fun o => (o.name, o.value)) := by
  induction os generalizing vars with
  | nil => simp [pflags]
  | cons o os ih =>
    rw [List.flatMap_cons, pflags_opt redo (hn o (by simp)).1 (hn o (by simp)).2, ih fun o h => hn o (by simp [h])]
    simp

theorem not_mem_args {os : List Opt} {w : Bytes} (hw : w.head? ≠ some 45) (h : ∀ o ∈ os, o.joined = false → o.value ≠ w) :
    w ∉ os.flatMap Opt.args := by
  simp only [List.mem_flatMap, not_exists, not_and]
  intro o ho hm
  obtain ⟨n, v, j⟩ := o
  cases j with
  | true =>
    simp only [Opt.args, if_true, List.mem_singleton] at hm
    subst hm
    simp at hw
  | false =>
    simp only [Opt.args, Bool.false_eq_true, if_false, List.mem_cons, List.not_mem_nil, or_false] at hm
    rcases hm with rfl | rfl
    · simp at hw
    · exact h _ ho rfl rfl

theorem option_eq (os : List Opt) (name : Bytes) :
    option (os.map fun o => (o.name, o.value)) name [] = os.foldl (fun v o => if o.name = name then o.value else v) [] := by
  induction os using List.reverseRecOn with
  | nil => rfl
  | append_singleton os o ih =>
    rw [List.foldl_append, ← ih]
    simp only [option, List.map_append, List.map_cons, List.map_nil, List.filter_append, List.foldl_cons, List.foldl_nil]
    by_cases h : o.name = name
    · simp [h]
    · simp [h]

end Verif
