import Mathlib.Data.List.Nodup
import Mathlib.Data.List.Perm.Subperm
import Verif.Spec.Chain
import Verif.Spec.Rows
import Verif.Proofs.Static
import Verif.Proofs.Pages
/-! The walk over the records of a page. -/

set_option linter.unusedSimpArgs false

namespace Verif
open Spec

theorem infimum_eq (c : Bool) : pageInfimum c = infimumAt c := by cases c <;> rfl
theorem supremum_eq (c : Bool) : pageSupremum c = supremumAt c := by cases c <;> rfl

theorem numAt_lt (d : Bytes) (o w : Nat) : numAt d o w < 256 ^ w := by
  unfold numAt
  exact beVal_take_lt _ _

theorem pageIsCompact_eq (d : Bytes) (h : 44 ≤ d.length) :
    ∃ v, pageIsCompact d = some v ∧ (v != 0) = isCompact d := by
  unfold pageIsCompact pageHeaderGetField
  rw [read2_eq, read_at d 42 (by omega)]
  refine ⟨_, rfl, ?_⟩
  have hlt := numAt_lt d 42 2
  have hb := bit_eq_zero_iff (numAt d 42 2) 15
  rw [show (2 : Nat) ^ 15 = 0x8000 by decide] at hb
  unfold isCompact
  by_cases h : 32768 ≤ numAt d 42 2
  · have : ¬ numAt d 42 2 &&& 0x8000 = 0 := by rw [hb]; omega
    simp [h, this]
  · have : numAt d 42 2 &&& 0x8000 = 0 := by rw [hb]; omega
    simp [h, this]

theorem link_lt (d : Bytes) (o : Nat) : link d o < 65536 := numAt_lt d _ 2

theorem read_link (d : Bytes) (o : Nat) (h2 : 2 ≤ o) (ho : o ≤ d.length) (hd : d.length < 2 ^ 64) :
    read2 d (sub64 o 2) = some (link d o) := by
  have : sub64 o 2 = o - 2 := by unfold sub64; omega
  rw [this, read2_eq, read_at d (o - 2) (by omega)]
  rfl

theorem userAt_bounds {c : Bool} {o : Nat} (h : UserAt c o) : 112 ≤ o ∧ o < 16376 ∧ supremumAt c < o := by
  unfold UserAt supremumAt at *
  cases c <;> simp at h ⊢ <;> omega

theorem nextOffset_zero (d : Bytes) (c : Bool) (o : Nat) (h2 : 2 ≤ o) (ho : o ≤ d.length) (hd : d.length < 2 ^ 64)
    (hl : link d o = 0) : nextOffset d c o = some none := by
  unfold nextOffset
  rw [read_link d o h2 ho hd, hl]
  rfl

theorem nextOffset_follow (d : Bytes) (c : Bool) (o : Nat) (h2 : 2 ≤ o) (ho : o ≤ d.length) (hd : d.length ≤ 16384)
    (hl : link d o ≠ 0) (hf : follow d c o < 16384) : nextOffset d c o = some (some (follow d c o)) := by
  have hlt := link_lt d o
  unfold nextOffset
  rw [read_link d o h2 ho (by omega)]
  unfold follow at hf ⊢
  simp only [Option.bind_eq_bind, Option.bind_some]
  rw [if_neg hl]
  cases c with
  | true =>
    simp only [if_true] at hf ⊢
    by_cases hb : link d o > 32768
    · rw [if_pos hb]
      refine congrArg some (congrArg some ?_)
      unfold u64 sub64
      omega
    · rw [if_neg hb]
      refine congrArg some (congrArg some ?_)
      unfold u64
      omega
  | false =>
    simp only [Bool.false_eq_true, if_false] at hf ⊢
    rw [if_neg (by omega)]
    rfl

/-! ## Lists of records -/

theorem Spec.Linked.det {d : Bytes} {c : Bool} {o : Nat} {l m : List Nat} (h : Linked d c o l) (h' : Linked d c o m) : l = m := by
  induction h generalizing m with
  | last hl =>
    cases h' with
    | last _ => rfl
    | next hu _ => unfold UserAt at hu; omega
  | next hu _ ih =>
    cases h' with
    | last hl => unfold UserAt at hu; omega
    | next _ hm => rw [ih hm]

theorem Spec.Linked.suffix {d : Bytes} {c : Bool} {o x : Nat} {a b : List Nat} (h : Linked d c o (a ++ x :: b)) :
    Linked d c x b := by
  induction a generalizing o with
  | nil => cases h with | next _ h => exact h
  | cons y a ih => cases h with | next _ h => exact ih h

theorem Spec.Linked.nodup {d : Bytes} {c : Bool} {o : Nat} {l : List Nat} (h : Linked d c o l) : l.Nodup := by
  induction h with
  | last _ => exact List.nodup_nil
  | @next o os hu hl ih =>
    rw [List.nodup_cons]
    refine ⟨fun hm => ?_, ih⟩
    obtain ⟨a, b, rfl⟩ := List.append_of_mem hm
    have := Linked.det hl hl.suffix
    have := congrArg List.length this
    simp at this
    omega

theorem Spec.Linked.userAt {d : Bytes} {c : Bool} {o : Nat} {l : List Nat} (h : Linked d c o l) : ∀ x ∈ l, UserAt c x := by
  induction h with
  | last _ => simp
  | next hu _ ih => intro x hx; rcases List.mem_cons.mp hx with rfl | hx; exacts [hu, ih x hx]

theorem length_le_of_nodup {l : List Nat} (n : Nat) (h : l.Nodup) (hl : ∀ x ∈ l, x < n) : l.length ≤ n := by
  have : l ⊆ List.range n := fun x hx => by simpa using hl x hx
  simpa using (h.subperm this).length_le

theorem Spec.Linked.length_le {d : Bytes} {c : Bool} {o : Nat} {l : List Nat} (h : Linked d c o l) : l.length ≤ 16376 :=
  length_le_of_nodup _ h.nodup fun x hx => (h.userAt x hx).2

theorem Spec.FreeList.det {d : Bytes} {c : Bool} {o : Nat} {l m : List Nat} (h : FreeList d c o l) (h' : FreeList d c o m) :
    l = m := by
  induction h generalizing m with
  | last _ hl =>
    cases h' with
    | last _ _ => rfl
    | next _ h2 _ => exact absurd hl h2
  | next hu h2 _ ih =>
    cases h' with
    | last _ hl => exact absurd hl h2
    | next _ _ hm => rw [ih hm]

theorem Spec.FreeList.suffix {d : Bytes} {c : Bool} {o x : Nat} {a b : List Nat} (h : FreeList d c o (a ++ x :: b)) :
    FreeList d c x (x :: b) := by
  induction a generalizing o with
  | nil =>
    rw [List.nil_append] at h
    have h0 := h
    cases h with
    | last _ _ => exact h0
    | next _ _ _ => exact h0
  | cons y a ih =>
    rw [List.cons_append] at h
    generalize hl : a ++ x :: b = l at h
    cases h with
    | last _ _ => simp at hl
    | next _ _ h => rw [← hl] at h; exact ih h

theorem Spec.FreeList.userAt {d : Bytes} {c : Bool} {o : Nat} {l : List Nat} (h : FreeList d c o l) : ∀ x ∈ l, UserAt c x := by
  induction h with
  | last hu _ => intro x hx; rw [List.mem_singleton.mp hx]; exact hu
  | next hu _ _ ih => intro x hx; rcases List.mem_cons.mp hx with rfl | hx; exacts [hu, ih x hx]

theorem Spec.FreeList.nodup {d : Bytes} {c : Bool} {o : Nat} {l : List Nat} (h : FreeList d c o l) : l.Nodup := by
  induction h with
  | last _ _ => simp
  | @next o os hu h2 hl ih =>
    rw [List.nodup_cons]
    refine ⟨fun hm => ?_, ih⟩
    obtain ⟨a, b, rfl⟩ := List.append_of_mem hm
    have h1 : FreeList d c o (o :: (a ++ o :: b)) := .next hu h2 hl
    have := FreeList.det h1 hl.suffix
    have := congrArg List.length this
    simp at this
    omega

theorem Spec.FreeList.length_le {d : Bytes} {c : Bool} {o : Nat} {l : List Nat} (h : FreeList d c o l) : l.length ≤ 16376 :=
  length_le_of_nodup _ h.nodup fun x hx => (h.userAt x hx).2

/-! ## The walk visits exactly the records of the list -/

theorem walk_end (env : Env) (tables : TableMap) (d : Bytes) (c : Bool) (fuel : Nat) (rows : List (List Column))
    (hd : 64 ≤ d.length) : walk env tables d c (fuel + 1) (supremumAt c) rows = pure rows := by
  unfold walk
  rw [if_neg (fun h => h.2 (supremum_eq c).symm), read2_eq, read_at d _ (by omega)]
  rfl

/-- one step of the walk, when the record at `o` is linked to another one -/
theorem walk_step (env : Env) (tables : TableMap) (d : Bytes) (c : Bool) (fuel o : Nat) (rows : List (List Column))
    (hu : UserAt c o) (r : Option Nat) (hn : nextOffset d c o = some r) (s : PState) :
    walk env tables d c (fuel + 1) o rows s =
      (parseOne env tables d c o >>= fun x => match x with
        | none => pure rows
        | some cs => r.elim (pure (rows ++ [cs])) fun o' => walk env tables d c fuel o' (rows ++ [cs])) s := by
  conv => lhs; unfold walk
  unfold UserAt at hu
  rw [if_pos ⟨by omega, by rw [supremum_eq]; omega⟩, hn]
  simp only [GoM.lift_some_bind]
  cases r <;> rfl

theorem walk_linked (env : Env) (tables : TableMap) (d : Bytes) (c : Bool) (hd : d.length = 16384) (os : List Nat)
    (o fuel : Nat) (rows : List (List Column)) (s : PState) (hu : UserAt c o) (hl : Linked d c o os)
    (hf : os.length + 1 < fuel) :
    walk env tables d c fuel o rows s = (visit env tables d c (o :: os) >>= fun r => pure (rows ++ r)) s := by
  induction os generalizing o fuel rows s with
  | nil =>
    obtain ⟨fuel, rfl⟩ : ∃ k, fuel = k + 1 := ⟨fuel - 1, by omega⟩
    obtain ⟨fuel, rfl⟩ : ∃ k, fuel = k + 1 := ⟨fuel - 1, by simp at hf; omega⟩
    have hsl : supremumAt c < 16384 := by cases c <;> decide
    have hub := userAt_bounds hu
    cases hl with
    | last hlast =>
      have h0 : link d o ≠ 0 := by
        intro h0
        unfold follow at hlast
        rw [h0] at hlast
        cases c <;> simp [supremumAt] at hlast hub <;> omega
      have hn := nextOffset_follow d c o (by omega) (by omega) (by omega) h0 (by omega)
      rw [walk_step env tables d c _ o rows hu _ hn s]
      simp only [Option.elim_some, hlast, walk_end env tables d c fuel _ (by omega : 64 ≤ d.length)]
      unfold visit
      rw [GoM.bind_assoc]
      simp only [GoM.bind_run, Option.elim_some, Option.elim_none]
      cases parseOne env tables d c o s with
      | panic _ => rfl
      | hang _ => rfl
      | ok x s' =>
        cases x with
        | none => simp
        | some cs => simp [visit]
  | cons o' os ih =>
    obtain ⟨fuel, rfl⟩ : ∃ k, fuel = k + 1 := ⟨fuel - 1, by omega⟩
    cases hl with
    | next hu' hl' =>
      have h0 : link d o ≠ 0 := by
        intro h0
        cases c with
        | false => unfold follow at hu'; rw [h0] at hu'; simp [UserAt, supremumAt] at hu'
        | true =>
          have hfo : follow d true o = o := by
            unfold follow; rw [h0]; unfold UserAt at hu; simp; omega
          rw [hfo] at hl'
          have hl0 : Linked d true o (o :: os) := by
            have := Linked.next (d := d) (compact := true) (o := o) (os := os) (by rw [hfo]; exact hu) (by rw [hfo]; exact hl')
            rwa [hfo] at this
          have := congrArg List.length (Linked.det hl0 hl')
          simp at this
      have hn := nextOffset_follow d c o (by have := userAt_bounds hu; omega) (by have := userAt_bounds hu; omega) (by omega) h0
        (by have := userAt_bounds hu'; omega)
      rw [walk_step env tables d c _ o rows hu _ hn s]
      unfold visit
      rw [GoM.bind_assoc]
      simp only [GoM.bind_run, Option.elim_some, Option.elim_none]
      cases parseOne env tables d c o s with
      | panic _ => rfl
      | hang _ => rfl
      | ok x s' =>
        cases x with
        | none => simp
        | some cs =>
          dsimp only
          rw [ih (follow d c o) fuel (rows ++ [cs]) s' hu' hl' (by simp at hf; omega)]
          simp only [GoM.bind_run, Option.elim_some, Option.elim_none]
          cases visit env tables d c (follow d c o :: os) s' with
          | panic _ => rfl
          | hang _ => rfl
          | ok r s'' => simp

theorem walk_free (env : Env) (tables : TableMap) (d : Bytes) (c : Bool) (hd : d.length = 16384) (os : List Nat)
    (o fuel : Nat) (rows : List (List Column)) (s : PState) (hl : FreeList d c o os)
    (hf : os.length < fuel) :
    walk env tables d c fuel o rows s = (visit env tables d c os >>= fun r => pure (rows ++ r)) s := by
  induction hl generalizing fuel rows s with
  | @last o hu h0 =>
    obtain ⟨fuel, rfl⟩ : ∃ k, fuel = k + 1 := ⟨fuel - 1, by omega⟩
    have hn := nextOffset_zero d c o (by have := userAt_bounds hu; omega) (by have := userAt_bounds hu; omega) (by omega) h0
    rw [walk_step env tables d c _ o rows hu _ hn s]
    unfold visit
    rw [GoM.bind_assoc]
    simp only [GoM.bind_run, Option.elim_some, Option.elim_none]
    cases parseOne env tables d c o s with
    | panic _ => rfl
    | hang _ => rfl
    | ok x s' =>
      cases x with
      | none => simp
      | some cs => simp [visit]
  | @next o os hu h0 hl ih =>
    obtain ⟨fuel, rfl⟩ : ∃ k, fuel = k + 1 := ⟨fuel - 1, by omega⟩
    have hu' : UserAt c (follow d c o) := by
      have : follow d c o ∈ os := by cases hl <;> simp
      exact hl.userAt _ this
    have hn := nextOffset_follow d c o (by have := userAt_bounds hu; omega) (by have := userAt_bounds hu; omega) (by omega) h0
      (by have := userAt_bounds hu'; omega)
    rw [walk_step env tables d c _ o rows hu _ hn s]
    unfold visit
    rw [GoM.bind_assoc]
    simp only [GoM.bind_run, Option.elim_some, Option.elim_none]
    cases parseOne env tables d c o s with
    | panic _ => rfl
    | hang _ => rfl
    | ok x s' =>
      cases x with
      | none => simp
      | some cs =>
        dsimp only
        rw [ih fuel (rows ++ [cs]) s' (by simp at hf; omega)]
        simp only [GoM.bind_run, Option.elim_some, Option.elim_none]
        cases visit env tables d c os s' with
        | panic _ => rfl
        | hang _ => rfl
        | ok r s'' => simp

theorem bind_pure_nil (m : GoM PState (List (List Column))) : (m >>= fun r => pure ([] ++ r)) = m := by
  funext s
  simp only [GoM.bind_run, List.nil_append]
  cases m s <;> rfl

theorem parsePage_print (env : Env) (tables : TableMap) (d : Bytes) (free : Nat) (hd : d.length = 16384) (os : List Nat)
    (hl : Linked d (isCompact d) (infimumAt (isCompact d)) os) (s : PState) :
    parsePage env tables d false free s = visit env tables d (isCompact d) os s := by
  obtain ⟨v, hv, hc⟩ := pageIsCompact_eq d (by omega)
  unfold parsePage
  rw [hv, GoM.lift_some_bind, hc]
  generalize isCompact d = c at *
  have hr : read2 d (pageInfimum c - 2) = some (link d (infimumAt c)) := by
    rw [infimum_eq, read2_eq, read_at d _ (by cases c <;> simp [infimumAt, hd])]
    rfl
  rw [hr, GoM.lift_some_bind]
  simp only [Bool.false_eq_true, if_false]
  have hlt := link_lt d (infimumAt c)
  have hlen := hl.length_le
  have hoff : (if c = true then pageInfimum c + link d (infimumAt c) else link d (infimumAt c)) =
      follow d c (infimumAt c) := by
    have hin : supremumAt c ≤ follow d c (infimumAt c) ∧ follow d c (infimumAt c) < 16384 := by
      cases hl with
      | last h => rw [h]; cases c <;> decide
      | next h _ => unfold UserAt at h; omega
    rw [infimum_eq]
    unfold follow at hin ⊢
    cases c with
    | true => simp [infimumAt, supremumAt] at hin hlt ⊢; omega
    | false => simp
  rw [hoff]
  cases hl with
  | last h =>
    rw [h]
    show walk env tables d c (16383 + 1) _ _ _ = _
    rw [walk_end env tables d c 16383 [] (by omega)]
    rfl
  | @next _ os hu hl =>
    rw [walk_linked env tables d c hd os _ walkFuel [] s hu hl (by simp at hlen; unfold walkFuel; omega), bind_pure_nil]

theorem parsePage_recover (env : Env) (tables : TableMap) (d : Bytes) (free : Nat) (hd : d.length = 16384) (os : List Nat)
    (hl : FreeList d (isCompact d) free os) (s : PState) :
    parsePage env tables d true free s = visit env tables d (isCompact d) os s := by
  obtain ⟨v, hv, hc⟩ := pageIsCompact_eq d (by omega)
  unfold parsePage
  rw [hv, GoM.lift_some_bind, hc]
  generalize isCompact d = c at *
  have hr : read2 d (pageInfimum c - 2) = some (link d (infimumAt c)) := by
    rw [infimum_eq, read2_eq, read_at d _ (by cases c <;> simp [infimumAt, hd])]
    rfl
  rw [hr, GoM.lift_some_bind]
  simp only [if_true]
  have hlen := hl.length_le
  rw [walk_free env tables d c hd os _ walkFuel [] s hl (by unfold walkFuel; omega), bind_pure_nil]

end Verif
