import Verif.Props.WalkWitness
/-!
# C24, exactly: when the walk over a page does not end
-/

namespace Verif.Props
open Verif Spec

/-- the first offset of the walk, as the code computes it: forward from the infimum record -/
def startOf (d : Bytes) (recovery : Bool) (free : Nat) : Nat :=
  if recovery then free else if isCompact d then 99 + link d 99 else link d 101

theorem parsePage_startOf (env : Env) (tables : TableMap) (d : Bytes) (isRecovery : Bool) (free : Nat) (s : PState) (hd : d.length = 16384) :
    parsePage env tables d isRecovery free s = walk env tables d (isCompact d) walkFuel (startOf d isRecovery free) [] s := by
  obtain ⟨v, hv, hb⟩ := pageIsCompact_eq d (by omega)
  have hr : read2 d (pageInfimum (v != 0) - 2) = some (link d (infimumAt (v != 0))) := by
    have := read_link d (infimumAt (v != 0)) (by cases v != 0 <;> decide) (by rw [hd]; cases v != 0 <;> decide) (by omega)
    rw [show sub64 (infimumAt (v != 0)) 2 = pageInfimum (v != 0) - 2 by cases v != 0 <;> decide] at this
    exact this
  unfold parsePage
  rw [hv, GoM.lift_some_bind, hr, GoM.lift_some_bind]
  unfold startOf
  rw [← hb]
  cases isRecovery with
  | true => rfl
  | false => cases v != 0 <;> rfl

/-- The record at `o` is taken for a record of the table, and its columns can be decoded. -/
def Decodes (env : Env) (tables : TableMap) (d : Bytes) (s : PState) (o : Nat) : Prop :=
  2 ≤ o ∧ ∃ cs s', parseOne env tables d (isCompact d) o s = .ok (some cs) s'

theorem decodes_iff (env : Env) (tables : TableMap) (d : Bytes) (s : PState) (o : Nat) :
    (∃ cs s', parseOne env tables d (isCompact d) o s = .ok (some cs) s') ↔
      ∃ cs s', parseOne env tables d (isCompact d) o ⟨s.cols.map skel, []⟩ = .ok (some cs) s' := by
  have hrel := parseOne_static false (fun _ _ => True) stable_true env tables d (isCompact d) o (s.cols.map skel) s ⟨s.cols.map skel, []⟩
    ⟨rfl, map_skel_idem _, trivial⟩
  generalize parseOne env tables d (isCompact d) o s = r1 at hrel
  generalize parseOne env tables d (isCompact d) o ⟨s.cols.map skel, []⟩ = r2 at hrel
  cases hrel with
  | panic _ => constructor <;> rintro ⟨_, _, h⟩ <;> cases h
  | hang _ => constructor <;> rintro ⟨_, _, h⟩ <;> cases h
  | @ok a b s1 t1 hp hs =>
    cases a with
    | none =>
      cases b with
      | none => constructor <;> rintro ⟨_, _, h⟩ <;> cases h
      | some _ => exact absurd hp (by simp [RowRel])
    | some cs =>
      cases b with
      | none => exact absurd hp (by simp [RowRel])
      | some ds => exact ⟨fun _ => ⟨_, _, rfl⟩, fun _ => ⟨_, _, rfl⟩⟩

theorem nextOffset_two (d : Bytes) (c : Bool) (o : Nat) (ho : o < 16384) (hd : d.length ≤ 16384) {r : Option Nat} (h : nextOffset d c o = some r) : 2 ≤ o := by
  unfold nextOffset at h
  rw [read2_eq] at h
  unfold readW at h
  split at h
  · rename_i hh
    unfold sub64 at hh
    by_cases h2 : 2 ≤ o
    · exact h2
    · omega
  · cases h

/-- a step to an offset on the page -/
theorem nextOffset_follow (d : Bytes) (c : Bool) (o : Nat) (h2 : 2 ≤ o) (ho : o < 16378) (hd : d.length = 16384) (h0 : link d o ≠ 0) (hf : follow d c o < 16384) :
    nextOffset d c o = some (some (follow d c o)) := by
  have hlt := link_lt d o
  unfold nextOffset
  rw [read_link d o h2 (by omega) (by omega)]
  simp only [Option.bind_eq_bind, Option.bind_some]
  rw [if_neg h0]
  simp only [Option.pure_def, Option.some.injEq]
  unfold follow at hf ⊢
  cases c with
  | true =>
    simp only [if_true] at hf ⊢
    by_cases hb : link d o > 32768
    · rw [if_pos hb]
      unfold u64 sub64
      omega
    · rw [if_neg hb]
      unfold u64
      omega
  | false =>
    simp only [Bool.false_eq_true, if_false] at hf ⊢
    rw [if_neg (by omega)]

section
variable {env : Env} {tables : TableMap} {d : Bytes} {s : PState}

theorem stepC_next (hd : d.length = 16384) {o o' : Nat} (h : Decodes env tables d s o) (hn : Next d (isCompact d) o o') (ho : o' < 16384) :
    stepC env tables d (isCompact d) (s.cols.map skel) o = some o' := by
  obtain ⟨h2, h⟩ := h
  obtain ⟨cs, s', h⟩ := (decodes_iff env tables d s o).mp h
  obtain ⟨n1, n2, n3, rfl⟩ := hn
  unfold stepC
  rw [if_pos ⟨n1, n2⟩, h, nextOffset_follow d _ o h2 (by omega) hd n3 ho]
  rfl

theorem stepC_decodes (hd : d.length = 16384) {o o' : Nat} (h : stepC env tables d (isCompact d) (s.cols.map skel) o = some o') : Decodes env tables d s o := by
  obtain ⟨h1, _, h3⟩ := stepC_lt env tables d _ _ o o' h
  refine ⟨nextOffset_two d _ o (by omega) (by omega) h3, (decodes_iff env tables d s o).mpr ?_⟩
  unfold stepC at h
  split at h
  · split at h
    · rename_i hh
      exact ⟨_, _, hh⟩
    · cases h
  · cases h

theorem steps_reach (hd : d.length = 16384) {o x : Nat} (hr : Relation.ReflTransGen (Next d (isCompact d)) o x) (hx : x < 16384)
    (h : ∀ y, Relation.ReflTransGen (Next d (isCompact d)) o y → (∃ z, Next d (isCompact d) y z) → Decodes env tables d s y) :
    ∃ n, steps (stepC env tables d (isCompact d) (s.cols.map skel)) n o = some x := by
  induction hr with
  | refl => exact ⟨0, rfl⟩
  | @tail y z h1 h2 ih =>
    obtain ⟨n, hn⟩ := ih (by have := h2.1; omega)
    refine ⟨n + 1, ?_⟩
    rw [steps_add, hn, Option.bind_some]
    unfold steps
    rw [stepC_next hd (h y h1 ⟨z, h2⟩) h2 hx]
    rfl
end

/-- **C24, exactly.**  The walk never ends if and only if the links from the first record lead into a cycle, all records that they reach are decoded as
records of the table, and, on a COMPACT page, the infimum record does not point backwards (the code then stops at once). -/
theorem C24_iff (env : Env) (tables : TableMap) (d : Bytes) (isRecovery : Bool) (free : Nat) (s : PState) (hd : d.length = 16384) :
    (∃ s', parsePage env tables d isRecovery free s = .hang s') ↔
      (isRecovery = false → isCompact d = true → 99 + link d 99 < 65536) ∧ LeadsToCycle d (isCompact d) (firstRecord d isRecovery free) ∧
      ∀ o, Relation.ReflTransGen (Next d (isCompact d)) (firstRecord d isRecovery free) o → Decodes env tables d s o := by
  have hfirst : (isRecovery = false → isCompact d = true → 99 + link d 99 < 65536) → startOf d isRecovery free = firstRecord d isRecovery free := by
    intro h
    unfold startOf firstRecord
    cases isRecovery with
    | true => rfl
    | false =>
      cases hc : isCompact d with
      | false => rfl
      | true =>
        simp only [Bool.false_eq_true, if_false, if_true, follow]
        exact (Nat.mod_eq_of_lt (h rfl hc)).symm
  constructor
  · rintro ⟨s', h⟩
    have hcyc : LeadsToCycle d (isCompact d) (firstRecord d isRecovery free) := by
      by_contra hac
      exact C24_acyclic_partial env tables d isRecovery free s s' hd hac h
    rw [parsePage_startOf env tables d isRecovery free s hd] at h
    have hs := (walk_hang_iff env tables d _ _ walkFuel _ [] s rfl).mp ⟨s', h⟩
    have hall := steps_forever _ 16378 (stepC_bound env tables d (isCompact d) (s.cols.map skel)) _ (steps_le _ (by unfold walkFuel; omega) hs)
    have hstart : isRecovery = false → isCompact d = true → 99 + link d 99 < 65536 := by
      intro hr hc
      by_contra hge
      have h1 := hall 1
      unfold steps at h1
      cases hf : stepC env tables d (isCompact d) (s.cols.map skel) (startOf d isRecovery free) with
      | none => rw [hf] at h1; cases h1
      | some y =>
        have := stepC_bound env tables d _ _ _ _ hf
        unfold startOf at this
        rw [hr, hc] at this
        simp only [Bool.false_eq_true, if_false, if_true] at this
        omega
    refine ⟨hstart, hcyc, ?_⟩
    rw [hfirst hstart] at hall
    have hreach : ∀ o, Relation.ReflTransGen (Next d (isCompact d)) (firstRecord d isRecovery free) o →
        ∃ n, steps (stepC env tables d (isCompact d) (s.cols.map skel)) n (firstRecord d isRecovery free) = some o := by
      intro o ho
      induction ho with
      | refl => exact ⟨0, rfl⟩
      | @tail y z _ h2 ih =>
        obtain ⟨n, hn⟩ := ih
        refine ⟨n + 1, ?_⟩
        have h1 := hall (n + 2)
        rw [show n + 2 = n + (1 + 1) from rfl, steps_add, hn, Option.bind_some, steps_add] at h1
        rw [steps_add, hn, Option.bind_some]
        cases hf : stepC env tables d (isCompact d) (s.cols.map skel) y with
        | none => unfold steps at h1; rw [hf] at h1; cases h1
        | some y' =>
          have e : steps (stepC env tables d (isCompact d) (s.cols.map skel)) 1 y = some y' := by unfold steps; rw [hf]; rfl
          rw [e, Option.bind_some] at h1
          rw [e]
          obtain ⟨a1, _, a3⟩ := stepC_lt env tables d _ _ y y' hf
          obtain ⟨_, h5 | h5⟩ := nextOffset_some d _ y y' (by omega) (by omega) a3
          · rw [h5, h2.2.2.2]
          · unfold steps at h1
            cases hf' : stepC env tables d (isCompact d) (s.cols.map skel) y' with
            | none => rw [hf'] at h1; cases h1
            | some _ =>
              have := stepC_bound env tables d _ _ _ _ hf'
              omega
    intro o ho
    obtain ⟨n, hn⟩ := hreach o ho
    have h1 := hall (n + 1)
    rw [steps_add, hn, Option.bind_some] at h1
    cases hf : stepC env tables d (isCompact d) (s.cols.map skel) o with
    | none => unfold steps at h1; rw [hf] at h1; cases h1
    | some y' => exact stepC_decodes hd hf
  · rintro ⟨hstart, ⟨x, h1, h2⟩, hdec⟩
    rw [parsePage_startOf env tables d isRecovery free s hd, hfirst hstart, walk_hang_iff env tables d _ _ walkFuel _ [] s rfl]
    have hx : x < 16384 := by
      obtain ⟨y, h3, _⟩ := Relation.TransGen.head'_iff.mp h2
      have := h3.1
      omega
    obtain ⟨n, hn⟩ := steps_reach hd h1 hx (env := env) (tables := tables) (s := s) fun y hy _ => hdec y hy
    obtain ⟨y, h3, h4⟩ := Relation.TransGen.head'_iff.mp h2
    obtain ⟨m, hm⟩ := steps_reach hd h4 hx (env := env) (tables := tables) (s := s) fun z hz _ => hdec z (h1.trans (.head h3 hz))
    have hy : y < 16384 := by
      rcases Relation.ReflTransGen.cases_head h4 with rfl | ⟨z, hz, _⟩
      · exact hx
      · have := hz.1; omega
    have hc : steps (stepC env tables d (isCompact d) (s.cols.map skel)) (m + 1) x = some x := by
      unfold steps
      rw [stepC_next hd (hdec x h1) h3 hy, Option.bind_some, hm]
    refine steps_le _ (Nat.le_add_left walkFuel n) ?_
    rw [steps_add, hn, Option.bind_some]
    exact steps_cycle _ (Nat.succ_pos m) hc walkFuel

/-- both sides hold for a page whose only record points to itself -/
example : LeadsToCycle cyclicPage (isCompact cyclicPage) (firstRecord cyclicPage false 0) :=
  ((C24_iff testEnv [] cyclicPage false 0 ⟨testCols emptyDefs, []⟩ cyclicPage_length).mp cyclic_hangs).2.1

end Verif.Props
