import Verif.Spec.Sql
import Verif.Proofs.Text
import Verif.Proofs.Dec
/-!
# Lemmas about the SQL lexer
-/

namespace Verif.Spec
open Verif

theorem lexN_fuel (s : Bytes) (n m : Nat) (hn : s.length < n) (hm : s.length < m) : lexN n s = lexN m s := by
  induction n generalizing s m with
  | zero => omega
  | succ n ih =>
    cases m with
    | zero => omega
    | succ m =>
      cases s with
      | nil => rfl
      | cons c t =>
        rw [List.length_cons] at hn hm
        unfold lexN
        rw [ih t m (by omega) (by omega)]
        cases lexOne c t with
        | none => rfl
        | some p =>
          obtain ⟨k, r⟩ := p
          dsimp only
          by_cases h : r.length ≤ t.length
          · rw [if_pos h, if_pos h, ih r m (by omega) (by omega)]
          · rw [if_neg h, if_neg h]

theorem lex_nil : lex [] = some [] := rfl

theorem lex_space (t : Bytes) : lex (32 :: t) = lex t := rfl

theorem lex_step {c : UInt8} {t : Bytes} {k : Tok} {r : Bytes} (hs : space c = false) (h : lexOne c t = some (k, r))
    (hl : r.length ≤ t.length) : lex (c :: t) = (lex r).map (k :: ·) := by
  unfold lex
  conv => lhs; unfold lexN
  rw [if_neg (by rw [hs]; decide), h]
  dsimp only
  rw [if_pos hl, lexN_fuel r (c :: t).length (r.length + 1) (by rw [List.length_cons]; omega) (by omega)]

theorem lex_fail {c : UInt8} {t : Bytes} (hs : space c = false) (h : lexOne c t = none) : lex (c :: t) = none := by
  unfold lex
  conv => lhs; unfold lexN
  rw [if_neg (by rw [hs]; decide), h]

theorem lex_str (s rest : Bytes) (h : rest.head? ≠ some 39) :
    lex (39 :: (s.flatMap escByte ++ 39 :: rest)) = (lex rest).map (.str s :: ·) := by
  refine lex_step rfl ?_ ?_
  · unfold lexOne
    rw [if_pos rfl, lexString_flatMap s rest h]
    rfl
  · simp; omega

theorem lexIdent_plain (c : UInt8) (t : Bytes) (h : c ≠ 96) :
    lexIdent (c :: t) = (lexIdent t).map fun r => (c :: r.1, r.2) := by
  rw [lexIdent.eq_def]
  split <;> simp_all

theorem lexIdent_name (s rest : Bytes) (hs : 96 ∉ s) (h : rest.head? ≠ some 96) :
    lexIdent (s ++ 96 :: rest) = some (s, rest) := by
  induction s with
  | nil =>
    rw [List.nil_append, lexIdent.eq_def]
    split <;> simp_all
  | cons c s ih =>
    rw [List.mem_cons, not_or] at hs
    rw [List.cons_append, lexIdent_plain _ _ (fun h => hs.1 h.symm), ih hs.2]
    rfl

theorem lex_ident (s rest : Bytes) (hs : 96 ∉ s) (h : rest.head? ≠ some 96) :
    lex (96 :: (s ++ 96 :: rest)) = (lex rest).map (.ident s :: ·) := by
  refine lex_step rfl ?_ ?_
  · unfold lexOne
    rw [if_neg (by decide), if_pos rfl, lexIdent_name s rest hs h]
    rfl
  · simp; omega

theorem lex_sym (c : UInt8) (rest : Bytes) (h : c ∈ symbols) : lex (c :: rest) = (lex rest).map (.sym c :: ·) := by
  have hc : c = 40 ∨ c = 41 ∨ c = 44 ∨ c = 46 ∨ c = 59 ∨ c = 61 := by
    revert h; unfold symbols; simp
  refine lex_step ?_ ?_ (Nat.le_refl _)
  · rcases hc with h | h | h | h | h | h <;> subst h <;> rfl
  · rcases hc with h | h | h | h | h | h <;> subst h <;> rfl

theorem lex_word (c : UInt8) (w rest : Bytes) (hw : ∀ x ∈ c :: w, wordChar x = true) (hb : w = [] → c ≠ 98 ∧ c ≠ 66)
    (hr : ∀ x, rest.head? = some x → wordChar x = false ∧ x ≠ 39) :
    lex (c :: (w ++ rest)) = (lex rest).map (.word ((c :: w).map lower) :: ·) := by
  have hc := hw c (by simp)
  have ht : (c :: (w ++ rest)).takeWhile wordChar = c :: w ∧ (c :: (w ++ rest)).dropWhile wordChar = rest := by
    rw [← List.cons_append, List.takeWhile_append_of_pos hw, List.dropWhile_append_of_pos hw]
    cases rest with
    | nil => simp
    | cons x r =>
      have := (hr x rfl).1
      simp [this]
  refine lex_step ?_ ?_ (by simp)
  · unfold wordChar at hc
    unfold space
    simp only [Bool.or_eq_true, Bool.and_eq_true, decide_eq_true_eq, beq_iff_eq] at hc
    simp only [Bool.or_eq_false_iff, beq_eq_false_iff_ne]
    refine ⟨⟨⟨?_, ?_⟩, ?_⟩, ?_⟩ <;> rintro rfl <;> revert hc <;> decide
  · unfold lexOne
    rw [if_neg (by rintro rfl; revert hc; decide), if_neg (by rintro rfl; revert hc; decide), if_neg, if_pos hc]
    · dsimp only
      rw [ht.1, ht.2, if_neg]
      intro h
      exact (hr _ h).2 rfl
    · rintro ⟨h1, h2⟩
      cases w with
      | nil => exact h1.elim (hb rfl).1 (hb rfl).2
      | cons x w =>
        simp only [List.cons_append, List.head?_cons, Option.some.injEq] at h2
        have := hw x (by simp)
        rw [h2] at this
        revert this; decide

theorem commaGroups_cons (t : Tok) (ts : List Tok) (h : t ≠ .sym 44) :
    commaGroups (t :: ts) = match commaGroups ts with | [] => [[t]] | g :: gs => (t :: g) :: gs := by
  cases t <;> first | rfl | skip
  rename_i c
  rw [commaGroups.eq_def]
  split
  · simp_all
  · simp_all
  · rename_i heq; cases heq; rfl

theorem commaGroups_group (g ts : List Tok) (h : .sym 44 ∉ g) (gs : List (List Tok)) (x : List Tok)
    (hts : commaGroups ts = x :: gs) : commaGroups (g ++ ts) = (g ++ x) :: gs := by
  induction g with
  | nil => exact hts
  | cons t g ih =>
    rw [List.mem_cons, not_or] at h
    rw [List.cons_append, commaGroups_cons _ _ (fun hh => h.1 hh.symm), ih h.2]
    rfl

/-- the groups joined by commas -/
def joinToks : List (List Tok) → List Tok
  | [] => []
  | [g] => g
  | g :: gs => g ++ .sym 44 :: joinToks gs

theorem joinToks_cons (g h : List Tok) (gs : List (List Tok)) : joinToks (g :: h :: gs) = g ++ .sym 44 :: joinToks (h :: gs) :=
  rfl

theorem commaGroups_join (g : List Tok) (gs : List (List Tok)) (h : ∀ x ∈ g :: gs, .sym 44 ∉ x) :
    commaGroups (joinToks (g :: gs)) = g :: gs := by
  induction gs generalizing g with
  | nil =>
    have := commaGroups_group g [] (h g (by simp)) [] [] rfl
    rw [List.append_nil] at this
    exact this
  | cons k gs ih =>
    have h2 := ih k (fun x hx => h x (by simp [List.mem_cons.mp hx]))
    rw [joinToks_cons, commaGroups_group g _ (h g (by simp)) (k :: gs) [] (by
      show [] :: commaGroups (joinToks (k :: gs)) = _
      rw [h2]), List.append_nil]

end Verif.Spec
