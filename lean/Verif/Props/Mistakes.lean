import Verif.Props.Main

/-!
# C122: mistakes on the command line

A line that lacks an option the operation requires, that has an option the operation does not have, for example a misspelt one, or whose last
option has no value, is rejected before a file is read.  A misspelt value of `OpType` is not: it is taken for an operation that does not
recover deleted rows.
-/

namespace Verif.Props
open Verif Spec

/-- the options are written like options: a name without `=` behind two dashes; `--help` asks for help -/
def Spelled (l : CmdLine) : Prop :=
  ∀ o ∈ l.opts, o.name ≠ [] ∧ (61 : UInt8) ∉ o.name ∧ o.name.head? ≠ some 45 ∧ o.name ≠ b! "help"

/-- the operations of the help text (command.go:57) -/
def opTypes : List Bytes := [b! "RecoveryData", b! "RecoveryStruct", b! "PrintData"]

/-- an unknown option, a required one that is missing, or an unknown operation -/
def Mistaken (l : CmdLine) : Prop := ¬ l.Valid ∨ ∃ o ∈ l.opts, o.name = b! "OpType" ∧ o.value ∉ opTypes

/-- **C122**, as stated -/
def C122_statement : Prop :=
  ∀ (env : Env) (fs : Bytes → File) (spare : Nat) (accepts : Bytes → Bytes → Bool) (l : CmdLine), Spelled l → l.Distinct → Mistaken l →
    ∃ n, n ≠ 0 ∧ runMain env fs spare accepts l.argv = .exit n []

/-! ## What cobra makes of such lines -/

theorem strip_option {o : Opt} (h1 : o.name ≠ []) (h2 : (61 : UInt8) ∉ o.name) (rest : List Bytes) (hr : o.joined = false → rest ≠ []) :
    stripFlags (o.args ++ rest) = stripFlags rest := by
  obtain ⟨n, v, j⟩ := o
  simp only at h1 h2 hr
  obtain ⟨c, n, rfl⟩ := List.exists_cons_of_ne_nil h1
  cases j with
  | true =>
    have ht : takesNext (45 :: 45 :: c :: (n ++ 61 :: v)) = false := by simp [takesNext]
    simp only [Opt.args, if_true, List.cons_append, List.nil_append, List.append_assoc]
    rw [stripFlags.eq_def]
    simp [ht]
  | false =>
    obtain ⟨r, rs, rfl⟩ := List.exists_cons_of_ne_nil (hr rfl)
    have : takesNext (45 :: 45 :: c :: n) = true := by
      simp [takesNext]
      simpa using h2
    simp only [Opt.args, Bool.false_eq_true, if_false, List.cons_append, List.nil_append]
    rw [stripFlags.eq_def]
    simp [this]

theorem strip_options {os : List Opt} (hn : ∀ o ∈ os, o.name ≠ [] ∧ (61 : UInt8) ∉ o.name) (rest : List Bytes) (hr : rest ≠ []) :
    stripFlags (os.flatMap Opt.args ++ rest) = stripFlags rest := by
  induction os with
  | nil => rfl
  | cons o os ih =>
    rw [List.flatMap_cons, List.append_assoc, strip_option (hn o (by simp)).1 (hn o (by simp)).2 _ (fun _ => by simp [hr]),
      ih fun o h => hn o (by simp [h])]

/-- The operation is found, and gets all options of the line. -/
theorem cobra_words (l : CmdLine) (hs : Spelled l) (hd : l.Distinct) (tail : List Bytes) :
    cobra (l.argv ++ tail) = cobraExecute l.redo (l.opts.flatMap Opt.args ++ tail) := by
  have hp : ∀ o ∈ l.pre, o ∈ l.opts := fun o h => by simp [CmdLine.opts, h]
  have hm : ∀ o ∈ l.pre ++ l.mid, o ∈ l.opts := fun o h => by
    simp only [CmdLine.opts, List.mem_append] at h ⊢; exact Or.inl h
  have ha : l.argv ++ tail = l.pre.flatMap Opt.args ++ b! "recovery" :: (l.mid.flatMap Opt.args ++ l.operation :: (l.post.flatMap Opt.args ++ tail)) := by
    unfold CmdLine.argv
    simp only [List.append_assoc, List.cons_append]
  have s1 : stripFlags (l.argv ++ tail) =
      b! "recovery" :: stripFlags (l.mid.flatMap Opt.args ++ l.operation :: (l.post.flatMap Opt.args ++ tail)) := by
    rw [ha, strip_options (fun o h => ⟨(hs o (hp o h)).1, (hs o (hp o h)).2.1⟩) _ (by simp), stripFlags.eq_def]
    simp [takesNext]
  have e1 : (l.argv ++ tail).erase (b! "recovery") =
      (l.pre ++ l.mid).flatMap Opt.args ++ l.operation :: (l.post.flatMap Opt.args ++ tail) := by
    rw [ha, List.erase_append_right _ (not_mem_args (by decide) hd.recovery), List.erase_cons_head]
    simp
  have s2 : stripFlags ((l.pre ++ l.mid).flatMap Opt.args ++ l.operation :: (l.post.flatMap Opt.args ++ tail)) =
      l.operation :: stripFlags (l.post.flatMap Opt.args ++ tail) := by
    rw [strip_options (fun o h => ⟨(hs o (hm o h)).1, (hs o (hm o h)).2.1⟩) _ (by simp), stripFlags.eq_def]
    unfold CmdLine.operation
    cases l.redo <;> simp [takesNext]
  have e2 : ((l.pre ++ l.mid).flatMap Opt.args ++ l.operation :: (l.post.flatMap Opt.args ++ tail)).erase l.operation =
      l.opts.flatMap Opt.args ++ tail := by
    rw [List.erase_append_right _ (not_mem_args (by unfold CmdLine.operation; cases l.redo <;> decide) hd.operation),
      List.erase_cons_head]
    simp [CmdLine.opts]
  unfold cobra
  rw [s1]
  dsimp only
  rw [if_pos rfl, e1, s2]
  dsimp only
  rw [e2]
  cases hr : l.redo <;> simp [CmdLine.operation, hr]

theorem pflags_unknown (redo : Bool) {names : List Bytes} {o : Opt} (h1 : o.name ≠ []) (h2 : (61 : UInt8) ∉ o.name)
    (h3 : o.name.head? ≠ some 45) (h4 : o.name ≠ b! "help") (hm : o.name ∉ names) (rest : List Bytes) (vars : List (Bytes × Bytes)) :
    pflags redo names (o.args ++ rest) vars = .error := by
  obtain ⟨n, v, j⟩ := o
  simp only at h1 h2 h3 h4 hm
  obtain ⟨c, n, rfl⟩ := List.exists_cons_of_ne_nil h1
  have c61 : c ≠ 61 := fun e => h2 (by simp [e])
  have c45 : c ≠ 45 := fun e => h3 (by simp [e])
  have t := takeWhile_name h2
  have t' := takeWhile_name_eq h2 v
  rw [List.cons_append] at t'
  cases j with
  | true =>
    have e : (45 :: 45 :: c :: (n ++ 61 :: v)).drop 2 = c :: (n ++ 61 :: v) := rfl
    simp only [Opt.args, if_true, List.cons_append, List.nil_append, List.append_assoc, pflags, e, t', if_neg h4]
    simp [hm, c61.symm, c45.symm]
  | false =>
    have e : (45 :: 45 :: c :: n).drop 2 = c :: n := rfl
    simp only [Opt.args, Bool.false_eq_true, if_false, List.cons_append, List.nil_append, pflags, e, t, if_neg h4]
    simp [hm, c61.symm, c45.symm]

theorem pflags_line (l : CmdLine) {names : List Bytes} (hn : ∀ n, n ∈ names ↔ n ∈ l.known) {os : List Opt} (ho : ∀ o ∈ os, o ∈ l.opts) (hs : Spelled l) (tail : List Bytes) (vars : List (Bytes × Bytes)) :
    pflags l.redo names (os.flatMap Opt.args ++ tail) vars =
      if ∀ o ∈ os, o.name ∈ l.known then pflags l.redo names tail (vars ++ os.map fun o => (o.name, o.value)) else .error := by
  induction os generalizing vars with
  | nil => simp
  | cons o os ih =>
    rw [List.flatMap_cons, List.append_assoc]
    obtain ⟨h1, h2, h3, h4⟩ := hs o (ho o (by simp))
    by_cases hk : o.name ∈ l.known
    · rw [pflags_opt l.redo (known_good l hk) ((hn _).mpr hk), ih fun o h => ho o (by simp [h])]
      simp [hk]
    · rw [pflags_unknown l.redo h1 h2 h3 h4 (fun h => hk ((hn _).mp h)), if_neg]
      exact fun h => hk (h o (by simp))

theorem known_names (l : CmdLine) (n : Bytes) : n ∈ (if l.redo then redoOptions else dataOptions) ++ rootOptions ↔ n ∈ l.known := by
  unfold CmdLine.known
  cases l.redo <;> simp [redoOptions, dataOptions, rootOptions]

/-- **C122, exactly.** Of a line that is written with options of any names, cobra makes an error if and only if an option is unknown or a
required one is missing. -/
theorem C122_iff (l : CmdLine) (hs : Spelled l) (hd : l.Distinct) : cobra l.argv = .error ↔ ¬ l.Valid := by
  constructor
  · intro h hv
    rw [cobra_line l hv hd] at h
    cases h
  · intro hv
    have hc := cobra_words l hs hd []
    rw [List.append_nil] at hc
    rw [hc]
    unfold cobraExecute
    rw [pflags_line l (known_names l) (fun _ h => h) hs]
    by_cases hk : ∀ o ∈ l.opts, o.name ∈ l.known
    · rw [if_pos hk, pflags]
      dsimp only
      rw [if_neg]
      intro hr
      refine hv ⟨hk, fun n hn => ?_⟩
      rw [List.all_eq_true] at hr
      have := hr n (by
        unfold CmdLine.required at hn
        cases h : l.redo <;> simpa [h, requiredOptions, dataOptions] using hn)
      rw [List.any_eq_true] at this
      obtain ⟨x, hx, he⟩ := this
      rw [List.nil_append, List.mem_map] at hx
      obtain ⟨o, ho, rfl⟩ := hx
      exact ⟨o, ho, eq_of_beq he⟩
    · rw [if_neg hk]

/-- **C122, unknown and missing options.** The program ends with status 2; nothing is printed on standard output, and no file is read:
the outcome is the same whatever the files contain.  Missing: values of `OpType`. -/
theorem C122_rejected_partial (env : Env) (fs : Bytes → File) (spare : Nat) (accepts : Bytes → Bytes → Bool) (l : CmdLine) (hs : Spelled l)
    (hd : l.Distinct) (h : ¬ l.Valid) : runMain env fs spare accepts l.argv = .exit 2 [] := by
  unfold runMain
  rw [(C122_iff l hs hd).mpr h]

/-- **C122, options without a value.** A line whose last option lacks its value is rejected as well. -/
theorem C122_no_value (env : Env) (fs : Bytes → File) (spare : Nat) (accepts : Bytes → Bytes → Bool) (l : CmdLine) (hs : Spelled l)
    (hd : l.Distinct) (n : Bytes) (hn : n ∈ l.known) : runMain env fs spare accepts (l.argv ++ [b! "--" ++ n]) = .exit 2 [] := by
  have hc : cobra (l.argv ++ [b! "--" ++ n]) = .error := by
    rw [cobra_words l hs hd]
    unfold cobraExecute
    rw [pflags_line l (known_names l) (fun _ h => h) hs]
    by_cases hk : ∀ o ∈ l.opts, o.name ∈ l.known
    · rw [if_pos hk]
      have hg := known_good l hn
      obtain ⟨h1, h2, h3, h4, -⟩ := hg
      obtain ⟨c, n, rfl⟩ := List.exists_cons_of_ne_nil h1
      have c61 : c ≠ 61 := fun e => h2 (by simp [e])
      have c45 : c ≠ 45 := fun e => h3 (by simp [e])
      have t := takeWhile_name h2
      have hc : (c :: n).contains 61 = false := by
        rw [List.contains_eq_mem]; exact decide_eq_false h2
      have e : (45 :: 45 :: c :: n).drop 2 = c :: n := rfl
      have : ∀ vars, pflags l.redo ((if l.redo then redoOptions else dataOptions) ++ rootOptions) [45 :: 45 :: c :: n] vars = .error := by
        intro vars
        have hn := (known_names l _).mpr hn
        generalize (if l.redo then redoOptions else dataOptions) ++ rootOptions = names at *
        simp only [pflags, e, t, if_neg h4, hc]
        simp [hn, c61.symm, c45.symm]
      rw [show b! "--" ++ c :: n = 45 :: 45 :: c :: n from rfl, this]
    · rw [if_neg hk]
  unfold runMain
  rw [hc]

/-! ## Values of OpType -/

/-- **C122, operations.** All values of `OpType` but `RecoveryData` have the same effect, whether they are documented or not. -/
theorem C122_operation (env : Env) (a : FromData) (x y : Bytes) (hx : x ≠ b! "RecoveryData") (hy : y ≠ b! "RecoveryData") :
    fromDataFile env { a with opType := x } = fromDataFile env { a with opType := y } := by
  have h : ∀ z : Bytes, z ≠ b! "RecoveryData" → (z == b! "RecoveryData") = false := fun z hz => beq_eq_false_iff_ne.mpr hz
  funext out
  unfold fromDataFile
  dsimp only
  rw [h x hx, h y hy]

/-- the line of the documentation, with a misspelt operation -/
def typoLine : CmdLine := exLine [] [⟨b! "OpType", b! "RecoverData", false⟩]

theorem typo_valid : typoLine.Valid := exLine_valid _ _ (by decide)
theorem typo_distinct : typoLine.Distinct := ⟨by decide, by decide⟩

/-- **C122 is false:** with `--OpType RecoverData` the program runs, and ends with status 0. -/
theorem C122_false : ¬ C122_statement := by
  intro h
  obtain ⟨n, hn, he⟩ := h testEnv (fun _ => .error (b! "no such file")) 0 (fun _ _ => true) typoLine (by unfold Spelled; decide) typo_distinct
    (.inr ⟨⟨b! "OpType", b! "RecoverData", false⟩, by decide, rfl, by decide⟩)
  rw [C66_unreadable _ _ _ _ typoLine (b! "no such file") typo_valid typo_distinct rfl rfl] at he
  injection he with h1 _
  exact hn h1.symm

/-- The hypotheses of `C122_rejected_partial`: a misspelt option. -/
example : Spelled (exLine [] [⟨b! "OpTyp", b! "RecoveryData", false⟩]) ∧ (exLine [] [⟨b! "OpTyp", b! "RecoveryData", false⟩]).Distinct ∧
    ¬ (exLine [] [⟨b! "OpTyp", b! "RecoveryData", false⟩]).Valid := by
  refine ⟨by unfold Spelled; decide, ⟨by decide, by decide⟩, fun h => ?_⟩
  have := h.known ⟨b! "OpTyp", b! "RecoveryData", false⟩ (by decide)
  revert this
  decide

/-- A line without the name of the table. -/
example : Spelled ⟨false, [], [], [⟨b! "DBName", b! "d", true⟩]⟩ ∧ ¬ (⟨false, [], [], [⟨b! "DBName", b! "d", true⟩]⟩ : CmdLine).Valid := by
  refine ⟨by unfold Spelled; decide, fun h => ?_⟩
  obtain ⟨o, ho, he⟩ := h.required (b! "TableName") (by decide)
  rw [List.mem_singleton.mp ho] at he
  revert he
  decide

/-- The hypotheses of `C122_no_value`: the documented line, with `--OpType` as its last argument. -/
example : Spelled typoLine ∧ typoLine.Distinct ∧ b! "OpType" ∈ typoLine.known := ⟨by unfold Spelled; decide, typo_distinct, by decide⟩

end Verif.Props
