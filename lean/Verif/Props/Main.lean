import Verif.Proofs.Main
import Verif.Props.Output
import Verif.Props.Terminates
/-!
# The program from its arguments to the exit status (C65, C66)
-/

namespace Verif.Props
open Verif Spec

/-- what the operation of the line does with the values on it -/
def _root_.Verif.Spec.CmdLine.run (l : CmdLine) (env : Env) (fs : Bytes → File) (spare : Nat) : R Out Unit :=
  if l.redo then
    fromRedoFile env fs ⟨fs (l.value (b! "SysDataFile")), l.value (b! "RedoFile"), l.value (b! "DBName"), l.value (b! "TableName")⟩ spare []
  else
    fromDataFile env ⟨fs (l.value (b! "SysDataFile")), fs (l.value (b! "TableDataFile")), l.value (b! "DBName"), l.value (b! "TableName"),
      l.value (b! "OpType")⟩ []

theorem cobra_line (l : CmdLine) (hv : l.Valid) (hd : l.Distinct) :
    cobra l.argv = .body l.redo (l.opts.map fun o => (o.name, o.value)) := by
  have hg : ∀ o ∈ l.opts, GoodName o.name := fun o h => known_good l (hv.known o h)
  have hp : ∀ o ∈ l.pre, o ∈ l.opts := fun o h => by simp [CmdLine.opts, h]
  have hm : ∀ o ∈ l.pre ++ l.mid, o ∈ l.opts := fun o h => by
    simp only [CmdLine.opts, List.mem_append] at h ⊢; exact Or.inl h
  have s1 : stripFlags l.argv =
      b! "recovery" :: stripFlags (l.mid.flatMap Opt.args ++ l.operation :: l.post.flatMap Opt.args) := by
    unfold CmdLine.argv
    rw [stripFlags_opts (fun o h => hg o (hp o h)) _ (by simp), stripFlags.eq_def]
    simp [takesNext]
  have e1 : l.argv.erase (b! "recovery") = (l.pre ++ l.mid).flatMap Opt.args ++ l.operation :: l.post.flatMap Opt.args := by
    unfold CmdLine.argv
    rw [List.erase_append_right _ (not_mem_args (by decide) hd.recovery), List.erase_cons_head]
    simp
  have s2 : stripFlags ((l.pre ++ l.mid).flatMap Opt.args ++ l.operation :: l.post.flatMap Opt.args) =
      l.operation :: stripFlags (l.post.flatMap Opt.args) := by
    rw [stripFlags_opts (fun o h => hg o (hm o h)) _ (by simp), stripFlags.eq_def]
    unfold CmdLine.operation
    cases l.redo <;> simp [takesNext]
  have e2 : ((l.pre ++ l.mid).flatMap Opt.args ++ l.operation :: l.post.flatMap Opt.args).erase l.operation =
      l.opts.flatMap Opt.args := by
    rw [List.erase_append_right _ (not_mem_args (by unfold CmdLine.operation; cases l.redo <;> decide) hd.operation),
      List.erase_cons_head]
    simp [CmdLine.opts]
  have hx : cobraExecute l.redo (l.opts.flatMap Opt.args) = .body l.redo (l.opts.map fun o => (o.name, o.value)) := by
    unfold cobraExecute
    have hn : ∀ o ∈ l.opts, GoodName o.name ∧ o.name ∈ (if l.redo then redoOptions else dataOptions) ++ rootOptions := by
      intro o h
      refine ⟨hg o h, ?_⟩
      have := hv.known o h
      unfold CmdLine.known at this
      cases hr : l.redo <;> simpa [hr, redoOptions, dataOptions, rootOptions] using this
    rw [pflags_opts l.redo hn]
    have hr : ((requiredOptions l.redo).all fun n => (([] : List (Bytes × Bytes)) ++ l.opts.map fun (o : Opt) => (o.name, o.value)).any (·.1 == n)) = true := by
      rw [List.all_eq_true]
      intro n h
      have : n ∈ l.required := by
        unfold CmdLine.required
        cases hr : l.redo <;> simpa [hr, requiredOptions, dataOptions] using h
      obtain ⟨o, ho, rfl⟩ := hv.required n this
      rw [List.any_eq_true]
      exact ⟨(o.name, o.value), by simp only [List.nil_append, List.mem_map]; exact ⟨o, ho, rfl⟩, by simp⟩
    dsimp only
    rw [if_pos hr, List.nil_append]
  unfold cobra
  rw [s1]
  dsimp only
  rw [if_pos rfl, e1, s2]
  dsimp only
  rw [e2]
  cases hr : l.redo with
  | true =>
    rw [hr] at hx
    simp [CmdLine.operation, hr, hx]
  | false =>
    rw [hr] at hx
    simp [CmdLine.operation, hr, hx]

/-- is the argument an option? -/
def IsOption (s : Bytes) : Prop := 2 ≤ s.length ∧ s.head? = some 45

theorem pflags_flagParse (redo : Bool) (names : List Bytes) (hg : ∀ n ∈ names, GoodName n) (accepts : Bytes → Bytes → Bool) (s : Bytes)
    (args rest : List Bytes) (vars : List (Bytes × Bytes)) (v : List (Bytes × Bytes)) (r : Bool) (hs : IsOption s) (hne : s ≠ b! "--")
    (h : pflags redo names (s :: args) vars = .body r v) : flagParse accepts (s :: rest) = some 2 := by
  obtain ⟨hl, hh⟩ := hs
  match s, hl, hh with
  | a :: b :: n, hl, hh =>
    obtain rfl : a = 45 := by simpa using hh
    by_cases hb : b = 45
    · subst hb
      rw [pflags.eq_def] at h
      have h1 : ((b! "--").isPrefixOf (45 :: 45 :: n)) = true := by simp
      have h2 : ¬((45 :: 45 :: n).length < 2 || !(b! "-").isPrefixOf (45 :: 45 :: n)) = true := by simp
      dsimp only at h
      rw [if_neg h2, h1, if_neg hne] at h
      simp only [Bool.not_true, Bool.false_eq_true, if_false, List.drop_succ_cons, List.drop_zero] at h
      rw [flagParse.eq_def]
      dsimp only
      rw [if_neg h2, if_neg hne, h1]
      simp only [if_true, List.drop_succ_cons, List.drop_zero]
      split_ifs at h with h3 h4 h5 h6
      · have h7 : (glogFlags (n.takeWhile (· ≠ 61))) = none := (hg _ (by simpa using h5)).glog
        rw [h7]
        split_ifs <;> rfl
      · have h7 : (glogFlags (n.takeWhile (· ≠ 61))) = none := (hg _ (by simpa using h5)).glog
        rw [h7]
        split_ifs <;> rfl
    · rw [pflags.eq_def] at h
      have h1 : ((b! "--").isPrefixOf (45 :: b :: n)) = false := by simp [List.isPrefixOf, Ne.symm hb]
      have h2 : ¬((45 :: b :: n).length < 2 || !(b! "-").isPrefixOf (45 :: b :: n)) = true := by simp
      dsimp only at h
      rw [if_neg h2, h1] at h
      simp at h

theorem option_names_good (redo : Bool) : ∀ n ∈ (if redo then redoOptions else dataOptions) ++ rootOptions, GoodName n := by
  intro n h
  refine known_good { redo := redo } ?_
  cases redo <;> simpa [CmdLine.known, redoOptions, dataOptions, rootOptions] using h

/-- **C65, exactly.** When cobra has found an operation and its options, the call of `flag.Parse` lets the program go on if and only if
the first argument is not an option. -/
theorem C65_first_argument (accepts : Bytes → Bytes → Bool) (s : Bytes) (args : List Bytes) (redo : Bool) (vars : List (Bytes × Bytes))
    (h : cobra (s :: args) = .body redo vars) :
    (IsOption s → flagParse accepts (s :: args) = some 2) ∧ (¬ IsOption s → flagParse accepts (s :: args) = none) := by
  refine ⟨fun hs => ?_, fun hs => ?_⟩
  · have hne : s ≠ b! "--" := by
      rintro rfl
      simp [cobra, stripFlags.eq_def] at h
    have h45 : s.head? = some 45 := hs.2
    unfold cobra at h
    split at h
    · cases h
    · rename_i w ws hw
      split_ifs at h with h1
      · subst h1
        have n1 : s ≠ b! "recovery" := by rintro rfl; simp at h45
        rw [List.erase_cons_tail (by simpa using n1)] at h
        dsimp only at h
        split at h
        · cases h
        · rename_i x xs hx
          split_ifs at h with h2 h3
          · subst h2
            have n2 : s ≠ b! "FromDataFile" := by rintro rfl; simp at h45
            rw [List.erase_cons_tail (by simpa using n2)] at h
            unfold cobraExecute at h
            cases hp : pflags false ((if false then redoOptions else dataOptions) ++ rootOptions)
                (s :: (args.erase (b! "recovery")).erase (b! "FromDataFile")) [] with
            | body r v => exact pflags_flagParse _ _ (option_names_good false) accepts s _ _ _ _ _ hs hne hp
            | error => rw [hp] at h; cases h
            | other => rw [hp] at h; cases h
          · subst h3
            have n2 : s ≠ b! "FromRedoFile" := by rintro rfl; simp at h45
            rw [List.erase_cons_tail (by simpa using n2)] at h
            unfold cobraExecute at h
            cases hp : pflags true ((if true then redoOptions else dataOptions) ++ rootOptions)
                (s :: (args.erase (b! "recovery")).erase (b! "FromRedoFile")) [] with
            | body r v => exact pflags_flagParse _ _ (option_names_good true) accepts s _ _ _ _ _ hs hne hp
            | error => rw [hp] at h; cases h
            | other => rw [hp] at h; cases h
  · rw [flagParse.eq_def]
    dsimp only
    rw [if_pos]
    by_contra hc
    apply hs
    match s, hc with
    | a :: b :: n, hc =>
      simp only [Bool.or_eq_true, not_or] at hc
      have := hc.2
      simp at this
      exact ⟨by simp, by simp [this]⟩
    | [], hc => simp at hc
    | [a], hc => simp at hc

/-- **C65.** The program runs the operation with the values of the options, wherever on the line they stand. -/
def C65_statement : Prop :=
  ∀ (env : Env) (fs : Bytes → File) (spare : Nat) (accepts : Bytes → Bytes → Bool) (l : CmdLine), l.Valid →
    runMain env fs spare accepts l.argv = ended (l.run env fs spare)

/-- **C65**, in part: true of the lines that begin with `recovery`, provided that no value which is an argument of its own before
the name of the operation has that name. -/
theorem C65_options_partial (env : Env) (fs : Bytes → File) (spare : Nat) (accepts : Bytes → Bytes → Bool) (l : CmdLine)
    (hv : l.Valid) (hd : l.Distinct) (hp : l.pre = []) : runMain env fs spare accepts l.argv = ended (l.run env fs spare) := by
  have hc := cobra_line l hv hd
  have ha : l.argv = b! "recovery" :: (l.mid.flatMap Opt.args ++ l.operation :: l.post.flatMap Opt.args) := by
    simp [CmdLine.argv, hp]
  have hf : flagParse accepts l.argv = none := by
    rw [ha] at hc ⊢
    exact (C65_first_argument accepts _ _ _ _ hc).2 (by rintro ⟨_, h⟩; simp at h)
  unfold runMain CmdLine.run
  rw [hc]
  dsimp only
  rw [hf]
  dsimp only
  simp only [option_eq]
  cases l.redo <;> rfl

/-- With an option before `recovery` the program ends with status 2 before it reads a file. -/
theorem C65_option_first (env : Env) (fs : Bytes → File) (spare : Nat) (accepts : Bytes → Bytes → Bool) (l : CmdLine)
    (hv : l.Valid) (hd : l.Distinct) (hp : l.pre ≠ []) : runMain env fs spare accepts l.argv = .exit 2 [] := by
  have hc := cobra_line l hv hd
  obtain ⟨s, args, hs, ha⟩ : ∃ s args, IsOption s ∧ l.argv = s :: args := by
    obtain ⟨o, os, ho⟩ := List.exists_cons_of_ne_nil hp
    obtain ⟨n, v, j⟩ := o
    cases j with
    | true =>
      refine ⟨45 :: 45 :: (n ++ b! "=" ++ v), l.argv.tail, ⟨by simp, rfl⟩, ?_⟩
      unfold CmdLine.argv
      rw [ho]
      rfl
    | false =>
      refine ⟨45 :: 45 :: n, l.argv.tail, ⟨by simp, rfl⟩, ?_⟩
      unfold CmdLine.argv
      rw [ho]
      rfl
  have hf : flagParse accepts l.argv = some 2 := by
    rw [ha] at hc ⊢
    exact (C65_first_argument accepts _ _ _ _ hc).1 hs
  unfold runMain
  rw [hc]
  dsimp only
  rw [hf]

/-- a line as in README.md:97-102, with the option `OpType` where `opt` says -/
def exLine (pre mid : List Opt) : CmdLine where
  redo := false
  pre := pre
  mid := mid
  post := [⟨b! "DBName", b! "type_test", true⟩, ⟨b! "SysDataFile", b! "ibdata1", true⟩, ⟨b! "TableDataFile", b! "test5.ibd", false⟩,
    ⟨b! "TableName", b! "test5", true⟩]

theorem exLine_valid (pre mid : List Opt) (h : ∀ o ∈ pre ++ mid, o.name = b! "OpType") : (exLine pre mid).Valid where
  known := by
    intro o ho
    simp only [CmdLine.opts, List.mem_append] at ho
    rcases ho with ho | ho
    · rw [h o (List.mem_append.mpr ho)]
      exact (by decide : b! "OpType" ∈ (exLine [] []).known)
    · exact (by decide : ∀ o ∈ (exLine [] []).post, o.name ∈ (exLine [] []).known) o ho
  required := by
    intro n hn
    have : ∀ n ∈ (exLine [] []).required, ∃ o ∈ (exLine [] []).opts, o.name = n := by decide
    obtain ⟨o, ho, e⟩ := this n hn
    refine ⟨o, ?_, e⟩
    simp only [CmdLine.opts, List.mem_append]
    exact Or.inr ho

/-- the line of the documentation meets the hypotheses of `C65_options_partial` -/
example : (exLine [] [⟨b! "OpType", b! "RecoveryData", false⟩]).Valid ∧ (exLine [] [⟨b! "OpType", b! "RecoveryData", false⟩]).Distinct :=
  ⟨exLine_valid _ _ (by decide), ⟨by decide, by decide⟩⟩

example : (exLine [] [⟨b! "OpType", b! "RecoveryData", false⟩]).argv =
    [b! "recovery", b! "--OpType", b! "RecoveryData", b! "FromDataFile", b! "--DBName=type_test", b! "--SysDataFile=ibdata1",
     b! "--TableDataFile", b! "test5.ibd", b! "--TableName=test5"] := by decide

/-- and those of `C65_option_first` -/
example : (exLine [⟨b! "OpType", b! "RecoveryData", true⟩] []).Valid ∧ (exLine [⟨b! "OpType", b! "RecoveryData", true⟩] []).Distinct :=
  ⟨exLine_valid _ _ (by decide), ⟨by decide, by decide⟩⟩

/-- The statement is false: `db-recovery --OpType=RecoveryData recovery FromDataFile ...` ends with status 2 (the operation would print
that a file cannot be opened). -/
theorem C65_false : ¬ C65_statement := by
  intro h
  have h1 := h testEnv (fun _ => .error (b! "no such file")) 0 (fun _ _ => true) _
    (exLine_valid [⟨b! "OpType", b! "RecoveryData", true⟩] [] (by decide))
  rw [C65_option_first _ _ _ _ _ (exLine_valid _ _ (by decide)) ⟨by decide, by decide⟩ (by decide)] at h1
  exact absurd h1 (by decide)

/-- It is also false of lines that begin with `recovery`: a database called `FromDataFile` is not found, when its name is an argument
of its own before the operation and another option stands between; cobra then takes the next option for the name. -/
theorem C65_value_removed :
    cobra [b! "recovery", b! "--DBName", b! "FromDataFile", b! "--TableName", b! "t", b! "FromDataFile", b! "--SysDataFile=a",
      b! "--TableDataFile=b"] = .error ∧
    cobra [b! "recovery", b! "--OpType", b! "FromDataFile", b! "--LogLevel=info", b! "FromDataFile", b! "--SysDataFile=a",
      b! "--TableDataFile=b", b! "--DBName=d", b! "--TableName=t"] =
      .body false [(b! "OpType", b! "--LogLevel=info"), (b! "SysDataFile", b! "a"), (b! "TableDataFile", b! "b"),
        (b! "DBName", b! "d"), (b! "TableName", b! "t")] := by
  decide

/-! ## Exit status -/

/-- **C66.** The exit status is 0 only if the files named on the line could be read. -/
def C66_statement : Prop :=
  ∀ (env : Env) (fs : Bytes → File) (spare : Nat) (accepts : Bytes → Bytes → Bool) (l : CmdLine) (out : Out), l.Valid → l.Distinct →
    runMain env fs spare accepts l.argv = .exit 0 out → ∃ content, fs (l.value (b! "SysDataFile")) = .ok content

/-- On the contrary, the status is 0 whenever the system file cannot be opened. -/
theorem C66_unreadable (env : Env) (fs : Bytes → File) (spare : Nat) (accepts : Bytes → Bytes → Bool) (l : CmdLine) (e : Bytes)
    (hv : l.Valid) (hd : l.Distinct) (hp : l.pre = []) (h : fs (l.value (b! "SysDataFile")) = .error e) :
    runMain env fs spare accepts l.argv = .exit 0 (if l.redo then [] else [e]) := by
  rw [C65_options_partial env fs spare accepts l hv hd hp]
  unfold CmdLine.run
  have hdict : parseDictPage env (.error e) { out := [] } = .ok (some e) { out := [] } := rfl
  cases hr : l.redo with
  | true =>
    simp only [if_true, fromRedoFile, h, hdict, ended]
  | false =>
    simp only [Bool.false_eq_true, if_false, fromDataFile, h, hdict, ended, List.nil_append]

/-- **C66**, in part: the status is 0 exactly when the operation comes to its end, with or without an error, and 2 exactly when it
panics.  Missing: a status for errors. -/
theorem C66_status_partial (env : Env) (fs : Bytes → File) (spare : Nat) (accepts : Bytes → Bytes → Bool) (l : CmdLine) (n : Nat) (out : Out)
    (hv : l.Valid) (hd : l.Distinct) (hp : l.pre = []) :
    runMain env fs spare accepts l.argv = .exit n out ↔
      (n = 0 ∧ l.run env fs spare = .ok () out) ∨ (n = 2 ∧ l.run env fs spare = .panic out) := by
  rw [C65_options_partial env fs spare accepts l hv hd hp]
  cases l.run env fs spare with
  | ok u o => simp [ended, eq_comm]
  | panic o => simp [ended, eq_comm]
  | hang o => simp [ended]

theorem C66_false : ¬ C66_statement := by
  intro h
  obtain ⟨c, hc⟩ := h testEnv (fun _ => .error (b! "no such file")) 0 (fun _ _ => true) (exLine [] []) _ (exLine_valid _ _ (by decide))
    ⟨by decide, by decide⟩ (C66_unreadable _ _ _ _ _ _ (exLine_valid _ _ (by decide)) ⟨by decide, by decide⟩ rfl rfl)
  cases hc

end Verif.Props
