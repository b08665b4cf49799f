import Verif.Proofs.Keeps
import Verif.Model.Dict
/-!
# Loading the dictionary prints nothing
-/

namespace Verif

theorem parseDictPages_quiet (env : Env) (tables : TableMap) (dts : List DataDict) (o : Out) :
    Keeps (QuietState o) (parseDictPages env tables dts) := by
  induction dts with
  | nil => exact Keeps.pure _
  | cons dt dts ih => exact Keeps.bind (parsePage_quiet env tables _ _ _ o) fun _ => Keeps.bind ih fun _ => Keeps.pure _

theorem withCols_quiet {α : Type} (cols : List Column) (m : GoM PState α) (h : ∀ o, Keeps (QuietState o) m)
    (hc : NoDecimal cols) (o : Out) : Keeps (fun s : DState => s.out = o) (withCols cols m) :=
  Keeps.zoom (h o) (fun _ hs => ⟨hs, hc⟩) (fun _ _ _ ht => ht.1)

theorem sysTables_noDecimal : NoDecimal makeSysTablesColumns := by unfold NoDecimal; decide
theorem sysColumns_noDecimal : NoDecimal makeSysColumnsColumns := by unfold NoDecimal; decide
theorem sysIndexes_noDecimal : NoDecimal makeSysIndexesColumns := by unfold NoDecimal; decide
theorem sysFields_noDecimal : NoDecimal makeSysFieldsColumns := by unfold NoDecimal; decide

theorem allTablesLoop_quiet (env : Env) (dts : List DataDict) (cols : List Column) (hc : NoDecimal cols) (o : Out) :
    Keeps (fun s : DState => s.out = o) (allTablesLoop env dts cols) := by
  induction dts generalizing cols with
  | nil => exact Keeps.pure _
  | cons dt dts ih =>
    intro s hs
    have h := parsePage_quiet env s.tables dt.data false 0 o ⟨cols, s.out⟩ ⟨hs, hc⟩
    unfold allTablesLoop
    cases hr : parsePage env s.tables dt.data false 0 ⟨cols, s.out⟩ with
    | ok rows p =>
      rw [hr] at h
      dsimp only
      cases foldRows addTableRow s.tables rows with
      | none => exact h.1
      | some t => exact ih p.cols h.2 _ h.1
    | panic p => rw [hr] at h; exact h.1
    | hang p => rw [hr] at h; exact h.1

theorem andThen_keeps {σ : Type} {P : σ → Prop} {m k : GoM σ (Option Bytes)} (hm : Keeps P m) (hk : Keeps P k) :
    Keeps P (andThen m k) := by
  refine Keeps.bind hm fun r => ?_
  cases r with
  | none => exact hk
  | some e => exact Keeps.pure _

theorem parseDictPage_quiet (env : Env) (file : File) (o : Out) :
    Keeps (fun s : DState => s.out = o) (parseDictPage env file) := by
  cases file with
  | error e => exact Keeps.pure _
  | ok content =>
    refine Keeps.bind (Keeps.lift _) fun pages => Keeps.bind (Keeps.lift _) fun sp => Keeps.bind Keeps.get fun s =>
      Keeps.bind (Keeps.lift _) fun d => Keeps.bind (Keeps.modify _ fun _ h => h) fun _ => ?_
    refine andThen_keeps ?_ (andThen_keeps ?_ (andThen_keeps ?_ (andThen_keeps ?_ ?_)))
    · refine Keeps.bind Keeps.get fun s => ?_
      cases s.dict.get? SysTablesIdx with
      | none => exact Keeps.pure _
      | some dts => exact Keeps.bind (allTablesLoop_quiet env dts _ sysTables_noDecimal o) fun _ => Keeps.pure _
    · refine Keeps.bind Keeps.get fun s => ?_
      cases s.dict.get? SysColumnsIdx with
      | none => exact Keeps.pure _
      | some dts =>
        exact Keeps.bind (withCols_quiet _ _ (parseDictPages_quiet env _ dts) sysColumns_noDecimal o) fun _ =>
          Keeps.bind (Keeps.lift _) fun _ => Keeps.bind (Keeps.modify _ fun _ h => h) fun _ => Keeps.pure _
    · refine Keeps.bind Keeps.get fun s => ?_
      cases s.dict.get? SysIndexesIdx with
      | none => exact Keeps.pure _
      | some dts =>
        exact Keeps.bind (withCols_quiet _ _ (parseDictPages_quiet env _ dts) sysIndexes_noDecimal o) fun _ =>
          Keeps.bind (Keeps.lift _) fun _ => Keeps.bind (Keeps.modify _ fun _ h => h) fun _ => Keeps.pure _
    · refine Keeps.bind Keeps.get fun s => ?_
      cases s.dict.get? SysFieldsIdx with
      | none => exact Keeps.pure _
      | some dts =>
        exact Keeps.bind (withCols_quiet _ _ (parseDictPages_quiet env _ dts) sysFields_noDecimal o) fun _ =>
          Keeps.bind (Keeps.lift _) fun _ => Keeps.bind (Keeps.modify _ fun _ h => h) fun _ => Keeps.pure _
    · exact Keeps.bind Keeps.get fun _ => Keeps.bind (Keeps.lift _) fun _ => Keeps.bind (Keeps.lift _) fun _ =>
        Keeps.bind (Keeps.modify _ fun _ h => h) fun _ => Keeps.pure _

end Verif
