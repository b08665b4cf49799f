import Verif.Props.Main
import Verif.Props.RedoWitness
/-!
# Runs of the program (C65 with C57 and C58)
-/

namespace Verif.Props
open Verif Spec

/-- `recovery FromDataFile --SysDataFile=ibdata1 --TableDataFile=t.ibd --DBName=shop --TableName=t --OpType=...` -/
def shopLine (deleted : Bool) : CmdLine where
  redo := false
  post := [⟨b! "SysDataFile", b! "ibdata1", true⟩, ⟨b! "TableDataFile", b! "t.ibd", true⟩, ⟨b! "DBName", b! "shop", true⟩,
    ⟨b! "TableName", b! "t", true⟩, ⟨b! "OpType", if deleted then b! "RecoveryData" else b! "RecoveryStruct", true⟩]

def shopFiles (n : Bytes) : File := if n = b! "ibdata1" then .ok (shopFile idKey) else .ok (shopData (b! "ann"))

theorem shopLine_valid (deleted : Bool) : (shopLine deleted).Valid where
  known := by cases deleted <;> decide
  required := by cases deleted <;> decide

/-- From the arguments to the statements on standard output: the rows of the table, or its deleted rows. -/
theorem C65_shop (env : Env) (spare : Nat) (accepts : Bytes → Bytes → Bool) (deleted : Bool) :
    ∃ lines, runMain env shopFiles spare accepts (shopLine deleted).argv = .exit 0 lines ∧
      All2 (Printed env.ff (b! "shop") (b! "t")) lines
        (if deleted then [[some (.int 4 3), some (.varchar (b! "bob"))]]
          else [[some (.int 4 1), some (.varchar (b! "ann"))], [some (.int 4 2), none]]) := by
  obtain ⟨lines, h1, h2⟩ := shop_command env deleted []
  refine ⟨lines, ?_, h2⟩
  rw [C65_options_partial env shopFiles spare accepts (shopLine deleted) (shopLine_valid deleted)
    ⟨by cases deleted <;> decide, by cases deleted <;> decide⟩ rfl]
  have e : (shopLine deleted).run env shopFiles spare = fromDataFile env (shopArgs (b! "ann") deleted) [] := by
    have v1 : (shopLine deleted).value (b! "SysDataFile") = b! "ibdata1" := by cases deleted <;> decide
    have v2 : (shopLine deleted).value (b! "TableDataFile") = b! "t.ibd" := by cases deleted <;> decide
    have v3 : (shopLine deleted).value (b! "DBName") = b! "shop" := by cases deleted <;> decide
    have v4 : (shopLine deleted).value (b! "TableName") = b! "t" := by cases deleted <;> decide
    have v5 : (shopLine deleted).value (b! "OpType") = if deleted then b! "RecoveryData" else b! "RecoveryStruct" := by
      cases deleted <;> decide
    have f1 : shopFiles (b! "ibdata1") = .ok (shopFile idKey) := if_pos rfl
    have f2 : shopFiles (b! "t.ibd") = .ok (shopData (b! "ann")) := if_neg (by decide)
    have r : (shopLine deleted).redo = false := rfl
    unfold CmdLine.run shopArgs
    rw [v1, v2, v3, v4, v5, f1, f2, r]
    simp only [Bool.false_eq_true, if_false]
  rw [e, h1]
  rfl

/-- `recovery --SysDataFile=ibdata1 FromRedoFile --RedoFile ib_logfile0,ib_logfile1 --DBName=shop` -/
def redoLine : CmdLine where
  redo := true
  mid := [⟨b! "SysDataFile", b! "ibdata1", true⟩]
  post := [⟨b! "RedoFile", b! "ib_logfile0,ib_logfile1", false⟩, ⟨b! "DBName", b! "shop", true⟩]

/-- the system file and the two log files -/
def redoFiles (n : Bytes) : File := if n = b! "ibdata1" then .ok (shopFile idKey) else shopDisk (b! "bob") n

theorem redoLine_valid : redoLine.Valid where
  known := by decide
  required := by decide

/-- From the arguments to the statement that takes the update of row 7 back. -/
theorem C65_shop_redo (env : Env) (spare : Nat) (accepts : Bytes → Bytes → Bool) :
    ∃ lines, runMain env redoFiles spare accepts redoLine.argv = .exit 0 lines ∧ All2 (Undoes env.ff) lines [shopChange (b! "bob")] := by
  have hfs : All2 (fun chunks n => ∃ content, redoFiles n = .ok content ∧ IsLogFile chunks content) (shopParts (b! "bob"))
      [b! "ib_logfile0", b! "ib_logfile1"] := by
    have h := shop_disk (.inl rfl : ShopName (b! "bob"))
    cases h with
    | cons h1 h =>
      cases h with
      | cons h2 h =>
        cases h
        have e1 : redoFiles (b! "ib_logfile0") = shopDisk (b! "bob") (b! "ib_logfile0") := if_neg (by decide)
        have e2 : redoFiles (b! "ib_logfile1") = shopDisk (b! "bob") (b! "ib_logfile1") := if_neg (by decide)
        exact .cons (by rw [e1]; exact h1) (.cons (by rw [e2]; exact h2) .nil)
  obtain ⟨lines, h1, h2⟩ := shop_redo env redoFiles spare [] hfs
  refine ⟨lines, ?_, h2⟩
  rw [C65_options_partial env redoFiles spare accepts redoLine redoLine_valid ⟨by decide, by decide⟩ rfl]
  have e : redoLine.run env redoFiles spare = fromRedoFile env redoFiles shopRedo spare [] := by
    have v1 : redoLine.value (b! "SysDataFile") = b! "ibdata1" := by decide
    have v2 : redoLine.value (b! "RedoFile") = b! "ib_logfile0,ib_logfile1" := by decide
    have v3 : redoLine.value (b! "DBName") = b! "shop" := by decide
    have v4 : redoLine.value (b! "TableName") = [] := by decide
    have f1 : redoFiles (b! "ibdata1") = .ok (shopFile idKey) := if_pos rfl
    have r : redoLine.redo = true := rfl
    unfold CmdLine.run shopRedo
    rw [v1, v2, v3, v4, f1, r]
    simp only [if_true]
  rw [e, h1]
  rfl

end Verif.Props
