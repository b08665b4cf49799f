import Verif.Spec.Sql
import Verif.Spec.Typed
import Verif.Spec.RedoRecords
/-!
# Specification: UPDATE statements and the undo records they are made from
-/

namespace Verif.Spec

/-! ## Text -/

def joinSep (sep : Bytes) : List Bytes → Bytes
  | [] => []
  | [x] => x
  | x :: xs => x ++ sep ++ joinSep sep xs

/-- one assignment; the contents of the literal are inserted as they are -/
def assignText : Bytes × Option Bytes → Bytes
  | (name, some v) => b! "`" ++ name ++ b! "`='" ++ v ++ b! "'"
  | (name, none) => b! "`" ++ name ++ b! "`=NULL"

/-- An UPDATE statement: assignments separated by `sep`, and conditions. -/
def updateText (sep db table : Bytes) (sets : List (Bytes × Option Bytes)) (conds : List (Bytes × Bytes)) : Bytes :=
  b! "update `" ++ db ++ b! "`.`" ++ table ++ b! "` set " ++ joinSep sep (sets.map assignText) ++ b! " where " ++
    joinSep (b! " and ") (conds.map fun c => assignText (c.1, some c.2)) ++ b! ";"

/-! ## The dictionary entry of a table -/

/-- The table has the primary key (`names`), its only clustered index. -/
def HasKey (table : Table) (names : List Bytes) : Prop :=
  ∃ a ix b, table.indexes = a ++ ix :: b ∧ ix.2.name = b! "PRIMARY" ∧ ix.2.fields.map (·.name) = names ∧
    ∀ j ∈ a ++ b, trimSpace j.2.name ≠ b! "PRIMARY" ∧ trimSpace j.2.name ≠ b! "GEN_CLUST_INDEX"

/-- The table has no primary key: its clustered index is generated. -/
def NoKey (table : Table) : Prop :=
  ∃ a ix b, table.indexes = a ++ ix :: b ∧ ix.2.name = b! "GEN_CLUST_INDEX" ∧
    ∀ j ∈ a ++ b, trimSpace j.2.name ≠ b! "PRIMARY" ∧ trimSpace j.2.name ≠ b! "GEN_CLUST_INDEX"

/-- `c` is the column called `name`. -/
def Named (table : Table) (name : Bytes) (c : Column) : Prop :=
  ∃ a b, table.columns = a ++ c :: b ∧ c.name = name ∧ ∀ x ∈ a, x.name ≠ name

/-- the values are of the types of the columns with these names -/
def KeyTyped (table : Table) : List Bytes → List TVal → Prop :=
  All2 fun name v => ∃ c, Named table name c ∧ v.Of c

/-- the values are of the types of the columns with these positions -/
def OldTyped (table : Table) (olds : List (Nat × Option TVal)) : Prop :=
  ∀ e ∈ olds, ∃ c, table.columns[e.1]? = some c ∧ ∀ v, e.2 = some v → v.Of c

/-- The undo record of an update of an existing row of the table: values of the primary key, and position and old value of
each updated column. -/
def UpdateOf (u : Undo) (keys : List TVal) (olds : List (Nat × Option TVal)) : Prop :=
  u.kind = 12 ∧ u.key = keys.map TVal.enc ∧ u.fields = olds.map fun e => (e.1, e.2.map TVal.enc)

def nameAt (table : Table) (k : Nat) : Bytes := ((table.columns[k]?).map (·.name)).getD []

/-- what the statement must assign -/
def setsOf (ff : FloatFmt) (table : Table) (olds : List (Nat × Option TVal)) : List (Bytes × Option Bytes) :=
  olds.map fun e => (nameAt table e.1, e.2.map (TVal.lit ff))

/-- the conditions it must have -/
def condsOf (ff : FloatFmt) (names : List Bytes) (keys : List TVal) : List (Bytes × Bytes) :=
  names.zip (keys.map (TVal.lit ff))

/-! ## Reading UPDATE statements -/

/-- Split at a token. -/
def splitTok (sep : Tok) : List Tok → List (List Tok)
  | [] => [[]]
  | t :: ts =>
    if t = sep then [] :: splitTok sep ts
    else match splitTok sep ts with
      | [] => [[t]]
      | g :: gs => (t :: g) :: gs

/-- ``  `name` = expression `` -/
def parseEq : List Tok → Option (Bytes × List Tok)
  | .ident n :: .sym 61 :: e => if e = [] then none else some (n, e)
  | _ => none

/-- An UPDATE statement: the columns that are assigned, separated by commas, and the conjuncts of the condition; each with the
tokens of the expression on the right. -/
structure Update where
  db : Bytes
  table : Bytes
  sets : List (Bytes × List Tok)
  conds : List (Bytes × List Tok)
deriving Repr, DecidableEq

/-- what stands between `set` and the semicolon -/
def parseParts (db table : Bytes) (body : List Tok) : Option Update :=
  match splitTok (.word (b! "where")) body with
  | [sets, conds] =>
    match (splitTok (.sym 44) sets).mapM parseEq, (splitTok (.word (b! "and")) conds).mapM parseEq with
    | some s, some c => some ⟨db, table, s, c⟩
    | _, _ => none
  | _ => none

def parseUpdate : List Tok → Option Update
  | .word w1 :: .ident db :: .sym 46 :: .ident table :: .word w2 :: ts =>
    if w1 = b! "update" ∧ w2 = b! "set" then
      match ts.reverse with
      | .sym 59 :: body => parseParts db table body.reverse
      | _ => none
    else none
  | _ => none

/-- The statement denoted by a text. -/
def readUpdate (s : Bytes) : Option Update := (lex s).bind parseUpdate

example : readUpdate (b! "UPDATE `d`.`t` SET `a` = 'x''y', `b`=NULL WHERE `id`='1' AND `k`='where';") =
    some ⟨b! "d", b! "t", [(b! "a", [.str (b! "x'y")]), (b! "b", [.word (b! "null")])], [(b! "id", [.str (b! "1")]), (b! "k", [.str (b! "where")])]⟩ := by decide
example : readUpdate (b! "update `d`.`t` set `a`='x' where ;") = none := by decide

end Verif.Spec
