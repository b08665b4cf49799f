import Verif.Props.Names
import Verif.Props.DataExact
import Verif.Props.DataCut
/-!
# C88: YEAR columns; C89: ENUM and SET columns
-/

set_option linter.unusedSimpArgs false

namespace Verif.Props
open Verif Spec

/-! ## C88 -/

/-- **C88**, as stated: every value of a YEAR column (0000 or 1901 to 2155) is decoded as that year. -/
def C88_statement : Prop :=
  ∀ (env : Env) (y : Nat) (rest : Bytes) (fieldLen fixLength : Nat) (isUnsigned isBinary : Bool) (out : Out), y = 0 ∨ 1901 ≤ y ∧ y ≤ 2155 →
    parseData env 6 13 ((TVal.year y).enc ++ rest) fieldLen fixLength isUnsigned isBinary out = .ok (.uint y, isBinary) out

theorem parseData_year (env : Env) (n : Nat) (hn : n < 256) (rest : Bytes) (fieldLen fixLength : Nat) (isUnsigned isBinary : Bool) (out : Out) :
    parseData env 6 13 (beEnc 1 n ++ rest) fieldLen fixLength isUnsigned isBinary out = .ok (.uint (n + 1900), isBinary) out := by
  have h : matchReadFrom1 (beEnc 1 n ++ rest) = some n := by
    show some (UInt8.ofNat (n / 256 ^ 0 % 256)).toNat = some n
    rw [Nat.pow_zero, Nat.div_one, Nat.mod_eq_of_lt hn, UInt8.toNat_ofNat_of_lt' hn]
  unfold parseData
  simp [DATA_VARCHAR, DATA_CHAR, DATA_FIXBINARY, DATA_BINARY, DATA_INT, MYSQL_TYPE_DATE, MYSQL_TYPE_YEAR, h]

/-- **C88 (partial).** The years from 1901 to 2155.  Missing: the year 0000, which is decoded as 1900 (`C88_zero`). -/
theorem C88_year_partial (env : Env) (y : Nat) (h : 1901 ≤ y ∧ y ≤ 2155) (rest : Bytes) (fieldLen fixLength : Nat) (isUnsigned isBinary : Bool)
    (out : Out) : parseData env 6 13 ((TVal.year y).enc ++ rest) fieldLen fixLength isUnsigned isBinary out = .ok (.uint y, isBinary) out := by
  have := parseData_year env (y - 1900) (by omega) rest fieldLen fixLength isUnsigned isBinary out
  rw [show y - 1900 + 1900 = y by omega] at this
  have e : (TVal.year y).enc = beEnc 1 (y - 1900) := by
    show beEnc 1 (if y = 0 then 0 else y - 1900) = _
    rw [if_neg (by omega)]
  rw [e]
  exact this

/-- The year 0000 is decoded as 1900, a year that the column cannot hold. -/
theorem C88_zero (env : Env) (rest : Bytes) (fieldLen fixLength : Nat) (isUnsigned isBinary : Bool) (out : Out) :
    parseData env 6 13 ((TVal.year 0).enc ++ rest) fieldLen fixLength isUnsigned isBinary out = .ok (.uint 1900, isBinary) out :=
  parseData_year env 0 (by decide) rest fieldLen fixLength isUnsigned isBinary out

/-- **C88, exactly.** -/
theorem C88_iff (env : Env) (y : Nat) (h : y = 0 ∨ 1901 ≤ y ∧ y ≤ 2155) (rest : Bytes) (fieldLen fixLength : Nat) (isUnsigned isBinary : Bool)
    (out : Out) :
    parseData env 6 13 ((TVal.year y).enc ++ rest) fieldLen fixLength isUnsigned isBinary out = .ok (.uint y, isBinary) out ↔ y ≠ 0 := by
  constructor
  · rintro e rfl
    rw [C88_zero] at e
    injection e with e _
    injection e with e _
    injection e with e
    cases e
  · exact fun h0 => C88_year_partial env y (h.resolve_left h0) rest fieldLen fixLength isUnsigned isBinary out

theorem C88_false : ¬ C88_statement := by
  intro h
  exact (C88_iff ⟨fun _ => 0, ⟨fun _ => [], fun _ => []⟩⟩ 0 (.inl rfl) [] 1 1 true false []).mp (h _ 0 [] 1 1 true false [] (.inl rfl)) rfl

/-- the byte 119 is the year 2019 -/
example (env : Env) : parseData env 6 13 [119, 7] 1 1 true false [] = .ok (.uint 2019, false) [] :=
  C88_year_partial env 2019 (by decide) [7] 1 1 true false []

/-! ## C89

A value of an ENUM or SET column is stored as a number: for ENUM the position of the member, from 1 on, for SET one bit for each member.  The
dictionary of the tool does not have the members, so it prints the numbers, as strings. -/

/-- What an ENUM column with these members holds after the string has been assigned to it (Field_enum::store): the member with this text, else
the member with this number.  `same` compares texts, as the collation of the column does. -/
def enumStore (same : Bytes → Bytes → Bool) (members : List Bytes) (x : Bytes) : Option Nat :=
  match members.findIdx? (same x) with
  | some i => some (i + 1)
  | none => (intVal x).bind fun i => if 0 ≤ i ∧ i ≤ members.length then some i.toNat else none

/-- the same for a SET column and a string without commas (Field_set::store) -/
def setStore (same : Bytes → Bytes → Bool) (members : List Bytes) (x : Bytes) : Option Nat :=
  match members.findIdx? (same x) with
  | some i => some (2 ^ i)
  | none => (intVal x).bind fun i => if 0 ≤ i ∧ i < 2 ^ members.length then some i.toNat else none

example : enumStore (· == ·) [b! "small", b! "large"] (b! "2") = some 2 ∧ enumStore (· == ·) [b! "2", b! "1"] (b! "2") = some 1 ∧
    enumStore (· == ·) [b! "small", b! "large"] (b! "3") = none := by decide
example : setStore (· == ·) [b! "a", b! "b"] (b! "3") = some 3 ∧ setStore (· == ·) [b! "a", b! "3"] (b! "3") = some 2 := by decide

/-- The statement puts a string into the column `j` that a column which holds what `store` says makes the stored number of. -/
def Member (store : Bytes → Option Nat) (j : Nat) (db table line : Bytes) (row : List (Option TVal)) : Prop :=
  ∃ vs, readReplace line = some ⟨db, table, vs⟩ ∧ ∀ w n, row[j]? = some (some (.uint w n)) → ∃ x, vs[j]? = some (.bytes x) ∧ store x = some n

/-- **C89**, as stated: of a data file whose rows are printed (C57), the values of an ENUM or SET column are those that the server puts into the
column when the statements are executed. -/
def C89_statement : Prop :=
  ∀ (env : Env) (a : FromData) (sys ibd : Bytes) (trs : List TableRow) (crs : List ColumnRow)
    (irs : List IndexRow) (frs : List FieldRow) (t : TableRow) (r : IndexRow) (l : List Column) (defs : List ColDef) (deleted : Bool)
    (rows : List (List (Option TVal))) (j : Nat) (same : Bytes → Bytes → Bool) (members : List Bytes),
    PrintableFile env a sys ibd trs crs irs frs t r l defs deleted rows →
    TableFile env ibd r.id (columnsOf crs t.id) l defs deleted rows → a.tableFile = .ok ibd →
    members.Pairwise (fun m m' => same m m' = false) →
    ∀ out, ∃ lines, fromDataFile env a out = .ok () (out ++ lines) ∧
      ((∀ row ∈ rows, ∀ w n, row[j]? = some (some (.uint w n)) → n ≤ members.length) →
        All2 (Member (enumStore same members) j a.db a.table) lines rows) ∧
      ((∀ row ∈ rows, ∀ w n, row[j]? = some (some (.uint w n)) → n < 2 ^ members.length) →
        All2 (Member (setStore same members) j a.db a.table) lines rows)

/-! ### What is printed -/

theorem all2_at {α β : Type} {R : α → β → Prop} {as : List α} {bs : List β} (h : All2 R as bs) (j : Nat) {b : β} (hb : bs[j]? = some b) :
    ∃ a, as[j]? = some a ∧ R a b := by
  induction h generalizing j with
  | nil => cases hb
  | cons h1 _ ih =>
    cases j with
    | zero => cases hb; exact ⟨_, rfl, h1⟩
    | succ j => exact ih j hb

/-- The string printed for a number is its numeral. -/
theorem printed_numeral {ff : FloatFmt} {db table line : Bytes} {row : List (Option TVal)} (h : Printed ff db table line row) :
    ∃ vs, readReplace line = some ⟨db, table, vs⟩ ∧ ∀ (j : Nat) w n, row[j]? = some (some (.uint w n)) → vs[j]? = some (.bytes (dec n)) := by
  obtain ⟨vs, h1, h2⟩ := h
  refine ⟨vs, h1, fun j w n hj => ?_⟩
  obtain ⟨v, h3, h4⟩ := all2_at h2 j (b := .int n) (by rw [List.getElem?_map, hj]; rfl)
  cases v with
  | bytes x => rw [h3, numeral_unique h4]
  | null => exact h4.elim
  | bits _ => exact h4.elim

/-- **What an ENUM column holds afterwards, exactly:** the stored number if and only if no other member has the text of this number. -/
theorem enum_exact (same : Bytes → Bytes → Bool) (members : List Bytes) (n : Nat) (hn : n ≤ members.length) :
    enumStore same members (dec n) = some n ↔ ∀ i, members.findIdx? (same (dec n)) = some i → i + 1 = n := by
  unfold enumStore
  cases h : members.findIdx? (same (dec n)) with
  | none =>
    rw [(numeral_dec n).1]
    simp only [Option.bind_some]
    rw [if_pos (by omega)]
    simp
  | some i => simp

theorem set_exact (same : Bytes → Bytes → Bool) (members : List Bytes) (n : Nat) (hn : n < 2 ^ members.length) :
    setStore same members (dec n) = some n ↔ ∀ i, members.findIdx? (same (dec n)) = some i → 2 ^ i = n := by
  unfold setStore
  cases h : members.findIdx? (same (dec n)) with
  | none =>
    rw [(numeral_dec n).1]
    simp only [Option.bind_some]
    rw [if_pos ⟨by omega, by exact_mod_cast hn⟩]
    simp
  | some i => simp

/-- a line says what the server makes of it -/
theorem member_iff {ff : FloatFmt} {db table line : Bytes} {row : List (Option TVal)} (h : Printed ff db table line row) (store : Bytes → Option Nat) (j : Nat) :
    Member store j db table line row ↔ ∀ w n, row[j]? = some (some (.uint w n)) → store (dec n) = some n := by
  obtain ⟨vs, h1, h2⟩ := printed_numeral h
  constructor
  · rintro ⟨vs', h3, h4⟩ w n hj
    rw [h1] at h3
    injection h3 with h3
    injection h3 with _ _ h3
    subst h3
    obtain ⟨x, h5, h6⟩ := h4 w n hj
    rw [h2 j w n hj] at h5
    injection h5 with h5
    injection h5 with h5
    rw [h5]
    exact h6
  · exact fun h => ⟨vs, h1, fun w n hj => ⟨_, h2 j w n hj, h w n hj⟩⟩

theorem members_iff {ff : FloatFmt} {db table : Bytes} {lines : List Bytes} {rows : List (List (Option TVal))} (h : All2 (Printed ff db table) lines rows)
    (store : Bytes → Option Nat) (j : Nat) :
    All2 (Member store j db table) lines rows ↔ ∀ row ∈ rows, ∀ w n, row[j]? = some (some (.uint w n)) → store (dec n) = some n := by
  induction h with
  | nil => exact ⟨fun _ _ h => (nomatch h), fun _ => .nil⟩
  | cons h1 _ ih =>
    constructor
    · rintro (_ | ⟨k1, k2⟩) row hrow
      rcases List.mem_cons.mp hrow with rfl | hrow
      · exact (member_iff h1 store j).mp k1
      · exact ih.mp k2 row hrow
    · exact fun k => .cons ((member_iff h1 store j).mpr (k _ (by simp))) (ih.mpr fun row hrow => k row (by simp [hrow]))

/-- **C89, exactly.** The statements are printed as in C57, and a server puts the stored values into an ENUM column if and only if no
printed number is the text of another member; into a SET column if and only if no printed number is the text of a member with another bit. -/
theorem C89_iff (env : Env) (a : FromData) (sys ibd : Bytes) (trs : List TableRow) (crs : List ColumnRow)
    (irs : List IndexRow) (frs : List FieldRow) (t : TableRow) (r : IndexRow) (l : List Column) (defs : List ColDef) (deleted : Bool)
    (rows : List (List (Option TVal))) (j : Nat) (same : Bytes → Bytes → Bool) (members : List Bytes)
    (hp : PrintableFile env a sys ibd trs crs irs frs t r l defs deleted rows)
    (hf : TableFile env ibd r.id (columnsOf crs t.id) l defs deleted rows) (hibd : a.tableFile = .ok ibd) (out : Out) :
    ∃ lines, fromDataFile env a out = .ok () (out ++ lines) ∧
      ((∀ row ∈ rows, ∀ w n, row[j]? = some (some (.uint w n)) → n ≤ members.length) →
        (All2 (Member (enumStore same members) j a.db a.table) lines rows ↔
          ∀ row ∈ rows, ∀ w n, row[j]? = some (some (.uint w n)) → ∀ i, members.findIdx? (same (dec n)) = some i → i + 1 = n)) ∧
      ((∀ row ∈ rows, ∀ w n, row[j]? = some (some (.uint w n)) → n < 2 ^ members.length) →
        (All2 (Member (setStore same members) j a.db a.table) lines rows ↔
          ∀ row ∈ rows, ∀ w n, row[j]? = some (some (.uint w n)) → ∀ i, members.findIdx? (same (dec n)) = some i → 2 ^ i = n)) := by
  obtain ⟨lines, h1, h2⟩ := C57_command_partial env a sys ibd trs crs irs frs t r l defs deleted rows hp.sysFile hibd hp.dict hp.table hp.name hp.layout hf
    hp.op hp.keys hp.handled hp.mark hp.compact hp.redundant hp.values hp.db hp.tab out
  refine ⟨lines, h1, fun hn => ?_, fun hn => ?_⟩
  · rw [members_iff h2]
    exact ⟨fun h row hr w n hj => (enum_exact same members n (hn row hr w n hj)).mp (h row hr w n hj),
      fun h row hr w n hj => (enum_exact same members n (hn row hr w n hj)).mpr (h row hr w n hj)⟩
  · rw [members_iff h2]
    exact ⟨fun h row hr w n hj => (set_exact same members n (hn row hr w n hj)).mp (h row hr w n hj),
      fun h row hr w n hj => (set_exact same members n (hn row hr w n hj)).mpr (h row hr w n hj)⟩

/-- **C89 (partial).** When no member is a number.  Missing: members that are (`C89_iff`, `C89_false`). -/
theorem C89_names_partial (env : Env) (a : FromData) (sys ibd : Bytes) (trs : List TableRow) (crs : List ColumnRow)
    (irs : List IndexRow) (frs : List FieldRow) (t : TableRow) (r : IndexRow) (l : List Column) (defs : List ColDef) (deleted : Bool)
    (rows : List (List (Option TVal))) (j : Nat) (same : Bytes → Bytes → Bool) (members : List Bytes)
    (hp : PrintableFile env a sys ibd trs crs irs frs t r l defs deleted rows)
    (hf : TableFile env ibd r.id (columnsOf crs t.id) l defs deleted rows) (hibd : a.tableFile = .ok ibd)
    (hm : ∀ m ∈ members, ∀ x i, Numeral x i → same x m = false) (out : Out) :
    ∃ lines, fromDataFile env a out = .ok () (out ++ lines) ∧
      ((∀ row ∈ rows, ∀ w n, row[j]? = some (some (.uint w n)) → n ≤ members.length) →
        All2 (Member (enumStore same members) j a.db a.table) lines rows) ∧
      ((∀ row ∈ rows, ∀ w n, row[j]? = some (some (.uint w n)) → n < 2 ^ members.length) →
        All2 (Member (setStore same members) j a.db a.table) lines rows) := by
  obtain ⟨lines, h1, h2, h3⟩ := C89_iff env a sys ibd trs crs irs frs t r l defs deleted rows j same members hp hf hibd out
  have hno : ∀ n : Nat, members.findIdx? (same (dec n)) = none := fun n => by
    rw [List.findIdx?_eq_none_iff]
    exact fun m hmem => hm m hmem _ _ (numeral_dec n)
  exact ⟨lines, h1, fun hn => (h2 hn).mpr fun _ _ _ n _ i hi => (by rw [hno n] at hi; cases hi),
    fun hn => (h3 hn).mpr fun _ _ _ n _ i hi => (by rw [hno n] at hi; cases hi)⟩

/-! ### A table with an ENUM column

`CREATE TABLE shop.t (id INT PRIMARY KEY, size ENUM(...) NOT NULL)`, with one row. -/

def enumColumns : List ColumnRow := [⟨20, 0, b! "id", 6, 1283, 4⟩, ⟨20, 1, b! "size", 6, 2163710, 1⟩]
def sizeColumn : Column := { name := b! "size", ftype := 6, mtype := 254, pos := 1, len := 1, isNull := false, isUnsigned := true, tableId := 20 }
def enumLayout : List Column := [shopId, trxColumn 20 1, rollColumn 20 2, sizeColumn]
def enumDefs : List ColDef := [⟨.int 4, false⟩, ⟨.system 6, false⟩, ⟨.system 7, false⟩, ⟨.int 1, false⟩]
def enumRow : List (Option TVal) := [some (.int 4 7), some (.uint 1 2)]
def enumCells : List Cell := [cellOfVal (some (.int 4 7)), .val (zeros 6), .val (zeros 7), cellOfVal (some (.uint 1 2))]
def enumSys : Bytes := writeSystem shopTables enumColumns (shopIndexes idKey) (shopFields idKey)
def enumData : Bytes := writeTable 30 enumDefs [enumCells] []
def enumArgs : FromData :=
  { sysFile := .ok enumSys, tableFile := .ok enumData, db := b! "shop", table := b! "t", opType := b! "RecoveryStruct" }

theorem enum_columns : columnsOf enumColumns 20 = [shopId, sizeColumn] := by decide

set_option maxRecDepth 4000 in
theorem enum_writable : Writable shopTables enumColumns (shopIndexes idKey) (shopFields idKey) :=
  { tables := by decide
    columns := by decide
    indexes := by decide
    fields := by decide
    onTables := by decide
    onColumns := by decide
    onIndexes := by decide
    onFields := by decide }

theorem enum_dictionary : Dictionary enumSys shopTables enumColumns (shopIndexes idKey) (shopFields idKey) where
  file := system_written _ _ _ _ enum_writable
  indexes := by decide
  ids := by decide
  names := (shop_dictionary (key := idKey) (.inl rfl)).names

theorem enum_file (env : Env) : TableFile env enumData 30 (columnsOf enumColumns 20) enumLayout enumDefs false [enumRow] :=
  table_written env 30 _ _ _ [enumCells] [] false [enumRow] (by decide) (by decide) (by decide) (by decide) (by decide) (by decide) (by decide)
    (.cons (by rw [enum_columns]; exact .cons ⟨0, rfl, rfl⟩ (.cons ⟨3, rfl, rfl⟩ .nil)) .nil)
    (by
      intro row hrow
      cases List.mem_singleton.mp hrow
      rw [enum_columns]
      refine .cons ?_ (.cons ?_ .nil)
      · rintro v ⟨⟩
        exact ⟨⟨rfl, by decide, by decide, rfl, rfl⟩, by decide, by decide, by decide⟩
      · rintro v ⟨⟩
        exact ⟨⟨rfl, by decide, by decide, rfl, rfl⟩, by decide, by decide⟩)

theorem enum_printable (env : Env) : PrintableFile env enumArgs enumSys enumData shopTables enumColumns (shopIndexes idKey) (shopFields idKey)
    ⟨b! "shop/t", 20, 5⟩ ⟨20, 30, b! "PRIMARY", 1, 3⟩ enumLayout enumDefs false [enumRow] where
  sysFile := rfl
  dict := enum_dictionary
  table := by decide
  name := rfl
  layout := .key (r := ⟨20, 30, b! "PRIMARY", 1, 3⟩) (by decide) (by decide) (by decide) (by decide)
  op := by decide
  keys := by
    intro t ht
    cases List.mem_singleton.mp ht
    exact .inr ⟨⟨20, 30, b! "PRIMARY", 1, 3⟩, by decide, .inr ⟨by decide, by decide, by decide, by decide⟩⟩
  handled := ⟨⟨20, 30, b! "PRIMARY", 1, 3⟩, by decide, by decide, .inr ⟨by decide, by decide, shopId, [sizeColumn], by decide, by decide⟩⟩
  mark := table_marked 30 enumDefs [enumCells] [] false (by decide) (by decide)
  compact := fun _ _ _ => by decide
  redundant := fun d hd hc => by
    rw [table_compact 30 enumDefs [enumCells] [] (by decide) (by decide) false d hd] at hc
    cases hc
  values := by
    intro row hrow
    cases List.mem_singleton.mp hrow
    rw [enum_columns]
    exact .cons ⟨trivial, trivial⟩ (.cons ⟨fun h => (nomatch h), trivial⟩ .nil)
  db := show 96 ∉ b! "shop" by decide
  tab := show 96 ∉ b! "t" by decide

/-- With the members `2` and `1`, the value `1` comes back as `2`. -/
theorem C89_false : ¬ C89_statement := by
  intro h
  have hf := enum_file testEnv
  have hp := enum_printable testEnv
  obtain ⟨lines, h1, h2, _⟩ := h testEnv enumArgs _ _ _ _ _ _ _ _ _ _ _ _ 1 (· == ·) [b! "2", b! "1"] hp hf rfl (by decide) []
  obtain ⟨lines', h1', h2', _⟩ := C89_iff testEnv enumArgs _ _ _ _ _ _ _ _ _ _ _ _ 1 (· == ·) [b! "2", b! "1"] hp hf rfl []
  rw [h1] at h1'
  injection h1' with _ h1'
  cases List.append_cancel_left h1'
  have hn : ∀ row ∈ [enumRow], ∀ w n, row[1]? = some (some (.uint w n)) → n ≤ [b! "2", b! "1"].length := by
    intro row hrow w n hj
    cases List.mem_singleton.mp hrow
    cases hj
    decide
  have := (h2' hn).mp (h2 hn) enumRow (by simp) 1 2 rfl 0 (by decide)
  cases this

/-- the hypotheses of `C89_names_partial` hold, with the members `small` and `large` -/
example (env : Env) (out : Out) : ∃ lines, fromDataFile env enumArgs out = .ok () (out ++ lines) ∧
    All2 (Member (enumStore (· == ·) [b! "small", b! "large"]) 1 (b! "shop") (b! "t")) lines [enumRow] := by
  have hm : ∀ m ∈ [b! "small", b! "large"], ∀ x i, Numeral x i → (x == m) = false := by
    intro m hm x i hx
    rw [beq_eq_false_iff_ne]
    rintro rfl
    have h1 := hx.1
    clear hx
    simp only [List.mem_cons, List.not_mem_nil, or_false] at hm
    rcases hm with rfl | rfl <;> cases h1
  obtain ⟨lines, h1, h2, _⟩ := C89_names_partial env enumArgs _ _ _ _ _ _ _ _ _ _ _ _ 1 (· == ·) [b! "small", b! "large"] (enum_printable env) (enum_file env)
    rfl hm out
  refine ⟨lines, h1, h2 ?_⟩
  intro row hrow w n hj
  cases List.mem_singleton.mp hrow
  cases hj
  decide

end Verif.Props
