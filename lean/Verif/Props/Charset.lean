import Verif.Props.FullText
import Verif.Spec.Charset
/-!
# C105: the character sets of columns

A statement sent to the server is text in the character set of the session (SET NAMES), and the server converts strings to the character set of the column
they are stored in.  The tool prints the bytes of a string as they are stored, whatever the character set of the column, and no SET NAMES.
-/

set_option linter.unusedSimpArgs false

namespace Verif.Props
open Verif Spec

/-- the string that a value is, if it is one of a column with a character set -/
def strOf : TVal → Option Bytes
  | .varcharLatin1 s | .charLatin1 s | .varchar s | .text s | .char s _ => some s
  | _ => none

/-- the columns of a table, as they are recorded -/
def recorded (crs : List ColumnRow) (id : Nat) : List ColumnRow := crs.filter (·.tableId == id)

/-- the character set of a column: the number of its collation is recorded with its type, and `coll` gives the character set of a collation -/
def charsetOf (coll : Nat → Charset) (c : ColumnRow) : Charset := coll (c.prtype / 65536)

/-- A line, executed in a session with the given character set, stores the strings of a row. -/
def Arrives (coll : Nat → Charset) (session : Charset) (cols : List ColumnRow) (db table line : Bytes) (row : List (Option TVal)) : Prop :=
  ∃ vs, readReplace line = some ⟨db, table, vs⟩ ∧
    ∀ (j : Nat) c v s, cols[j]? = some c → row[j]? = some (some v) → strOf v = some s →
      ∃ x, vs[j]? = some (.bytes x) ∧ Converts session (charsetOf coll c) x s

/-- The strings of a row are text in the character sets of their columns. -/
def Proper (coll : Nat → Charset) (cols : List ColumnRow) (row : List (Option TVal)) : Prop :=
  ∀ (j : Nat) c v s, cols[j]? = some c → row[j]? = some (some v) → strOf v = some s → ∃ chars, (charsetOf coll c).Spells chars s

/-- **C105**, as stated: for a table whose rows are printed (C57), there is a character set for the session such that the statements store the strings of
the rows, whatever the character sets of the columns. -/
def C105_statement : Prop :=
  ∀ (coll : Nat → Charset) (env : Env) (a : FromData) (sys ibd : Bytes) (trs : List TableRow) (crs : List ColumnRow)
    (irs : List IndexRow) (frs : List FieldRow) (t : TableRow) (r : IndexRow) (l : List Column) (defs : List ColDef) (deleted : Bool)
    (rows : List (List (Option TVal))), (∀ n, (coll n).Fine) → PrintableFile env a sys ibd trs crs irs frs t r l defs deleted rows →
    TableFile env ibd r.id (columnsOf crs t.id) l defs deleted rows → a.tableFile = .ok ibd →
    (∀ row ∈ rows, Proper coll (recorded crs t.id) row) →
    ∃ session : Charset, session.Fine ∧
      ∀ out, ∃ lines, fromDataFile env a out = .ok () (out ++ lines) ∧ All2 (Arrives coll session (recorded crs t.id) a.db a.table) lines rows

/-! ### Bytes that mean the same in two character sets -/

/-- The bytes of a string mean the same in two character sets. -/
def Charset.Agree (s : Bytes) : Charset → Charset → Prop
  | .utf8mb4, .utf8mb4 => True
  | .single f, .single g => ∀ b ∈ s, f b = g b
  | _, _ => ∀ b ∈ s, b < 128

theorem utf8Of_length (c : Nat) : 1 ≤ (utf8Of c).length ∧ ((utf8Of c).length = 1 → c < 0x80) := by
  unfold utf8Of
  split
  · exact ⟨by simp, fun _ => by assumption⟩
  · split
    · simp
    · split <;> simp

theorem utf8_length (chars : List Nat) : chars.length ≤ (chars.flatMap utf8Of).length ∧
    ((chars.flatMap utf8Of).length = chars.length → ∀ c ∈ chars, c < 0x80) := by
  induction chars with
  | nil => exact ⟨Nat.le_refl _, fun _ _ h => (nomatch h)⟩
  | cons c chars ih =>
    have h := utf8Of_length c
    rw [List.flatMap_cons, List.length_append, List.length_cons]
    refine ⟨by omega, fun he => ?_⟩
    intro c' hc'
    rcases List.mem_cons.mp hc' with rfl | hc'
    · exact h.2 (by omega)
    · exact ih.2 (by omega) c' hc'

theorem utf8_ascii (s : Bytes) (h : ∀ b ∈ s, b < 128) : (s.map (·.toNat)).flatMap utf8Of = s := by
  induction s with
  | nil => rfl
  | cons b s ih =>
    have hb : b.toNat < 0x80 := UInt8.lt_iff_toNat_lt.mp (h b (by simp))
    rw [List.map_cons, List.flatMap_cons, ih fun b hb => h b (by simp [hb]), utf8Of, if_pos hb, UInt8.ofNat_toNat]
    rfl

theorem single_ascii {code : UInt8 → Nat} (hf : (Charset.single code).Fine) (b : UInt8) : code b < 128 ↔ b < 128 := by
  constructor
  · intro h
    have h1 : (UInt8.ofNat (code b)).toNat = code b := by rw [UInt8.toNat_ofNat']; omega
    have h2 : UInt8.ofNat (code b) < 128 := UInt8.lt_iff_toNat_lt.mpr (by rw [h1]; exact h)
    have h3 := hf.2 b (UInt8.ofNat (code b)) (by rw [hf.1 _ h2, h1])
    rw [h3]
    exact h2
  · intro h
    rw [hf.1 b h]
    exact UInt8.lt_iff_toNat_lt.mp h

/-- UTF-8 and a set of one byte for each character agree on ASCII only. -/
theorem utf8_single {code : UInt8 → Nat} (hf : (Charset.single code).Fine) (s : Bytes) :
    (∃ chars, Charset.utf8mb4.Spells chars s ∧ (Charset.single code).Spells chars s) ↔ ∀ b ∈ s, b < 128 := by
  constructor
  · rintro ⟨chars, ⟨_, h1⟩, h2⟩
    have h3 : chars = s.map code := h2
    have h4 : chars.length = s.length := by rw [h3, List.length_map]
    have h5 := (utf8_length chars).2 (by rw [← h1, h4])
    intro b hb
    exact (single_ascii hf b).mp (h5 (code b) (by rw [h3]; exact List.mem_map_of_mem hb))
  · intro h
    refine ⟨s.map (·.toNat), ⟨?_, (utf8_ascii s h).symm⟩, List.map_congr_left fun b hb => (hf.1 b (h b hb)).symm⟩
    intro c hc
    obtain ⟨b, hb, rfl⟩ := List.mem_map.mp hc
    have : b.toNat < 128 := UInt8.lt_iff_toNat_lt.mp (h b hb)
    omega

/-- The bytes of a string, sent in one character set, are stored unchanged in another one if and only if they mean the same in both. -/
theorem converts_self (session column : Charset) (hs : session.Fine) (hc : column.Fine) (s : Bytes) (hv : ∃ chars, column.Spells chars s) :
    Converts session column s s ↔ Charset.Agree s session column := by
  cases session with
  | utf8mb4 =>
    cases column with
    | utf8mb4 =>
      obtain ⟨chars, h⟩ := hv
      exact ⟨fun _ => trivial, fun _ => ⟨chars, h, h⟩⟩
    | single g => exact utf8_single hc s
  | single f =>
    cases column with
    | utf8mb4 =>
      refine Iff.trans ?_ (utf8_single hs s)
      exact ⟨fun ⟨chars, h, h'⟩ => ⟨chars, h', h⟩, fun ⟨chars, h, h'⟩ => ⟨chars, h', h⟩⟩
    | single g =>
      constructor
      · rintro ⟨chars, h, h'⟩
        have : s.map f = s.map g := h.symm.trans h'
        exact List.map_inj_left.mp this
      · intro h
        exact ⟨s.map f, rfl, List.map_congr_left h⟩

/-! ### What is printed -/

theorem origOf_str (ff : FloatFmt) {v : TVal} {s : Bytes} (h : strOf v = some s) : origOf ff (some v) = .text s := by
  cases v <;> cases h <;> rfl

/-- The string printed for a string has its bytes. -/
theorem printed_string {ff : FloatFmt} {db table line : Bytes} {row : List (Option TVal)} (h : Printed ff db table line row) :
    ∃ vs, readReplace line = some ⟨db, table, vs⟩ ∧
      ∀ (j : Nat) v s, row[j]? = some (some v) → strOf v = some s → vs[j]? = some (.bytes s) := by
  obtain ⟨vs, h1, h2⟩ := h
  refine ⟨vs, h1, fun j v s hj hs => ?_⟩
  obtain ⟨x, h3, h4⟩ := all2_at h2 j (b := .text s) (by rw [List.getElem?_map, hj, Option.map_some, origOf_str ff hs])
  cases x with
  | bytes x =>
    have : x = s := h4
    rw [h3, this]
  | null => exact h4.elim
  | bits x => exact h4.elim

/-- A line stores the strings of a row if and only if their bytes mean the same in the character sets of the session and of the columns. -/
theorem arrives_iff {ff : FloatFmt} (coll : Nat → Charset) (session : Charset) (hcoll : ∀ n, (coll n).Fine) (hs : session.Fine)
    (cols : List ColumnRow) {db table line : Bytes} {row : List (Option TVal)} (h : Printed ff db table line row) (hp : Proper coll cols row) :
    Arrives coll session cols db table line row ↔
      ∀ (j : Nat) c v s, cols[j]? = some c → row[j]? = some (some v) → strOf v = some s → Charset.Agree s session (charsetOf coll c) := by
  obtain ⟨vs, h1, h2⟩ := printed_string h
  constructor
  · rintro ⟨vs', h3, h4⟩ j c v s hj hv hstr
    rw [h1] at h3
    cases h3
    obtain ⟨x, h5, h6⟩ := h4 j c v s hj hv hstr
    rw [h2 j v s hv hstr] at h5
    cases h5
    exact (converts_self session _ hs (hcoll _) s (hp j c v s hj hv hstr)).mp h6
  · intro h3
    refine ⟨vs, h1, fun j c v s hj hv hstr => ⟨s, h2 j v s hv hstr, ?_⟩⟩
    exact (converts_self session _ hs (hcoll _) s (hp j c v s hj hv hstr)).mpr (h3 j c v s hj hv hstr)

/-- **C105, exactly.** In a session with a character set, the line of a row stores the strings of the row if and only if the bytes of every string mean the
same in this character set and in that of its column. -/
theorem C105_iff (coll : Nat → Charset) (session : Charset) (hcoll : ∀ n, (coll n).Fine) (hs : session.Fine)
    (env : Env) (a : FromData) (sys ibd : Bytes) (trs : List TableRow) (crs : List ColumnRow)
    (irs : List IndexRow) (frs : List FieldRow) (t : TableRow) (r : IndexRow) (l : List Column) (defs : List ColDef) (deleted : Bool)
    (rows : List (List (Option TVal))) (hp : PrintableFile env a sys ibd trs crs irs frs t r l defs deleted rows)
    (hf : TableFile env ibd r.id (columnsOf crs t.id) l defs deleted rows) (hibd : a.tableFile = .ok ibd)
    (hrows : ∀ row ∈ rows, Proper coll (recorded crs t.id) row) (out : Out) :
    ∃ lines, fromDataFile env a out = .ok () (out ++ lines) ∧
      All2 (fun line row => Arrives coll session (recorded crs t.id) a.db a.table line row ↔
        ∀ (j : Nat) c v s, (recorded crs t.id)[j]? = some c → row[j]? = some (some v) → strOf v = some s →
          Charset.Agree s session (charsetOf coll c)) lines rows := by
  obtain ⟨lines, h1, h2⟩ := C57_command_partial env a sys ibd trs crs irs frs t r l defs deleted rows hp.sysFile hibd hp.dict hp.table hp.name hp.layout hf
    hp.op hp.keys hp.handled hp.mark hp.compact hp.redundant hp.values hp.db hp.tab out
  refine ⟨lines, h1, ?_⟩
  clear h1 hf hp hibd
  induction h2 with
  | nil => exact .nil
  | cons hd _ ih => exact .cons (arrives_iff coll session hcoll hs _ hd (hrows _ (by simp))) (ih fun row hrow => hrows row (by simp [hrow]))

theorem agree_self (s : Bytes) (cs : Charset) : Charset.Agree s cs cs := by
  cases cs with
  | utf8mb4 => trivial
  | single f => exact fun _ _ => rfl

/-- **C105 (partial).** If the columns with strings have one character set, or their strings are ASCII, the session can have that character set.  Missing:
tables with columns of different character sets (`C105_mixed`, `C105_false`). -/
theorem C105_one_partial (coll : Nat → Charset) (session : Charset) (hcoll : ∀ n, (coll n).Fine) (hs : session.Fine)
    (env : Env) (a : FromData) (sys ibd : Bytes) (trs : List TableRow) (crs : List ColumnRow)
    (irs : List IndexRow) (frs : List FieldRow) (t : TableRow) (r : IndexRow) (l : List Column) (defs : List ColDef) (deleted : Bool)
    (rows : List (List (Option TVal))) (hp : PrintableFile env a sys ibd trs crs irs frs t r l defs deleted rows)
    (hf : TableFile env ibd r.id (columnsOf crs t.id) l defs deleted rows) (hibd : a.tableFile = .ok ibd)
    (hrows : ∀ row ∈ rows, Proper coll (recorded crs t.id) row)
    (hone : ∀ row ∈ rows, ∀ (j : Nat) c v s, (recorded crs t.id)[j]? = some c → row[j]? = some (some v) → strOf v = some s →
      charsetOf coll c = session ∨ ∀ b ∈ s, b < 128) (out : Out) :
    ∃ lines, fromDataFile env a out = .ok () (out ++ lines) ∧ All2 (Arrives coll session (recorded crs t.id) a.db a.table) lines rows := by
  obtain ⟨lines, h1, h2⟩ := C105_iff coll session hcoll hs env a sys ibd trs crs irs frs t r l defs deleted rows hp hf hibd hrows out
  refine ⟨lines, h1, ?_⟩
  clear h1 hf hp hibd hrows
  induction h2 with
  | nil => exact .nil
  | cons hd _ ih =>
    refine .cons (hd.mpr fun j c v s hj hv hstr => ?_) (ih fun row hrow => hone row (by simp [hrow]))
    rcases hone _ (by simp) j c v s hj hv hstr with h | h
    · rw [h]
      exact agree_self s session
    · cases session with
      | utf8mb4 =>
        cases charsetOf coll c with
        | utf8mb4 => trivial
        | single g => exact h
      | single f =>
        cases hc : charsetOf coll c with
        | utf8mb4 => exact h
        | single g =>
          have hg : (Charset.single g).Fine := by rw [← hc]; exact hcoll _
          exact fun b hb => (hs.1 b (h b hb)).trans (hg.1 b (h b hb)).symm

/-- **C105, mixed tables.** A row with a string in UTF-8 and one in a set of one byte for each character, neither of them ASCII, is stored by its line in
no session at all. -/
theorem C105_mixed (coll : Nat → Charset) (session : Charset) (hcoll : ∀ n, (coll n).Fine) (hs : session.Fine) {ff : FloatFmt} (cols : List ColumnRow)
    {db table line : Bytes} {row : List (Option TVal)} (h : Printed ff db table line row) (hp : Proper coll cols row)
    {i j : Nat} {c c' : ColumnRow} {v v' : TVal} {s s' : Bytes} {code : UInt8 → Nat} {b b' : UInt8}
    (hi : cols[i]? = some c) (hvi : row[i]? = some (some v)) (hsi : strOf v = some s) (hci : charsetOf coll c = .utf8mb4) (hb : b ∈ s) (hb' : 128 ≤ b)
    (hj : cols[j]? = some c') (hvj : row[j]? = some (some v')) (hsj : strOf v' = some s') (hcj : charsetOf coll c' = .single code) (hd : b' ∈ s')
    (hd' : 128 ≤ b') : ¬ Arrives coll session cols db table line row := by
  intro ha
  have h1 := (arrives_iff coll session hcoll hs cols h hp).mp ha
  cases session with
  | utf8mb4 =>
    have h2 := h1 j c' v' s' hj hvj hsj
    rw [hcj] at h2
    exact absurd (h2 b' hd) (UInt8.not_lt.mpr hd')
  | single f =>
    have h2 := h1 i c v s hi hvi hsi
    rw [hci] at h2
    exact absurd (h2 b hb) (UInt8.not_lt.mpr hb')

/-! ### A table with two character sets

`CREATE TABLE shop.t (id INT PRIMARY KEY, name VARCHAR(30) CHARACTER SET utf8mb4 NOT NULL, old VARCHAR(30) CHARACTER SET latin1 COLLATE latin1_german1_ci
NOT NULL)`, with the row (7, 'é', 'é'). -/

def accentColumns : List ColumnRow :=
  [⟨20, 0, b! "id", 6, 1283, 4⟩, ⟨20, 1, b! "name", 12, 2949391, 120⟩, ⟨20, 2, b! "old", 12, 327951, 30⟩]
def accentIndexes : List IndexRow := [⟨20, 30, b! "PRIMARY", 1, 3⟩]
def accentFields : List FieldRow := [⟨30, 0, b! "id"⟩]
def accentName : Column := { name := b! "name", ftype := 12, mtype := 15, pos := 1, len := 120, isNull := false, tableId := 20 }
def accentOld : Column := { name := b! "old", ftype := 12, mtype := 15, pos := 2, len := 30, isNull := false, tableId := 20 }
def accentLayout : List Column := [shopId, trxColumn 20 1, rollColumn 20 2, accentName, accentOld]
def accentDefs : List ColDef :=
  [⟨.int 4, false⟩, ⟨.system 6, false⟩, ⟨.system 7, false⟩, ⟨.varchar 120, false⟩, ⟨.varchar 30, false⟩]
def accentRow : List (Option TVal) := [some (.int 4 7), some (.varchar [0xC3, 0xA9]), some (.varchar [0xE9])]
def accentCells : List Cell :=
  [cellOfVal (some (.int 4 7)), .val (zeros 6), .val (zeros 7), cellOfVal (some (.varchar [0xC3, 0xA9])), cellOfVal (some (.varchar [0xE9]))]
def accentSys : Bytes := writeSystem shopTables accentColumns accentIndexes accentFields
def accentData : Bytes := writeTable 30 accentDefs [accentCells] []
def accentArgs : FromData :=
  { sysFile := .ok accentSys, tableFile := .ok accentData, db := b! "shop", table := b! "t", opType := b! "RecoveryStruct" }
/-- utf8mb4_general_ci is collation 45, latin1_german1_ci is collation 5 -/
def accentColl (n : Nat) : Charset := if n = 45 then .utf8mb4 else iso8859_1

theorem accent_coll (n : Nat) : (accentColl n).Fine := by
  unfold accentColl
  split
  · trivial
  · exact iso8859_1_fine

theorem accent_columns : columnsOf accentColumns 20 = [shopId, accentName, accentOld] := by decide

set_option maxRecDepth 4000 in
theorem accent_writable : Writable shopTables accentColumns accentIndexes accentFields :=
  { tables := by decide
    columns := by decide
    indexes := by decide
    fields := by decide
    onTables := by decide
    onColumns := by decide
    onIndexes := by decide
    onFields := by decide }

theorem accent_dictionary : Dictionary accentSys shopTables accentColumns accentIndexes accentFields where
  file := system_written _ _ _ _ accent_writable
  indexes := by decide
  ids := by decide
  names := (shop_dictionary (key := idKey) (.inl rfl)).names

theorem accent_file (env : Env) : TableFile env accentData 30 (columnsOf accentColumns 20) accentLayout accentDefs false [accentRow] :=
  table_written env 30 _ _ _ [accentCells] [] false [accentRow] (by decide) (by decide) (by decide) (by decide) (by decide) (by decide) (by decide)
    (.cons (by rw [accent_columns]; exact .cons ⟨0, rfl, rfl⟩ (.cons ⟨3, rfl, rfl⟩ (.cons ⟨4, rfl, rfl⟩ .nil))) .nil)
    (by
      intro row hrow
      cases List.mem_singleton.mp hrow
      rw [accent_columns]
      refine .cons ?_ (.cons ?_ (.cons ?_ .nil))
      · rintro v ⟨⟩
        exact ⟨⟨rfl, by decide, by decide, rfl, rfl⟩, by decide, by decide, by decide⟩
      · rintro v ⟨⟩
        exact ⟨rfl, trivial⟩
      · rintro v ⟨⟩
        exact ⟨rfl, trivial⟩)

theorem accent_printable (env : Env) : PrintableFile env accentArgs accentSys accentData shopTables accentColumns accentIndexes accentFields
    ⟨b! "shop/t", 20, 5⟩ ⟨20, 30, b! "PRIMARY", 1, 3⟩ accentLayout accentDefs false [accentRow] where
  sysFile := rfl
  dict := accent_dictionary
  table := by decide
  name := rfl
  layout := .key (r := ⟨20, 30, b! "PRIMARY", 1, 3⟩) (by decide) (by decide) (by decide) (by decide)
  op := by decide
  keys := by
    intro t ht
    cases List.mem_singleton.mp ht
    exact .inr ⟨⟨20, 30, b! "PRIMARY", 1, 3⟩, by decide, .inr ⟨by decide, by decide, by decide, by decide⟩⟩
  handled := ⟨⟨20, 30, b! "PRIMARY", 1, 3⟩, by decide, by decide, .inr ⟨by decide, by decide, shopId, [accentName, accentOld], by decide, by decide⟩⟩
  mark := table_marked 30 accentDefs [accentCells] [] false (by decide) (by decide)
  compact := fun _ _ _ => by decide
  redundant := fun d hd hc => by
    rw [table_compact 30 accentDefs [accentCells] [] (by decide) (by decide) false d hd] at hc
    cases hc
  values := by
    intro row hrow
    cases List.mem_singleton.mp hrow
    rw [accent_columns]
    exact .cons ⟨trivial, trivial⟩ (.cons ⟨trivial, ⟨by decide, by decide⟩⟩ (.cons ⟨trivial, ⟨by decide, by decide⟩⟩ .nil))
  db := show 96 ∉ b! "shop" by decide
  tab := show 96 ∉ b! "t" by decide

theorem accent_recorded : recorded accentColumns 20 = accentColumns := by decide

theorem accent_proper : ∀ row ∈ [accentRow], Proper accentColl (recorded accentColumns 20) row := by
  intro row hrow
  cases List.mem_singleton.mp hrow
  rw [accent_recorded]
  intro j c v s hj hv hs
  match j with
  | 0 => cases hv; cases hs
  | 1 => cases hj; cases hv; cases hs; exact ⟨[233], by decide, by decide⟩
  | 2 => cases hj; cases hv; cases hs; exact ⟨[233], rfl⟩
  | j + 3 => cases hj

/-- The row (7, 'é', 'é') of the table cannot be stored. -/
theorem C105_false : ¬ C105_statement := by
  intro h
  obtain ⟨session, hs, h⟩ := h accentColl testEnv accentArgs _ _ _ _ _ _ _ _ _ _ _ _ accent_coll (accent_printable testEnv) (accent_file testEnv) rfl
    accent_proper
  obtain ⟨lines, h1, h2⟩ := h []
  have hp := accent_printable testEnv
  obtain ⟨lines', h1', h3⟩ := C57_command_partial testEnv accentArgs _ _ _ _ _ _ _ _ _ _ _ _ hp.sysFile rfl hp.dict hp.table hp.name hp.layout
    (accent_file testEnv) hp.op hp.keys hp.handled hp.mark hp.compact hp.redundant hp.values hp.db hp.tab []
  rw [h1] at h1'
  injection h1' with _ h1'
  cases List.append_cancel_left h1'
  cases h2 with
  | cons h2 _ =>
    cases h3 with
    | cons h3 _ =>
      refine C105_mixed accentColl session accent_coll hs (recorded accentColumns 20) h3 (accent_proper _ (by simp)) (i := 1) (j := 2) (b := 0xC3) (b' := 0xE9)
        (by rw [accent_recorded]; rfl) rfl rfl rfl (by decide) (by decide) (by rw [accent_recorded]; rfl) rfl rfl rfl (by decide) (by decide) h2

/-- the hypotheses of `C105_one_partial` hold: both columns in latin1 -/
example (env : Env) (out : Out) : ∃ lines, fromDataFile env accentArgs out = .ok () (out ++ lines) ∧
    All2 (Arrives (fun _ => iso8859_1) iso8859_1 (recorded accentColumns 20) (b! "shop") (b! "t")) lines [accentRow] :=
  C105_one_partial (fun _ => iso8859_1) iso8859_1 (fun _ => iso8859_1_fine) iso8859_1_fine env accentArgs _ _ _ _ _ _ _ _ _ _ _ _ (accent_printable env)
    (accent_file env) rfl (fun _ _ _ _ _ _ _ _ _ => ⟨_, rfl⟩) (fun _ _ _ _ _ _ _ _ _ => .inl rfl) out

end Verif.Props
