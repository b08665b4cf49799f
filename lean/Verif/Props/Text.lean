import Verif.Proofs.White
import Verif.Proofs.GoM
/-!
# C12, C13, C14, C17: text and binary columns
-/

set_option linter.unusedSimpArgs false

namespace Verif.Props
open Verif Spec

/-! ## C12 -/

/-- A column that holds binary data: BINARY(n), VARBINARY(n), or one of the BLOB types (whose binary flag is set). -/
inductive BinaryCol : Nat → Nat → Bool → Prop
  | binary (flag : Bool) : BinaryCol DATA_FIXBINARY MYSQL_TYPE_STRING flag
  | varbinary (flag : Bool) : BinaryCol DATA_BINARY MYSQL_TYPE_VARCHAR flag
  | blob (mysqlType : Nat) : BinaryCol DATA_BLOB mysqlType true

/-- **C12.** The text emitted for a binary column is hexadecimal and `unhex` of it is exactly the stored bytes; the column
is marked binary (so that the statement applies `unhex` to it, C35) and nothing else is printed. -/
theorem C12_binary_columns (env : Env) (dataType mysqlType : Nat) (flag : Bool) (h : BinaryCol dataType mysqlType flag)
    (value rest : Bytes) (fixLength : Nat) (isUnsigned : Bool) (out : Out) :
    ∃ text, parseData env dataType mysqlType (value ++ rest) value.length fixLength isUnsigned flag out =
        .ok (.str text, true) out ∧
      unhex text = some value ∧ text.length = 2 * value.length ∧
      ∀ c ∈ text, (48 ≤ c.toNat ∧ c.toNat ≤ 57) ∨ (97 ≤ c.toNat ∧ c.toNat ≤ 102) := by
  refine ⟨parseBlob value, ?_, unhex_parseBlob value, parseBlob_length value, parseBlob_digits value⟩
  have hs : sliceTo (value ++ rest) value.length = some value := by
    rw [sliceTo, if_pos (by simp), List.take_left' rfl]
  cases h <;>
    simp [parseData, DATA_VARCHAR, DATA_CHAR, DATA_FIXBINARY, DATA_BINARY, DATA_BLOB, DATA_INT, DATA_FLOAT, DATA_DOUBLE,
      DATA_DECIMAL, DATA_VARMYSQL, DATA_MYSQL, MYSQL_TYPE_STRING, MYSQL_TYPE_TIME, MYSQL_TYPE_TIMESTAMP,
      MYSQL_TYPE_DATETIME, MYSQL_TYPE_BIT, MYSQL_TYPE_NEWDECIMAL, hs]

example : BinaryCol DATA_BLOB MYSQL_TYPE_LONG_BLOB true := .blob _
example : parseBlob [0, 0xAB, 39, 255] = b! "00ab27ff" := by decide

/-! ## C13 -/

/-- The full claim of C13: what the SQL lexer reads back between the quotes is the original string, and the literal ends
at the closing quote.  (If the text behind the closing quote begins with another quote, SQL reads the two as one
character; the tool never prints that.) -/
def C13_statement : Prop :=
  ∀ s rest : Bytes, rest.head? ≠ some 39 → lexString (escapeValue s ++ 39 :: rest) = some (s, rest)

/-- **C13 (partial).** Escaping is lossless for every byte string but one.  Missing: the string
`0001-01-01T00:00:00Z`, which the escaper turns into the empty string (`C13_false`). -/
theorem C13_escape_roundtrip_partial (s rest : Bytes) (hs : s ≠ b! "0001-01-01T00:00:00Z")
    (h : rest.head? ≠ some 39) : lexString (escapeValue s ++ 39 :: rest) = some (s, rest) := by
  rw [escapeValue_ne hs]; exact lexString_flatMap s rest h

/-- the excluded string is really lost -/
theorem C13_zero_time : escapeValue (b! "0001-01-01T00:00:00Z") = [] := by decide

theorem C13_false : ¬ C13_statement := by
  intro h
  have := h (b! "0001-01-01T00:00:00Z") [] (by decide)
  revert this; decide

/-- Consequently two different strings never print the same (the lost string prints like the empty one). -/
theorem C13_injective (s t : Bytes) (hs : s ≠ b! "0001-01-01T00:00:00Z") (ht : t ≠ b! "0001-01-01T00:00:00Z")
    (h : escapeValue s = escapeValue t) : s = t := by
  have h1 := C13_escape_roundtrip_partial s [] hs (by simp)
  have h2 := C13_escape_roundtrip_partial t [] ht (by simp)
  rw [h, h2] at h1
  exact (Prod.mk.inj (Option.some.inj h1)).1.symm

/-- a string with every special character, an invalid UTF-8 sequence and a multi-byte character -/
example : ([0x27, 0x5C, 0, 10, 13, 34, 26, 0xC3, 0x27, 0xE4, 0xBD, 0xA0] : Bytes) ≠ b! "0001-01-01T00:00:00Z" := by decide
example : lexString (escapeValue [0x27, 0x5C, 0, 10, 13, 34, 26, 0xC3, 0x27, 0xE4, 0xBD, 0xA0] ++ b! "', 5") =
    some ([0x27, 0x5C, 0, 10, 13, 34, 26, 0xC3, 0x27, 0xE4, 0xBD, 0xA0], b! ", 5") := by decide

/-! ## C14 -/

/-- The full claim of C14: a value padded with spaces comes back without the padding and otherwise unchanged. -/
def C14_statement : Prop :=
  ∀ (env : Env) (mysqlType : Nat) (core : Bytes) (k fixLength : Nat) (isUnsigned isBinary : Bool) (out : Out),
    core.getLast? ≠ some 32 →
    parseData env DATA_MYSQL mysqlType (core ++ List.replicate k 32) (core.length + k) fixLength isUnsigned isBinary out =
      .ok (.str core, isBinary) out

theorem parseData_mysql (env : Env) (mysqlType : Nat) (value rest : Bytes) (fixLength : Nat)
    (isUnsigned isBinary : Bool) (out : Out) :
    parseData env DATA_MYSQL mysqlType (value ++ rest) value.length fixLength isUnsigned isBinary out =
      .ok (.str (trimSpace value), isBinary) out := by
  have hs : sliceTo (value ++ rest) value.length = some value := by
    rw [sliceTo, if_pos (by simp), List.take_left' rfl]
  simp [parseData, DATA_VARCHAR, DATA_CHAR, DATA_FIXBINARY, DATA_BINARY, DATA_BLOB, DATA_INT, DATA_FLOAT, DATA_DOUBLE,
      DATA_DECIMAL, DATA_VARMYSQL, DATA_MYSQL, hs]

/-- **C14 (partial).** The padding is removed and nothing else, exactly when the value itself neither begins nor ends with
a white space character.  Missing: values that do, which lose these characters (`C14_false`, `C14_trims`). -/
theorem C14_char_partial (env : Env) (mysqlType : Nat) (core rest : Bytes) (k fixLength : Nat)
    (isUnsigned isBinary : Bool) (out : Out) :
    parseData env DATA_MYSQL mysqlType (core ++ List.replicate k 32 ++ rest) (core.length + k) fixLength isUnsigned
        isBinary out = .ok (.str core, isBinary) out ↔ Edged core := by
  have hl : core.length + k = (core ++ List.replicate k (32 : UInt8)).length := by simp
  rw [hl, parseData_mysql, edged_iff, ← trimSpace_pad core k]
  constructor
  · intro h
    injection h with h _
    exact Val.str.inj (Prod.mk.inj h).1
  · intro h; rw [h]

/-- What is returned in every case: the stored bytes without the white space characters at both ends. -/
theorem C14_trims (env : Env) (mysqlType : Nat) (stored rest : Bytes) (fixLength : Nat) (isUnsigned isBinary : Bool) (out : Out) :
    ∃ (before after : List Bytes) (text : Bytes), (∀ w ∈ before ++ after, w ∈ whiteSpace) ∧ stored = before.flatten ++ text ++ after.flatten ∧
      Edged text ∧ parseData env DATA_MYSQL mysqlType (stored ++ rest) stored.length fixLength isUnsigned isBinary out =
        .ok (.str text, isBinary) out := by
  obtain ⟨a, c, h1, h2, h3⟩ := trimSpace_parts stored
  exact ⟨a, c, trimSpace stored, h1, h2, h3, parseData_mysql ..⟩

/-- In particular the padding of printable ASCII text is removed and nothing else. -/
theorem C14_ascii_partial (env : Env) (mysqlType : Nat) (core rest : Bytes) (k fixLength : Nat)
    (isUnsigned isBinary : Bool) (out : Out)
    (h1 : ∀ x, core.head? = some x → 33 ≤ x.toNat ∧ x.toNat < 128)
    (h2 : ∀ x, core.getLast? = some x → 33 ≤ x.toNat ∧ x.toNat < 128) :
    parseData env DATA_MYSQL mysqlType (core ++ List.replicate k 32 ++ rest) (core.length + k) fixLength isUnsigned
        isBinary out = .ok (.str core, isBinary) out := by
  rw [C14_char_partial]
  intro w hw
  have low : ∀ x ∈ w, x.toNat < 33 ∨ 128 ≤ x.toNat := by revert w; decide
  refine ⟨?_, ?_⟩
  · rintro ⟨r, hr⟩
    cases w with
    | nil => revert hw; decide
    | cons x w =>
      have := h1 x (by rw [← hr]; rfl)
      have := low x (by simp)
      omega
  · rintro ⟨r, hr⟩
    obtain ⟨x, hx⟩ : ∃ x, w.getLast? = some x := by
      cases w with
      | nil => exact absurd hw (by decide)
      | cons x w => exact ⟨_, List.getLast?_eq_some_getLast (by simp)⟩
    have := h2 x (by rw [← hr, List.getLast?_append, hx]; rfl)
    have := low x (List.mem_of_getLast? hx)
    omega

example : ∀ x, (b! "a b").getLast? = some x → 33 ≤ x.toNat ∧ x.toNat < 128 := by
  intro x h; simp at h; rw [← h]; decide
example : trimSpace (b! "a b   ") = b! "a b" := by decide
/-- ideographic space (U+3000) at the end of the value -/
example : ¬ Edged (b! "a" ++ [0xE3, 0x80, 0x80]) := by decide
example : Edged (b! "a b") ∧ Edged [0xC3, 0xA9] := by decide

/-- C14 is false of the code: a leading space is lost. -/
theorem C14_false : ¬ C14_statement := by
  intro h
  have := h ⟨fun _ => 0, ⟨fun _ => [], fun _ => []⟩⟩ 254 (b! " a") 1 0 false false [] (by decide)
  revert this; decide

/-! ## C17 -/

/-- The full claim of C17: whatever the column type, decoding never yields "no value". -/
def C17_statement : Prop :=
  ∀ (env : Env) (dataType mysqlType : Nat) (data : Bytes) (fieldLen fixLength : Nat) (isUnsigned isBinary : Bool)
    (out out' : Out) (v : Val) (b : Bool),
    parseData env dataType mysqlType data fieldLen fixLength isUnsigned isBinary out = .ok (v, b) out' → v ≠ .nil

/-- The codes of the column types named in the properties are those of InnoDB (data0type.h) and MySQL (mysql_com.h). -/
theorem C17_type_codes :
    [DATA_VARCHAR, DATA_CHAR, DATA_FIXBINARY, DATA_BINARY, DATA_BLOB, DATA_INT, DATA_FLOAT, DATA_DOUBLE, DATA_DECIMAL, DATA_VARMYSQL,
      DATA_MYSQL] = [1, 2, 3, 4, 5, 6, 9, 10, 11, 12, 13] ∧
    [MYSQL_TYPE_TIMESTAMP, MYSQL_TYPE_DATE, MYSQL_TYPE_TIME, MYSQL_TYPE_DATETIME, MYSQL_TYPE_YEAR, MYSQL_TYPE_VARCHAR, MYSQL_TYPE_BIT,
      MYSQL_TYPE_NEWDECIMAL, MYSQL_TYPE_STRING] = [7, 10, 11, 12, 13, 15, 16, 246, 254] := ⟨rfl, rfl⟩

/-- The column types for which a value is returned: VARCHAR, CHAR, fixed binary, binary, BLOB, INT, FLOAT, DOUBLE, and VARCHAR and CHAR
in other character sets. -/
def supportedTypes : List Nat := [1, 2, 3, 4, 5, 6, 9, 10, 12, 13]

theorem getIntValue_ne_nil {n : Nat} {b : Bytes} {v : Val} (h : getIntValue n b = some v) : v ≠ .nil := by
  unfold getIntValue at h
  have bindx : ∀ {α} {o : Option α} {f : α → Option Val}, (o >>= f) = some v → ∃ a, o = some a ∧ f a = some v := by
    intro α o f h; cases o <;> simp_all
  split at h
  · obtain ⟨_, _, h⟩ := bindx h; obtain ⟨_, _, h⟩ := bindx h; cases h; simp
  · obtain ⟨_, _, h⟩ := bindx h; obtain ⟨_, _, h⟩ := bindx h; cases h; simp
  · obtain ⟨_, _, h⟩ := bindx h
    split at h <;> cases h <;> simp
  · obtain ⟨_, _, h⟩ := bindx h; obtain ⟨_, _, h⟩ := bindx h; cases h; simp
  · obtain ⟨_, _, h⟩ := bindx h; obtain ⟨_, _, h⟩ := bindx h; cases h; simp
  · cases h; simp

/-- **C17 (partial).** Decoding returns a value for exactly the column types in `supportedTypes`.  Missing: the other
types a table can have, DECIMAL in the old format (11) and GEOMETRY (14), whose values become NULL. -/
theorem C17_value_iff_supported_partial (env : Env) (dataType mysqlType : Nat) (data : Bytes) (fieldLen fixLength : Nat)
    (isUnsigned isBinary : Bool) (out out' : Out) (v : Val) (b : Bool)
    (h : parseData env dataType mysqlType data fieldLen fixLength isUnsigned isBinary out = .ok (v, b) out') :
    v ≠ .nil ↔ dataType ∈ supportedTypes := by
  have bd : ∀ {α β : Type} {m : GoM Out α} {f : α → GoM Out β} {s s' : Out} {x : β}, (m >>= f) s = .ok x s' →
      ∃ a s1, m s = .ok a s1 ∧ f a s1 = .ok x s' := fun h => GoM.bind_eq_ok h
  have liftok : ∀ {α : Type} {o : Option α} {s s' : Out} {a : α}, GoM.lift o s = .ok a s' → o = some a := by
    intro α o s s' a h; cases o <;> simp_all
  have strv : ∀ {o : Option Bytes} {f : Bytes → Bytes} {c : Bool} {s : Out},
      (do return (Val.str (f (← GoM.lift o)), c) : GoM Out (Val × Bool)) s = .ok (v, b) out' → v ≠ .nil := by
    intro o f c s h
    obtain ⟨a, s1, _, h⟩ := bd h
    cases h; simp
  have uintv : ∀ {s : Out}, (do
      return (Val.uint (← GoM.lift (getUintValue fixLength (← GoM.lift (sliceTo data fieldLen)))), isBinary) :
        GoM Out (Val × Bool)) s = .ok (v, b) out' → v ≠ .nil := by
    intro s h
    obtain ⟨a, s1, _, h⟩ := bd h
    obtain ⟨a, s1, _, h⟩ := bd h
    cases h; simp
  unfold parseData at h
  by_cases c1 : dataType = DATA_VARCHAR
  · rw [if_pos c1] at h; subst c1
    exact iff_of_true (strv (f := id) h) (by decide)
  rw [if_neg c1] at h
  by_cases c2 : dataType = DATA_CHAR
  · rw [if_pos c2] at h; subst c2
    exact iff_of_true (strv (f := id) h) (by decide)
  rw [if_neg c2] at h
  by_cases c3 : dataType = DATA_FIXBINARY
  · rw [if_pos c3] at h; subst c3
    refine iff_of_true ?_ (by decide)
    split at h
    · exact strv (f := id) h
    split at h
    · exact strv (f := id) h
    split at h
    · exact strv (f := id) h
    split at h
    · exact uintv h
    split at h
    · obtain ⟨_, _, _, h⟩ := bd h
      exact strv (f := id) h
    split at h
    · exact strv (f := parseBlob) h
    · exact strv (f := id) h
  rw [if_neg c3] at h
  by_cases c4 : dataType = DATA_BINARY
  · rw [if_pos c4] at h; subst c4
    refine iff_of_true ?_ (by decide)
    split at h
    · exact strv (f := parseBlob) h
    split at h
    · exact uintv h
    · exact strv (f := id) h
  rw [if_neg c4] at h
  by_cases c5 : dataType = DATA_INT
  · rw [if_pos c5] at h; subst c5
    refine iff_of_true ?_ (by decide)
    split at h
    · exact strv (f := id) h
    split at h
    · obtain ⟨_, _, _, h⟩ := bd h
      cases h; simp
    split at h
    · exact uintv h
    · obtain ⟨_, _, _, h⟩ := bd h
      obtain ⟨_, _, hv, h⟩ := bd h
      have := getIntValue_ne_nil (liftok hv)
      cases h; exact this
  rw [if_neg c5] at h
  by_cases c6 : dataType = DATA_FLOAT
  · rw [if_pos c6] at h; subst c6
    refine iff_of_true ?_ (by decide)
    obtain ⟨_, _, _, h⟩ := bd h
    cases h; simp
  rw [if_neg c6] at h
  by_cases c7 : dataType = DATA_DOUBLE
  · rw [if_pos c7] at h; subst c7
    refine iff_of_true ?_ (by decide)
    obtain ⟨_, _, _, h⟩ := bd h
    cases h; simp
  rw [if_neg c7] at h
  by_cases c8 : dataType = DATA_DECIMAL
  · rw [if_pos c8] at h; subst c8
    cases h
    exact iff_of_false (by simp) (by decide)
  rw [if_neg c8] at h
  by_cases c9 : dataType = DATA_VARMYSQL
  · rw [if_pos c9] at h; subst c9
    exact iff_of_true (strv (f := id) h) (by decide)
  rw [if_neg c9] at h
  by_cases c10 : dataType = DATA_MYSQL
  · rw [if_pos c10] at h; subst c10
    exact iff_of_true (strv (f := trimSpace) h) (by decide)
  rw [if_neg c10] at h
  by_cases c11 : dataType = DATA_BLOB
  · rw [if_pos c11] at h; subst c11
    refine iff_of_true ?_ (by decide)
    split at h
    · exact strv (f := parseBlob) h
    · exact strv (f := id) h
  rw [if_neg c11] at h
  cases h
  refine iff_of_false (by simp) ?_
  unfold DATA_VARCHAR at c1
  unfold DATA_CHAR at c2
  unfold DATA_FIXBINARY at c3
  unfold DATA_BINARY at c4
  unfold DATA_INT at c5
  unfold DATA_FLOAT at c6
  unfold DATA_DOUBLE at c7
  unfold DATA_VARMYSQL at c9
  unfold DATA_MYSQL at c10
  unfold DATA_BLOB at c11
  simp [supportedTypes, c1, c2, c3, c4, c5, c6, c7, c9, c10, c11]

/-- a column type of each kind -/
example : 12 ∈ supportedTypes ∧ 11 ∉ supportedTypes ∧ 14 ∉ supportedTypes := by decide

/-- C17 is false of the code: the value of a DECIMAL column is dropped. -/
theorem C17_false : ¬ C17_statement := by
  intro h
  exact h ⟨fun _ => 0, ⟨fun _ => [], fun _ => []⟩⟩ DATA_DECIMAL 0 (b! "12.5") 4 0 false false [] [] .nil false rfl rfl

end Verif.Props
