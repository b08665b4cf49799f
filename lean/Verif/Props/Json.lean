import Verif.Props.Bits
import Verif.Spec.Json
/-!
# C106: JSON columns
-/

set_option linter.unusedSimpArgs false

namespace Verif.Props
open Verif Spec

/-- a column of type JSON, as the dictionary describes it: a BLOB with the binary flag -/
def IsJson (c : Column) : Prop := c.ftype = DATA_BLOB ∧ c.mtype = 245 ∧ c.isBinary = true

/-- The value is decoded, and the server takes what is printed for it in a REPLACE statement. -/
def JsonPrinted (env : Env) (c : Column) (s rest : Bytes) (out : Out) : Prop :=
  ∃ c' g x, decodeCell env c (.val s) rest out = .ok c' out ∧ Reads (valueText env.ff c') g ∧ jsonArgument g = some x ∧ JsonText x

/-- The value is decoded by `ParseData`, as it stands in an undo record, and the server takes the string that is assigned to the column in the UPDATE
statement. -/
def JsonAssigned (env : Env) (c : Column) (s rest : Bytes) (out : Out) : Prop :=
  ∃ v b x, parseData env c.ftype c.mtype (s ++ rest) s.length (getFixedLength c.ftype c.len) c.isUnsigned c.isBinary out = .ok (v, b) out ∧
    setText env.ff ⟨c.name, v⟩ = b! "`" ++ c.name ++ b! "`='" ++ x ++ b! "'" ∧ JsonText x

/-- **C106**, as stated: what is printed for a value of a JSON column is at least accepted by the server, by both commands. -/
def C106_statement : Prop :=
  ∀ (env : Env) (c : Column) (s rest : Bytes) (out : Out), IsJson c → Jsonb s → JsonPrinted env c s rest out ∧ JsonAssigned env c s rest out

/-! ### No JSON text begins with a zero and another digit -/

/-- Not a digit of a number in hexadecimal, apart from `e`: what can follow a zero at the beginning of a JSON text. -/
def afterZero (c : UInt8) : Prop := c = 46 ∨ c = 101 ∨ c = 69 ∨ isJsonSpace c = true

theorem number_zero {s : Bytes} (h : JsonNumber s) (d : UInt8) (t : Bytes) (hs : s = 48 :: d :: t) : afterZero d := by
  obtain ⟨minus, int, frac, exp, hm, hi, hf, he⟩ := h
  rcases hm with rfl | rfl
  · rcases hi with rfl | ⟨x, ds, rfl, _, h0, _⟩
    · have hs : frac ++ exp = d :: t := by
        simp only [List.nil_append, List.append_assoc] at hs
        exact (List.cons.inj hs).2
      rcases hf with rfl | ⟨ds, rfl, _, _⟩
      · rcases he with rfl | ⟨e, sign, ds, rfl, h1, _⟩
        · cases hs
        · cases hs
          rcases h1 with rfl | rfl
          · exact .inr (.inl rfl)
          · exact .inr (.inr (.inl rfl))
      · cases hs
        exact .inl rfl
    · simp only [List.nil_append, List.cons_append, List.append_assoc] at hs
      exact absurd (List.cons.inj hs).1 h0
  · cases hs

theorem json_zero {s : Bytes} (h : JsonText s) : ∀ (d : UInt8) (t : Bytes), s = 48 :: d :: t → afterZero d := by
  induction h with
  | literal s h =>
    rintro d t rfl
    simp only [List.mem_cons, List.not_mem_nil, or_false] at h
    rcases h with h | h | h <;> cases h
  | number s h => exact number_zero h
  | string s _ => rintro d t h; cases h
  | array l _ _ => rintro d t h; cases h
  | empty s _ => rintro d t h; cases h
  | object l _ _ _ => rintro d t h; cases h
  | none s _ => rintro d t h; cases h
  | before c s hc _ _ => rintro d t h; cases h; cases hc
  | behind c s hc _ ih =>
    intro d t h
    cases s with
    | nil => cases h
    | cons a s =>
      cases s with
      | nil => cases h; exact .inr (.inr (.inr hc))
      | cons b s => cases h; exact ih d s rfl

/-- What is printed in hexadecimal for the binary form of a value is no JSON text. -/
theorem blob_not_json {s : Bytes} (h : Jsonb s) : ¬ JsonText (parseBlob s) := by
  obtain ⟨t, body, rfl, ht⟩ := h
  intro hj
  have e : parseBlob (t :: body) = hexDigit (t.toNat >>> 4) :: hexDigit (t.toNat &&& 0x0F) :: parseBlob body := by simp [parseBlob]
  have key : ∀ t ∈ ([0, 1, 2, 3, 4, 5, 6, 7, 8, 9, 10, 11, 12, 15] : List UInt8), hexDigit (t.toNat >>> 4) = 48 ∧
      ∀ d, hexDigit (t.toNat &&& 0x0F) = d → d ≠ 46 ∧ d ≠ 101 ∧ d ≠ 69 ∧ isJsonSpace d = false := by
    simp only [forall_eq']
    decide
  obtain ⟨h1, h2⟩ := key t ht
  rw [e, h1] at hj
  obtain ⟨k1, k2, k3, k4⟩ := h2 _ rfl
  rcases json_zero hj _ _ rfl with h | h | h | h
  · exact k1 h
  · exact k2 h
  · exact k3 h
  · rw [k4] at h; cases h

theorem json_decoded (env : Env) (c : Column) (s rest : Bytes) (out : Out) (hc : IsJson c) :
    parseData env c.ftype c.mtype (s ++ rest) s.length (getFixedLength c.ftype c.len) c.isUnsigned c.isBinary out = .ok (.str (parseBlob s), true) out := by
  obtain ⟨e1, e2, e3⟩ := hc
  have hs : sliceTo (s ++ rest) s.length = some s := by rw [sliceTo, if_pos (by simp), List.take_left' rfl]
  rw [e1, e3]
  simp [parseData, DATA_VARCHAR, DATA_CHAR, DATA_FIXBINARY, DATA_BINARY, DATA_BLOB, DATA_INT, DATA_FLOAT, DATA_DOUBLE, DATA_DECIMAL, DATA_VARMYSQL,
    DATA_MYSQL, hs]

/-- **C106, never.** Whatever the value of a JSON column, the server refuses what either command prints for it: a binary string, or the hexadecimal digits
of the binary form. -/
theorem C106_never (env : Env) (c : Column) (s rest : Bytes) (out : Out) (hc : IsJson c) (hs : Jsonb s) :
    ¬ JsonPrinted env c s rest out ∧ ¬ JsonAssigned env c s rest out := by
  have hd := json_decoded env c s rest out hc
  constructor
  · rintro ⟨c', g, x, h1, h2, h3, h4⟩
    have h5 : decodeCell env c (.val (TVal.blob s).enc) rest out = .ok { c with value := .str (parseBlob s), isBinary := true } out := cell_ok hd
    rw [show (TVal.blob s).enc = s from rfl, h1] at h5
    cases h5
    have hne : parseBlob s ≠ b! "0001-01-01T00:00:00Z" := by
      intro h
      have := parseBlob_digits s 45 (by rw [h]; decide)
      revert this
      decide
    have hnn : parseBlob s ≠ b! "NULL" := by
      intro h
      have := parseBlob_digits s 78 (by rw [h]; decide)
      revert this
      decide
    have h6 : valueText env.ff { c with value := .str (parseBlob s), isBinary := true } =
        b! "unhex(" ++ (b! "'" ++ escapeValue (parseBlob s) ++ b! "'") ++ b! ")" := by
      unfold valueText
      rw [if_neg (by rw [show ({ c with value := .str (parseBlob s), isBinary := true } : Column).mtype = 245 from hc.2.1]; decide), if_pos rfl,
        if_pos ⟨nofun, by simpa using hnn⟩]
      rfl
    rw [h6] at h2
    cases reads_unique h2 (reads_unhex (reads_quoted _ hne))
    cases h3
  · rintro ⟨v, b, x, h1, h2, h3⟩
    rw [hd] at h1
    cases h1
    unfold setText at h2
    simp only [ne_eq, reduceCtorEq, not_false_eq_true, if_true] at h2
    have h2 : parseBlob s = x := List.append_cancel_left (List.append_cancel_right h2)
    rw [← h2] at h3
    exact blob_not_json hs h3

/-- **C106 (partial).** NULL is printed as an expression that is NULL.  Missing: every other value (`C106_never`, `C106_false`). -/
theorem C106_null_partial (env : Env) (c : Column) (rest : Bytes) (out : Out) (hc : IsJson c) :
    ∃ c' g, decodeCell env c .null rest out = .ok c' out ∧ Reads (valueText env.ff c') g ∧ evalExpr g = some .null := by
  refine ⟨{ c with value := .str (b! "NULL") }, [.word (b! "unhex"), .sym 40, .word (b! "null"), .sym 41], rfl, ?_, ?_⟩
  · have h6 : valueText env.ff { c with value := .str (b! "NULL") } = b! "unhex(" ++ b! "NULL" ++ b! ")" := by
      unfold valueText
      rw [if_neg (by rw [show ({ c with value := .str (b! "NULL") } : Column).mtype = 245 from hc.2.1]; decide),
        if_pos (show ({ c with value := .str (b! "NULL") } : Column).isBinary = true from hc.2.2), if_neg (by simp),
        if_pos (show ({ c with value := .str (b! "NULL") } : Column).isBinary = true from hc.2.2)]
      rfl
    rw [h6]
    exact reads_unhex reads_null
  · decide

def jsonColumn : Column := { name := b! "doc", ftype := 5, mtype := 245, pos := 1, len := 12, isNull := false, isBinary := true, tableId := 20 }

/-- the value `true` -/
theorem C106_false : ¬ C106_statement := fun h =>
  (C106_never testEnv jsonColumn [4, 1] [] [] ⟨rfl, rfl, rfl⟩ ⟨4, [1], rfl, by decide⟩).1
    (h testEnv jsonColumn [4, 1] [] [] ⟨rfl, rfl, rfl⟩ ⟨4, [1], rfl, by decide⟩).1

/-- the hypotheses of `C106_null_partial` hold -/
example (env : Env) : ∃ c' g, decodeCell env jsonColumn .null [] [] = .ok c' [] ∧ Reads (valueText env.ff c') g ∧ evalExpr g = some .null :=
  C106_null_partial env jsonColumn [] [] ⟨rfl, rfl, rfl⟩

/-- what is printed for the value `true` -/
example (ff : FloatFmt) : valueText ff { jsonColumn with value := .str (parseBlob [4, 1]) } = b! "unhex('0401')" := by rfl

end Verif.Props
