import Verif.Proofs.Calendar
import Verif.Proofs.Ints
import Verif.Proofs.GoM
import Verif.Spec.Temporal
/-!
# C08 – C11: dates and times
-/

set_option linter.unusedSimpArgs false

namespace Verif.Props
open Verif Spec

/-! ## C08 -/

theorem yearText_eq {y : Nat} (h : y < 100000) : dec2 y = yearText y := by
  unfold yearText
  split
  · exact dec2_decEnc (by omega)
  split
  · exact dec2_ge (w := 1) (by omega) (by omega)
  split
  · exact dec2_ge (w := 2) (by omega) (by omega)
  · exact dec2_ge (w := 3) (by omega) (by omega)

/-- **C08.** A DATE column is printed as its stored year, month and day (as the column decoder returns it). -/
theorem C08_date (env : Env) (y m d : Nat) (hy : y < 2 ^ 14) (hm : m < 16) (hd : d < 32) (rest : Bytes)
    (fieldLen fixLength : Nat) (isUnsigned isBinary : Bool) (out : Out) :
    parseData env DATA_INT MYSQL_TYPE_DATE (dateEnc y m d ++ rest) fieldLen fixLength isUnsigned isBinary out =
      .ok (.str (yearText y ++ b! "-" ++ decEnc 2 m ++ b! "-" ++ decEnc 2 d), isBinary) out := by
  have h : parseDate (dateEnc y m d ++ rest) =
      some (yearText y ++ b! "-" ++ decEnc 2 m ++ b! "-" ++ decEnc 2 d) := by
    rw [parseDate, dateEnc, rd3 rest (by omega)]
    simp only [Option.bind_eq_bind, Option.bind_some]
    rw [clear23 (by omega)]
    have e1 : (8388608 + y * 512 + m * 32 + d) % 2 ^ 23 % 32 = d := by omega
    have e2 : (8388608 + y * 512 + m * 32 + d) % 2 ^ 23 / 32 % 16 = m := by omega
    have e3 : (8388608 + y * 512 + m * 32 + d) % 2 ^ 23 / 32 / 16 = y := by omega
    rw [e1, e2, e3, yearText_eq (by omega), dec2_decEnc (n := m) (by omega), dec2_decEnc (n := d) (by omega)]
    rfl
  simp [parseData, DATA_INT, DATA_VARCHAR, DATA_CHAR, DATA_FIXBINARY, DATA_BINARY, h]

/-- For the years of MySQL's DATE range the text has the usual form `YYYY-MM-DD`, and the fields can be read back. -/
theorem C08_date_text (y m d : Nat) (hy : 1000 ≤ y) (hy2 : y ≤ 9999) (hm : m < 16) (hd : d < 32) :
    yearText y ++ b! "-" ++ decEnc 2 m ++ b! "-" ++ decEnc 2 d =
      decEnc 4 y ++ b! "-" ++ decEnc 2 m ++ b! "-" ++ decEnc 2 d ∧
    decVal (decEnc 4 y) = some y ∧ decVal (decEnc 2 m) = some m ∧ decVal (decEnc 2 d) = some d := by
  refine ⟨?_, decVal_decEnc (by omega), decVal_decEnc (by omega), decVal_decEnc (by omega)⟩
  rw [yearText, if_neg (by omega), if_neg (by omega), if_pos (by omega)]

example : dateEnc 2019 12 31 = [0x8F, 0xC7, 0x9F] ∧ (2019 : Nat) < 2 ^ 14 := by decide
example : parseDate [0x8F, 0xC7, 0x9F, 1, 2] = some (b! "2019-12-31") := by decide

/-! ## C09 -/

/-- The full claim of C09: for every valid date and time, in either format and whatever follows (at least three bytes
in the case of the five-byte format). -/
def C09_statement : Prop :=
  ∀ (c : Civil) (rest : Bytes), c.Valid → 1000 ≤ c.year →
    parseDateTime (datetimeOldEnc c ++ rest) = some c.text ∧
    (3 ≤ rest.length → parseDateTime (datetimeNewEnc c ++ rest) = some c.text)

theorem fmt_text (c : Civil) (h : c.Valid) (hy : 1000 ≤ c.year) :
    fmtDateTime c.year c.month c.day c.hour c.min c.sec = c.text := by
  obtain ⟨_, h2, _, h4, _, h6, h7, h8, h9⟩ := h
  have := daysIn_le c.year c.month
  rw [fmtDateTime, Civil.text, dec2_ge (w := 2) (n := c.year) (by omega) (by omega), dec2_decEnc (n := c.month) (by omega),
    dec2_decEnc (n := c.day) (by omega), dec2_decEnc (n := c.hour) (by omega), dec2_decEnc (n := c.min) (by omega),
    dec2_decEnc (n := c.sec) (by omega)]

theorem yd_field (n : Nat) : (n &&& 0x7FFFC00000000000) >>> 46 = n / 2 ^ 46 % 2 ^ 17 := field_get n 46 17
theorem day_field (n : Nat) : (n &&& 0x00003E0000000000) >>> 41 = n / 2 ^ 41 % 2 ^ 5 := field_get n 41 5
theorem hour_field (n : Nat) : (n &&& 0x000001F000000000) >>> 36 = n / 2 ^ 36 % 2 ^ 5 := field_get n 36 5
theorem min_field (n : Nat) : (n &&& 0x0000000FC0000000) >>> 30 = n / 2 ^ 30 % 2 ^ 6 := field_get n 30 6
theorem sec_field (n : Nat) : (n &&& 0x000000003F000000) >>> 24 = n / 2 ^ 24 % 2 ^ 6 := field_get n 24 6

/-- With the sign bit set the decimal interpretation is never recognised as such (the code takes the year from the wrong
digits), so the format is 2 or 0. -/
theorem timeFormat_sign {d : Bytes} {v : Nat} (h : matchReadFrom8 d = some v) (h1 : 2 ^ 63 ≤ v) (h2 : v < 2 ^ 64) :
    getTimeFormat d = some (
      if v / 2 ^ 46 % 2 ^ 17 / 13 > 1990 ∧ v / 2 ^ 46 % 2 ^ 17 / 13 < 2100 ∧
         v / 2 ^ 46 % 2 ^ 17 - v / 2 ^ 46 % 2 ^ 17 / 13 * 13 ≥ 1 ∧
         v / 2 ^ 46 % 2 ^ 17 - v / 2 ^ 46 % 2 ^ 17 / 13 * 13 ≤ 12 ∧
         v / 2 ^ 41 % 2 ^ 5 ≥ 1 ∧ v / 2 ^ 41 % 2 ^ 5 ≤ 31 ∧ v / 2 ^ 36 % 2 ^ 5 ≤ 23 ∧ v / 2 ^ 30 % 2 ^ 6 ≤ 59 ∧
         v / 2 ^ 24 % 2 ^ 6 ≤ 59 then 2 else 0) := by
  rw [getTimeFormat, h]
  simp only [Option.bind_eq_bind, Option.bind_some, clear63, yd_field, day_field, hour_field, min_field, sec_field]
  rw [if_neg (by omega)]
  have e : v >>> 63 = 1 := by rw [Nat.shiftRight_eq_div_pow]; omega
  rw [e, if_neg (by omega)]
  split <;> rfl

theorem C09_old (c : Civil) (rest : Bytes) (h : c.Valid) (hy : 1000 ≤ c.year) :
    parseDateTime (datetimeOldEnc c ++ rest) = some c.text := by
  rw [← fmt_text c h hy]
  obtain ⟨_, h2, _, h4, _, h6, h7, h8, h9⟩ := h
  have hd := daysIn_le c.year c.month
  generalize hv : ((((c.year * 100 + c.month) * 100 + c.day) * 100 + c.hour) * 100 + c.min) * 100 + c.sec = v
  have hv2 : v < 2 ^ 47 := by omega
  have hr : matchReadFrom8 (datetimeOldEnc c ++ rest) = some (2 ^ 63 + v) := by
    rw [datetimeOldEnc, ← hv, ← Nat.add_assoc]; exact rd8 rest (by omega)
  rw [parseDateTime, timeFormat_sign hr (by omega) (by omega), hr]
  have q0 : (2 ^ 63 + v) / 2 ^ 46 = 2 ^ 17 + v / 2 ^ 46 := by omega
  have q : (2 ^ 63 + v) / 2 ^ 46 % 2 ^ 17 ≤ 1 := by
    have : v / 2 ^ 46 ≤ 1 := by omega
    rw [q0]; generalize v / 2 ^ 46 = w at this
    have : w = 0 ∨ w = 1 := by omega
    rcases this with rfl | rfl <;> decide
  have q2 : ¬ ((2 ^ 63 + v) / 2 ^ 46 % 2 ^ 17 / 13 > 1990) := by omega
  rw [if_neg (fun h => q2 h.1)]
  simp only [Option.bind_eq_bind, Option.bind_some, clear63]
  rw [if_pos (Or.inr trivial)]
  have e0 : (2 ^ 63 + v) % 2 ^ 63 = v := by omega
  rw [e0]
  have e1 : v % 100 = c.sec := by omega
  have e2 : v / 100 % 100 = c.min := by omega
  have e3 : v / 100 / 100 % 100 = c.hour := by omega
  have e4 : v / 100 / 100 / 100 % 100 = c.day := by omega
  have e5 : v / 100 / 100 / 100 / 100 % 100 = c.month := by omega
  have e6 : v / 100 / 100 / 100 / 100 / 100 % 10000 = c.year := by omega
  rw [e1, e2, e3, e4, e5, e6]; rfl

theorem newEnc_read (c : Civil) (rest : Bytes) (h : c.Valid) (hr : 3 ≤ rest.length) :
    ∃ f, f < 2 ^ 24 ∧ matchReadFrom8 (datetimeNewEnc c ++ rest) =
      some (2 ^ 63 + (c.year * 13 + c.month) * 2 ^ 46 + c.day * 2 ^ 41 + c.hour * 2 ^ 36 + c.min * 2 ^ 30 +
        c.sec * 2 ^ 24 + f) := by
  obtain ⟨_, h2, _, h4, _, h6, h7, h8, h9⟩ := h
  have hd := daysIn_le c.year c.month
  refine ⟨beVal (rest.take 3), Nat.lt_of_lt_of_le (beVal_take_lt _ _) (by omega), ?_⟩
  rw [matchReadFrom8_eq, if_pos (by simp [datetimeNewEnc]; omega)]
  have l5 : (datetimeNewEnc c).length = 5 := by simp [datetimeNewEnc]
  rw [beVal_take_add _ 5 3 (by simp [l5]; omega)]
  have t5 : (datetimeNewEnc c ++ rest).take 5 = datetimeNewEnc c := by
    rw [List.take_append_of_le_length (by omega), List.take_of_length_le (by omega)]
  have d5 : (datetimeNewEnc c ++ rest).drop 5 = rest := by
    rw [← l5, List.drop_left]
  rw [t5, d5, datetimeNewEnc, beVal_beEnc (by omega)]
  congr 1; omega

/-- **C09 (partial).** The decimal-packed format is always printed correctly; the bit-packed format is printed
correctly for years 1991 to 2099.  Missing: bit-packed values outside these years, for which the code is wrong
(`C09_false`). -/
theorem C09_datetime_partial (c : Civil) (rest : Bytes) (h : c.Valid) (hy : 1000 ≤ c.year) :
    parseDateTime (datetimeOldEnc c ++ rest) = some c.text ∧
    (3 ≤ rest.length → 1991 ≤ c.year → c.year ≤ 2099 →
      parseDateTime (datetimeNewEnc c ++ rest) = some c.text) := by
  refine ⟨C09_old c rest h hy, ?_⟩
  intro hr hy1 hy2
  obtain ⟨f, hf, hread⟩ := newEnc_read c rest h hr
  rw [← fmt_text c h hy]
  obtain ⟨_, h2, _, h4, _, h6, h7, h8, h9⟩ := h
  have hd := daysIn_le c.year c.month
  generalize hv : 2 ^ 63 + (c.year * 13 + c.month) * 2 ^ 46 + c.day * 2 ^ 41 + c.hour * 2 ^ 36 + c.min * 2 ^ 30 +
        c.sec * 2 ^ 24 + f = v at hread
  have e1 : v / 2 ^ 46 % 2 ^ 17 = c.year * 13 + c.month := by omega
  have e2 : v / 2 ^ 41 % 2 ^ 5 = c.day := by omega
  have e3 : v / 2 ^ 36 % 2 ^ 5 = c.hour := by omega
  have e4 : v / 2 ^ 30 % 2 ^ 6 = c.min := by omega
  have e5 : v / 2 ^ 24 % 2 ^ 6 = c.sec := by omega
  have e6 : (c.year * 13 + c.month) / 13 = c.year := by omega
  have e7 : c.year * 13 + c.month - c.year * 13 = c.month := by omega
  rw [parseDateTime, timeFormat_sign hread (by omega) (by omega), hread]
  simp only [Option.bind_eq_bind, Option.bind_some, yd_field, day_field, hour_field, min_field, sec_field, e1, e2, e3, e4,
    e5, e6, e7]
  rw [if_pos (⟨by omega, by omega, by omega, by omega, by omega, by omega, by omega, by omega, by omega⟩ : _ ∧ _)]
  rfl

/-- the columns reach `parseDateTime` through the column decoder -/
theorem C09_through_decoder (env : Env) (data : Bytes) (t : Bytes) (h : parseDateTime data = some t)
    (fieldLen fixLength : Nat) (isUnsigned isBinary : Bool) (out : Out) :
    parseData env DATA_FIXBINARY MYSQL_TYPE_DATETIME data fieldLen fixLength isUnsigned isBinary out =
      .ok (.str t, isBinary) out := by
  simp [parseData, DATA_VARCHAR, DATA_CHAR, DATA_FIXBINARY, MYSQL_TYPE_DATETIME, MYSQL_TYPE_TIME, MYSQL_TYPE_TIMESTAMP, h]

example : (⟨2019, 2, 28, 23, 59, 58⟩ : Civil).Valid ∧ 1991 ≤ 2019 := by decide

/-- C09 is false of the code: the bit-packed datetime 1980-01-01 00:00:00 is misread. -/
theorem C09_false : ¬ C09_statement := by
  intro h
  have := (h ⟨1980, 1, 1, 0, 0, 0⟩ [0, 0, 0] (by decide) (by decide)).2 (by decide)
  revert this; decide

theorem fmt_inj {c : Civil} (hc : c.Valid) (hy : 1000 ≤ c.year) {y m d h i s : Nat} (h1 : y < 10000) (h2 : m < 100) (h3 : d < 100) (h4 : h < 100)
    (h5 : i < 100) (h6 : s < 100) (e : fmtDateTime y m d h i s = c.text) : c = ⟨y, m, d, h, i, s⟩ := by
  obtain ⟨k1, k2, _, k4, _, k6, k7, k8, k9⟩ := hc
  have hd := daysIn_le c.year c.month
  rw [fmtDateTime, Civil.text, dec2_decEnc h2, dec2_decEnc h3, dec2_decEnc h4, dec2_decEnc h5, dec2_decEnc h6] at e
  simp only [List.append_assoc] at e
  have hlen : (dec2 y).length = 4 := by
    have := congrArg List.length e
    simp only [List.length_append, decEnc_length] at this
    omega
  obtain ⟨e1, e⟩ := List.append_inj e (by rw [hlen, decEnc_length])
  obtain ⟨-, e⟩ := List.append_inj e rfl
  obtain ⟨e2, e⟩ := List.append_inj e (by simp)
  obtain ⟨-, e⟩ := List.append_inj e rfl
  obtain ⟨e3, e⟩ := List.append_inj e (by simp)
  obtain ⟨-, e⟩ := List.append_inj e rfl
  obtain ⟨e4, e⟩ := List.append_inj e (by simp)
  obtain ⟨-, e⟩ := List.append_inj e rfl
  obtain ⟨e5, e⟩ := List.append_inj e (by simp)
  obtain ⟨-, e6⟩ := List.append_inj e rfl
  have hy4 : 1000 ≤ y := by
    refine Nat.le_of_not_lt fun hlt => ?_
    have h3 : (dec2 y).length ≤ 3 := by
      by_cases a : y < 100
      · rw [dec2_decEnc a, decEnc_length]; omega
      · rw [dec2_ge (w := 1) (by omega) (by omega), decEnc_length]; exact Nat.le_refl _
    omega
  rw [dec2_ge (w := 2) (by omega) (by omega)] at e1
  have f1 := decEnc_inj (w := 4) (by omega) (by omega) e1
  have f2 := decEnc_inj (w := 2) (by omega) (by omega) e2
  have f3 := decEnc_inj (w := 2) (by omega) (by omega) e3
  have f4 := decEnc_inj (w := 2) (by omega) (by omega) e4
  have f5 := decEnc_inj (w := 2) (by omega) (by omega) e5
  have f6 := decEnc_inj (w := 2) (by omega) (by omega) e6
  obtain ⟨a1, a2, a3, a4, a5, a6⟩ := c
  dsimp only at f1 f2 f3 f4 f5 f6
  rw [f1, f2, f3, f4, f5, f6]

/-- the digits of a date and time in one number -/
def packedDigits (c : Civil) : Nat := ((((c.year * 100 + c.month) * 100 + c.day) * 100 + c.hour) * 100 + c.min) * 100 + c.sec

theorem digit_pair (w k a b : Nat) (hb : b < 100) : w % (100 * k) = a * 100 + b ↔ w % 100 = b ∧ w / 100 % k = a := by
  rw [Nat.mod_mul]
  generalize w / 100 % k = q
  omega

theorem digits_split (c : Civil) (h : c.Valid) (w : Nat) : w % 10 ^ 14 = packedDigits c ↔
    w % 100 = c.sec ∧ w / 100 % 100 = c.min ∧ w / 100 / 100 % 100 = c.hour ∧ w / 100 / 100 / 100 % 100 = c.day ∧
      w / 100 / 100 / 100 / 100 % 100 = c.month ∧ w / 100 / 100 / 100 / 100 / 100 % 10000 = c.year := by
  obtain ⟨k1, k2, _, k4, _, k6, k7, k8, k9⟩ := h
  have hd := daysIn_le c.year c.month
  unfold packedDigits
  rw [show (10 : Nat) ^ 14 = 100 * (100 * (100 * (100 * (100 * 10000)))) by decide, digit_pair _ _ _ _ (by omega), digit_pair _ _ _ _ (by omega),
    digit_pair _ _ _ _ (by omega), digit_pair _ _ _ _ (by omega), digit_pair _ _ _ _ (by omega)]

/-- **C09, exactly, for the bit-packed format.** The value is printed correctly if and only if its year is from 1991 to 2099, or the 63 bits
without the sign happen to end in its digits. -/
theorem C09_iff (c : Civil) (rest : Bytes) (h : c.Valid) (hy : 1000 ≤ c.year) (hr : 3 ≤ rest.length) :
    parseDateTime (datetimeNewEnc c ++ rest) = some c.text ↔
      1991 ≤ c.year ∧ c.year ≤ 2099 ∨ beVal ((datetimeNewEnc c ++ rest).take 8) % 2 ^ 63 % 10 ^ 14 = packedDigits c := by
  by_cases hin : 1991 ≤ c.year ∧ c.year ≤ 2099
  · exact ⟨fun _ => .inl hin, fun _ => (C09_datetime_partial c rest h hy).2 hr hin.1 hin.2⟩
  obtain ⟨f, hf, hread⟩ := newEnc_read c rest h hr
  have hbe : matchReadFrom8 (datetimeNewEnc c ++ rest) = some (beVal ((datetimeNewEnc c ++ rest).take 8)) := by
    rw [matchReadFrom8_eq, if_pos (by simp [datetimeNewEnc]; omega)]
  have hv' := Option.some.inj (hbe.symm.trans hread)
  generalize beVal ((datetimeNewEnc c ++ rest).take 8) = v at hv' hbe ⊢
  have hc := h
  obtain ⟨k1, k2, _, k4, _, k6, k7, k8, k9⟩ := h
  have hd := daysIn_le c.year c.month
  have e1 : v / 2 ^ 46 % 2 ^ 17 = c.year * 13 + c.month := by omega
  have e6 : (c.year * 13 + c.month) / 13 = c.year := by omega
  rw [parseDateTime, timeFormat_sign hbe (by omega) (by omega), hbe, e1, e6, if_neg (fun h => hin ⟨h.1, by have := h.2.1; omega⟩)]
  simp only [Option.bind_eq_bind, Option.bind_some, clear63]
  rw [if_pos (Or.inr trivial)]
  generalize v % 2 ^ 63 = w
  rw [digits_split c hc]
  constructor
  · intro e
    have hlt : ∀ n : Nat, n % 100 < 100 := fun n => Nat.mod_lt _ (by decide)
    have := fmt_inj hc hy (Nat.mod_lt _ (by decide)) (hlt _) (hlt _) (hlt _) (hlt _) (hlt _) (Option.some.inj e)
    exact .inr (by rw [this]; exact ⟨rfl, rfl, rfl, rfl, rfl, rfl⟩)
  · rintro (h | ⟨e1, e2, e3, e4, e5, e6⟩)
    · exact absurd h hin
    · rw [← fmt_text c hc hy, e1, e2, e3, e4, e5, e6]; rfl
/-- the second case occurs -/
example : parseDateTime (datetimeNewEnc ⟨1000, 5, 29, 10, 22, 0⟩ ++ [108, 21, 120]) = some (b! "1000-05-29 10:22:00") :=
  (C09_iff ⟨1000, 5, 29, 10, 22, 0⟩ _ (by decide) (by decide) (by decide)).mpr (.inr (by decide))

/-! ## C10 -/

/-- **C10.** A TIME column is printed as the stored sign, hours, minutes and seconds.  (A negative zero does not exist:
it is stored and printed as zero.) -/
theorem C10_time (env : Env) (neg : Bool) (h m s : Nat) (hh : h < 1024) (hm : m < 64) (hs : s < 64)
    (hz : neg = true → h * 4096 + m * 64 + s ≠ 0) (rest : Bytes)
    (fieldLen fixLength : Nat) (isUnsigned isBinary : Bool) (out : Out) :
    parseData env DATA_FIXBINARY MYSQL_TYPE_TIME (timeEnc neg h m s ++ rest) fieldLen fixLength isUnsigned isBinary out =
      .ok (.str ((if neg then b! "-" else []) ++ yearText h ++ b! ":" ++ decEnc 2 m ++ b! ":" ++ decEnc 2 s), isBinary)
        out := by
  have e1 : ∀ n : Nat, (n &&& 0x3FF000) >>> 12 = n / 2 ^ 12 % 2 ^ 10 := fun n => field_get n 12 10
  have e2 : ∀ n : Nat, (n &&& 0xFC0) >>> 6 = n / 2 ^ 6 % 2 ^ 6 := fun n => field_get n 6 6
  have e3 : ∀ n : Nat, n &&& 0x3F = n % 2 ^ 6 := fun n => and_mask n 6
  have key : parseTime (timeEnc neg h m s ++ rest) =
      some ((if neg then b! "-" else []) ++ yearText h ++ b! ":" ++ decEnc 2 m ++ b! ":" ++ decEnc 2 s) := by
    rw [parseTime, timeEnc]
    cases neg with
    | true =>
      have hz := hz rfl
      rw [if_pos rfl, rd3 rest (by omega)]
      simp only [Option.bind_eq_bind, Option.bind_some, e1, e2, e3]
      have n1 : ((((0x800000 - (h * 4096 + m * 64 + s) : Nat) : Int) - 0x800000)).natAbs = h * 4096 + m * 64 + s := by
        omega
      have n2 : ((((0x800000 - (h * 4096 + m * 64 + s) : Nat) : Int) - 0x800000)) < 0 := by omega
      have f1 : (h * 4096 + m * 64 + s) / 2 ^ 12 % 2 ^ 10 = h := by omega
      have f2 : (h * 4096 + m * 64 + s) / 2 ^ 6 % 2 ^ 6 = m := by omega
      have f3 : (h * 4096 + m * 64 + s) % 2 ^ 6 = s := by omega
      rw [n1, f1, f2, f3, if_pos n2, yearText_eq (by omega), dec2_decEnc (n := m) (by omega), dec2_decEnc (n := s) (by omega)]
      simp
    | false =>
      rw [if_neg (by decide), rd3 rest (by omega)]
      simp only [Option.bind_eq_bind, Option.bind_some, e1, e2, e3]
      have n1 : ((((0x800000 + (h * 4096 + m * 64 + s) : Nat) : Int) - 0x800000)).natAbs = h * 4096 + m * 64 + s := by
        omega
      have n2 : ¬ ((((0x800000 + (h * 4096 + m * 64 + s) : Nat) : Int) - 0x800000)) < 0 := by omega
      have f1 : (h * 4096 + m * 64 + s) / 2 ^ 12 % 2 ^ 10 = h := by omega
      have f2 : (h * 4096 + m * 64 + s) / 2 ^ 6 % 2 ^ 6 = m := by omega
      have f3 : (h * 4096 + m * 64 + s) % 2 ^ 6 = s := by omega
      rw [n1, f1, f2, f3, if_neg n2, yearText_eq (by omega), dec2_decEnc (n := m) (by omega), dec2_decEnc (n := s) (by omega)]
      simp
  simp [parseData, DATA_VARCHAR, DATA_CHAR, DATA_FIXBINARY, MYSQL_TYPE_TIME, key]

example : (838 : Nat) < 1024 ∧ timeEnc true 838 59 59 = [0x4B, 0x91, 0x05] := by decide
example : parseTime [0x4B, 0x91, 0x05, 0] = some (b! "-838:59:59") := by decide

/-! ## C11 -/

/-- The full claim of C11: the printed text is the instant's 24-hour clock reading in the time zone. -/
def C11_statement : Prop :=
  ∀ (zone : Nat → Int) (t : Nat) (c : Civil) (rest : Bytes), t < 2 ^ 32 → c.Valid → c.epoch = t + zone t →
    parseTimeStamp zone (beEnc 4 t ++ rest) = some c.text

/-- the same date and time with the hour on the 12-hour clock -/
def clock12 (c : Civil) : Civil := { c with hour := if c.hour % 12 = 0 then 12 else c.hour % 12 }

/-- **C11 (partial).** Every stored timestamp is printed as a date and time whose date, minute and second are those of
the instant in the time zone and whose hour is the instant's hour on the 12-hour clock.  Missing: the 24-hour clock
(`C11_false`). -/
theorem C11_timestamp_12_hour_partial (zone : Nat → Int) (t : Nat) (rest : Bytes) (ht : t < 2 ^ 32)
    (hz1 : -86400 ≤ zone t) (hz2 : zone t ≤ 86400) :
    ∃ c : Civil, c.Valid ∧ c.epoch = t + zone t ∧
      parseTimeStamp zone (beEnc 4 t ++ rest) = some (clock12 c).text := by
  generalize hs : ((t : Int) + zone t + 25567 * 86400).toNat = secs
  have hs2 : (secs : Int) = t + zone t + 25567 * 86400 := by omega
  have hb : secs < 7000000000 := by omega
  have hY := splitYear_spec (secs / 86400) 1900 (secs / 86400) (by omega) (Nat.le_refl _)
  generalize hyy : splitYear (secs / 86400) 1900 (secs / 86400) = yy at hY
  obtain ⟨year, yday⟩ := yy
  simp only at hY
  obtain ⟨hY1, hY2, hY3⟩ := hY
  have hM := splitMonth_spec year 11 1 yday (by omega) (by omega) (by simpa [monthStart, daysBeforeMonth] using hY3)
  generalize hmm : splitMonth year 11 1 yday = mm at hM
  obtain ⟨month, mday⟩ := mm
  simp only at hM
  obtain ⟨hM1, hM2, hM3, hM4⟩ := hM
  have h1900 : daysBeforeYear 1900 = 693595 := by decide
  have hm1 : monthStart year 1 = 0 := by simp [monthStart, daysBeforeMonth]
  rw [hm1] at hM3
  have hyear : year ≤ 9999 := by
    rcases Nat.lt_or_ge year 10000 with h | h
    · omega
    · have := daysBeforeYear_mono (a := 10000) (b := year) (by omega) h
      have h10 : daysBeforeYear 10000 = 3652059 := by decide
      omega
  refine ⟨⟨year, month, mday + 1, secs % 86400 / 3600, secs % 3600 / 60, secs % 60⟩, ?_, ?_, ?_⟩
  · simp only [Civil.Valid]
    exact ⟨by omega, hyear, hM1, hM2, by omega, by omega, by omega, by omega, by omega⟩
  · simp only [Civil.epoch, dayNumber]
    have : daysBeforeYear year + daysBeforeMonth month + (if month > 2 ∧ leapYear year then 1 else 0) + (mday + 1 - 1) =
        693595 + secs / 86400 := by
      have := hM3
      simp only [monthStart] at this
      omega
    rw [this]
    omega
  · rw [parseTimeStamp, rd4 rest (by omega)]
    simp only [Option.bind_eq_bind, Option.bind_some, hs, hyy, hmm]
    have em : secs % 86400 % 3600 / 60 = secs % 3600 / 60 := by omega
    have es : secs % 86400 % 60 = secs % 60 := by omega
    have hdm := daysIn_le year month
    rw [em, es, dec4_decEnc (by omega), dec2_decEnc (n := month) (by omega), dec2_decEnc (n := mday + 1) (by omega),
      dec2_decEnc (n := secs % 3600 / 60) (by omega), dec2_decEnc (n := secs % 60) (by omega)]
    have hh : (if secs % 86400 / 3600 % 12 = 0 then 12 else secs % 86400 / 3600 % 12) < 100 := by split <;> omega
    rw [dec2_decEnc hh]
    rfl

/-- **C11 (partial).** In a fixed time zone, two stored timestamps that print the same are equal or exactly twelve hours
apart. -/
theorem C11_same_text_partial (z : Int) (hz1 : -86400 ≤ z) (hz2 : z ≤ 86400) (t1 t2 : Nat) (h1 : t1 < 2 ^ 32)
    (h2 : t2 < 2 ^ 32) (r1 r2 : Bytes)
    (h : parseTimeStamp (fun _ => z) (beEnc 4 t1 ++ r1) = parseTimeStamp (fun _ => z) (beEnc 4 t2 ++ r2)) :
    t1 = t2 ∨ t1 = t2 + 43200 ∨ t2 = t1 + 43200 := by
  obtain ⟨c1, v1, e1, p1⟩ := C11_timestamp_12_hour_partial (fun _ => z) t1 r1 h1 hz1 hz2
  obtain ⟨c2, v2, e2, p2⟩ := C11_timestamp_12_hour_partial (fun _ => z) t2 r2 h2 hz1 hz2
  rw [p1, p2] at h
  have h := Option.some.inj h
  obtain ⟨_, a2, _, a4, _, a6, a7, a8, a9⟩ := v1
  obtain ⟨_, b2, _, b4, _, b6, b7, b8, b9⟩ := v2
  have d1 := daysIn_le c1.year c1.month
  have d2 := daysIn_le c2.year c2.month
  have q1 : (if c1.hour % 12 = 0 then 12 else c1.hour % 12) < 100 := by split <;> omega
  have q2 : (if c2.hour % 12 = 0 then 12 else c2.hour % 12) < 100 := by split <;> omega
  simp only [Civil.text, clock12, List.append_assoc] at h
  have ap : ∀ {a b c d : Bytes}, a.length = c.length → a ++ b = c ++ d → a = c ∧ b = d :=
    fun h1 h2 => List.append_inj h2 h1
  obtain ⟨g1, h⟩ := ap (by simp) h
  obtain ⟨_, h⟩ := ap rfl h
  obtain ⟨g2, h⟩ := ap (by simp) h
  obtain ⟨_, h⟩ := ap rfl h
  obtain ⟨g3, h⟩ := ap (by simp) h
  obtain ⟨_, h⟩ := ap rfl h
  obtain ⟨g4, h⟩ := ap (by simp) h
  obtain ⟨_, h⟩ := ap rfl h
  obtain ⟨g5, h⟩ := ap (by simp) h
  obtain ⟨_, g6⟩ := ap rfl h
  have g1 := decEnc_inj (by omega) (by omega) g1
  have g2 := decEnc_inj (by omega) (by omega) g2
  have g3 := decEnc_inj (by omega) (by omega) g3
  have g4 := decEnc_inj q1 q2 g4
  have g5 := decEnc_inj (by omega) (by omega) g5
  have g6 := decEnc_inj (by omega) (by omega) g6
  simp only [Civil.epoch, g1, g2, g3, g5, g6] at e1 e2
  generalize dayNumber c2.year c2.month c2.day = dn at e1 e2
  have hh : c1.hour % 12 = c2.hour % 12 := by
    split at g4 <;> split at g4 <;> omega
  omega

example : (-86400 : Int) ≤ 28800 ∧ (28800 : Int) ≤ 86400 := by decide

/-- C11 is false of the code: in UTC the first second of 1970 and noon of that day print the same. -/
theorem C11_false : ¬ C11_statement := by
  intro h
  have := h (fun _ => 0) 43201 ⟨1970, 1, 1, 12, 0, 1⟩ [] (by decide) (by decide) (by decide)
  have h2 := h (fun _ => 0) 1 ⟨1970, 1, 1, 0, 0, 1⟩ [] (by decide) (by decide) (by decide)
  revert this h2
  decide

end Verif.Props
