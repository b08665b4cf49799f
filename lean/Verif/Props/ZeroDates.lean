import Verif.Props.Exact
import Verif.Proofs.Stored
/-!
# C92: zero dates, dates with parts that are zero, and early years
-/

namespace Verif.Props
open Verif Spec

/-! ## How a server reads a date -/

def isDigit (x : UInt8) : Bool := 48 ≤ x.toNat && x.toNat ≤ 57

/-- the digits between the separators -/
def digitFields : Bytes → List Bytes
  | [] => [[]]
  | x :: xs =>
    if isDigit x then
      match digitFields xs with
      | [] => [[x]]
      | f :: fs => (x :: f) :: fs
    else [] :: digitFields xs

/-- the century of a year with two digits, except in the date that is zero -/
def withCentury (c : Civil) : Civil :=
  if c = ⟨0, 0, 0, 0, 0, 0⟩ then c else { c with year := c.year + if c.year < 70 then 2000 else 1900 }

/-- What a server makes of a string that is assigned to a column with a date: numbers between separators; a year of two digits gets a century. -/
def readMoment (x : Bytes) : Option Civil :=
  match digitFields x with
  | [y, m, d] => do
    let c : Civil := ⟨← decVal y, ← decVal m, ← decVal d, 0, 0, 0⟩
    return if y.length = 2 then withCentury c else c
  | [y, m, d, h, i, s] => do
    let c : Civil := ⟨← decVal y, ← decVal m, ← decVal d, ← decVal h, ← decVal i, ← decVal s⟩
    return if y.length = 2 then withCentury c else c
  | _ => none

/-- A value that a server can hold (without the SQL modes NO_ZERO_DATE and NO_ZERO_IN_DATE): any part may be zero. -/
def Civil.Held (c : Civil) : Prop :=
  c.year ≤ 9999 ∧ c.month ≤ 12 ∧ c.day ≤ 31 ∧ c.hour < 24 ∧ c.min < 60 ∧ c.sec < 60

instance (c : Civil) : Decidable (Civil.Held c) := inferInstanceAs (Decidable (_ ∧ _))

/-- the date that is zero -/
def zeroMoment : Civil := ⟨0, 0, 0, 0, 0, 0⟩

/-- A column with a date.  A TIMESTAMP holds an instant, except for the number 0, which stands for the date that is zero. -/
inductive DateCol where
  | date (c : Civil)
  | datetimeOld (c : Civil)
  | datetime (c : Civil)
  | zeroTimestamp

/-- what it holds -/
def DateCol.moment : DateCol → Civil
  | .date c | .datetimeOld c | .datetime c => c
  | .zeroTimestamp => zeroMoment

def DateCol.Held : DateCol → Prop
  | .date c => Civil.Held c ∧ c.hour = 0 ∧ c.min = 0 ∧ c.sec = 0
  | .datetimeOld c | .datetime c => Civil.Held c
  | .zeroTimestamp => True

/-- how it is stored -/
def DateCol.enc : DateCol → Bytes
  | .date c => dateEnc c.year c.month c.day
  | .datetimeOld c => datetimeOldEnc c
  | .datetime c => datetimeNewEnc c
  | .zeroTimestamp => beEnc 4 0

/-- the type in the dictionary: DATE is an integer type, the others are fixed binary types -/
def DateCol.ftype : DateCol → Nat
  | .date _ => 6
  | _ => 3

def DateCol.mtype : DateCol → Nat
  | .date _ => 10
  | .datetimeOld _ | .datetime _ => 12
  | .zeroTimestamp => 7

/-- the column is decoded to a string that the server reads as what the column held -/
def ReadBack (env : Env) (v : DateCol) (rest : Bytes) : Prop :=
  ∀ (fieldLen fixLength : Nat) (isUnsigned isBinary : Bool) (out : Out), ∃ x,
    parseData env v.ftype v.mtype (v.enc ++ rest) fieldLen fixLength isUnsigned isBinary out = .ok (.str x, isBinary) out ∧ readMoment x = some v.moment

/-- **C92**, as stated: a DATE, DATETIME or TIMESTAMP column that holds the date that is zero, or a date with parts that are zero, or any other
date a server can hold, is printed so that the server reads the same date. -/
def C92_statement : Prop := ∀ (env : Env) (v : DateCol) (rest : Bytes), v.Held → 3 ≤ rest.length → ReadBack env v rest

/-! ## Reading -/

theorem digitFields_ne (x : Bytes) : digitFields x ≠ [] := by
  cases x with
  | nil => simp [digitFields]
  | cons x xs =>
    rw [digitFields]
    split
    · split <;> simp
    · simp

theorem digitFields_sep {x : Bytes} (h : ∀ b ∈ x, isDigit b = true) {s : UInt8} (hs : isDigit s = false) (rest : Bytes) :
    digitFields (x ++ s :: rest) = x :: digitFields rest := by
  induction x with
  | nil => rw [List.nil_append, digitFields, hs]; rfl
  | cons b x ih =>
    rw [List.cons_append, digitFields, h b List.mem_cons_self, if_pos rfl, ih fun y hy => h y (List.mem_cons_of_mem _ hy)]

theorem digitFields_end {x : Bytes} (h : ∀ b ∈ x, isDigit b = true) : digitFields x = [x] := by
  induction x with
  | nil => rfl
  | cons b x ih => rw [digitFields, h b List.mem_cons_self, if_pos rfl, ih fun y hy => h y (List.mem_cons_of_mem _ hy)]

theorem decEnc_isDigit (w n : Nat) : ∀ b ∈ decEnc w n, isDigit b = true := by
  induction w generalizing n with
  | zero => intro x hx; cases hx
  | succ w ih =>
    intro x hx
    rw [decEnc_snoc, List.mem_append] at hx
    rcases hx with hx | hx
    · exact ih _ x hx
    · rw [List.mem_singleton.mp hx, isDigit, digit_toNat (by omega)]
      simp only [Bool.and_eq_true, decide_eq_true_eq]
      omega

theorem yearText_facts {y : Nat} (h : y < 100000) : (∀ b ∈ yearText y, isDigit b = true) ∧ decVal (yearText y) = some y ∧
    ((yearText y).length = 2 ↔ y < 100) := by
  unfold yearText
  split
  · exact ⟨decEnc_isDigit _ _, decVal_decEnc (by omega), by simp; omega⟩
  split
  · exact ⟨decEnc_isDigit _ _, decVal_decEnc (by omega), by simp; omega⟩
  split
  · exact ⟨decEnc_isDigit _ _, decVal_decEnc (by omega), by simp; omega⟩
  · exact ⟨decEnc_isDigit _ _, decVal_decEnc (by omega), by simp; omega⟩

/-- what is read of printed parts -/
def readAs (c : Civil) : Civil := if c.year < 100 then withCentury c else c

theorem read_date {y m d : Nat} (hy : y < 100000) (hm : m < 100) (hd : d < 100) :
    readMoment (yearText y ++ b! "-" ++ decEnc 2 m ++ b! "-" ++ decEnc 2 d) = some (readAs ⟨y, m, d, 0, 0, 0⟩) := by
  obtain ⟨h1, h2, h3⟩ := yearText_facts hy
  have e : digitFields (yearText y ++ b! "-" ++ decEnc 2 m ++ b! "-" ++ decEnc 2 d) = [yearText y, decEnc 2 m, decEnc 2 d] := by
    simp only [List.append_assoc]
    rw [show b! "-" = [45] from rfl, List.singleton_append, digitFields_sep h1 (by decide), List.singleton_append,
      digitFields_sep (decEnc_isDigit _ _) (by decide), digitFields_end (decEnc_isDigit _ _)]
  unfold readMoment
  rw [e]
  dsimp only
  rw [h2, decVal_decEnc (w := 2) (by omega), decVal_decEnc (w := 2) (by omega)]
  simp only [Option.bind_eq_bind, Option.bind_some, h3]
  rfl

theorem read_fmt {y m d h i s : Nat} (hy : y < 100000) (hm : m < 100) (hd : d < 100) (hh : h < 100) (hi : i < 100) (hs : s < 100) :
    readMoment (fmtDateTime y m d h i s) = some (readAs ⟨y, m, d, h, i, s⟩) := by
  obtain ⟨h1, h2, h3⟩ := yearText_facts hy
  have e : digitFields (fmtDateTime y m d h i s) = [yearText y, decEnc 2 m, decEnc 2 d, decEnc 2 h, decEnc 2 i, decEnc 2 s] := by
    rw [fmtDateTime, yearText_eq hy, dec2_decEnc hm, dec2_decEnc hd, dec2_decEnc hh, dec2_decEnc hi, dec2_decEnc hs]
    simp only [List.append_assoc]
    rw [show b! "-" = [45] from rfl, show b! " " = [32] from rfl, show b! ":" = [58] from rfl, List.singleton_append, digitFields_sep h1 (by decide),
      List.singleton_append, digitFields_sep (decEnc_isDigit _ _) (by decide),
      List.singleton_append, digitFields_sep (decEnc_isDigit _ _) (by decide),
      List.singleton_append, digitFields_sep (decEnc_isDigit _ _) (by decide),
      List.singleton_append, digitFields_sep (decEnc_isDigit _ _) (by decide), digitFields_end (decEnc_isDigit _ _)]
  unfold readMoment
  rw [e]
  dsimp only
  rw [h2, decVal_decEnc (w := 2) (by omega), decVal_decEnc (w := 2) (by omega), decVal_decEnc (w := 2) (by omega), decVal_decEnc (w := 2) (by omega),
    decVal_decEnc (w := 2) (by omega)]
  simp only [Option.bind_eq_bind, Option.bind_some, h3]
  rfl

theorem read_text {c : Civil} (hy : c.year < 10000) (hm : c.month < 100) (hd : c.day < 100) (hh : c.hour < 100) (hi : c.min < 100) (hs : c.sec < 100) :
    readMoment c.text = some c := by
  have e : digitFields c.text = [decEnc 4 c.year, decEnc 2 c.month, decEnc 2 c.day, decEnc 2 c.hour, decEnc 2 c.min, decEnc 2 c.sec] := by
    unfold Civil.text
    simp only [List.append_assoc]
    rw [show b! "-" = [45] from rfl, show b! " " = [32] from rfl, show b! ":" = [58] from rfl, List.singleton_append,
      digitFields_sep (decEnc_isDigit _ _) (by decide),
      List.singleton_append, digitFields_sep (decEnc_isDigit _ _) (by decide),
      List.singleton_append, digitFields_sep (decEnc_isDigit _ _) (by decide),
      List.singleton_append, digitFields_sep (decEnc_isDigit _ _) (by decide),
      List.singleton_append, digitFields_sep (decEnc_isDigit _ _) (by decide), digitFields_end (decEnc_isDigit _ _)]
  unfold readMoment
  rw [e]
  dsimp only
  rw [decVal_decEnc (w := 4) (by omega), decVal_decEnc (w := 2) (by omega), decVal_decEnc (w := 2) (by omega), decVal_decEnc (w := 2) (by omega),
    decVal_decEnc (w := 2) (by omega), decVal_decEnc (w := 2) (by omega)]
  simp only [Option.bind_eq_bind, Option.bind_some, decEnc_length, Nat.reduceEqDiff, reduceIte]
  rfl

/-- which values are read as they are -/
theorem readAs_iff (c : Civil) : readAs c = c ↔ 100 ≤ c.year ∨ c = zeroMoment := by
  unfold readAs
  split
  · rename_i h
    unfold withCentury
    split
    · rename_i hz
      exact ⟨fun _ => .inr hz, fun _ => rfl⟩
    · rename_i hz
      refine ⟨fun e => ?_, fun e => ?_⟩
      · have := congrArg Civil.year e
        dsimp only at this
        split at this <;> omega
      · rcases e with e | e
        · omega
        · exact absurd e hz
  · rename_i h
    exact ⟨fun _ => .inl (by omega), fun _ => rfl⟩

theorem readBack_of {env : Env} {v : DateCol} {rest x : Bytes} (h : ∀ (fieldLen fixLength : Nat) (isUnsigned isBinary : Bool) (out : Out),
    parseData env v.ftype v.mtype (v.enc ++ rest) fieldLen fixLength isUnsigned isBinary out = .ok (.str x, isBinary) out) :
    ReadBack env v rest ↔ readMoment x = some v.moment := by
  constructor
  · intro hr
    obtain ⟨x', h1, h2⟩ := hr 0 0 false false []
    rw [h] at h1
    cases h1
    exact h2
  · intro hx a b c d out
    exact ⟨x, h a b c d out, hx⟩

/-! ## DATE -/

/-- **C92, DATE, exactly:** from the year 100 on, and zero. -/
theorem C92_date_iff (env : Env) (c : Civil) (rest : Bytes) (h : (DateCol.date c).Held) :
    ReadBack env (.date c) rest ↔ 100 ≤ c.year ∨ c = zeroMoment := by
  obtain ⟨⟨k1, k2, k3, -⟩, t1, t2, t3⟩ := h
  rw [readBack_of fun a b u bi out => C08_date env c.year c.month c.day (by omega) (by omega) (by omega) rest a b u bi out,
    read_date (by omega) (by omega) (by omega), ← readAs_iff]
  obtain ⟨y, m, d, hh, i, s⟩ := c
  dsimp only at t1 t2 t3
  subst t1 t2 t3
  exact ⟨Option.some.inj, congrArg some⟩

/-! ## DATETIME before MySQL 5.6 -/

theorem old_printed (c : Civil) (rest : Bytes) (h : Civil.Held c) :
    parseDateTime (datetimeOldEnc c ++ rest) = some (fmtDateTime c.year c.month c.day c.hour c.min c.sec) := by
  obtain ⟨h2, h4, h6, h7, h8, h9⟩ := h
  generalize hv : ((((c.year * 100 + c.month) * 100 + c.day) * 100 + c.hour) * 100 + c.min) * 100 + c.sec = v
  have hv2 : v < 2 ^ 47 := by omega
  have hr : matchReadFrom8 (datetimeOldEnc c ++ rest) = some (2 ^ 63 + v) := by
    rw [datetimeOldEnc, ← hv, ← Nat.add_assoc]; exact rd8 rest (by omega)
  rw [parseDateTime, timeFormat_sign hr (by omega) (by omega), hr]
  have q0 : (2 ^ 63 + v) / 2 ^ 46 = 2 ^ 17 + v / 2 ^ 46 := by omega
  have q : (2 ^ 63 + v) / 2 ^ 46 % 2 ^ 17 ≤ 1 := by
    have : v / 2 ^ 46 ≤ 1 := by omega
    rw [q0]; generalize v / 2 ^ 46 = w at this
    have : w = 0 ∨ w = 1 := by omega
    rcases this with rfl | rfl <;> decide
  have q2 : ¬ ((2 ^ 63 + v) / 2 ^ 46 % 2 ^ 17 / 13 > 1990) := by omega
  rw [if_neg (fun h => q2 h.1)]
  simp only [Option.bind_eq_bind, Option.bind_some, clear63]
  rw [if_pos (Or.inr trivial)]
  have e0 : (2 ^ 63 + v) % 2 ^ 63 = v := by omega
  rw [e0]
  have e1 : v % 100 = c.sec := by omega
  have e2 : v / 100 % 100 = c.min := by omega
  have e3 : v / 100 / 100 % 100 = c.hour := by omega
  have e4 : v / 100 / 100 / 100 % 100 = c.day := by omega
  have e5 : v / 100 / 100 / 100 / 100 % 100 = c.month := by omega
  have e6 : v / 100 / 100 / 100 / 100 / 100 % 10000 = c.year := by omega
  rw [e1, e2, e3, e4, e5, e6]; rfl

/-- **C92, DATETIME before MySQL 5.6, exactly:** from the year 100 on, and zero. -/
theorem C92_datetimeOld_iff (env : Env) (c : Civil) (rest : Bytes) (h : (DateCol.datetimeOld c).Held) :
    ReadBack env (.datetimeOld c) rest ↔ 100 ≤ c.year ∨ c = zeroMoment := by
  rw [readBack_of fun a b u bi out => C09_through_decoder env _ _ (old_printed c rest h) a b u bi out]
  obtain ⟨h2, h4, h6, h7, h8, h9⟩ := h
  rw [read_fmt (by omega) (by omega) (by omega) (by omega) (by omega) (by omega), ← readAs_iff]
  exact ⟨Option.some.inj, congrArg some⟩

/-! ## DATETIME of MySQL 5.6 and later -/

theorem newEnc_value (c : Civil) (rest : Bytes) (h : Civil.Held c) (hr : 3 ≤ rest.length) :
    matchReadFrom8 (datetimeNewEnc c ++ rest) =
      some (2 ^ 63 + (c.year * 13 + c.month) * 2 ^ 46 + c.day * 2 ^ 41 + c.hour * 2 ^ 36 + c.min * 2 ^ 30 +
        c.sec * 2 ^ 24 + beVal (rest.take 3)) := by
  obtain ⟨h2, h4, h6, h7, h8, h9⟩ := h
  rw [matchReadFrom8_eq, if_pos (by simp [datetimeNewEnc]; omega)]
  have l5 : (datetimeNewEnc c).length = 5 := by simp [datetimeNewEnc]
  rw [beVal_take_add _ 5 3 (by simp [l5]; omega)]
  have t5 : (datetimeNewEnc c ++ rest).take 5 = datetimeNewEnc c := by
    rw [List.take_append_of_le_length (by omega), List.take_of_length_le (by omega)]
  have d5 : (datetimeNewEnc c ++ rest).drop 5 = rest := by
    rw [← l5, List.drop_left]
  rw [t5, d5, datetimeNewEnc, beVal_beEnc (by omega)]
  congr 1; omega

/-- the decimal digits of a number as a date -/
def digitsOf (w : Nat) : Civil :=
  ⟨w / 10 ^ 10 % 10000, w / 10 ^ 8 % 100, w / 10 ^ 6 % 100, w / 10 ^ 4 % 100, w / 100 % 100, w % 100⟩

/-- the values that are recognised -/
def Recognised (c : Civil) : Prop := 1991 ≤ c.year ∧ c.year ≤ 2099 ∧ 1 ≤ c.month ∧ 1 ≤ c.day

/-- What is printed: the value if it is recognised, else the decimal digits of the first eight bytes without their sign. -/
theorem new_printed (c : Civil) (rest : Bytes) (h : Civil.Held c) (hr : 3 ≤ rest.length) :
    ∃ c', parseDateTime (datetimeNewEnc c ++ rest) = some (fmtDateTime c'.year c'.month c'.day c'.hour c'.min c'.sec) ∧
      (Recognised c → c' = c) ∧ (¬ Recognised c → c' = digitsOf (beVal ((datetimeNewEnc c ++ rest).take 8) % 2 ^ 63)) ∧
      c'.year < 10000 ∧ c'.month < 100 ∧ c'.day < 100 ∧ c'.hour < 100 ∧ c'.min < 100 ∧ c'.sec < 100 := by
  have hread := newEnc_value c rest h hr
  have hbe : matchReadFrom8 (datetimeNewEnc c ++ rest) = some (beVal ((datetimeNewEnc c ++ rest).take 8)) := by
    rw [matchReadFrom8_eq, if_pos (by simp [datetimeNewEnc]; omega)]
  have hv' := Option.some.inj (hbe.symm.trans hread)
  have hf : beVal (rest.take 3) < 2 ^ 24 := Nat.lt_of_lt_of_le (beVal_take_lt _ _) (by omega)
  clear hread
  generalize beVal ((datetimeNewEnc c ++ rest).take 8) = v at hv' hbe ⊢
  generalize beVal (rest.take 3) = f at hv' hf
  obtain ⟨h2, h4, h6, h7, h8, h9⟩ := h
  have e1 : v / 2 ^ 46 % 2 ^ 17 = c.year * 13 + c.month := by omega
  have e2 : v / 2 ^ 41 % 2 ^ 5 = c.day := by omega
  have e3 : v / 2 ^ 36 % 2 ^ 5 = c.hour := by omega
  have e4 : v / 2 ^ 30 % 2 ^ 6 = c.min := by omega
  have e5 : v / 2 ^ 24 % 2 ^ 6 = c.sec := by omega
  have e6 : (c.year * 13 + c.month) / 13 = c.year := by omega
  have e7 : c.year * 13 + c.month - c.year * 13 = c.month := by omega
  rw [parseDateTime, timeFormat_sign hbe (by omega) (by omega), hbe]
  simp only [Option.bind_eq_bind, Option.bind_some, yd_field, day_field, hour_field, min_field, sec_field, e1, e2, e3, e4,
    e5, e6, e7, clear63]
  by_cases hrec : Recognised c
  · refine ⟨c, ?_, fun _ => rfl, fun hn => absurd hrec hn, by omega, by omega, by omega, by omega, by omega, by omega⟩
    obtain ⟨r1, r2, r3, r4⟩ := hrec
    rw [if_pos (⟨by omega, by omega, by omega, by omega, by omega, by omega, by omega, by omega, by omega⟩ : _ ∧ _)]
    rfl
  · have hlt : ∀ n : Nat, n % 100 < 100 := fun n => Nat.mod_lt _ (by decide)
    refine ⟨digitsOf (v % 2 ^ 63), ?_, fun hy => absurd hy hrec, fun _ => rfl, Nat.mod_lt _ (by decide), hlt _, hlt _, hlt _, hlt _, hlt _⟩
    have hcond : ¬ (c.year > 1990 ∧ c.year < 2100 ∧ c.month ≥ 1 ∧ c.month ≤ 12 ∧ c.day ≥ 1 ∧ c.day ≤ 31 ∧ c.hour ≤ 23 ∧ c.min ≤ 59 ∧ c.sec ≤ 59) :=
      fun hh => hrec ⟨hh.1, Nat.lt_succ_iff.mp hh.2.1, hh.2.2.1, hh.2.2.2.2.1⟩
    rw [if_neg hcond, if_pos (Or.inr rfl)]
    unfold digitsOf
    dsimp only
    generalize v % 2 ^ 63 = w
    rw [show w / 10 ^ 10 = w / 100 / 100 / 100 / 100 / 100 by omega, show w / 10 ^ 8 = w / 100 / 100 / 100 / 100 by omega,
      show w / 10 ^ 6 = w / 100 / 100 / 100 by omega, show w / 10 ^ 4 = w / 100 / 100 by omega]
    rfl

/-- **C92, DATETIME of MySQL 5.6 and later, exactly:** if the year is from 1991 to 2099 and neither month nor day is zero; or if the first eight
bytes, taken as a decimal number, happen to show the date. -/
theorem C92_datetime_iff (env : Env) (c : Civil) (rest : Bytes) (h : (DateCol.datetime c).Held) (hr : 3 ≤ rest.length) :
    ReadBack env (.datetime c) rest ↔
      Recognised c ∨ readAs (digitsOf (beVal ((datetimeNewEnc c ++ rest).take 8) % 2 ^ 63)) = c := by
  obtain ⟨c', p1, p2, p3, k1, k2, k3, k4, k5, k6⟩ := new_printed c rest h hr
  rw [readBack_of fun a b u bi out => C09_through_decoder env _ _ p1 a b u bi out,
    read_fmt (by omega) (by omega) (by omega) (by omega) (by omega) (by omega)]
  show some (readAs c') = some c ↔ _
  rw [Option.some.injEq]
  by_cases hrec : Recognised c
  · rw [p2 hrec]
    exact ⟨fun _ => .inl hrec, fun _ => (readAs_iff c).mpr (.inl (by have := hrec.1; omega))⟩
  · rw [p3 hrec]
    exact ⟨.inr, fun hh => hh.resolve_left hrec⟩

theorem take3_zero {rest : Bytes} (hr : 3 ≤ rest.length) : beVal (rest.take 3) = 0 ↔ rest.take 3 = [0, 0, 0] := by
  obtain ⟨a, b, c, r, rfl⟩ : ∃ a b c r, rest = a :: b :: c :: r := by
    match rest, hr with
    | a :: b :: c :: r, _ => exact ⟨a, b, c, r, rfl⟩
  rw [show (a :: b :: c :: r).take 3 = [a, b, c] from rfl]
  constructor
  · intro e
    have h3 : beVal [a, b, c] = a.toNat * 65536 + b.toNat * 256 + c.toNat := by
      simp only [beVal, List.foldl]
      omega
    rw [h3] at e
    have q : ∀ x : UInt8, x.toNat = 0 → x = 0 := fun x hx => UInt8.toNat_inj.mp hx
    rw [q a (by omega), q b (by omega), q c (by omega)]
  · intro e
    rw [e]
    decide

/-- **The zero DATETIME of MySQL 5.6 and later:** printed correctly if and only if the three bytes that follow the column in the record are zero. -/
theorem C92_zero_datetime_iff (env : Env) (rest : Bytes) (hr : 3 ≤ rest.length) :
    ReadBack env (.datetime zeroMoment) rest ↔ rest.take 3 = [0, 0, 0] := by
  rw [C92_datetime_iff env zeroMoment rest (show Civil.Held _ by decide) hr]
  have hbe : matchReadFrom8 (datetimeNewEnc zeroMoment ++ rest) = some (beVal ((datetimeNewEnc zeroMoment ++ rest).take 8)) := by
    rw [matchReadFrom8_eq, if_pos (by simp [datetimeNewEnc]; omega)]
  have hv := Option.some.inj (hbe.symm.trans (newEnc_value zeroMoment rest (by decide) hr))
  have hf : beVal (rest.take 3) < 2 ^ 24 := Nat.lt_of_lt_of_le (beVal_take_lt _ _) (by omega)
  have hz : beVal ((datetimeNewEnc zeroMoment ++ rest).take 8) % 2 ^ 63 = beVal (rest.take 3) := by
    rw [hv]
    show (2 ^ 63 + (0 * 13 + 0) * 2 ^ 46 + 0 * 2 ^ 41 + 0 * 2 ^ 36 + 0 * 2 ^ 30 + 0 * 2 ^ 24 + beVal (rest.take 3)) % 2 ^ 63 = _
    omega
  rw [hz]
  rw [← take3_zero hr]
  generalize beVal (rest.take 3) = f at hf ⊢
  constructor
  · rintro (⟨hh, -⟩ | hh)
    · exact absurd hh (by decide)
    · unfold readAs withCentury digitsOf at hh
      have e1 : f / 10 ^ 10 % 10000 = 0 := by omega
      dsimp only at hh
      rw [e1] at hh
      rw [if_pos (by decide)] at hh
      split at hh
      · rename_i hd
        injection hd with _ d1 d2 d3 d4 d5
        omega
      · have := congrArg Civil.year hh
        change 2000 = 0 at this
        cases this
  · rintro rfl
    exact .inr (by decide)

/-! ## TIMESTAMP -/

/-- **The zero TIMESTAMP** is never printed as such. -/
theorem C92_zero_timestamp (env : Env) (rest : Bytes) (hz1 : -86400 ≤ env.zone 0) (hz2 : env.zone 0 ≤ 86400) :
    ¬ ReadBack env .zeroTimestamp rest := by
  obtain ⟨c, hv, he, hp⟩ := C11_timestamp_12_hour_partial env.zone 0 rest (by decide) hz1 hz2
  have hd : ∀ (a b : Nat) (u bi : Bool) (out : Out), parseData env 3 7 (beEnc 4 0 ++ rest) a b u bi out = .ok (.str (clock12 c).text, bi) out := by
    intro a b u bi out
    simp [parseData, DATA_VARCHAR, DATA_CHAR, DATA_FIXBINARY, MYSQL_TYPE_TIME, MYSQL_TYPE_TIMESTAMP, hp]
  rw [readBack_of hd]
  obtain ⟨k1, k2, k3, k4, k5, k6, k7, k8, k9⟩ := hv
  have hdays := daysIn_le c.year c.month
  have h12 : (clock12 c).hour < 100 := by
    unfold clock12
    dsimp only
    split <;> omega
  intro hr
  rw [read_text (c := clock12 c) (show c.year < 10000 by omega) (show c.month < 100 by omega) (show c.day < 100 by omega) h12
    (show c.min < 100 by omega) (show c.sec < 100 by omega)] at hr
  have := congrArg Civil.month (Option.some.inj hr)
  change c.month = 0 at this
  omega

/-! ## Together -/

/-- **C92 (partial):** true of DATE and old DATETIME columns from the year 100 on and for the date that is zero, and of DATETIME columns of MySQL 5.6
and later if the year is from 1991 to 2099 and month and day are not zero.  (Missing, and false: `C92_date_iff`, `C92_datetimeOld_iff`,
`C92_datetime_iff`, `C92_zero_datetime_iff`, `C92_zero_timestamp`.) -/
theorem C92_read_partial (env : Env) (v : DateCol) (rest : Bytes) (h : v.Held) (hr : 3 ≤ rest.length)
    (hv : match v with
      | .date c | .datetimeOld c => 100 ≤ c.year ∨ c = ⟨0, 0, 0, 0, 0, 0⟩
      | .datetime c => 1991 ≤ c.year ∧ c.year ≤ 2099 ∧ 1 ≤ c.month ∧ 1 ≤ c.day
      | .zeroTimestamp => False) : ReadBack env v rest := by
  cases v with
  | date c => exact (C92_date_iff env c rest h).mpr hv
  | datetimeOld c => exact (C92_datetimeOld_iff env c rest h).mpr hv
  | datetime c => exact (C92_datetime_iff env c rest h hr).mpr (.inl hv)
  | zeroTimestamp => exact hv.elim

/-- `0000-00-00` as a DATE, and the DATETIME `2024-02-29 12:00:00` -/
example (env : Env) (rest : Bytes) (hr : 3 ≤ rest.length) :
    ReadBack env (.date zeroMoment) rest ∧ ReadBack env (.datetime ⟨2024, 2, 29, 12, 0, 0⟩) rest :=
  ⟨C92_read_partial env (.date zeroMoment) rest ⟨by decide, by decide, by decide, by decide⟩ hr (.inr rfl),
    C92_read_partial env (.datetime ⟨2024, 2, 29, 12, 0, 0⟩) rest (by show Civil.Held _; decide) hr (by decide)⟩

/-- **C92 is false:** the DATETIME `0000-00-00 00:00:00`, followed by a byte that is not zero. -/
theorem C92_false : ¬ C92_statement := by
  intro h
  have := h testEnv (.datetime zeroMoment) [1, 0, 0] (by show Civil.Held _; decide) (by decide)
  exact absurd ((C92_zero_datetime_iff testEnv [1, 0, 0] (by decide)).mp this) (by decide)

/-- what is printed for it -/
example : parseDateTime (datetimeNewEnc zeroMoment ++ [1, 0, 0]) = some (b! "00-00-00 06:55:36") := by decide

/-- the hypotheses of `C92_zero_timestamp`: in China the zero TIMESTAMP is printed as eight o'clock on the first of January 1970 -/
example : parseTimeStamp (fun _ => 28800) (beEnc 4 0 ++ [1, 0, 0]) = some (b! "1970-01-01 08:00:00") := by decide

end Verif.Props
