import Verif.Props.Exact
import Verif.Props.Dates
/-!
# C77: fractional seconds

TIME(p), DATETIME(p) and TIMESTAMP(p) of MySQL 5.6 and later: `k = (p + 1) / 2` bytes of fraction follow the bytes of the type without
fraction; a TIME is one number of `3 + k` bytes, so that the fraction of a negative time borrows a second.
-/

namespace Verif.Props
open Verif Spec

/-- The whole seconds of a temporal value. -/
inductive Temporal where
  | time (neg : Bool) (h m s : Nat)
  | datetime (c : Civil)
  /-- seconds since 1970 and the clock reading at that time in the time zone of the session -/
  | timestamp (t : Nat) (c : Civil)

/-- the stored bytes, with `f` units of `100 ^ -k` seconds in `k` bytes -/
def Temporal.enc (k f : Nat) : Temporal → Bytes
  | .time neg h m s =>
    let n := (h * 4096 + m * 64 + s) * 256 ^ k + f
    beEnc (3 + k) (if neg then 2 ^ 23 * 256 ^ k - n else 2 ^ 23 * 256 ^ k + n)
  | .datetime c => datetimeNewEnc c ++ beEnc k f
  | .timestamp t _ => beEnc 4 t ++ beEnc k f

/-- the text of the whole seconds -/
def Temporal.text : Temporal → Bytes
  | .time neg h m s => (if neg then b! "-" else []) ++ yearText h ++ b! ":" ++ decEnc 2 m ++ b! ":" ++ decEnc 2 s
  | .datetime c | .timestamp _ c => c.text

/-- The text denotes the value with the fraction, which is written behind a dot or left out if it is zero. -/
def Temporal.DenotedBy (v : Temporal) (k f : Nat) (t : Bytes) : Prop := f = 0 ∧ t = v.text ∨ t = v.text ++ b! "." ++ decEnc (2 * k) f

/-- The values of the types.  (There is no negative zero.) -/
def Temporal.Fits (zone : Nat → Int) (f : Nat) : Temporal → Prop
  | .time neg h m s => h ≤ 838 ∧ m < 60 ∧ s < 60 ∧ (neg = true → h * 4096 + m * 64 + s ≠ 0 ∨ f ≠ 0)
  | .datetime c => c.Valid ∧ 1000 ≤ c.year
  | .timestamp t c => t < 2 ^ 32 ∧ -86400 ≤ zone t ∧ zone t ≤ 86400 ∧ c.Valid ∧ c.epoch = t + zone t

/-- Without fraction the value is printed correctly (C09, C11). -/
def Temporal.WholePrinted : Temporal → Prop
  | .time .. => True
  | .datetime c => 1991 ≤ c.year ∧ c.year ≤ 2099
  | .timestamp _ c => 1 ≤ c.hour ∧ c.hour ≤ 12

/-- the MySQL type -/
def Temporal.code : Temporal → Nat
  | .time .. => 11
  | .datetime _ => 12
  | .timestamp .. => 7

/-- The full claim of C77: a value with fractional seconds is printed with its fraction. -/
def C77_statement : Prop :=
  ∀ (env : Env) (v : Temporal) (k f : Nat) (rest : Bytes) (fieldLen fixLength : Nat) (isUnsigned isBinary : Bool) (out : Out),
    v.Fits env.zone f → v.WholePrinted → k ≤ 3 → f < 100 ^ k → 3 ≤ k + rest.length →
    ∃ t, parseData env 3 v.code (v.enc k f ++ rest) fieldLen fixLength isUnsigned isBinary out = .ok (.str t, isBinary) out ∧ v.DenotedBy k f t

theorem beEnc_add (w k a b : Nat) (hb : b < 256 ^ k) : beEnc (w + k) (a * 256 ^ k + b) = beEnc w a ++ beEnc k b := by
  have hp : 0 < 256 ^ k := Nat.pow_pos (by decide)
  induction w with
  | zero =>
    rw [Nat.zero_add, ← beEnc_mod, Nat.mul_comm, Nat.mul_add_mod, Nat.mod_eq_of_lt hb]
    rfl
  | succ w ih =>
    rw [Nat.add_right_comm]
    show UInt8.ofNat _ :: beEnc (w + k) _ = (UInt8.ofNat _ :: beEnc w a) ++ beEnc k b
    rw [ih, Nat.add_comm w k, Nat.pow_add, ← Nat.div_div_eq_div_mul, Nat.mul_comm a, Nat.mul_add_div hp, Nat.div_eq_of_lt hb, Nat.add_zero]
    rfl

/-- What is printed: the whole seconds without the fraction, except for negative times with a fraction, which get one second more. -/
def Temporal.printed (f : Nat) : Temporal → Bytes
  | .time true h m s => b! "-" ++ yearText h ++ b! ":" ++ decEnc 2 m ++ b! ":" ++ decEnc 2 (if f = 0 then s else s + 1)
  | v => v.text

/-- **C77, what happens.** The fraction is never printed; a negative time with a fraction is printed one second too far from zero, where the
second can be 60. -/
theorem C77_printed (env : Env) (v : Temporal) (k f : Nat) (rest : Bytes) (fieldLen fixLength : Nat) (isUnsigned isBinary : Bool) (out : Out)
    (h : v.Fits env.zone f) (hw : v.WholePrinted) (hf : f < 100 ^ k) (hr : 3 ≤ k + rest.length) :
    parseData env 3 v.code (v.enc k f ++ rest) fieldLen fixLength isUnsigned isBinary out = .ok (.str (v.printed f), isBinary) out := by
  have hf2 : f < 256 ^ k := Nat.lt_of_lt_of_le hf (Nat.pow_le_pow_left (by decide) k)
  cases v with
  | time neg h' m s =>
    obtain ⟨h1, h2, h3, h4⟩ := h
    cases neg with
    | false =>
      have e : (Temporal.time false h' m s).enc k f = timeEnc false h' m s ++ beEnc k f := by
        show beEnc (3 + k) (2 ^ 23 * 256 ^ k + ((h' * 4096 + m * 64 + s) * 256 ^ k + f)) = _
        rw [← Nat.add_assoc, ← Nat.add_mul, beEnc_add _ _ _ _ hf2]
        rfl
      rw [e, List.append_assoc]
      exact C10_time env false h' m s (by omega) (by omega) (by omega) (by simp) _ fieldLen fixLength isUnsigned isBinary out
    | true =>
      have hm : h' * 4096 + m * 64 + s < 2 ^ 23 := by omega
      by_cases hz : f = 0
      · subst hz
        have e : (Temporal.time true h' m s).enc k 0 = timeEnc true h' m s ++ beEnc k 0 := by
          show beEnc (3 + k) (2 ^ 23 * 256 ^ k - ((h' * 4096 + m * 64 + s) * 256 ^ k + 0)) = _
          rw [Nat.add_zero, ← Nat.sub_mul, ← Nat.add_zero (_ * _), beEnc_add _ _ _ _ hf2]
          rfl
        rw [e, List.append_assoc]
        exact C10_time env true h' m s (by omega) (by omega) (by omega) (fun _ => (h4 rfl).resolve_right (by simp)) _ fieldLen fixLength
          isUnsigned isBinary out
      · have e : (Temporal.time true h' m s).enc k f = timeEnc true h' m (s + 1) ++ beEnc k (256 ^ k - f) := by
          show beEnc (3 + k) (2 ^ 23 * 256 ^ k - ((h' * 4096 + m * 64 + s) * 256 ^ k + f)) = _
          have : 2 ^ 23 * 256 ^ k - ((h' * 4096 + m * 64 + s) * 256 ^ k + f) =
              (2 ^ 23 - (h' * 4096 + m * 64 + (s + 1))) * 256 ^ k + (256 ^ k - f) := by
            obtain ⟨D, hD⟩ : ∃ D, 2 ^ 23 = h' * 4096 + m * 64 + s + 1 + D := ⟨2 ^ 23 - (h' * 4096 + m * 64 + s + 1), by omega⟩
            rw [← Nat.add_assoc _ s 1, hD, Nat.add_sub_cancel_left, Nat.add_mul, Nat.add_mul _ 1, Nat.one_mul]
            generalize (h' * 4096 + m * 64 + s) * 256 ^ k = x
            omega
          rw [this, beEnc_add _ _ _ _ (by omega)]
          rfl
        rw [e, List.append_assoc]
        have := C10_time env true h' m (s + 1) (by omega) (by omega) (by omega) (fun _ => by omega) (beEnc k (256 ^ k - f) ++ rest) fieldLen fixLength
          isUnsigned isBinary out
        have e : (Temporal.time true h' m s).printed f = (if true = true then b! "-" else []) ++ yearText h' ++ b! ":" ++ decEnc 2 m ++ b! ":" ++
            decEnc 2 (s + 1) := by
          show b! "-" ++ yearText h' ++ b! ":" ++ decEnc 2 m ++ b! ":" ++ decEnc 2 (if f = 0 then s else s + 1) = _
          rw [if_neg hz]
          rfl
        rw [e]
        exact this
  | datetime c =>
    show parseData env 3 12 ((datetimeNewEnc c ++ beEnc k f) ++ rest) _ _ _ _ _ = _
    rw [List.append_assoc]
    exact C09_through_decoder env _ _ ((C09_datetime_partial c _ h.1 h.2).2 (by simp; omega) hw.1 hw.2) _ _ _ _ _
  | timestamp t c =>
    show parseData env 3 7 ((beEnc 4 t ++ beEnc k f) ++ rest) _ _ _ _ _ = _
    rw [List.append_assoc]
    obtain ⟨h1, h2, h3, h4, h5⟩ := h
    have := (C11_iff env.zone t c (beEnc k f ++ rest) h1 h2 h3 h4 h5).mpr hw
    simp [parseData, DATA_VARCHAR, DATA_CHAR, DATA_FIXBINARY, MYSQL_TYPE_TIME, MYSQL_TYPE_TIMESTAMP, this]
    rfl

theorem printed_length (v : Temporal) (f : Nat) : (v.printed f).length = v.text.length := by
  unfold Temporal.printed
  split
  · simp [Temporal.text]
  · rfl

/-- **C77, exactly.** The printed text denotes the value if and only if its fraction is zero. -/
theorem C77_iff (env : Env) (v : Temporal) (k f : Nat) (rest : Bytes) (fieldLen fixLength : Nat) (isUnsigned isBinary : Bool) (out : Out)
    (h : v.Fits env.zone f) (hw : v.WholePrinted) (hf : f < 100 ^ k) (hr : 3 ≤ k + rest.length) :
    (∃ t, parseData env 3 v.code (v.enc k f ++ rest) fieldLen fixLength isUnsigned isBinary out = .ok (.str t, isBinary) out ∧
      v.DenotedBy k f t) ↔ f = 0 := by
  have hp := C77_printed env v k f rest fieldLen fixLength isUnsigned isBinary out h hw hf hr
  constructor
  · rintro ⟨t, h1, h2⟩
    rw [hp] at h1
    cases h1
    rcases h2 with h2 | h2
    · exact h2.1
    · have := congrArg List.length h2
      rw [printed_length] at this
      simp at this
  · rintro rfl
    refine ⟨_, hp, .inl ⟨rfl, ?_⟩⟩
    unfold Temporal.printed
    split <;> rfl

/-- **C77 (partial).** True of values whose fraction is zero.  Missing: all others (`C77_iff`, `C77_false`). -/
theorem C77_whole_partial (env : Env) (v : Temporal) (k : Nat) (rest : Bytes) (fieldLen fixLength : Nat) (isUnsigned isBinary : Bool) (out : Out)
    (h : v.Fits env.zone 0) (hw : v.WholePrinted) (hr : 3 ≤ k + rest.length) :
    ∃ t, parseData env 3 v.code (v.enc k 0 ++ rest) fieldLen fixLength isUnsigned isBinary out = .ok (.str t, isBinary) out ∧
      v.DenotedBy k 0 t :=
  (C77_iff env v k 0 rest fieldLen fixLength isUnsigned isBinary out h hw (Nat.pow_pos (by decide)) hr).mpr rfl

/-- the time -00:00:59.50 in a column TIME(2), printed as -00:00:60 -/
example : (Temporal.time true 0 0 59).enc 1 50 = [127, 255, 196, 206] ∧ (Temporal.time true 0 0 59).printed 50 = b! "-00:00:60" := by decide

/-- the time 2019-02-28 23:59:58.250 in a column DATETIME(3) -/
example (zone : Nat → Int) : (Temporal.datetime ⟨2019, 2, 28, 23, 59, 58⟩).Fits zone 2500 ∧
    (Temporal.datetime ⟨2019, 2, 28, 23, 59, 58⟩).WholePrinted ∧ 2500 < 100 ^ 2 := by
  refine ⟨⟨by decide, by decide⟩, ⟨by decide, by decide⟩, by decide⟩

/-- C77 is false of the code: the time -00:00:59.50 is printed without fraction. -/
theorem C77_false : ¬ C77_statement := by
  intro h
  have := h ⟨fun _ => 0, ⟨fun _ => [], fun _ => []⟩⟩ (.time true 0 0 59) 1 50 [0, 0] 4 0 false false [] ⟨by decide, by decide, by decide, by decide⟩ trivial (by decide) (by decide)
    (by decide)
  have := (C77_iff ⟨fun _ => 0, ⟨fun _ => [], fun _ => []⟩⟩ (.time true 0 0 59) 1 50 [0, 0] 4 0 false false [] ⟨by decide, by decide, by decide, by decide⟩ trivial (by decide)
    (by decide)).mp this
  cases this

end Verif.Props
