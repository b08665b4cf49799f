import Verif.Props.Ints
import Verif.Props.Dates
import Verif.Props.Text
import Verif.Spec.Typed
/-!
# Lemmas: decoding typed values
-/

set_option linter.unusedSimpArgs false

namespace Verif
open Spec Props

/-! ## A clock reading is determined by the instant -/

theorem daysBeforeMonth_lt (y m n : Nat) (hm : 1 ≤ m) (hmn : m < n) (hn : n ≤ 12) :
    daysBeforeMonth m + (if m > 2 ∧ leapYear y then 1 else 0) + daysIn y m ≤ daysBeforeMonth n + (if n > 2 ∧ leapYear y then 1 else 0) := by
  by_cases hl : leapYear y
  · simp only [hl, and_true, daysIn, if_true]
    have : ∀ n ≤ 12, ∀ m < n, 1 ≤ m → daysBeforeMonth m + (if m > 2 then 1 else 0) + (if m = 2 then 29 else if m ∈ [4, 6, 9, 11] then 30 else 31) ≤
        daysBeforeMonth n + (if n > 2 then 1 else 0) := by decide
    exact this n hn m hmn hm
  · simp only [hl, and_false, daysIn, if_false]
    have : ∀ n ≤ 12, ∀ m < n, 1 ≤ m → daysBeforeMonth m + 0 + (if m = 2 then 28 else if m ∈ [4, 6, 9, 11] then 30 else 31) ≤
        daysBeforeMonth n + 0 := by decide
    exact this n hn m hmn hm

theorem dayOfYear_lt (y m d : Nat) (hm1 : 1 ≤ m) (hm2 : m ≤ 12) (hd1 : 1 ≤ d) (hd2 : d ≤ daysIn y m) :
    daysBeforeMonth m + (if m > 2 ∧ leapYear y then 1 else 0) + (d - 1) < if leapYear y then 366 else 365 := by
  by_cases hl : leapYear y
  · simp only [hl, and_true, daysIn, if_true] at hd2 ⊢
    have : ∀ m ≤ 12, 1 ≤ m → daysBeforeMonth m + (if m > 2 then 1 else 0) + (if m = 2 then 29 else if m ∈ [4, 6, 9, 11] then 30 else 31) ≤ 366 := by decide
    have := this m hm2 hm1
    omega
  · simp only [hl, and_false, daysIn, if_false] at hd2 ⊢
    have : ∀ m ≤ 12, 1 ≤ m → daysBeforeMonth m + (if m = 2 then 28 else if m ∈ [4, 6, 9, 11] then 30 else 31) ≤ 365 := by decide
    have := this m hm2 hm1
    omega

theorem daysBeforeYear_next (y : Nat) (hy : 1 ≤ y) : daysBeforeYear (y + 1) = daysBeforeYear y + if leapYear y then 366 else 365 := by
  rw [daysBeforeYear_succ y hy, yearDays]
  by_cases h : leapYear y
  · rw [if_pos h, if_pos ((isLeap_iff y).mpr h)]
  · rw [if_neg h, if_neg (fun h' => h ((isLeap_iff y).mp h'))]

theorem dayNumber_inj {y m d y' m' d' : Nat} (hy : 1 ≤ y) (hy' : 1 ≤ y') (hm : 1 ≤ m ∧ m ≤ 12) (hm' : 1 ≤ m' ∧ m' ≤ 12)
    (hd : 1 ≤ d ∧ d ≤ daysIn y m) (hd' : 1 ≤ d' ∧ d' ≤ daysIn y' m') (h : dayNumber y m d = dayNumber y' m' d') : y = y' ∧ m = m' ∧ d = d' := by
  have a := dayOfYear_lt y m d hm.1 hm.2 hd.1 hd.2
  have a' := dayOfYear_lt y' m' d' hm'.1 hm'.2 hd'.1 hd'.2
  have s := daysBeforeYear_next y hy
  have s' := daysBeforeYear_next y' hy'
  unfold dayNumber at h
  have hyy : y = y' := by
    rcases Nat.lt_trichotomy y y' with hlt | rfl | hlt
    · have := daysBeforeYear_mono (a := y + 1) (b := y') (by omega) hlt
      omega
    · rfl
    · have := daysBeforeYear_mono (a := y' + 1) (b := y) (by omega) hlt
      omega
  subst hyy
  have hmm : m = m' := by
    rcases Nat.lt_trichotomy m m' with hlt | rfl | hlt
    · have := daysBeforeMonth_lt y m m' hm.1 hlt hm'.2
      omega
    · rfl
    · have := daysBeforeMonth_lt y m' m hm'.1 hlt hm.2
      omega
  subst hmm
  exact ⟨rfl, rfl, by omega⟩

theorem epoch_inj {c c' : Civil} (h : c.Valid) (h' : c'.Valid) (he : c.epoch = c'.epoch) : c = c' := by
  obtain ⟨y, mo, d, hh, mi, se⟩ := c
  obtain ⟨y', mo', d', hh', mi', se'⟩ := c'
  simp only [Civil.Valid] at h h'
  simp only [Civil.epoch] at he
  have hdn : dayNumber y mo d = dayNumber y' mo' d' := by omega
  obtain ⟨rfl, rfl, rfl⟩ := dayNumber_inj (by omega) (by omega) (by omega) (by omega) (by omega) (by omega) hdn
  have h1 : hh = hh' := by omega
  have h2 : mi = mi' := by omega
  have h3 : se = se' := by omega
  rw [h1, h2, h3]

/-! ## The decoder -/

/-- what the tool shows for a value it decodes correctly: binary values in hexadecimal, bits as a number, the others as they are -/
def TVal.shown (ff : FloatFmt) : TVal → Bytes
  | .binary s | .varbinary s | .blob s => parseBlob s
  | .bit _ n => dec n
  | v => v.lit ff

/-- binary columns are marked -/
def TVal.isHex : TVal → Bool
  | .binary _ | .varbinary _ | .blob _ => true
  | _ => false

/-- the values the decoder gets right -/
def TVal.Decodable : TVal → Prop
  | .uint w n => w = 3 → n < 2 ^ 22
  | .bit w n => w ∈ [1, 2, 4, 8] ∨ (w = 3 ∧ n < 2 ^ 22)
  | .year y => y ≠ 0
  | .datetime c => 1991 ≤ c.year ∧ c.year ≤ 2099
  | .timestamp _ c => 1 ≤ c.hour ∧ c.hour ≤ 12
  | .char s _ => Edged s
  | _ => True

/-- the number of bytes the decoder looks at behind the value -/
def TVal.lookahead : TVal → Nat
  | .datetime _ => 3
  | _ => 0

theorem int_parse (env : Env) (w : Nat) (hw : w ∈ [1, 2, 3, 4, 8]) (i : Int)
    (h1 : -(2 ^ (8 * w - 1)) ≤ i) (h2 : i < 2 ^ (8 * w - 1)) (rest : Bytes) (mtype : Nat)
    (hm : mtype ≠ MYSQL_TYPE_DATE) (hy : mtype ≠ MYSQL_TYPE_YEAR) (isBinary : Bool) (out : Out) :
    parseData env DATA_INT mtype (intEnc w i ++ rest) w w false isBinary out = .ok (if w = 3 ∧ 0 ≤ i then .uint i.toNat else .int i, isBinary) out := by
  have hsl : sliceTo (intEnc w i ++ rest) w = some (intEnc w i) := by
    rw [sliceTo, if_pos (by simp [intEnc]), intEnc, take_beEnc_append]
  have key : ∀ v, getIntValue w (intEnc w i) = some v →
      parseData env DATA_INT mtype (intEnc w i ++ rest) w w false isBinary out = .ok (v, isBinary) out := by
    intro v hv
    simp [parseData, DATA_INT, DATA_VARCHAR, DATA_CHAR, DATA_FIXBINARY, DATA_BINARY, hm, hy, hsl, hv]
  simp only [List.mem_cons, List.not_mem_nil, or_false] at hw
  rcases hw with rfl | rfl | rfl | rfl | rfl
  · rw [key _ (getInt1 h1 h2), if_neg (by omega)]
  · rw [key _ (getInt2 h1 h2), if_neg (by omega)]
  · rw [key _ (getInt3 h1 h2)]
    by_cases hi : 0 ≤ i
    · rw [if_pos hi, if_pos ⟨rfl, hi⟩]
    · rw [if_neg hi, if_neg (fun h => hi h.2)]
  · rw [key _ (getInt4 h1 h2), if_neg (by omega)]
  · rw [key _ (getInt8 h1 h2), if_neg (by omega)]

/-- plain strings -/
theorem str_parse (env : Env) (dt mt : Nat) (s rest : Bytes) (fix : Nat) (u b : Bool) (out : Out)
    (h : dt = 1 ∨ dt = 2 ∨ dt = 12 ∨ (dt = 5 ∧ b = false)) :
    parseData env dt mt (s ++ rest) s.length fix u b out = .ok (.str s, b) out := by
  have hs : sliceTo (s ++ rest) s.length = some s := by
    rw [sliceTo, if_pos (by simp), List.take_left' rfl]
  rcases h with rfl | rfl | rfl | ⟨rfl, rfl⟩ <;>
    simp [parseData, DATA_VARCHAR, DATA_CHAR, DATA_FIXBINARY, DATA_BINARY, DATA_BLOB, DATA_INT, DATA_FLOAT, DATA_DOUBLE,
      DATA_DECIMAL, DATA_VARMYSQL, DATA_MYSQL, hs]

theorem clock12_self {c : Civil} (h : 1 ≤ c.hour ∧ c.hour ≤ 12) : clock12 c = c := by
  obtain ⟨y, mo, d, hh, mi, se⟩ := c
  dsimp only at h
  have : (if hh % 12 = 0 then 12 else hh % 12) = hh := by split <;> omega
  simp only [clock12, this]

/-- the value the decoder returns -/
def TVal.DecodedAs (ff : FloatFmt) : TVal → Val → Prop
  | .int _ i, x => x = .int i ∨ ∃ n : Nat, x = .uint n ∧ i = n
  | .uint _ n, x | .bit _ n, x | .year n, x => x = .uint n
  | .float b, x => x = .f32 b
  | .double b, x => x = .f64 b
  | .binary s, x | .varbinary s, x | .blob s, x => x = .str (parseBlob s)
  | v, x => x = .str (v.lit ff)

theorem decode_value (env : Env) (c : Column) (v : TVal) (hc : v.Of c) (hf : v.Fits env.zone) (hr : TVal.Decodable v) :
    ∃ x, x ≠ .nil ∧ fmtV env.ff x = TVal.shown env.ff v ∧ TVal.DecodedAs env.ff v x ∧ ∀ rest out, TVal.lookahead v ≤ rest.length →
      parseData env c.ftype c.mtype (v.enc ++ rest) v.enc.length (getFixedLength c.ftype c.len) c.isUnsigned c.isBinary out =
        .ok (x, if TVal.isHex v then true else c.isBinary) out := by
  obtain ⟨name, ftype, mtype, pos, len, value, isNull, isBinary, isUnsigned, tid⟩ := c
  cases v with
  | int w i =>
    obtain ⟨rfl, hm1, hm2, rfl, rfl⟩ := hc
    obtain ⟨hw, h1, h2⟩ := hf
    have hl : (intEnc len i).length = len := by rw [intEnc, beEnc_length]
    refine ⟨if len = 3 ∧ 0 ≤ i then .uint i.toNat else .int i, by split <;> nofun, ?_, ?_, ?_⟩
    · show _ = intText i
      split
      · rename_i h
        have hn : ¬ i < 0 := by omega
        have : i.toNat = i.natAbs := by omega
        simp [fmtV, intText, hn, this]
      · rfl
    · split
      · rename_i h
        exact Or.inr ⟨i.toNat, rfl, by omega⟩
      · exact Or.inl rfl
    · intro rest out _
      simp only [TVal.enc, TVal.isHex, hl]
      exact int_parse env len hw i h1 h2 rest mtype hm1 hm2 isBinary out
  | uint w n =>
    obtain ⟨rfl, hm1, hm2, rfl, rfl⟩ := hc
    obtain ⟨hw, hn⟩ := hf
    refine ⟨.uint n, nofun, rfl, rfl, ?_⟩
    intro rest out _
    simp only [TVal.enc, TVal.isHex, beEnc_length]
    have hc : UintCol 6 mtype true := .int mtype hm1 hm2
    by_cases h3 : len = 3
    · subst h3
      have := C07_width3 env n rest 6 mtype true isBinary out hc hn
      rw [Nat.mod_eq_of_lt (hr rfl)] at this
      exact this
    · exact C07_widths_1_2_4_8_partial env len n rest 6 mtype true isBinary out hc
        (by simp only [List.mem_cons, List.not_mem_nil, or_false] at hw ⊢; omega) hn
  | bit w n =>
    obtain ⟨rfl, rfl, rfl⟩ := hc
    obtain ⟨_, _, hn⟩ := hf
    refine ⟨.uint n, nofun, rfl, rfl, ?_⟩
    intro rest out _
    simp only [TVal.enc, TVal.isHex, beEnc_length]
    rcases hr with hw | ⟨rfl, h22⟩
    · exact C07_widths_1_2_4_8_partial env len n rest 3 16 isUnsigned isBinary out (.bit _) hw hn
    · have := C07_width3 env n rest 3 16 isUnsigned isBinary out (.bit _) hn
      rw [Nat.mod_eq_of_lt h22] at this
      exact this
  | year y =>
    obtain ⟨rfl, rfl⟩ := hc
    have hy : 1901 ≤ y ∧ y ≤ 2155 := by
      rcases hf with h | h
      · exact absurd h hr
      · exact h
    refine ⟨.uint y, nofun, ?_, rfl, ?_⟩
    · show dec y = decEnc 4 y
      have := dec2_ge (w := 2) (n := y) (by omega) (by omega)
      rw [← this, dec2, if_neg (by omega)]
    · intro rest out _
      have hr : matchReadFrom1 (beEnc 1 (y - 1900) ++ rest) = some (y - 1900) := rd1 rest (by omega)
      have e : y - 1900 + 1900 = y := by omega
      simp only [TVal.enc, TVal.isHex, if_neg (show ¬ y = 0 by omega)]
      simp [parseData, DATA_INT, DATA_VARCHAR, DATA_CHAR, DATA_FIXBINARY, DATA_BINARY, MYSQL_TYPE_DATE, MYSQL_TYPE_YEAR, hr, e]
  | date y m d =>
    obtain ⟨rfl, rfl⟩ := hc
    obtain ⟨hy1, hy2, hm1, hm2, hd1, hd2⟩ := hf
    have := daysIn_le y m
    refine ⟨.str (yearText y ++ b! "-" ++ decEnc 2 m ++ b! "-" ++ decEnc 2 d), nofun, ?_, ?_, ?_⟩
    · exact (C08_date_text y m d hy1 hy2 (by omega) (by omega)).1
    · exact congrArg Val.str (C08_date_text y m d hy1 hy2 (by omega) (by omega)).1
    · intro rest out _
      exact C08_date env y m d (by omega) (by omega) (by omega) rest _ _ _ _ out
  | time neg h m s =>
    obtain ⟨rfl, rfl⟩ := hc
    obtain ⟨h1, h2, h3, h4⟩ := hf
    exact ⟨.str ((if neg then b! "-" else []) ++ yearText h ++ b! ":" ++ decEnc 2 m ++ b! ":" ++ decEnc 2 s), nofun, rfl, rfl,
      fun rest out _ => C10_time env neg h m s (by omega) (by omega) (by omega) h4 rest _ _ _ _ out⟩
  | datetimeOld c =>
    obtain ⟨rfl, rfl⟩ := hc
    exact ⟨.str c.text, nofun, rfl, rfl, fun rest out _ => C09_through_decoder env _ _ (C09_datetime_partial c rest hf.1 hf.2).1 _ _ _ _ out⟩
  | datetime c =>
    obtain ⟨rfl, rfl⟩ := hc
    exact ⟨.str c.text, nofun, rfl, rfl, fun rest out h =>
      C09_through_decoder env _ _ ((C09_datetime_partial c rest hf.1 hf.2).2 h hr.1 hr.2) _ _ _ _ out⟩
  | timestamp t c =>
    obtain ⟨rfl, rfl⟩ := hc
    obtain ⟨-, h1, h2, h3, h4, h5⟩ := hf
    refine ⟨.str c.text, nofun, rfl, rfl, ?_⟩
    intro rest out _
    obtain ⟨c', hv, he, hp⟩ := C11_timestamp_12_hour_partial env.zone t rest h1 h2 h3
    have : c' = c := epoch_inj hv h4 (he.trans h5.symm)
    subst this
    rw [clock12_self hr] at hp
    simp [parseData, DATA_INT, DATA_VARCHAR, DATA_CHAR, DATA_FIXBINARY, DATA_BINARY, MYSQL_TYPE_TIME, MYSQL_TYPE_TIMESTAMP, TVal.enc, TVal.isHex, hp]
  | float b =>
    obtain rfl := hc
    exact ⟨.f32 b, nofun, rfl, rfl, fun rest out _ => (C16_float_bits env b rest mtype _ _ isUnsigned isBinary out).1 hf⟩
  | double b =>
    obtain rfl := hc
    exact ⟨.f64 b, nofun, rfl, rfl, fun rest out _ => (C16_float_bits env b rest mtype _ _ isUnsigned isBinary out).2 hf⟩
  | varcharLatin1 s =>
    obtain rfl := hc
    exact ⟨.str s, nofun, rfl, rfl, fun rest out _ => str_parse env 1 mtype s rest _ _ _ out (Or.inl rfl)⟩
  | charLatin1 s =>
    obtain rfl := hc
    exact ⟨.str s, nofun, rfl, rfl, fun rest out _ => str_parse env 2 mtype s rest _ _ _ out (Or.inr (Or.inl rfl))⟩
  | varchar s =>
    obtain rfl := hc
    exact ⟨.str s, nofun, rfl, rfl, fun rest out _ => str_parse env 12 mtype s rest _ _ _ out (Or.inr (Or.inr (Or.inl rfl)))⟩
  | text s =>
    obtain ⟨rfl, rfl⟩ := hc
    exact ⟨.str s, nofun, rfl, rfl, fun rest out _ => str_parse env 5 mtype s rest _ _ _ out (Or.inr (Or.inr (Or.inr ⟨rfl, rfl⟩)))⟩
  | char s k =>
    obtain rfl := hc
    refine ⟨.str s, nofun, rfl, rfl, fun rest out _ => ?_⟩
    have := (C14_char_partial env mtype s rest k (getFixedLength 13 len) isUnsigned isBinary out).mpr hr
    rw [← List.length_replicate (n := k) (a := (32 : UInt8)), ← List.length_append] at this
    rw [List.length_replicate] at this
    exact this
  | binary s =>
    obtain ⟨rfl, rfl⟩ := hc
    refine ⟨.str (parseBlob s), nofun, rfl, rfl, fun rest out _ => ?_⟩
    have hs : sliceTo (s ++ rest) s.length = some s := by
      rw [sliceTo, if_pos (by simp), List.take_left' rfl]
    simp [TVal.enc, TVal.isHex, parseData, DATA_VARCHAR, DATA_CHAR, DATA_FIXBINARY, MYSQL_TYPE_STRING, MYSQL_TYPE_TIME, MYSQL_TYPE_TIMESTAMP,
      MYSQL_TYPE_DATETIME, MYSQL_TYPE_BIT, MYSQL_TYPE_NEWDECIMAL, hs]
  | varbinary s =>
    obtain ⟨rfl, rfl⟩ := hc
    refine ⟨.str (parseBlob s), nofun, rfl, rfl, fun rest out _ => ?_⟩
    have hs : sliceTo (s ++ rest) s.length = some s := by
      rw [sliceTo, if_pos (by simp), List.take_left' rfl]
    simp [TVal.enc, TVal.isHex, parseData, DATA_VARCHAR, DATA_CHAR, DATA_FIXBINARY, DATA_BINARY, MYSQL_TYPE_VARCHAR, hs]
  | blob s =>
    obtain ⟨rfl, rfl⟩ := hc
    refine ⟨.str (parseBlob s), nofun, rfl, rfl, fun rest out _ => ?_⟩
    have hs : sliceTo (s ++ rest) s.length = some s := by
      rw [sliceTo, if_pos (by simp), List.take_left' rfl]
    simp [TVal.enc, TVal.isHex, parseData, DATA_VARCHAR, DATA_CHAR, DATA_FIXBINARY, DATA_BINARY, DATA_BLOB, DATA_INT, DATA_FLOAT, DATA_DOUBLE,
      DATA_DECIMAL, DATA_VARMYSQL, DATA_MYSQL, hs]

theorem decode_typed (env : Env) (c : Column) (v : TVal) (hc : v.Of c) (hf : v.Fits env.zone) (hr : TVal.Decodable v) :
    ∃ x, x ≠ .nil ∧ fmtV env.ff x = TVal.shown env.ff v ∧ ∀ rest out, TVal.lookahead v ≤ rest.length →
      parseData env c.ftype c.mtype (v.enc ++ rest) v.enc.length (getFixedLength c.ftype c.len) c.isUnsigned c.isBinary out =
        .ok (x, if TVal.isHex v then true else c.isBinary) out :=
  let ⟨x, h1, h2, _, h4⟩ := decode_value env c v hc hf hr
  ⟨x, h1, h2, h4⟩

end Verif
