import Verif.Props.Replace
import Verif.Props.Exact
import Verif.Spec.Decimal
/-!
# C96: DECIMAL columns
-/

namespace Verif.Props
open Verif Spec

/-! ## The statement -/

/-- a column DECIMAL(p, s) as the dictionary describes it, with a decoded value -/
def decimalColumn (name : Bytes) (v : Val) : Column := { name := name, ftype := 3, mtype := 246, value := v }

/-- The stored number `n / 10 ^ s` is decoded and printed, and what is printed is read as an expression `v`. -/
def DecimalPrinted (env : Env) (db table name : Bytes) (p s : Nat) (n : Int) (v : SqlVal) : Prop :=
  ∀ (rest : Bytes) (fixLength : Nat) (isUnsigned : Bool) (out : Out), ∃ x out',
    parseData env 3 246 (decimalEnc p s n ++ rest) (decimalEnc p s n).length fixLength isUnsigned false out = .ok (x, false) out' ∧
    readReplace (replaceStmt env.ff db table [decimalColumn name x]) = some ⟨db, table, [v]⟩

/-- a server takes the value for this number -/
def TakenFor (v : SqlVal) (s : Nat) (n : Int) : Prop := ∃ b m e, v = .bytes b ∧ readNumber b = some (m, e) ∧ SameNumber n s m e

/-- **C96**, as stated: the value of a DECIMAL column is printed so that the server takes it for the stored number. -/
def C96_statement : Prop :=
  ∀ (env : Env) (db table name : Bytes) (p s : Nat) (n : Int), 96 ∉ db → 96 ∉ table → name ∉ internalNames → 1 ≤ p → s ≤ p →
    n.natAbs < 10 ^ p → ∃ v, DecimalPrinted env db table name p s n v ∧ TakenFor v s n

/-! ## The groups -/

/-- a group of digits fits in its bytes with room to spare -/
def GroupOk (g : Nat × Nat) : Prop :=
  g.1 = 1 ∧ g.2 < 10 ^ 2 ∨ g.1 = 2 ∧ g.2 < 10 ^ 4 ∨ g.1 = 3 ∧ g.2 < 10 ^ 6 ∨ g.1 = 4 ∧ g.2 < 10 ^ 9

theorem whole_ok (k v : Nat) (h : v < 10 ^ (9 * k)) : ∀ g ∈ wholeGroups k v, GroupOk g := by
  induction k generalizing v with
  | zero => intro g hg; cases hg
  | succ k ih =>
    intro g hg
    rw [wholeGroups] at hg
    rcases List.mem_cons.mp hg with rfl | hg
    · right; right; right
      refine ⟨rfl, ?_⟩
      show v / 10 ^ (9 * k) < 10 ^ 9
      rw [Nat.div_lt_iff_lt_mul (Nat.pow_pos (by decide)), ← Nat.pow_add]
      rwa [show 9 + 9 * k = 9 * (k + 1) by omega]
    · exact ih _ (Nat.mod_lt _ (Nat.pow_pos (by decide))) g hg

theorem part_ok (d v : Nat) (hd : d < 9) (h : v < 10 ^ d) : ∀ g ∈ partGroup d v, GroupOk g := by
  intro g hg
  unfold partGroup at hg
  split at hg
  · cases hg
  · cases List.mem_singleton.mp hg
    unfold GroupOk
    dsimp only
    have h1 : ∀ k, d ≤ k → v < 10 ^ k := fun k hk => Nat.lt_of_lt_of_le h (Nat.pow_le_pow_right (by decide) hk)
    have : d = 1 ∨ d = 2 ∨ d = 3 ∨ d = 4 ∨ d = 5 ∨ d = 6 ∨ d = 7 ∨ d = 8 := by omega
    rcases this with e | e | e | e | e | e | e | e
    · exact .inl ⟨by omega, h1 2 (by omega)⟩
    · exact .inl ⟨by omega, h1 2 (by omega)⟩
    · exact .inr (.inl ⟨by omega, h1 4 (by omega)⟩)
    · exact .inr (.inl ⟨by omega, h1 4 (by omega)⟩)
    · exact .inr (.inr (.inl ⟨by omega, h1 6 (by omega)⟩))
    · exact .inr (.inr (.inl ⟨by omega, h1 6 (by omega)⟩))
    · exact .inr (.inr (.inr ⟨by omega, h1 9 (by omega)⟩))
    · exact .inr (.inr (.inr ⟨by omega, h1 9 (by omega)⟩))

theorem groups_ok {p s a : Nat} (hs : s ≤ p) (ha : a < 10 ^ p) : ∀ g ∈ decimalGroups p s a, GroupOk g := by
  have hpos (k : Nat) : 0 < 10 ^ k := Nat.pow_pos (by decide)
  have hi : a / 10 ^ s < 10 ^ (p - s) := by
    rw [Nat.div_lt_iff_lt_mul (hpos s), ← Nat.pow_add]
    rwa [show p - s + s = p by omega]
  intro g hg
  unfold decimalGroups at hg
  simp only [List.mem_append] at hg
  rcases hg with ((hg | hg) | hg) | hg
  · refine part_ok _ _ (Nat.mod_lt _ (by decide)) ?_ g hg
    rw [Nat.div_lt_iff_lt_mul (hpos _), ← Nat.pow_add]
    rwa [show (p - s) % 9 + 9 * ((p - s) / 9) = p - s from Nat.mod_add_div _ _]
  · exact whole_ok _ _ (Nat.mod_lt _ (hpos _)) g hg
  · refine whole_ok _ _ ?_ g hg
    rw [Nat.div_lt_iff_lt_mul (hpos _), ← Nat.pow_add]
    rw [show 9 * (s / 9) + s % 9 = s from Nat.div_add_mod _ _]
    exact Nat.mod_lt _ (hpos s)
  · exact part_ok _ _ (Nat.mod_lt _ (by decide)) (Nat.mod_lt _ (hpos _)) g hg

theorem whole_ne {k v : Nat} (h : k ≠ 0) : wholeGroups k v ≠ [] := by
  cases k with
  | zero => exact absurd rfl h
  | succ k => simp [wholeGroups]

theorem part_ne {d v : Nat} (h : d ≠ 0) : partGroup d v ≠ [] := by
  unfold partGroup
  rw [if_neg h]
  simp

theorem groups_ne {p s : Nat} (a : Nat) (hp : 1 ≤ p) : decimalGroups p s a ≠ [] := by
  unfold decimalGroups
  intro h
  simp only [List.append_eq_nil_iff] at h
  obtain ⟨⟨⟨h1, h2⟩, h3⟩, h4⟩ := h
  have e1 : (p - s) % 9 = 0 := Decidable.byContradiction fun hh => part_ne hh h1
  have e2 : (p - s) / 9 = 0 := Decidable.byContradiction fun hh => whole_ne hh h2
  have e3 : s / 9 = 0 := Decidable.byContradiction fun hh => whole_ne hh h3
  have e4 : s % 9 = 0 := Decidable.byContradiction fun hh => part_ne hh h4
  omega

/-- the first byte of a group -/
theorem group_first {g : Nat × Nat} (h : GroupOk g) : ∃ x t, beEnc g.1 g.2 = x :: t ∧ t.length + 1 = g.1 ∧ x.toNat ≤ 99 ∧ (g.1 ≠ 1 → x.toNat ≤ 59) ∧
    (g.1 = 1 → x.toNat = g.2) := by
  obtain ⟨w, v⟩ := g
  have hv (n : Nat) : (UInt8.ofNat (n % 256)).toNat = n % 256 := by
    rw [UInt8.toNat_ofNat']
    omega
  unfold GroupOk at h
  dsimp only at h ⊢
  rcases h with ⟨rfl, h⟩ | ⟨rfl, h⟩ | ⟨rfl, h⟩ | ⟨rfl, h⟩
  · refine ⟨_, _, rfl, by simp, ?_, ?_, ?_⟩ <;> rw [hv] <;> simp only [Nat.reducePow] at * <;> omega
  · refine ⟨_, _, rfl, by simp, ?_, ?_, ?_⟩ <;> rw [hv] <;> simp only [Nat.reducePow] at * <;> omega
  · refine ⟨_, _, rfl, by simp, ?_, ?_, ?_⟩ <;> rw [hv] <;> simp only [Nat.reducePow] at * <;> omega
  · refine ⟨_, _, rfl, by simp, ?_, ?_, ?_⟩ <;> rw [hv] <;> simp only [Nat.reducePow] at * <;> omega

/-! ## Reading -/

/-- nothing follows, or a byte that is not ASCII -/
def Odd (t : Bytes) : Prop := ∀ y, t.head? = some y → 128 ≤ y.toNat

theorem odd_digits {t : Bytes} (h : Odd t) : t.takeWhile numDigit = [] ∧ t.dropWhile numDigit = t := by
  cases t with
  | nil => exact ⟨rfl, rfl⟩
  | cons y t =>
    have := h y rfl
    have e : numDigit y = false := by unfold numDigit; simp; omega
    rw [List.takeWhile_cons, List.dropWhile_cons, e]
    exact ⟨rfl, rfl⟩

theorem odd_head {t : Bytes} (h : Odd t) (x : UInt8) (hx : x.toNat < 128) (u : Bytes) : t ≠ x :: u := by
  rintro rfl
  have := h x rfl
  omega

theorem odd_exponent {t : Bytes} (h : Odd t) : readExponent t = 0 := by
  cases t with
  | nil => rfl
  | cons y t =>
    have := h y rfl
    have hn : ¬(y = 101 ∨ y = 69) := by rintro (rfl | rfl) <;> revert this <;> decide
    simp only [readExponent, if_neg hn]

theorem odd_unsigned {t : Bytes} (h : Odd t) : readUnsigned t = none := by
  unfold readUnsigned
  obtain ⟨h1, h2⟩ := odd_digits h
  rw [h1, h2]
  dsimp only
  split
  · exact absurd rfl (odd_head h 46 (by decide) _)
  · rfl

theorem odd_number {t : Bytes} (h : Odd t) : readNumber t = none := by
  unfold readNumber
  have e : t.dropWhile numSpace = t := by
    cases t with
    | nil => rfl
    | cons y t =>
      have := h y rfl
      have e : numSpace y = false := by unfold numSpace; simp; omega
      rw [List.dropWhile_cons, e]
      rfl
  rw [e]
  split
  · exact absurd rfl (odd_head h 45 (by decide) _)
  · exact absurd rfl (odd_head h 43 (by decide) _)
  · rw [odd_unsigned h]
    rfl

/-- one byte in front of that: a number is read if it is a digit -/
theorem first_number {x : UInt8} {t : Bytes} (h : Odd t) :
    readNumber (x :: t) = if numDigit x then some (((x.toNat - 48 : Nat) : Int), 0) else none := by
  by_cases hd : numDigit x = true
  · rw [if_pos hd]
    have hr : 48 ≤ x.toNat ∧ x.toNat ≤ 57 := by unfold numDigit at hd; simpa using hd
    have hs : numSpace x = false := by unfold numSpace; simp; omega
    unfold readNumber
    rw [List.dropWhile_cons, hs]
    simp only [Bool.false_eq_true, if_false]
    split
    · rename_i e; rw [List.cons.injEq] at e; rw [e.1] at hr; exact absurd hr (by decide)
    · rename_i e; rw [List.cons.injEq] at e; rw [e.1] at hr; exact absurd hr (by decide)
    · unfold readUnsigned
      obtain ⟨h1, h2⟩ := odd_digits h
      rw [List.takeWhile_cons, List.dropWhile_cons, hd]
      simp only [if_true, h1, h2]
      split
      · exact absurd rfl (odd_head h 46 (by decide) _)
      · rw [if_neg (by simp), odd_exponent h]
        simp [natOf]
  · rw [if_neg hd]
    have hd : numDigit x = false := by simpa using hd
    by_cases hs : numSpace x = true
    · have : readNumber (x :: t) = readNumber t := by
        unfold readNumber
        rw [List.dropWhile_cons, if_pos hs]
      rw [this]
      exact odd_number h
    · unfold readNumber
      rw [List.dropWhile_cons, if_neg hs]
      split
      · rename_i e; rw [List.cons.injEq] at e; rw [← e.2, odd_unsigned h]; rfl
      · rename_i e; rw [List.cons.injEq] at e; rw [← e.2, odd_unsigned h]; rfl
      · have : readUnsigned (x :: t) = none := by
          unfold readUnsigned
          rw [List.takeWhile_cons, List.dropWhile_cons, hd]
          simp only [Bool.false_eq_true, if_false]
          split
          · rename_i e
            rw [List.cons.injEq] at e
            rw [← e.2, (odd_digits h).1]
            rfl
          · rfl
        rw [this]
        rfl

theorem other_number {x : UInt8} {t : Bytes} (h : ¬(numDigit x = true ∨ numSpace x = true ∨ x = 43 ∨ x = 45 ∨ x = 46)) : readNumber (x :: t) = none := by
  obtain ⟨hd, h⟩ := not_or.mp h
  obtain ⟨hs, h⟩ := not_or.mp h
  obtain ⟨h43, h⟩ := not_or.mp h
  obtain ⟨h45, h46⟩ := not_or.mp h
  unfold readNumber
  rw [List.dropWhile_cons, if_neg hs]
  split
  · rename_i e; exact absurd (List.cons.inj e).1 h45
  · rename_i e; exact absurd (List.cons.inj e).1 h43
  · have : readUnsigned (x :: t) = none := by
      unfold readUnsigned
      rw [List.takeWhile_cons, List.dropWhile_cons, if_neg hd, if_neg hd]
      dsimp only
      split
      · rename_i e; exact absurd (List.cons.inj e).1 h46
      · rfl
    rw [this]
    rfl

/-! ## The bytes -/

theorem toNat_flip (x : UInt8) : (255 - x).toNat = 255 - x.toNat := by
  have := x.toNat_lt
  rw [UInt8.toNat_sub_of_le]
  · rfl
  · rw [UInt8.le_iff_toNat_le]; show x.toNat ≤ 255; omega

theorem toNat_high (x : UInt8) : (x + 128).toNat = (x.toNat + 128) % 256 := by
  rw [UInt8.toNat_add]
  rfl

/-- what stands in front of a stored number -/
theorem enc_cases {p s : Nat} {n : Int} (hp : 1 ≤ p) (hs : s ≤ p) (hn : n.natAbs < 10 ^ p) :
    ∃ x t, decimalEnc p s n = x :: t ∧
      (0 ≤ n → 128 ≤ x.toNat) ∧
      (n < 0 → 28 ≤ x.toNat ∧ x.toNat < 128 ∧ (x.toNat < 68 → Odd t)) := by
  have hg := groups_ok hs hn
  have hne := groups_ne (p := p) (s := s) n.natAbs hp
  cases hgs : decimalGroups p s n.natAbs with
  | nil => exact absurd hgs hne
  | cons g gs =>
    rw [hgs] at hg
    obtain ⟨x, t, ht, hl, h99, h59, h1⟩ := group_first (hg g List.mem_cons_self)
    unfold decimalEnc
    rw [hgs]
    simp only [List.flatMap_cons, ht, List.cons_append]
    by_cases h0 : n < 0
    · rw [if_pos h0]
      simp only [List.map_cons]
      refine ⟨_, _, rfl, fun h => absurd h0 (by omega), fun _ => ?_⟩
      rw [toNat_high, toNat_flip]
      refine ⟨by omega, by omega, fun h => ?_⟩
      have hw : g.1 = 1 := Decidable.byContradiction fun hw => by have := h59 hw; omega
      have : t = [] := List.eq_nil_of_length_eq_zero (by omega)
      subst this
      rw [List.nil_append]
      cases gs with
      | nil => intro y hy; cases hy
      | cons g' gs =>
        obtain ⟨x', t', ht', _, h99', _⟩ := group_first (hg g' (by simp))
        rw [List.flatMap_cons, ht']
        intro y hy
        rw [List.cons_append, List.map_cons, List.head?_cons] at hy
        injection hy with hy
        rw [← hy, toNat_flip]
        omega
    · rw [if_neg h0]
      refine ⟨_, _, rfl, fun _ => ?_, fun h => absurd h h0⟩
      rw [toNat_high]
      omega

/-- the text that is printed for a stored number is taken for no number, or for one that is not negative while the stored one is -/
theorem enc_number {p s : Nat} {n : Int} (hp : 1 ≤ p) (hs : s ≤ p) (hn : n.natAbs < 10 ^ p) :
    readNumber (decimalEnc p s n) = none ∨ n < 0 ∧ ∃ m : Nat, readNumber (decimalEnc p s n) = some ((m : Int), 0) := by
  obtain ⟨x, t, e, h1, h2⟩ := enc_cases hp hs hn
  rw [e]
  by_cases h0 : n < 0
  · obtain ⟨h3, h4, h5⟩ := h2 h0
    by_cases h6 : x.toNat < 68
    · rw [first_number (h5 h6)]
      split
      · exact .inr ⟨h0, _, rfl⟩
      · exact .inl rfl
    · refine .inl (other_number ?_)
      unfold numDigit numSpace
      simp only [Bool.and_eq_true, Bool.or_eq_true, decide_eq_true_eq]
      rintro (h | h | rfl | rfl | rfl)
      · omega
      · omega
      · exact h6 (by decide)
      · exact h6 (by decide)
      · exact h6 (by decide)
  · refine .inl (odd_number ?_)
    intro y hy
    rw [List.head?_cons] at hy
    injection hy with hy
    rw [← hy]
    exact h1 (by omega)

theorem enc_no_time {p s : Nat} {n : Int} (hp : 1 ≤ p) (hs : s ≤ p) (hn : n.natAbs < 10 ^ p) : decimalEnc p s n ≠ b! "0001-01-01T00:00:00Z" := by
  obtain ⟨x, t, e, h1, h2⟩ := enc_cases hp hs hn
  rw [e]
  intro h
  obtain ⟨rfl, rfl⟩ := List.cons.inj h
  by_cases h0 : n < 0
  · have := (h2 h0).2.2 (by decide) 48 rfl
    revert this
    decide
  · exact absurd (h1 (by omega)) (by decide)

/-! ## What is printed -/

theorem parse_decimal (env : Env) (data rest : Bytes) (fixLength : Nat) (isUnsigned : Bool) (out : Out) :
    parseData env 3 246 (data ++ rest) data.length fixLength isUnsigned false out = .ok (.str data, false) (out ++ [b! "test MYSQL_TYPE_NEWDECIMAL"]) := by
  have h : sliceTo (data ++ rest) data.length = some data := by
    unfold sliceTo
    simp
  unfold parseData
  simp [DATA_VARCHAR, DATA_CHAR, DATA_FIXBINARY, MYSQL_TYPE_TIME, MYSQL_TYPE_TIMESTAMP, MYSQL_TYPE_DATETIME, MYSQL_TYPE_BIT,
    MYSQL_TYPE_NEWDECIMAL, h]
  rfl

/-- the SQL value that is printed: the stored bytes, unless these are the letters NULL -/
def decimalSql (p s : Nat) (n : Int) : SqlVal := if decimalEnc p s n = b! "NULL" then .null else .bytes (decimalEnc p s n)

theorem decimal_stmt (ff : FloatFmt) {db table name : Bytes} {p s : Nat} {n : Int} (hdb : 96 ∉ db) (ht : 96 ∉ table) (hname : name ∉ internalNames)
    (hp : 1 ≤ p) (hs : s ≤ p) (hn : n.natAbs < 10 ^ p) :
    readReplace (replaceStmt ff db table [decimalColumn name (.str (decimalEnc p s n))]) = some ⟨db, table, [decimalSql p s n]⟩ := by
  unfold decimalSql
  by_cases h : decimalEnc p s n = b! "NULL"
  · rw [if_pos h]
    obtain ⟨vs, h1, h2⟩ := C35_replace_partial ff db table [decimalColumn name (.str (decimalEnc p s n))] [.null] hdb ht
      (.cons (fun _ => ⟨by rw [h]; rfl, (by decide : (246 : Nat) ≠ MYSQL_TYPE_BIT)⟩) .nil)
    rw [h1]
    unfold userValues at h2
    rw [if_neg (show (decimalColumn name (.str (decimalEnc p s n))).name ∉ internalNames from hname)] at h2
    cases h2 with
    | @cons v _ vs _ h3 h4 =>
      cases h4
      cases v with
      | null => rfl
      | bytes _ => exact h3.elim
      | bits _ => exact h3.elim
  · rw [if_neg h]
    obtain ⟨vs, h1, h2⟩ := C35_replace_partial ff db table [decimalColumn name (.str (decimalEnc p s n))] [.text (decimalEnc p s n)] hdb ht
      (.cons (fun _ => ⟨⟨rfl, rfl, (by decide : (246 : Nat) ≠ MYSQL_TYPE_BIT)⟩, h, enc_no_time hp hs hn⟩) .nil)
    rw [h1]
    unfold userValues at h2
    rw [if_neg (show (decimalColumn name (.str (decimalEnc p s n))).name ∉ internalNames from hname)] at h2
    cases h2 with
    | @cons v _ vs _ h3 h4 =>
      cases h4
      cases v with
      | null => exact h3.elim
      | bytes x => cases h3; rfl
      | bits _ => exact h3.elim

/-- **C96, exactly what is printed.** -/
theorem C96_exact (env : Env) {db table name : Bytes} {p s : Nat} {n : Int} (hdb : 96 ∉ db) (ht : 96 ∉ table) (hname : name ∉ internalNames)
    (hp : 1 ≤ p) (hs : s ≤ p) (hn : n.natAbs < 10 ^ p) (v : SqlVal) :
    DecimalPrinted env db table name p s n v ↔ v = decimalSql p s n := by
  constructor
  · intro h
    obtain ⟨x, out', h1, h2⟩ := h [] 0 false []
    rw [parse_decimal] at h1
    injection h1 with h1
    injection h1 with h1
    subst h1
    rw [decimal_stmt env.ff hdb ht hname hp hs hn] at h2
    injection h2 with h2
    injection h2 with _ _ h2
    injection h2 with h2
    exact h2.symm
  · rintro rfl rest fixLength isUnsigned out
    exact ⟨_, _, parse_decimal env _ rest fixLength isUnsigned out, decimal_stmt env.ff hdb ht hname hp hs hn⟩

/-! ## The number is never restored -/

/-- **C96 fails for every number:** no value of any DECIMAL column is printed so that a server takes it for the stored number. -/
theorem C96_never (env : Env) {db table name : Bytes} {p s : Nat} {n : Int} (hdb : 96 ∉ db) (ht : 96 ∉ table) (hname : name ∉ internalNames)
    (hp : 1 ≤ p) (hs : s ≤ p) (hn : n.natAbs < 10 ^ p) (v : SqlVal) (h : DecimalPrinted env db table name p s n v) : ¬ TakenFor v s n := by
  rw [C96_exact env hdb ht hname hp hs hn] at h
  subst h
  rintro ⟨b, m, e, h1, h2, h3⟩
  unfold decimalSql at h1
  split at h1
  · cases h1
  · injection h1 with h1
    subst h1
    rcases enc_number hp hs hn with h4 | ⟨h0, k, h4⟩
    · rw [h4] at h2
      cases h2
    · rw [h4] at h2
      injection h2 with h2
      injection h2 with h2 h5
      subst h2 h5
      unfold SameNumber at h3
      have h6 : (0 : Int) ≤ (k : Int) * 10 ^ ((0 : Int) + s).toNat := Int.mul_nonneg (by omega) (Int.pow_nonneg (by decide))
      have h7 : n * 10 ^ (-((0 : Int) + s)).toNat < 0 := by
        rw [show (-((0 : Int) + s)).toNat = 0 by omega, Int.pow_zero, Int.mul_one]
        exact h0
      omega

theorem C96_false : ¬ C96_statement := by
  intro h
  obtain ⟨v, h1, h2⟩ := h ⟨fun _ => 0, anyFmt⟩ (b! "d") (b! "t") (b! "c") 14 4 12345678901234 (by decide) (by decide) (by decide) (by decide) (by decide)
    (by decide)
  exact C96_never _ (by decide) (by decide) (by decide) (by decide) (by decide) (by decide) v h1 h2

/-- −79 in a column DECIMAL(2, 0): the byte 48, which is printed as '0', a number, but not this one -/
example (env : Env) : DecimalPrinted env (b! "d") (b! "t") (b! "c") 2 0 (-79) (.bytes (b! "0")) ∧ readNumber (b! "0") = some (0, 0) ∧
    ¬ SameNumber (-79) 0 0 0 :=
  ⟨(C96_exact env (by decide) (by decide) (by decide) (by decide) (by decide) (by decide) _).mpr (by decide), by decide, by unfold SameNumber; decide⟩

/-! ## Which numbers are printed as NULL -/

theorem group_value {g : Nat × Nat} (h : GroupOk g) : beVal (beEnc g.1 g.2) = g.2 := by
  refine beVal_beEnc ?_
  obtain ⟨w, v⟩ := g
  unfold GroupOk at h
  dsimp only at h ⊢
  rcases h with ⟨rfl, h⟩ | ⟨rfl, h⟩ | ⟨rfl, h⟩ | ⟨rfl, h⟩ <;> exact Nat.lt_of_lt_of_le h (by decide)

theorem null_groups {gs : List (Nat × Nat)} (hg : ∀ g ∈ gs, GroupOk g) (h : (gs.flatMap fun g => beEnc g.1 g.2) = [49, 170, 179, 179]) :
    gs = [(4, 833270707)] := by
  cases gs with
  | nil => cases h
  | cons g gs =>
    have h1 := hg g List.mem_cons_self
    have hv := group_value h1
    rw [List.flatMap_cons] at h
    have htake : beEnc g.1 g.2 = ([49, 170, 179, 179] : Bytes).take g.1 := by
      rw [← h, List.take_left' (beEnc_length _ _)]
    have hdrop : (gs.flatMap fun g => beEnc g.1 g.2) = ([49, 170, 179, 179] : Bytes).drop g.1 := by
      rw [← h, List.drop_left' (beEnc_length _ _)]
    rw [htake] at hv
    obtain ⟨w, v⟩ := g
    dsimp only at *
    unfold GroupOk at h1
    rcases h1 with ⟨rfl, h2⟩ | ⟨rfl, h2⟩ | ⟨rfl, h2⟩ | ⟨rfl, h2⟩
    · cases gs with
      | nil => cases hdrop
      | cons g' gs =>
        obtain ⟨x, t, ht, _, h99, _⟩ := group_first (hg g' (by simp))
        rw [List.flatMap_cons, ht] at hdrop
        obtain ⟨rfl, _⟩ := List.cons.inj hdrop
        exact absurd h99 (by decide)
    · dsimp only at h2; rw [← hv] at h2; exact absurd h2 (by decide)
    · dsimp only at h2; rw [← hv] at h2; exact absurd h2 (by decide)
    · have : v = 833270707 := by rw [← hv]; decide
      subst this
      cases gs with
      | nil => rfl
      | cons g' gs =>
        obtain ⟨x, t, ht, _⟩ := group_first (hg g' (by simp))
        rw [List.flatMap_cons, ht] at hdrop
        cases hdrop

theorem whole_length (k v : Nat) : (wholeGroups k v).length = k := by
  induction k generalizing v with
  | zero => rfl
  | succ k ih => rw [wholeGroups, List.length_cons, ih]

theorem part_length (d v : Nat) : (partGroup d v).length = if d = 0 then 0 else 1 := by
  unfold partGroup
  split <;> rfl

/-- a single group with all nine digits -/
theorem single_group {p s a : Nat} (hs : s ≤ p) (ha : a < 10 ^ p) (h : decimalGroups p s a = [(4, 833270707)]) :
    p = 9 ∧ (s = 0 ∨ s = 9) ∧ a = 833270707 := by
  have hpos (k : Nat) : 0 < 10 ^ k := Nat.pow_pos (by decide)
  have hlen := congrArg List.length h
  have hsmall (d v : Nat) (hd : d < 9) (hv : v < 10 ^ d) : (4, 833270707) ∉ partGroup d v := by
    intro hm
    unfold partGroup at hm
    split at hm
    · cases hm
    · have := List.mem_singleton.mp hm
      injection this with _ e
      have : 10 ^ d ≤ 10 ^ 8 := Nat.pow_le_pow_right (by decide) (by omega)
      rw [← e] at hv
      exact absurd (Nat.lt_of_lt_of_le hv this) (by decide)
  have hi : a / 10 ^ s < 10 ^ (p - s) := by
    rw [Nat.div_lt_iff_lt_mul (hpos s), ← Nat.pow_add]
    rwa [show p - s + s = p by omega]
  have hq1 : a / 10 ^ s / 10 ^ (9 * ((p - s) / 9)) < 10 ^ ((p - s) % 9) := by
    rw [Nat.div_lt_iff_lt_mul (hpos _), ← Nat.pow_add]
    rwa [show (p - s) % 9 + 9 * ((p - s) / 9) = p - s from Nat.mod_add_div _ _]
  have n1 := hsmall _ _ (Nat.mod_lt (p - s) (by decide)) hq1
  have n2 := hsmall _ _ (Nat.mod_lt s (by decide)) (Nat.mod_lt (a % 10 ^ s) (hpos (s % 9)))
  unfold decimalGroups at h hlen
  simp only [List.length_append, part_length, whole_length, List.length_cons, List.length_nil] at hlen
  have e1 : (p - s) % 9 = 0 := by
    refine Decidable.byContradiction fun hh => ?_
    obtain ⟨g, hg⟩ := List.exists_mem_of_ne_nil _ (part_ne (v := a / 10 ^ s / 10 ^ (9 * ((p - s) / 9))) hh)
    have : g ∈ ([(4, 833270707)] : List (Nat × Nat)) := by rw [← h]; simp [hg]
    rw [List.mem_singleton.mp this] at hg
    exact n1 hg
  have e2 : s % 9 = 0 := by
    refine Decidable.byContradiction fun hh => ?_
    obtain ⟨g, hg⟩ := List.exists_mem_of_ne_nil _ (part_ne (v := a % 10 ^ s % 10 ^ (s % 9)) hh)
    have : g ∈ ([(4, 833270707)] : List (Nat × Nat)) := by rw [← h]; simp [hg]
    rw [List.mem_singleton.mp this] at hg
    exact n2 hg
  rw [if_pos e1, if_pos e2] at hlen
  have : (p - s) / 9 = 1 ∧ s / 9 = 0 ∨ (p - s) / 9 = 0 ∧ s / 9 = 1 := by omega
  rcases this with ⟨h1, h2⟩ | ⟨h1, h2⟩
  · have hs0 : s = 0 := by omega
    have hp9 : p = 9 := by omega
    subst hs0 hp9
    refine ⟨rfl, .inl rfl, ?_⟩
    simp [partGroup, wholeGroups, Nat.mod_eq_of_lt ha] at h
    exact h
  · have hs0 : s = 9 := by omega
    have hp9 : p = 9 := by omega
    subst hs0 hp9
    refine ⟨rfl, .inr rfl, ?_⟩
    simp [partGroup, wholeGroups, Nat.mod_eq_of_lt ha] at h
    exact h

/-- **C96, NULL.** The one number that is printed as NULL: −833270707 in a column DECIMAL(9, 0), or the same digits behind the point in
a column DECIMAL(9, 9). -/
theorem C96_null_iff {p s : Nat} {n : Int} (hp : 1 ≤ p) (hs : s ≤ p) (hn : n.natAbs < 10 ^ p) :
    decimalSql p s n = .null ↔ n = -833270707 ∧ p = 9 ∧ (s = 0 ∨ s = 9) := by
  have e : decimalSql p s n = .null ↔ decimalEnc p s n = b! "NULL" := by
    unfold decimalSql
    split <;> simp_all
  rw [e]
  constructor
  · intro h
    have h0 : n < 0 := by
      obtain ⟨x, t, e, h1, _⟩ := enc_cases hp hs hn
      rw [e] at h
      obtain ⟨rfl, _⟩ := List.cons.inj h
      exact Decidable.byContradiction fun hh => absurd (h1 (by omega)) (by decide)
    unfold decimalEnc at h
    simp only [if_pos h0] at h
    have hm : ((decimalGroups p s n.natAbs).flatMap fun g => beEnc g.1 g.2) = [49, 170, 179, 179] := by
      generalize ((decimalGroups p s n.natAbs).flatMap fun g => beEnc g.1 g.2) = b at h
      match b, h with
      | [], h => cases h
      | [_], h => simp at h
      | [_, _], h => simp at h
      | [_, _, _], h => simp at h
      | _ :: _ :: _ :: _ :: _ :: _, h => simp at h
      | [x, y, z, w], h =>
        simp only [List.map_cons, List.map_nil, List.cons.injEq, and_true] at h
        obtain ⟨h1, h2, h3, h4⟩ := h
        have f (x c : UInt8) (h : 255 - x = c) : x = 255 - c := by
          rw [← h, ← UInt8.toNat_inj, toNat_flip, toNat_flip]
          have := x.toNat_lt
          omega
        have h1' : 255 - x = 206 := by
          have : (255 - x + 128) - 128 = 78 - 128 := by rw [h1]
          rwa [UInt8.add_sub_cancel] at this
        rw [f _ _ h1', f _ _ h2, f _ _ h3, f _ _ h4]
        decide
    obtain ⟨h1, h2, h3⟩ := single_group hs hn (null_groups (groups_ok hs hn) hm)
    exact ⟨by omega, h1, h2⟩
  · rintro ⟨rfl, rfl, rfl | rfl⟩ <;> decide

/-! ## Nothing is lost: different numbers are printed differently -/

theorem flat_inj {gs hs : List (Nat × Nat)} (hg : ∀ g ∈ gs, GroupOk g) (hh : ∀ g ∈ hs, GroupOk g) (hw : gs.map (·.1) = hs.map (·.1))
    (h : (gs.flatMap fun g => beEnc g.1 g.2) = hs.flatMap fun g => beEnc g.1 g.2) : gs = hs := by
  induction gs generalizing hs with
  | nil =>
    cases hs with
    | nil => rfl
    | cons => cases hw
  | cons g gs ih =>
    cases hs with
    | nil => cases hw
    | cons k hs =>
      obtain ⟨w1, w2⟩ := List.cons.inj hw
      rw [List.flatMap_cons, List.flatMap_cons] at h
      obtain ⟨h1, h2⟩ := List.append_inj h (by rw [beEnc_length, beEnc_length]; exact w1)
      have h3 : g.2 = k.2 := by rw [← group_value (hg g (by simp)), h1, group_value (hh k (by simp))]
      rw [ih (fun x hx => hg x (by simp [hx])) (fun x hx => hh x (by simp [hx])) w2 h2, Prod.ext w1 h3]

theorem whole_inj {k v w : Nat} (hv : v < 10 ^ (9 * k)) (hw : w < 10 ^ (9 * k)) (h : wholeGroups k v = wholeGroups k w) : v = w := by
  induction k generalizing v w with
  | zero => simp at hv hw; omega
  | succ k ih =>
    rw [wholeGroups, wholeGroups] at h
    obtain ⟨h1, h2⟩ := List.cons.inj h
    injection h1 with _ h1
    have h3 := ih (Nat.mod_lt _ (Nat.pow_pos (by decide))) (Nat.mod_lt _ (Nat.pow_pos (by decide))) h2
    rw [← Nat.div_add_mod v (10 ^ (9 * k)), ← Nat.div_add_mod w (10 ^ (9 * k)), h1, h3]

theorem part_inj {d v w : Nat} (hv : v < 10 ^ d) (hw : w < 10 ^ d) (h : partGroup d v = partGroup d w) : v = w := by
  unfold partGroup at h
  split at h
  · subst d; simp at hv hw; omega
  · injection h with h; injection h

theorem whole_widths (k v w : Nat) : (wholeGroups k v).map (·.1) = (wholeGroups k w).map (·.1) := by
  induction k generalizing v w with
  | zero => rfl
  | succ k ih => rw [wholeGroups, wholeGroups, List.map_cons, List.map_cons, ih]

theorem part_widths (d v w : Nat) : (partGroup d v).map (·.1) = (partGroup d w).map (·.1) := by
  unfold partGroup
  split <;> rfl

theorem group_widths (p s a b : Nat) : (decimalGroups p s a).map (·.1) = (decimalGroups p s b).map (·.1) := by
  unfold decimalGroups
  simp only [List.map_append]
  rw [part_widths, whole_widths, whole_widths (s / 9), part_widths (s % 9)]

theorem groups_inj {p s a b : Nat} (hs : s ≤ p) (ha : a < 10 ^ p) (hb : b < 10 ^ p) (h : decimalGroups p s a = decimalGroups p s b) : a = b := by
  have hpos (k : Nat) : 0 < 10 ^ k := Nat.pow_pos (by decide)
  have hi (a : Nat) (ha : a < 10 ^ p) : a / 10 ^ s < 10 ^ (p - s) := by
    rw [Nat.div_lt_iff_lt_mul (hpos s), ← Nat.pow_add]
    rwa [show p - s + s = p by omega]
  have hq (v : Nat) (h : v < 10 ^ (p - s)) : v / 10 ^ (9 * ((p - s) / 9)) < 10 ^ ((p - s) % 9) := by
    rw [Nat.div_lt_iff_lt_mul (hpos _), ← Nat.pow_add]
    rwa [show (p - s) % 9 + 9 * ((p - s) / 9) = p - s from Nat.mod_add_div _ _]
  have hr (v : Nat) : v % 10 ^ s / 10 ^ (s % 9) < 10 ^ (9 * (s / 9)) := by
    rw [Nat.div_lt_iff_lt_mul (hpos _), ← Nat.pow_add]
    rw [show 9 * (s / 9) + s % 9 = s from Nat.div_add_mod _ _]
    exact Nat.mod_lt _ (hpos s)
  unfold decimalGroups at h
  obtain ⟨h, h4⟩ := List.append_inj h (by simp only [List.length_append, part_length, whole_length])
  obtain ⟨h, h3⟩ := List.append_inj h (by simp only [List.length_append, part_length, whole_length])
  obtain ⟨h1, h2⟩ := List.append_inj h (by simp only [part_length])
  have k1 := part_inj (hq _ (hi a ha)) (hq _ (hi b hb)) h1
  have k2 := whole_inj (Nat.mod_lt _ (hpos _)) (Nat.mod_lt _ (hpos _)) h2
  have k3 := whole_inj (hr a) (hr b) h3
  have k4 := part_inj (Nat.mod_lt _ (hpos _)) (Nat.mod_lt _ (hpos _)) h4
  have m1 : a / 10 ^ s = b / 10 ^ s := by
    rw [← Nat.div_add_mod (a / 10 ^ s) (10 ^ (9 * ((p - s) / 9))), ← Nat.div_add_mod (b / 10 ^ s) (10 ^ (9 * ((p - s) / 9))), k1, k2]
  have m2 : a % 10 ^ s = b % 10 ^ s := by
    rw [← Nat.div_add_mod (a % 10 ^ s) (10 ^ (s % 9)), ← Nat.div_add_mod (b % 10 ^ s) (10 ^ (s % 9)), k3, k4]
  rw [← Nat.div_add_mod a (10 ^ s), ← Nat.div_add_mod b (10 ^ s), m1, m2]

theorem enc_inj {p s : Nat} {n m : Int} (hp : 1 ≤ p) (hs : s ≤ p) (hn : n.natAbs < 10 ^ p) (hm : m.natAbs < 10 ^ p)
    (h : decimalEnc p s n = decimalEnc p s m) : n = m := by
  have hsign : n < 0 ↔ m < 0 := by
    obtain ⟨x, t, e, h1, h2⟩ := enc_cases hp hs hn
    obtain ⟨y, u, f, k1, k2⟩ := enc_cases hp hs hm
    rw [e, f] at h
    obtain ⟨rfl, rfl⟩ := List.cons.inj h
    constructor
    · intro h0
      have := h2 h0
      exact Decidable.byContradiction fun hh => by have := k1 (by omega); omega
    · intro h0
      have := k2 h0
      exact Decidable.byContradiction fun hh => by have := h1 (by omega); omega
  have hb : ((decimalGroups p s n.natAbs).flatMap fun g => beEnc g.1 g.2) = (decimalGroups p s m.natAbs).flatMap fun g => beEnc g.1 g.2 := by
    have unhigh (b c : Bytes) (h : (match b with | [] => [] | x :: t => (x + 128) :: t) = (match c with | [] => [] | x :: t => (x + 128) :: t)) : b = c := by
      cases b with
      | nil =>
        cases c with
        | nil => rfl
        | cons => cases h
      | cons x b =>
        cases c with
        | nil => cases h
        | cons y c =>
          obtain ⟨h1, h2⟩ := List.cons.inj h
          have : (x + 128) - 128 = (y + 128) - 128 := by rw [h1]
          rw [UInt8.add_sub_cancel, UInt8.add_sub_cancel] at this
          rw [this, h2]
    have := unhigh _ _ h
    by_cases h0 : n < 0
    · rw [if_pos h0, if_pos (hsign.mp h0)] at this
      refine (List.map_inj_right fun x y hxy => ?_).mp this
      have hxy : (255 - x).toNat = (255 - y).toNat := by rw [show 255 - x = 255 - y from hxy]
      rw [toNat_flip, toNat_flip] at hxy
      rw [← UInt8.toNat_inj]
      have := x.toNat_lt
      have := y.toNat_lt
      omega
    · rwa [if_neg h0, if_neg (fun hh => h0 (hsign.mpr hh))] at this
  have := groups_inj hs hn hm (flat_inj (groups_ok hs hn) (groups_ok hs hm) (group_widths p s _ _) hb)
  omega

/-- **C96 (partial).** Nothing is lost: of two numbers in the same column, different ones are printed as different values.  Missing: that the
server takes what is printed for the number; it never does (`C96_never`). -/
theorem C96_distinct_partial (env : Env) {db table name : Bytes} {p s : Nat} {n m : Int} (hdb : 96 ∉ db) (ht : 96 ∉ table) (hname : name ∉ internalNames)
    (hp : 1 ≤ p) (hs : s ≤ p) (hn : n.natAbs < 10 ^ p) (hm : m.natAbs < 10 ^ p) (v : SqlVal) (h1 : DecimalPrinted env db table name p s n v)
    (h2 : DecimalPrinted env db table name p s m v) : n = m := by
  rw [C96_exact env hdb ht hname hp hs hn] at h1
  rw [C96_exact env hdb ht hname hp hs hm] at h2
  have h : decimalSql p s n = decimalSql p s m := h1.symm.trans h2
  unfold decimalSql at h
  refine enc_inj hp hs hn hm ?_
  split at h <;> split at h
  · simp_all
  · cases h
  · cases h
  · injection h

/-- 1.50 and −1.50 in a column DECIMAL(5, 2) -/
example (env : Env) : DecimalPrinted env (b! "d") (b! "t") (b! "c") 5 2 150 (.bytes [128, 1, 50]) ∧
    DecimalPrinted env (b! "d") (b! "t") (b! "c") 5 2 (-150) (.bytes [127, 254, 205]) :=
  ⟨(C96_exact env (by decide) (by decide) (by decide) (by decide) (by decide) (by decide) _).mpr (by decide),
    (C96_exact env (by decide) (by decide) (by decide) (by decide) (by decide) (by decide) _).mpr (by decide)⟩

end Verif.Props
