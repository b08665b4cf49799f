import Verif.Spec.Record
import Verif.Model.Ibdata
import Verif.Proofs.Ints
import Verif.Proofs.GoM
/-! Decoding of the COMPACT record header. -/

set_option linter.unusedSimpArgs false

namespace Verif
open Spec

theorem all2_length {α β : Type} {R : α → β → Prop} {l : List α} {m : List β} (h : All2 R l m) : l.length = m.length := by
  induction h with
  | nil => rfl
  | cons _ _ ih => rw [List.length_cons, List.length_cons, ih]

/-! ## The NULL bitmap -/

theorem bitsVal_lt (l : List Bool) : bitsVal l < 2 ^ l.length := by
  induction l with
  | nil => simp [bitsVal]
  | cons b l ih =>
    rw [bitsVal, List.length_cons, Nat.pow_succ]
    cases b <;> simp [Bool.toNat] <;> omega

theorem bitsVal_bit (l : List Bool) (k : Nat) : bitsVal l / 2 ^ k % 2 = (l.getD k false).toNat := by
  induction l generalizing k with
  | nil => simp [bitsVal]
  | cons b l ih =>
    cases k with
    | zero =>
      rw [bitsVal, Nat.pow_zero, Nat.div_one]
      cases b <;> simp [Bool.toNat] <;> omega
    | succ k =>
      rw [bitsVal, Nat.pow_succ, Nat.mul_comm (2 ^ k) 2, ← Nat.div_div_eq_div_mul]
      have : (b.toNat + 2 * bitsVal l) / 2 = bitsVal l := by cases b <;> simp [Bool.toNat] <;> omega
      rw [this, ih]
      rfl

theorem packBits_length (l : List Bool) : (packBits l).length = (l.length + 7) / 8 := by simp [packBits]

theorem packBits_bit (l : List Bool) (m : Nat) (b : Bool) (h : l[m]? = some b) :
    ∃ x, (packBits l)[m / 8]? = some x ∧ (x.toNat &&& 2 ^ (m % 8) ≠ 0 ↔ b = true) := by
  have hm : m < l.length := by
    rcases Nat.lt_or_ge m l.length with h1 | h1
    · exact h1
    · rw [List.getElem?_eq_none h1] at h; cases h
  have hj : m / 8 < (l.length + 7) / 8 := by omega
  refine ⟨UInt8.ofNat (bitsVal ((l.drop (8 * (m / 8))).take 8)), ?_, ?_⟩
  · unfold packBits
    rw [List.getElem?_map, List.getElem?_range hj]; rfl
  · have hlt : bitsVal ((l.drop (8 * (m / 8))).take 8) < 256 := by
      refine Nat.lt_of_lt_of_le (bitsVal_lt _) ?_
      have : ((l.drop (8 * (m / 8))).take 8).length ≤ 8 := by rw [List.length_take]; omega
      exact Nat.le_trans (Nat.pow_le_pow_right (by omega) this) (by omega)
    have : (UInt8.ofNat (bitsVal ((l.drop (8 * (m / 8))).take 8))).toNat = bitsVal ((l.drop (8 * (m / 8))).take 8) := by
      rw [UInt8.toNat_ofNat']; omega
    rw [this, ne_eq, bit_eq_zero_iff, bitsVal_bit, List.getD_eq_getElem?_getD, List.getElem?_take_of_lt (by omega),
      List.getElem?_drop, show 8 * (m / 8) + m % 8 = m by omega, h]
    cases b <;> simp

/-- position of the NULL byte after `m` nullable columns, and the mask -/
def nullPos (o m : Nat) : Nat := o - 6 - (m - 1) / 8
def nullMaskAt (m : Nat) : Nat := if m = 0 then 1 else 2 ^ ((m - 1) % 8 + 1)

theorem pow_mod_256 (k : Nat) (h : k < 8) : 2 ^ k % 256 = 2 ^ k :=
  Nat.mod_eq_of_lt (Nat.lt_of_lt_of_le (Nat.pow_lt_pow_right (by omega) h) (by omega))

/-- moving on to the next NULL bit -/
def nullNext (st : NewSt) : Option NewSt :=
  if st.nullMask % 256 = 0 then do
    pure { st with nulls := (← backOne st.nulls), nullMask := 1 }
  else pure st

theorem newStep_nullable (d : Bytes) (c : Column) (st : NewSt) (h : c.isNull = true) :
    newStep d c st = (do
      let st ← nullNext st
      let nb := (← d[st.nulls]?).toNat
      let (length, st) ← if nb &&& (st.nullMask % 256) ≠ 0 then
          pure (st.offs ||| (1 <<< 31), { st with nullMask := st.nullMask <<< 1 })
        else
          newNotNull d c { st with nullMask := st.nullMask <<< 1 }
      return (length, { st with offs := st.offs &&& 0xffff })) := by
  unfold newStep nullNext
  rw [h]
  simp only [if_true]
  by_cases h1 : st.nullMask % 256 = 0
  · rw [if_pos h1, if_pos h1]
    cases backOne st.nulls with
    | none => rfl
    | some n =>
      simp only [Option.bind_eq_bind, Option.bind_some, Option.pure_def]
  · rw [if_neg h1, if_neg h1]

/-- moving on to the NULL bit of the `m`-th nullable column -/
theorem null_advance (o m lens offs : Nat) (h : 7 + m / 8 ≤ o) :
    nullNext ⟨nullPos o m, lens, offs, nullMaskAt m⟩ =
    some ⟨o - 6 - m / 8, lens, offs, (if m % 8 = 0 then 1 else 2 ^ (m % 8))⟩ := by
  unfold nullNext
  unfold nullMaskAt nullPos
  show (if _ % 256 = 0 then _ else _) = _
  dsimp only
  by_cases h0 : m = 0
  · subst h0
    simp
  · rw [if_neg h0]
    by_cases h8 : m % 8 = 0
    · have e1 : (m - 1) % 8 + 1 = 8 := by omega
      have e2 : (m - 1) / 8 + 1 = m / 8 := by omega
      rw [e1, if_pos (by decide), if_pos h8]
      unfold backOne
      rw [if_pos (show 1 ≤ o - 6 - (m - 1) / 8 by omega)]
      simp only [Option.bind_eq_bind, Option.bind_some, Option.pure_def, Option.some.injEq, NewSt.mk.injEq, and_true, true_and]
      omega
    · have e1 : (m - 1) % 8 + 1 = m % 8 := by omega
      have e2 : (m - 1) / 8 = m / 8 := by omega
      have hp := pow_mod_256 (m % 8) (by omega)
      have hpos : 0 < 2 ^ (m % 8) := Nat.pow_pos (by omega)
      rw [e1, e2, if_neg (by omega), if_neg h8]
      rfl

/-! ## One column -/

/-- The decoder's view of a column (from the dictionary) agrees with how the column is stored. -/
def Agrees (c : Column) (s : SCol) : Prop :=
  c.isNull = s.nullable ∧
  match s.storage with
  | .fixed n => getFixedLength c.ftype c.len = n ∧ n ≠ 0
  | .var two => getFixedLength c.ftype c.len = 0 ∧ (two = true ↔ (c.len > 255 ∨ c.ftype = DATA_BLOB))

/-- flag bits in the offsets array -/
def cellFlag : Cell → Nat
  | .null => 2 ^ 31
  | .val _ => 0
  | .ext _ => 2 ^ 30

theorem or_pow {a k : Nat} (h : a < 2 ^ k) : a ||| (1 <<< k) = a + 2 ^ k := by
  have := or_shl (a := 1) h
  rw [this]; omega

theorem u8_ofNat_toNat {n : Nat} (h : n < 256) : (UInt8.ofNat n).toNat = n := by
  rw [UInt8.toNat_ofNat']; omega

theorem backOne_sub {a j : Nat} (h : j + 1 ≤ a) : backOne (a - j) = some (a - (j + 1)) := by
  unfold backOne; rw [if_pos (by omega)]; congr 1

theorem ext_bit {l : Nat} (h : l < 2 ^ 14) (e : Nat) (he : e = 0x8000 ∨ e = 0xC000) :
    ((e + l) &&& 0x3fff = l) ∧ ((e + l) &&& 0x4000 ≠ 0 ↔ e = 0xC000) := by
  have m : (e + l) &&& 0x3fff = (e + l) % 2 ^ 14 := and_mask _ 14
  have b := bit_eq_zero_iff (e + l) 14
  have hb : (2 : Nat) ^ 14 = 0x4000 := by decide
  rw [hb] at b
  rw [m]
  refine ⟨by omega, ?_⟩
  rw [ne_eq, b]
  omega

/-- a column that is not NULL: what is recorded and how the cursor moves.  `p` is the position of its first length
byte -/
theorem newNotNull_eq (d : Bytes) (c : Column) (s : SCol) (x : Cell) (p : Nat) (st : NewSt) (ha : Agrees c s)
    (hf : Fits s x) (hx : x ≠ .null) (hp : st.lens = p) (hb : (lenBytes s x).length ≤ p)
    (hl : ∀ j y, (lenBytes s x)[j]? = some y → d[p - j]? = some y) (ho : st.offs + x.bytes.length < 2 ^ 16) :
    newNotNull d c st = some (st.offs + x.bytes.length + cellFlag x,
      { st with lens := p - (lenBytes s x).length, offs := st.offs + x.bytes.length }) := by
  obtain ⟨_, ha⟩ := ha
  unfold newNotNull
  cases hs : s.storage with
  | fixed n =>
    rw [hs] at ha
    simp only at ha
    rw [ha.1, if_neg ha.2]
    have : lenBytes s x = [] := by unfold lenBytes; rw [hs]
    rw [this]
    cases x with
    | null => exact absurd rfl hx
    | val v =>
      have : v.length = n := by simp only [Fits, hs] at hf; exact hf
      subst hp
      simp only [Cell.bytes, cellFlag, this, List.length_nil, Nat.sub_zero, Nat.add_zero]
    | ext v => simp only [Fits, hs] at hf; exact absurd hf.1 (by intro h; cases h)
  | var two =>
    rw [hs] at ha
    simp only at ha
    rw [if_pos ha.1]
    have step1 : ∀ (l : Nat) (t : Bytes), l < 256 → lenBytes s x = UInt8.ofNat l :: t →
        d[st.lens]? = some (UInt8.ofNat l) := by
      intro l t _ he
      have := hl 0 (UInt8.ofNat l) (by rw [he]; rfl)
      rw [hp]; exact this
    have pos1 : ∀ (t : Bytes) (y : UInt8), lenBytes s x = y :: t → 1 ≤ p := by
      intro t y he; rw [he] at hb; simp at hb; omega
    -- one byte
    have one : ∀ v, x = .val v → lenBytes s x = [UInt8.ofNat v.length] → v.length < 256 →
        ¬ ((c.len > 255 ∨ c.ftype = DATA_BLOB) ∧ v.length &&& 0x80 ≠ 0) →
        newNotNull d c st = some (st.offs + x.bytes.length + cellFlag x,
          { st with lens := p - (lenBytes s x).length, offs := st.offs + x.bytes.length }) := by
      intro v hxv he hlt hno
      unfold newNotNull
      rw [if_pos ha.1, step1 _ _ hlt he]
      simp only [Option.bind_eq_bind, Option.bind_some, u8_ofNat_toNat hlt]
      rw [hp, show p = p - 0 from rfl, backOne_sub (by have := pos1 _ _ he; omega)]
      simp only [Option.bind_some]
      rw [if_neg hno, he, hxv]
      rfl
    -- two bytes
    have two' : ∀ v e, x.bytes = v → (e = 0x8000 ∧ cellFlag x = 0 ∨ e = 0xC000 ∧ cellFlag x = 2 ^ 30) →
        lenBytes s x = [UInt8.ofNat (e / 256 + v.length / 256), UInt8.ofNat (v.length % 256)] → v.length < 2 ^ 14 →
        (c.len > 255 ∨ c.ftype = DATA_BLOB) →
        newNotNull d c st = some (st.offs + x.bytes.length + cellFlag x,
          { st with lens := p - (lenBytes s x).length, offs := st.offs + x.bytes.length }) := by
      intro v e hxv hee he hlt htwo
      unfold newNotNull
      have h256 : e / 256 + v.length / 256 < 256 := by omega
      have h80 : (e / 256 + v.length / 256) &&& 0x80 ≠ 0 := by
        have := bit_eq_zero_iff (e / 256 + v.length / 256) 7
        have h7 : (2 : Nat) ^ 7 = 0x80 := by decide
        rw [h7] at this
        rw [ne_eq, this]; omega
      have hp2 : 2 ≤ p := by rw [he] at hb; simpa using hb
      have r2 : d[p - 1]? = some (UInt8.ofNat (v.length % 256)) := hl 1 _ (by rw [he]; rfl)
      rw [if_pos ha.1, step1 _ _ h256 he]
      simp only [Option.bind_eq_bind, Option.bind_some, u8_ofNat_toNat h256]
      rw [hp, show p = p - 0 from rfl, backOne_sub (by omega)]
      simp only [Option.bind_some]
      rw [if_pos ⟨htwo, h80⟩, show p - (0 + 1) = p - 1 from rfl, r2]
      simp only [Option.bind_some, u8_ofNat_toNat (show v.length % 256 < 256 by omega)]
      rw [backOne_sub (by omega)]
      simp only [Option.bind_some]
      have hsh : ((e / 256 + v.length / 256) <<< 8) ||| (v.length % 256) = e + v.length := by
        rw [shl_or (by omega)]; omega
      obtain ⟨b1, b2⟩ := ext_bit hlt e (by omega)
      rw [hsh, b1, he, hxv]
      rw [hxv] at ho
      rcases hee with ⟨rfl, hfl⟩ | ⟨rfl, hfl⟩
      · rw [if_neg (by rw [b2]; omega), hfl]
        rfl
      · rw [if_pos (by rw [b2]), hfl, or_pow (by omega)]
        rfl
    cases x with
    | null => exact absurd rfl hx
    | val v =>
      have hf' : v.length < if two then 2 ^ 14 else 2 ^ 8 := by simp only [Fits, hs] at hf; exact hf
      by_cases hc : two = true ∧ 128 ≤ v.length
      · have hlen : lenBytes s (.val v) = [UInt8.ofNat (0x80 + v.length / 256), UInt8.ofNat (v.length % 256)] := by
          simp only [lenBytes, hs]; rw [if_pos hc]
        rw [hc.1] at hf'
        have := two' v 0x8000 rfl (Or.inl ⟨rfl, rfl⟩) hlen (by simpa using hf') (ha.2.mp hc.1)
        unfold newNotNull at this
        rw [if_pos ha.1] at this
        exact this
      · have hlen : lenBytes s (.val v) = [UInt8.ofNat v.length] := by
          simp only [lenBytes, hs]; rw [if_neg hc]
        have hlt : v.length < 256 := by
          cases two with
          | true => simp at hc; omega
          | false => simpa using hf'
        have hno : ¬ ((c.len > 255 ∨ c.ftype = DATA_BLOB) ∧ v.length &&& 0x80 ≠ 0) := by
          intro ⟨h1, h2⟩
          have h1 := ha.2.mpr h1
          have := bit_eq_zero_iff v.length 7
          have h7 : (2 : Nat) ^ 7 = 0x80 := by decide
          rw [h7] at this
          rw [ne_eq, this] at h2
          exact hc ⟨h1, by omega⟩
        have := one v rfl hlen hlt hno
        unfold newNotNull at this
        rw [if_pos ha.1] at this
        exact this
    | ext v =>
      have hf' : two = true ∧ v.length < 2 ^ 14 := by
        have := hf; simp only [Fits, hs, Storage.var.injEq] at this; exact this
      have hlen : lenBytes s (.ext v) = [UInt8.ofNat (0xC0 + v.length / 256), UInt8.ofNat (v.length % 256)] := by
        simp only [lenBytes, hs]
      have := two' v 0xC000 rfl (Or.inr ⟨rfl, rfl⟩) hlen hf'.2 (ha.2.mp hf'.1)
      unfold newNotNull at this
      rw [if_pos ha.1] at this
      exact this

/-- one column -/
theorem newStep_eq (d : Bytes) (c : Column) (s : SCol) (x : Cell) (o m p offs : Nat) (ha : Agrees c s)
    (hf : Fits s x) (hb : (lenBytes s x).length ≤ p)
    (hl : ∀ j y, (lenBytes s x)[j]? = some y → d[p - j]? = some y) (ho : offs + x.bytes.length < 2 ^ 16)
    (hm : s.nullable = true → 7 + m / 8 ≤ o)
    (hn : s.nullable = true → ∃ y, d[o - 6 - m / 8]? = some y ∧ (y.toNat &&& 2 ^ (m % 8) ≠ 0 ↔ x = .null)) :
    newStep d c ⟨nullPos o m, p, offs, nullMaskAt m⟩ = some (offs + x.bytes.length + cellFlag x,
      let m' := if s.nullable then m + 1 else m
      ⟨nullPos o m', p - (lenBytes s x).length, offs + x.bytes.length, nullMaskAt m'⟩) := by
  have hmask : ∀ a, a < 2 ^ 16 → a &&& 0xffff = a := by
    intro a h
    have : a &&& 0xffff = a % 2 ^ 16 := and_mask a 16
    rw [this, Nat.mod_eq_of_lt h]
  have hcn : c.isNull = s.nullable := ha.1
  cases hs : s.nullable with
  | false =>
    unfold newStep
    rw [hcn, hs]
    have hx : x ≠ .null := by
      intro he; rw [he] at hf; simp [Fits, hs] at hf
    simp only [Bool.false_eq_true, if_false]
    rw [newNotNull_eq d c s x p _ ha hf hx rfl hb hl ho]
    simp only [Option.bind_eq_bind, Option.bind_some, hmask _ ho]
    rfl
  | true =>
    have hm := hm hs
    obtain ⟨y, hy1, hy2⟩ := hn hs
    rw [newStep_nullable _ _ _ (by rw [hcn, hs]), null_advance o m p offs hm]
    simp only [Option.bind_eq_bind, Option.bind_some, hy1]
    have hmk : (if m % 8 = 0 then 1 else 2 ^ (m % 8)) = 2 ^ (m % 8) := by
      split
      · rename_i h; rw [h]
      · rfl
    have hmm : nullMaskAt (m + 1) = 2 ^ (m % 8) <<< 1 := by
      rw [nullMaskAt, if_neg (by omega), Nat.add_sub_cancel, Nat.shiftLeft_eq, Nat.pow_succ]
    have hnp : nullPos o (m + 1) = o - 6 - m / 8 := by rw [nullPos, Nat.add_sub_cancel]
    simp only [if_true]
    rw [hmk, pow_mod_256 _ (by omega), hmm, hnp]
    by_cases hx : x = .null
    · rw [if_pos (hy2.mpr hx), hx]
      simp only [Option.pure_def, Option.bind_some, Cell.bytes, List.length_nil, Nat.add_zero, cellFlag]
      have hlb : (lenBytes s .null).length = 0 := by unfold lenBytes; split <;> simp_all
      have ho' : offs < 2 ^ 16 := by omega
      rw [hlb, hmask _ ho', or_pow (Nat.lt_of_lt_of_le ho' (by omega))]
      rfl
    · rw [if_neg (fun h => hx (hy2.mp h))]
      rw [newNotNull_eq d c s x p _ ha hf hx rfl hb hl ho]
      simp only [Option.bind_some, hmask _ ho]
      rfl

/-! ## All columns -/

/-- The entries of the offsets array: end offset plus flag. -/
def endVals : Nat → Row → List Nat
  | _, [] => []
  | offs, e :: r => (offs + e.2.bytes.length + cellFlag e.2) :: endVals (offs + e.2.bytes.length) r

theorem endVals_length (offs : Nat) (r : Row) : (endVals offs r).length = r.length := by
  induction r generalizing offs with
  | nil => rfl
  | cons e r ih => simp [endVals, ih]

theorem setIdx_append (A : List Nat) (v x : Nat) (B : List Nat) :
    setIdx (A ++ x :: B) A.length v = some (A ++ v :: B) := by
  unfold setIdx
  rw [if_pos (by simp)]
  rw [List.set_append_right _ _ (Nat.le_refl _), Nat.sub_self, List.set_cons_zero]

theorem newLoop_eq (d : Bytes) (o : Nat) (bits : List Bool) (L : Bytes) (P : Nat)
    (hN : ∀ m b, bits[m]? = some b → 7 + m / 8 ≤ o ∧
      ∃ y, d[o - 6 - m / 8]? = some y ∧ (y.toNat &&& 2 ^ (m % 8) ≠ 0 ↔ b = true))
    (hL : ∀ j y, L[j]? = some y → d[P - j]? = some y) (hP : L.length ≤ P)
    (cols : List Column) (row : Row) (hag : All2 (fun c e => Agrees c e.1 ∧ Fits e.1 e.2) cols row)
    (i m l offs k : Nat) (A : List Nat) (hA : A.length = 3 + i) (hk : row.length ≤ k)
    (hbits : bits.drop m = nullBits row) (hlens : L.drop l = lens row)
    (ho : offs + (rowData row).length < 2 ^ 16) :
    newLoop d cols i ⟨nullPos o m, P - l, offs, nullMaskAt m⟩ (A ++ List.replicate k 0) =
      some (A ++ endVals offs row ++ List.replicate (k - row.length) 0) := by
  induction hag generalizing i m l offs k A with
  | nil => simp [newLoop, endVals]
  | @cons c e cols row hce hrest ih =>
    obtain ⟨s, x⟩ := e
    obtain ⟨ha, hf⟩ := hce
    simp only at ha hf
    obtain ⟨k, rfl⟩ : ∃ k', k = k' + 1 := ⟨k - 1, by simp at hk; omega⟩
    have hrd : (rowData ((s, x) :: row)).length = x.bytes.length + (rowData row).length := by
      simp [rowData]
    rw [hrd] at ho
    have hlens' : L.drop l = lenBytes s x ++ lens row := by rw [hlens]; simp [lens]
    have hll : (lenBytes s x).length + (lens row).length + l = L.length ∨ (lenBytes s x ++ lens row = []) := by
      by_cases hle : l ≤ L.length
      · left
        have := congrArg List.length hlens'
        simp at this; omega
      · right
        rw [← hlens']; exact List.drop_eq_nil_of_le (by omega)
    have hget : ∀ j y, (lenBytes s x)[j]? = some y → d[P - l - j]? = some y := by
      intro j y hj
      have hjlt : j < (lenBytes s x).length := by
        rcases Nat.lt_or_ge j (lenBytes s x).length with h1 | h1
        · exact h1
        · rw [List.getElem?_eq_none h1] at hj; cases hj
      have : (L.drop l)[j]? = some y := by
        rw [hlens', List.getElem?_append_left hjlt]; exact hj
      rw [List.getElem?_drop] at this
      rw [Nat.sub_sub]
      exact hL _ _ this
    have hbl : (lenBytes s x).length ≤ P - l := by
      rcases hll with h | h
      · omega
      · have := congrArg List.length h
        rw [List.length_append, List.length_nil] at this; omega
    have hnull : s.nullable = true → bits[m]? = some (x == .null) ∧ bits.drop (m + 1) = nullBits row := by
      intro hs
      have hb : bits.drop m = (x == .null) :: nullBits row := by
        rw [hbits]; simp [nullBits, hs]
      constructor
      · have : (bits.drop m)[0]? = some (x == .null) := by rw [hb]; rfl
        rw [List.getElem?_drop] at this; simpa using this
      · rw [← List.drop_drop, hb]; rfl
    have hstep := newStep_eq d c s x o m (P - l) offs ha hf hbl hget (by omega)
      (fun hs => (hN m _ (hnull hs).1).1)
      (fun hs => by
        obtain ⟨_, y, h1, h2⟩ := hN m _ (hnull hs).1
        exact ⟨y, h1, by rw [h2]; simp⟩)
    rw [newLoop, hstep]
    simp only [Option.bind_eq_bind, Option.bind_some]
    rw [List.replicate_succ, show 2 + (1 + i) = A.length by omega, setIdx_append]
    simp only [Option.bind_some]
    have hPl : P - l - (lenBytes s x).length = P - (l + (lenBytes s x).length) := by omega
    have hAv : A ++ (offs + x.bytes.length + cellFlag x) :: List.replicate k 0 =
        (A ++ [offs + x.bytes.length + cellFlag x]) ++ List.replicate k 0 := by simp
    rw [hAv, hPl]
    rw [ih (i + 1) (if s.nullable then m + 1 else m) (l + (lenBytes s x).length) (offs + x.bytes.length) k
      (A ++ [offs + x.bytes.length + cellFlag x]) (by simp; omega) (by simp at hk; omega)
      (by
        cases hs : s.nullable with
        | true => simp only [if_true]; exact (hnull hs).2
        | false =>
          simp only [Bool.false_eq_true, if_false]
          rw [hbits]; simp [nullBits, hs])
      (by rw [← List.drop_drop, hlens', List.drop_left' rfl])
      (by omega)]
    simp only [endVals, List.append_assoc, List.cons_append, List.nil_append, List.length_cons, Nat.add_sub_add_right]

/-- the whole offsets array of a COMPACT record -/
theorem initOffsetsNew_eq (d : Bytes) (o : Nat) (row : Row) (h : CompactAt d o row) (table : Table)
    (hag : All2 (fun c e => Agrees c e.1 ∧ Fits e.1 e.2) table.columns row)
    (hnc : table.nullCount = (nullBits row).length) (h3 : 3 ≤ row.length) (ho : (rowData row).length < 2 ^ 16) :
    ibRecInitOffsetsNew d o (List.replicate (row.length * 2) 0) table =
      some ([0, row.length, 0] ++ endVals 0 row ++ List.replicate (row.length - 3) 0) := by
  obtain ⟨pre, hdr, post, hpre, hh, rfl, rfl⟩ := h
  have hlen : table.columns.length = row.length := all2_length hag
  have hpl : 1 ≤ pre.length := by
    cases pre with
    | nil => exact absurd rfl hpre
    | cons a t => simp
  generalize hN : packBits (nullBits row) = N at *
  generalize hL : lens row = L at *
  have hNl : N.length = (table.nullCount + 7) / 8 := by rw [← hN, packBits_length, hnc]
  have hcp : compactPrefix row hdr = L.reverse ++ N.reverse ++ hdr := by rw [compactPrefix, hN, hL]
  have hol : (pre ++ compactPrefix row hdr).length = pre.length + L.length + N.length + 5 := by
    rw [hcp]; simp; omega
  generalize hd : pre ++ compactPrefix row hdr ++ rowData row ++ post = d
  have hdl : (pre ++ compactPrefix row hdr).length ≤ d.length := by rw [← hd]; simp
  rw [hol] at hdl ⊢
  generalize ho' : pre.length + L.length + N.length + 5 = o at *
  -- reading backwards
  have readN : ∀ j y, N[j]? = some y → d[o - 6 - j]? = some y := by
    intro j y hj
    have hjlt : j < N.length := by
      rcases Nat.lt_or_ge j N.length with h1 | h1
      · exact h1
      · rw [List.getElem?_eq_none h1] at hj; cases hj
    rw [← hd, hcp]
    simp only [List.append_assoc]
    rw [List.getElem?_append_right (by omega), List.getElem?_append_right (by simp; omega),
      List.getElem?_append_left (by simp; omega), List.getElem?_reverse (by simp; omega)]
    rw [← hj]; congr 1; simp; omega
  have readL : ∀ j y, L[j]? = some y → d[o - 6 - N.length - j]? = some y := by
    intro j y hj
    have hjlt : j < L.length := by
      rcases Nat.lt_or_ge j L.length with h1 | h1
      · exact h1
      · rw [List.getElem?_eq_none h1] at hj; cases hj
    rw [← hd, hcp]
    simp only [List.append_assoc]
    rw [List.getElem?_append_right (by omega), List.getElem?_append_left (by simp; omega),
      List.getElem?_reverse (by omega)]
    rw [← hj]; congr 1; omega
  unfold ibRecInitOffsetsNew
  obtain ⟨k, hk⟩ : ∃ k, row.length * 2 = 3 + k := ⟨row.length * 2 - 3, by omega⟩
  have hrep : List.replicate (row.length * 2) 0 = [0, 0, 0] ++ List.replicate k 0 := by
    rw [hk, Nat.add_comm, List.replicate_succ, List.replicate_succ, List.replicate_succ]; rfl
  rw [hrep]
  have s1 : setIdx ([0, 0, 0] ++ List.replicate k 0) 2 0 = some ([0, 0, 0] ++ List.replicate k 0) := by
    unfold setIdx; rw [if_pos (by simp)]; rfl
  have s2 : setIdx ([0, 0, 0] ++ List.replicate k 0) 1 table.columns.length =
      some ([0, row.length, 0] ++ List.replicate k 0) := by
    unfold setIdx; rw [if_pos (by simp), hlen]; rfl
  rw [s1]
  simp only [Option.bind_eq_bind, Option.bind_some]
  rw [s2]
  simp only [Option.bind_some]
  rw [if_pos ⟨by omega, hdl⟩]
  rw [if_pos (by omega)]
  rw [← hNl]
  have hst : (⟨o - 6, o - 6 - N.length, 0, 1⟩ : NewSt) = ⟨nullPos o 0, o - 6 - N.length - 0, 0, nullMaskAt 0⟩ := by
    simp [nullPos, nullMaskAt]
  rw [hst, newLoop_eq d o (nullBits row) L (o - 6 - N.length)
    (fun m b hb => by
      obtain ⟨y, h1, h2⟩ := packBits_bit (nullBits row) m b hb
      rw [hN] at h1
      refine ⟨?_, y, readN _ _ h1, h2⟩
      have : m / 8 < N.length := by
        rcases Nat.lt_or_ge (m / 8) N.length with h3 | h3
        · exact h3
        · rw [List.getElem?_eq_none h3] at h1; cases h1
      omega)
    readL (by omega) table.columns row hag 0 0 0 0 k [0, row.length, 0] rfl (by omega) rfl (by rw [List.drop_zero, hL])
    (by omega)]
  congr 3
  omega

end Verif
