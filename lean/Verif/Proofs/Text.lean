import Verif.Proofs.Dec
import Verif.Proofs.Arith
/-! Lemmas about hexadecimal text, Go's rune iteration, escaping and trimming. -/

set_option linter.unusedSimpArgs false

namespace Verif
open Spec

/-! ## Hexadecimal -/

theorem hexDigit_toNat {n : Nat} (h : n < 16) : (hexDigit n).toNat = if n < 10 then 48 + n else 87 + n := by
  unfold hexDigit
  split
  · rw [UInt8.toNat_ofNat']; omega
  · rw [UInt8.toNat_ofNat']; omega

theorem hexVal_hexDigit {n : Nat} (h : n < 16) : hexVal (hexDigit n) = some n := by
  unfold hexVal
  rw [hexDigit_toNat h]
  split
  · rw [if_pos (by omega)]; congr 1; omega
  · rw [if_neg (by omega), if_pos (by omega)]; congr 1; omega

theorem unhex_parseBlob (d : Bytes) : unhex (parseBlob d) = some d := by
  induction d with
  | nil => rfl
  | cons b d ih =>
    have hb := u8lt b
    have e : parseBlob (b :: d) = hexDigit (b.toNat >>> 4) :: hexDigit (b.toNat &&& 0x0F) :: parseBlob d := by
      simp [parseBlob]
    have e1 : b.toNat >>> 4 = b.toNat / 16 := by rw [Nat.shiftRight_eq_div_pow]
    have e2 : b.toNat &&& 0x0F = b.toNat % 16 := and_mask b.toNat 4
    rw [e, unhex, e1, e2, hexVal_hexDigit (by omega), hexVal_hexDigit (by omega), ih]
    simp only [Option.bind_eq_bind, Option.bind_some, Option.pure_def, Option.some.injEq, List.cons.injEq, and_true]
    apply UInt8.toNat_inj.mp
    rw [UInt8.toNat_ofNat']; omega

theorem parseBlob_digits (d : Bytes) : ∀ x ∈ parseBlob d, (48 ≤ x.toNat ∧ x.toNat ≤ 57) ∨ (97 ≤ x.toNat ∧ x.toNat ≤ 102) := by
  intro x hx
  simp only [parseBlob, List.mem_flatMap, List.mem_cons, List.not_mem_nil, or_false] at hx
  obtain ⟨b, _, h | h⟩ := hx
  · have hb := u8lt b
    have : b.toNat >>> 4 < 16 := by rw [Nat.shiftRight_eq_div_pow]; omega
    rw [h, hexDigit_toNat this]; split <;> omega
  · have : b.toNat &&& 0x0F < 16 := by
      have e2 : b.toNat &&& 0x0F = b.toNat % 16 := and_mask b.toNat 4
      omega
    rw [h, hexDigit_toNat this]; split <;> omega

theorem parseBlob_length (d : Bytes) : (parseBlob d).length = 2 * d.length := by
  induction d with
  | nil => rfl
  | cons b d ih =>
    have e : parseBlob (b :: d) = hexDigit (b.toNat >>> 4) :: hexDigit (b.toNat &&& 0x0F) :: parseBlob d := by
      simp [parseBlob]
    rw [e]; simp only [List.length_cons, ih]; omega

/-! ## Runes -/

theorem u8_le_iff (a b : UInt8) : a ≤ b ↔ a.toNat ≤ b.toNat := UInt8.le_iff_toNat_le
theorem u8_lt_iff (a b : UInt8) : a < b ↔ a.toNat < b.toNat := UInt8.lt_iff_toNat_lt

theorem isCont_iff (b : UInt8) : isCont b = true ↔ 0x80 ≤ b.toNat ∧ b.toNat ≤ 0xBF := by
  simp only [isCont, Bool.and_eq_true, decide_eq_true_eq, u8_le_iff]
  rfl

/-- what the escaper needs to know about a rune that starts with a byte above 7F -/
theorem decodeRune_high (b0 : UInt8) (t : Bytes) (h : 0x80 ≤ b0.toNat) :
    0x80 ≤ (decodeRune (b0 :: t)).1 ∧ 1 ≤ (decodeRune (b0 :: t)).2 ∧
    (decodeRune (b0 :: t)).2 ≤ (b0 :: t).length ∧
    ∀ x ∈ (b0 :: t).take (decodeRune (b0 :: t)).2, 0x80 ≤ x.toNat := by
  have he : 0x80 ≤ (runeError, 1).1 ∧ 1 ≤ (runeError, 1).2 ∧ (runeError, 1).2 ≤ (b0 :: t).length ∧
      ∀ x ∈ (b0 :: t).take (runeError, 1).2, 0x80 ≤ x.toNat := by
    refine ⟨by decide, by decide, by simp, ?_⟩
    intro x hx
    simp at hx
    rw [hx]; exact h
  have c0 : ¬ b0 < 0x80 := by rw [u8_lt_iff]; exact Nat.not_lt.mpr h
  unfold decodeRune
  simp only
  rw [if_neg c0]
  split
  · rename_i hb
    simp only [u8_le_iff] at hb
    split
    · rename_i b1 t'
      split
      · rename_i h1
        rw [isCont_iff] at h1
        refine ⟨?_, by simp, by simp, ?_⟩
        · refine Nat.le_trans ?_ Nat.left_le_or
          have : b0.toNat &&& 0x1F = b0.toNat % 32 := and_mask _ 5
          rw [this, Nat.shiftLeft_eq]
          have h1 : (0xC2 : UInt8).toNat = 0xC2 := rfl
          have h2 : (0xDF : UInt8).toNat = 0xDF := rfl
          omega
        · intro x hx
          simp at hx
          rcases hx with rfl | rfl
          · exact h
          · exact h1.1
      · exact he
    · exact he
  split
  · rename_i hb
    simp only [u8_le_iff] at hb
    have k1 : (0xE0 : UInt8).toNat = 0xE0 := rfl
    have k2 : (0xEF : UInt8).toNat = 0xEF := rfl
    split
    · rename_i b1 b2 t'
      generalize hlo : (if b0 = 0xE0 then (0xA0 : UInt8) else 0x80) = lo
      generalize hhi : (if b0 = 0xED then (0x9F : UInt8) else 0xBF) = hi
      split
      · rename_i hc
        obtain ⟨h1, h2, h3⟩ := hc
        rw [← hlo] at h1
        rw [← hhi] at h2
        rw [isCont_iff] at h3
        have hb1 : 0x80 ≤ b1.toNat := by
          rw [u8_le_iff] at h1
          split at h1
          · have : (0xA0 : UInt8).toNat = 0xA0 := rfl
            omega
          · have : (0x80 : UInt8).toNat = 0x80 := rfl
            omega
        refine ⟨?_, by simp, by simp, ?_⟩
        · refine Nat.le_trans ?_ Nat.left_le_or
          by_cases e : b0 = 0xE0
          · refine Nat.le_trans ?_ Nat.right_le_or
            rw [if_pos e] at h1
            rw [u8_le_iff] at h1 h2
            have : (0xA0 : UInt8).toNat = 0xA0 := rfl
            have e63 : b1.toNat &&& 0x3F = b1.toNat % 64 := and_mask _ 6
            have : b1.toNat ≤ 0xBF := by
              rw [if_neg (by rw [e]; decide)] at h2; exact h2
            rw [e63, Nat.shiftLeft_eq]; omega
          · refine Nat.le_trans ?_ Nat.left_le_or
            have e15 : b0.toNat &&& 0x0F = b0.toNat % 16 := and_mask _ 4
            have : b0.toNat ≠ 0xE0 := fun h => e (UInt8.toNat_inj.mp h)
            rw [e15, Nat.shiftLeft_eq]; omega
        · intro x hx
          simp at hx
          rcases hx with rfl | rfl | rfl
          · exact h
          · exact hb1
          · exact h3.1
      · exact he
    · exact he
  split
  · rename_i hb
    simp only [u8_le_iff] at hb
    have k1 : (0xF0 : UInt8).toNat = 0xF0 := rfl
    have k2 : (0xF4 : UInt8).toNat = 0xF4 := rfl
    split
    · rename_i b1 b2 b3 t'
      generalize hlo : (if b0 = 0xF0 then (0x90 : UInt8) else 0x80) = lo
      generalize hhi : (if b0 = 0xF4 then (0x8F : UInt8) else 0xBF) = hi
      split
      · rename_i hc
        obtain ⟨h1, h2, h3, h4⟩ := hc
        rw [← hlo] at h1
        rw [← hhi] at h2
        rw [isCont_iff] at h3 h4
        have hb1 : 0x80 ≤ b1.toNat := by
          rw [u8_le_iff] at h1
          split at h1
          · have : (0x90 : UInt8).toNat = 0x90 := rfl
            omega
          · have : (0x80 : UInt8).toNat = 0x80 := rfl
            omega
        refine ⟨?_, by simp, by simp, ?_⟩
        · refine Nat.le_trans ?_ Nat.left_le_or
          refine Nat.le_trans ?_ Nat.left_le_or
          by_cases e : b0 = 0xF0
          · refine Nat.le_trans ?_ Nat.right_le_or
            rw [if_pos e] at h1
            rw [u8_le_iff] at h1 h2
            have : (0x90 : UInt8).toNat = 0x90 := rfl
            have e63 : b1.toNat &&& 0x3F = b1.toNat % 64 := and_mask _ 6
            have : b1.toNat ≤ 0xBF := by
              rw [if_neg (by rw [e]; decide)] at h2; exact h2
            rw [e63, Nat.shiftLeft_eq]; omega
          · refine Nat.le_trans ?_ Nat.left_le_or
            have e7 : b0.toNat &&& 0x07 = b0.toNat % 8 := and_mask _ 3
            have : b0.toNat ≠ 0xF0 := fun h => e (UInt8.toNat_inj.mp h)
            rw [e7, Nat.shiftLeft_eq]; omega
        · intro x hx
          simp at hx
          rcases hx with rfl | rfl | rfl | rfl
          · exact h
          · exact hb1
          · exact h3.1
          · exact h4.1
      · exact he
    · exact he
  · exact he

theorem decodeRune_low (b0 : UInt8) (t : Bytes) (h : b0.toNat < 0x80) : decodeRune (b0 :: t) = (b0.toNat, 1) := by
  unfold decodeRune
  simp only
  rw [if_pos (by rw [u8_lt_iff]; exact h)]

theorem decodeRune_width (b0 : UInt8) (t : Bytes) :
    1 ≤ (decodeRune (b0 :: t)).2 ∧ (decodeRune (b0 :: t)).2 ≤ (b0 :: t).length := by
  by_cases h : b0.toNat < 0x80
  · rw [decodeRune_low _ _ h]; simp
  · have := decodeRune_high b0 t (by omega)
    exact ⟨this.2.1, this.2.2.1⟩

/-! ## Escaping -/

/-- the escape of one byte -/
def escByte (b : UInt8) : Bytes := (escRune b.toNat).getD [b]

theorem escRune_high {c : Nat} (h : 0x80 ≤ c) : escRune c = none := by
  unfold escRune
  repeat' rw [if_neg (by omega)]

theorem escByte_high {x : UInt8} (h : 0x80 ≤ x.toNat) : escByte x = [x] := by
  rw [escByte, escRune_high h]; rfl

theorem flatMap_high (l : Bytes) (h : ∀ x ∈ l, 0x80 ≤ x.toNat) : l.flatMap escByte = l := by
  induction l with
  | nil => rfl
  | cons x l ih =>
    rw [List.flatMap_cons, escByte_high (h x (by simp)), ih (fun y hy => h y (by simp [hy]))]; rfl

theorem take_drop_split (s : Bytes) {last i w : Nat} (h : last ≤ i) :
    (s.take (i + w)).drop last = (s.take i).drop last ++ (s.drop i).take w := by
  rw [List.take_add, List.drop_append]
  by_cases hl : i ≤ s.length
  · have : last - (s.take i).length = 0 := by simp; omega
    rw [this]; rfl
  · have : s.drop i = [] := List.drop_eq_nil_of_le (by omega)
    rw [this]; simp

theorem escLoop_eq (s : Bytes) (fuel i last : Nat) (buf : Bytes) (hl : last ≤ i) (hi : i ≤ s.length)
    (hf : s.length ≤ i + fuel) :
    (escLoop s fuel i last buf).2 ++ s.drop (escLoop s fuel i last buf).1 =
      buf ++ (s.take i).drop last ++ (s.drop i).flatMap escByte := by
  induction fuel generalizing i last buf with
  | zero =>
    have : i = s.length := by omega
    subst this
    simp [escLoop]
  | succ fuel ih =>
    unfold escLoop
    by_cases hlt : i < s.length
    · rw [if_pos hlt]
      obtain ⟨b0, t, hd⟩ : ∃ b0 t, s.drop i = b0 :: t := by
        cases hd : s.drop i with
        | nil => have := congrArg List.length hd; simp at this; omega
        | cons b t => exact ⟨b, t, rfl⟩
      have hlen : s.length = i + (b0 :: t).length := by
        have := congrArg List.length hd; simp at this ⊢; omega
      simp only [hd]
      have hdd : ∀ w, s.drop (i + w) = (b0 :: t).drop w := fun w => by rw [← List.drop_drop, hd]
      by_cases hb : b0.toNat < 0x80
      · rw [decodeRune_low _ _ hb]
        simp only
        cases he : escRune b0.toNat with
        | none =>
          simp only [he]
          rw [ih (i + 1) last buf (by omega) (by omega) (by omega), hdd 1, take_drop_split s hl, hd]
          simp [escByte, he]
        | some e =>
          simp only [he]
          rw [ih (i + 1) (i + 1) _ (by omega) (by omega) (by omega), hdd 1]
          simp [escByte, he]
      · obtain ⟨h1, h2, h3, h4⟩ := decodeRune_high b0 t (by omega)
        generalize hw : (decodeRune (b0 :: t)).2 = w at h2 h3 h4
        rw [escRune_high h1]
        simp only
        rw [ih (i + w) last buf (by omega) (by simp at h3 hlen ⊢; omega) (by omega), hdd w, take_drop_split s hl, hd]
        have : (b0 :: t).flatMap escByte = (b0 :: t).take w ++ ((b0 :: t).drop w).flatMap escByte := by
          conv => lhs; rw [← List.take_append_drop w (b0 :: t)]
          rw [List.flatMap_append, flatMap_high _ h4]
        rw [this]
        simp only [List.append_assoc]
    · rw [if_neg hlt]
      have : i = s.length := by omega
      subst this
      simp

theorem escapeValue_eq (s : Bytes) :
    escapeValue s = if s.flatMap escByte = b! "0001-01-01T00:00:00Z" then [] else s.flatMap escByte := by
  have := escLoop_eq s s.length 0 0 [] (by omega) (by omega) (by omega)
  unfold escapeValue
  simp only [List.take_zero, List.drop_zero, List.drop_nil, List.nil_append] at this
  generalize escLoop s s.length 0 0 [] = r at this
  obtain ⟨l, b⟩ := r
  simp only at this ⊢
  rw [this]

theorem lexString_plain (c : UInt8) (t : Bytes) (h1 : c ≠ 39) (h2 : c ≠ 92) :
    lexString (c :: t) = (lexString t).map fun r => (c :: r.1, r.2) := by
  rw [lexString.eq_def]
  split <;> simp_all

theorem lexString_esc (c : UInt8) (t : Bytes) :
    lexString (92 :: c :: t) = (lexString t).map fun r => (unescape c ++ r.1, r.2) := by
  simp [lexString]

theorem lexString_close (t : Bytes) (h : t.head? ≠ some 39) : lexString (39 :: t) = some ([], t) := by
  rw [lexString.eq_def]
  split <;> simp_all

theorem escByte_cases (b : UInt8) :
    (escByte b = [b] ∧ b ≠ 39 ∧ b ≠ 92) ∨ ∃ c, escByte b = [92, c] ∧ unescape c = [b] := by
  unfold escByte escRune
  by_cases h0 : b.toNat = 0
  · right; exact ⟨48, by rw [if_pos h0]; rfl, by rw [show b = 0 from UInt8.toNat_inj.mp h0]; decide⟩
  by_cases h1 : b.toNat = 10
  · right; exact ⟨110, by rw [if_neg h0, if_pos h1]; rfl, by rw [show b = 10 from UInt8.toNat_inj.mp h1]; decide⟩
  by_cases h2 : b.toNat = 13
  · right; exact ⟨114, by rw [if_neg h0, if_neg h1, if_pos h2]; rfl,
      by rw [show b = 13 from UInt8.toNat_inj.mp h2]; decide⟩
  by_cases h3 : b.toNat = 92
  · right; exact ⟨92, by rw [if_neg h0, if_neg h1, if_neg h2, if_pos h3]; rfl,
      by rw [show b = 92 from UInt8.toNat_inj.mp h3]; decide⟩
  by_cases h4 : b.toNat = 39
  · right; exact ⟨39, by rw [if_neg h0, if_neg h1, if_neg h2, if_neg h3, if_pos h4]; rfl,
      by rw [show b = 39 from UInt8.toNat_inj.mp h4]; decide⟩
  by_cases h5 : b.toNat = 34
  · right; exact ⟨34, by rw [if_neg h0, if_neg h1, if_neg h2, if_neg h3, if_neg h4, if_pos h5]; rfl,
      by rw [show b = 34 from UInt8.toNat_inj.mp h5]; decide⟩
  by_cases h6 : b.toNat = 26
  · right; exact ⟨90, by rw [if_neg h0, if_neg h1, if_neg h2, if_neg h3, if_neg h4, if_neg h5, if_pos h6]; rfl,
      by rw [show b = 26 from UInt8.toNat_inj.mp h6]; decide⟩
  left
  refine ⟨by rw [if_neg h0, if_neg h1, if_neg h2, if_neg h3, if_neg h4, if_neg h5, if_neg h6]; rfl, ?_, ?_⟩
  · intro h; rw [h] at h4; exact h4 rfl
  · intro h; rw [h] at h3; exact h3 rfl

theorem lexString_flatMap (s rest : Bytes) (h : rest.head? ≠ some 39) :
    lexString (s.flatMap escByte ++ 39 :: rest) = some (s, rest) := by
  induction s with
  | nil => exact lexString_close rest h
  | cons b s ih =>
    rw [List.flatMap_cons, List.append_assoc]
    rcases escByte_cases b with ⟨e, h1, h2⟩ | ⟨c, e, hc⟩
    · rw [e]
      simp only [List.cons_append, List.nil_append]
      rw [lexString_plain _ _ h1 h2, ih]; rfl
    · rw [e]
      simp only [List.cons_append, List.nil_append]
      rw [lexString_esc, ih, Option.map_some, hc]; rfl

theorem escapeValue_ne {s : Bytes} (h : s ≠ b! "0001-01-01T00:00:00Z") : escapeValue s = s.flatMap escByte := by
  rw [escapeValue_eq, if_neg]
  intro he
  apply h
  have h1 := lexString_flatMap s [] (by simp)
  rw [he] at h1
  have h2 : lexString (b! "0001-01-01T00:00:00Z" ++ [39]) = some (b! "0001-01-01T00:00:00Z", []) := by decide
  rw [h2] at h1
  have := Option.some.inj h1
  exact (Prod.mk.inj this).1.symm

/-- text without any character that needs escaping -/
theorem flatMap_plain (s : Bytes) (h : ∀ x ∈ s, escByte x = [x]) : s.flatMap escByte = s := by
  induction s with
  | nil => rfl
  | cons x l ih =>
    rw [List.flatMap_cons, h x (by simp), ih (fun y hy => h y (by simp [hy]))]; rfl

/-! ## Trimming -/

theorem decodeLastRune_width (b : UInt8) (t : Bytes) : 1 ≤ (decodeLastRune (b :: t)).2 := by
  unfold decodeLastRune
  split
  · rename_i h; simp at h
  · split
    · simp
    · split
      · rename_i k hk
        have hk := List.mem_of_find?_eq_some hk
        simp at hk
        simp only
        split
        · rename_i h; rw [h]; omega
        · simp
      · simp

theorem trimRight_fuel (s : Bytes) (f g : Nat) (hf : s.length ≤ f) (hg : s.length ≤ g) :
    trimRightAux f s = trimRightAux g s := by
  induction f generalizing s g with
  | zero =>
    have : s = [] := List.eq_nil_of_length_eq_zero (by omega)
    subst this
    cases g <;> rfl
  | succ f ih =>
    cases g with
    | zero =>
      have : s = [] := List.eq_nil_of_length_eq_zero (by omega)
      subst this; rfl
    | succ g =>
      cases s with
      | nil => rfl
      | cons b t =>
        simp only [trimRightAux]
        split
        · have hw := decodeLastRune_width b t
          exact ih _ _ (by simp at hf ⊢; omega) (by simp at hg ⊢; omega)
        · rfl

theorem decodeLast_space (s : Bytes) : decodeLastRune (s ++ [32]) = (32, 1) := by
  unfold decodeLastRune
  rw [List.getLast?_concat]
  rfl

theorem trimRight_spaces (s : Bytes) (k f g : Nat) (hf : s.length + k ≤ f) (hg : s.length ≤ g) :
    trimRightAux f (s ++ List.replicate k 32) = trimRightAux g s := by
  induction k generalizing f with
  | zero => simp only [List.replicate_zero, List.append_nil]; exact trimRight_fuel s f g (by omega) hg
  | succ k ih =>
    cases f with
    | zero => omega
    | succ f =>
      rw [List.replicate_succ', ← List.append_assoc]
      rw [trimRightAux]
      · rw [decodeLast_space]
        simp only
        rw [if_pos (by decide)]
        have : List.take ((s ++ List.replicate k 32 ++ [32]).length - 1) (s ++ List.replicate k 32 ++ [32]) =
            s ++ List.replicate k 32 := by
          rw [List.take_append_of_le_length (by simp)]
          exact List.take_of_length_le (by simp)
        rw [this]
        exact ih f (by omega)
      · simp

theorem trimRight_length (f : Nat) (s : Bytes) : (trimRightAux f s).length ≤ s.length := by
  induction f generalizing s with
  | zero => exact Nat.le_refl _
  | succ f ih =>
    cases s with
    | nil => simp [trimRightAux]
    | cons b t =>
      simp only [trimRightAux]
      split
      · exact Nat.le_trans (ih _) (by simp)
      · exact Nat.le_refl _

theorem trimLeft_length (f : Nat) (s : Bytes) : (trimLeftAux f s).length ≤ s.length := by
  induction f generalizing s with
  | zero => exact Nat.le_refl _
  | succ f ih =>
    cases s with
    | nil => simp [trimLeftAux]
    | cons b t =>
      simp only [trimLeftAux]
      split
      · exact Nat.le_trans (ih _) (by simp)
      · exact Nat.le_refl _

theorem getLastCont (x : UInt8) : isCont x = true → x ≠ 32 := by
  intro h hx; rw [hx] at h; exact absurd h (by decide)

/-- bytes that are not continuation bytes do not influence the decoding of what precedes them -/
theorem decodeRune_append_spaces (b0 : UInt8) (t : Bytes) (k : Nat) :
    decodeRune (b0 :: t ++ List.replicate k 32) = decodeRune (b0 :: t) := by
  have r1 : ∀ k, (List.replicate k (32 : UInt8)) = [] ∨ ∃ l, List.replicate k (32 : UInt8) = 32 :: l := by
    intro k; cases k with
    | zero => left; rfl
    | succ k => right; exact ⟨List.replicate k 32, rfl⟩
  have n32 : isCont 32 = false := by decide
  rcases r1 k with hk | ⟨l, hk⟩
  · rw [hk, List.append_nil]
  · rw [hk, List.cons_append]
    unfold decodeRune
    simp only
    split
    · rfl
    split
    · match t with
      | [] => simp [n32]
      | b1 :: t => rfl
    split
    · match t with
      | [] =>
        cases l with
        | nil => rfl
        | cons y l =>
          simp only [List.nil_append]
          rw [if_neg]
          intro h
          have h := h.1
          split at h
          · exact absurd h (by decide)
          · exact absurd h (by decide)
      | [b1] => simp [n32]
      | b1 :: b2 :: t => rfl
    split
    · match t with
      | [] =>
        match l with
        | [] => rfl
        | [y] => rfl
        | y :: z :: l =>
          simp only [List.nil_append]
          rw [if_neg]
          intro h
          have h := h.1
          split at h
          · exact absurd h (by decide)
          · exact absurd h (by decide)
      | [b1] =>
        match l with
        | [] => rfl
        | y :: l => simp [n32]
      | [b1, b2] => simp [n32]
      | b1 :: b2 :: b3 :: t => rfl
    · rfl

theorem trimLeft_shape (f : Nat) (x : Bytes) (k : Nat) :
    ∃ y k', trimLeftAux f (x ++ List.replicate k 32) = y ++ List.replicate k' 32 ∧ y.length ≤ x.length := by
  induction f generalizing x k with
  | zero => exact ⟨x, k, rfl, Nat.le_refl _⟩
  | succ f ih =>
    cases x with
    | nil =>
      cases k with
      | zero => exact ⟨[], 0, by simp [trimLeftAux], Nat.le_refl _⟩
      | succ k =>
        have : trimLeftAux (f + 1) (32 :: List.replicate k 32) = trimLeftAux f (List.replicate k 32) := by
          rw [trimLeftAux, decodeRune_low _ _ (by decide)]
          · rfl
          · simp
        obtain ⟨y, k', h1, h2⟩ := ih [] k
        exact ⟨y, k', by rw [List.nil_append, List.replicate_succ, this]; exact h1, h2⟩
    | cons b t =>
      have hw := decodeRune_width b t
      have e : trimLeftAux (f + 1) (b :: t ++ List.replicate k 32) =
          if isSpaceRune (decodeRune (b :: t)).1 then
            trimLeftAux f ((b :: t).drop (decodeRune (b :: t)).2 ++ List.replicate k 32)
          else b :: t ++ List.replicate k 32 := by
        rw [trimLeftAux, decodeRune_append_spaces]
        · rw [List.drop_append_of_le_length hw.2]
        · simp
      rw [e]
      split
      · obtain ⟨y, k', h1, h2⟩ := ih ((b :: t).drop (decodeRune (b :: t)).2) k
        refine ⟨y, k', h1, Nat.le_trans h2 (by simp)⟩
      · exact ⟨b :: t, k, rfl, Nat.le_refl _⟩

/-- Trimming a padded string gives back exactly the string iff the string does not itself begin or end with a white
space character. -/
theorem trimSpace_pad (core : Bytes) (k : Nat) :
    trimSpace (core ++ List.replicate k 32) = core ↔
      core = [] ∨ (isSpaceRune (decodeRune core).1 = false ∧ isSpaceRune (decodeLastRune core).1 = false) := by
  have fin : ∀ y k', trimRightAux (y ++ List.replicate k' 32).length (y ++ List.replicate k' 32) = trimRightAux y.length y :=
    fun y k' => trimRight_spaces y k' _ _ (by simp) (Nat.le_refl _)
  unfold trimSpace
  simp only
  cases core with
  | nil =>
    obtain ⟨y, k', h1, h2⟩ := trimLeft_shape ([] ++ List.replicate k (32 : UInt8)).length [] k
    have : y = [] := List.eq_nil_of_length_eq_zero (by simpa using h2)
    subst this
    rw [h1, fin]
    exact ⟨fun _ => Or.inl rfl, fun _ => rfl⟩
  | cons b t =>
    have hw := decodeRune_width b t
    have e : trimLeftAux (b :: t ++ List.replicate k 32).length (b :: t ++ List.replicate k 32) =
          if isSpaceRune (decodeRune (b :: t)).1 then
            trimLeftAux (t ++ List.replicate k 32).length ((b :: t).drop (decodeRune (b :: t)).2 ++ List.replicate k 32)
          else b :: t ++ List.replicate k 32 := by
      rw [show (b :: t ++ List.replicate k (32 : UInt8)).length = (t ++ List.replicate k (32 : UInt8)).length + 1 from rfl,
        trimLeftAux, decodeRune_append_spaces]
      · rw [List.drop_append_of_le_length hw.2]
      · simp
    rw [e]
    cases h1 : isSpaceRune (decodeRune (b :: t)).1 with
    | true =>
      simp only [if_true, reduceCtorEq, false_and, or_false, iff_false]
      obtain ⟨y, k', g1, g2⟩ := trimLeft_shape (t ++ List.replicate k (32 : UInt8)).length
        ((b :: t).drop (decodeRune (b :: t)).2) k
      rw [g1, fin]
      intro hc
      have := congrArg List.length hc
      have h3 := trimRight_length y.length y
      simp at g2 this
      omega
    | false =>
      simp only [Bool.false_eq_true, if_false, reduceCtorEq, true_and, false_or]
      rw [fin, show (b :: t).length = t.length + 1 from rfl, trimRightAux]
      · cases h2 : isSpaceRune (decodeLastRune (b :: t)).1 with
        | true =>
          simp only [if_true, reduceCtorEq, iff_false]
          intro hc
          have := congrArg List.length hc
          have h3 := trimRight_length t.length (List.take ((b :: t).length - (decodeLastRune (b :: t)).2) (b :: t))
          have h4 := decodeLastRune_width b t
          simp at h3 this
          omega
        | false => simp
      · simp

end Verif
