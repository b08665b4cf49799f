import Verif.Props.Exact
/-!
# C94: string literals under other settings of the session
-/

namespace Verif.Props
open Verif Spec

/-! ## Two settings -/

/-- Read a string literal after its opening quote with the SQL mode NO_BACKSLASH_ESCAPES: only two adjacent quotes are special. -/
def lexPlain : Bytes → Option (Bytes × Bytes)
  | [] => none
  | 39 :: 39 :: t => (lexPlain t).map fun r => (39 :: r.1, r.2)
  | 39 :: t => some ([], t)
  | c :: t => (lexPlain t).map fun r => (c :: r.1, r.2)

/-- A character set whose characters have one or two bytes, such as GBK, Big5 or SJIS: which bytes begin a character of two, and which end it. -/
structure TwoByte where
  lead : UInt8 → Bool
  trail : UInt8 → Bool
  lead_high : ∀ b, lead b = true → 128 ≤ b.toNat
  /-- no quote ends a character -/
  trail_quote : trail 39 = false

/-- Read a string literal after its opening quote if the client uses the character set: the second byte of a character is not special.  (`fuel`
is at least the length of the text.) -/
def lexTwo (cs : TwoByte) : Nat → Bytes → Option (Bytes × Bytes)
  | 0, _ => none
  | _ + 1, [] => none
  | fuel + 1, c :: t =>
    match t with
    | [] => if c = 39 then some ([], []) else none
    | d :: u =>
      if cs.lead c && cs.trail d then (lexTwo cs fuel u).map fun r => (c :: d :: r.1, r.2)
      else if c = 39 then (if d = 39 then (lexTwo cs fuel u).map fun r => (39 :: r.1, r.2) else some ([], t))
      else if c = 92 then (lexTwo cs fuel u).map fun r => (unescape d ++ r.1, r.2)
      else (lexTwo cs fuel t).map fun r => (c :: r.1, r.2)

def GBK : TwoByte where
  lead b := 0x81 ≤ b.toNat && b.toNat ≤ 0xFE
  trail b := (0x40 ≤ b.toNat && b.toNat ≤ 0x7E) || (0x80 ≤ b.toNat && b.toNat ≤ 0xFE)
  lead_high b h := by
    simp only [Bool.and_eq_true, decide_eq_true_eq] at h
    omega
  trail_quote := by decide

/-- **C94**, as stated: a string is read back from its literal with the SQL mode NO_BACKSLASH_ESCAPES, and in every character set of the client. -/
def C94_statement : Prop :=
  ∀ s rest : Bytes, s ≠ b! "0001-01-01T00:00:00Z" → rest.head? ≠ some 39 →
    lexPlain (escapeValue s ++ 39 :: rest) = some (s, rest) ∧
    ∀ cs : TwoByte, lexTwo cs (escapeValue s ++ 39 :: rest).length (escapeValue s ++ 39 :: rest) = some (s, rest)

/-- the characters that are printed with a backslash: NUL, newline, carriage return, quotes, backslash, and Control-Z -/
def backslashed : Bytes := [0, 10, 13, 39, 34, 92, 26]

theorem esc_backslashed (b : UInt8) : (b ∈ backslashed ∧ ∃ c, escByte b = [92, c] ∧ (b = 92 → c = 92)) ∨ (b ∉ backslashed ∧ escByte b = [b]) := by
  have hx : ∀ x : UInt8, b.toNat = x.toNat → b = x := fun x h => UInt8.toNat_inj.mp h
  unfold escByte escRune
  by_cases h0 : b.toNat = 0
  · rw [hx 0 h0]; exact .inl ⟨by decide, _, rfl, by decide⟩
  by_cases h1 : b.toNat = 10
  · rw [hx 10 h1]; exact .inl ⟨by decide, _, rfl, by decide⟩
  by_cases h2 : b.toNat = 13
  · rw [hx 13 h2]; exact .inl ⟨by decide, _, rfl, by decide⟩
  by_cases h3 : b.toNat = 92
  · rw [hx 92 h3]; exact .inl ⟨by decide, _, rfl, by decide⟩
  by_cases h4 : b.toNat = 39
  · rw [hx 39 h4]; exact .inl ⟨by decide, _, rfl, by decide⟩
  by_cases h5 : b.toNat = 34
  · rw [hx 34 h5]; exact .inl ⟨by decide, _, rfl, by decide⟩
  by_cases h6 : b.toNat = 26
  · rw [hx 26 h6]; exact .inl ⟨by decide, _, rfl, by decide⟩
  right
  refine ⟨fun hm => ?_, by rw [if_neg h0, if_neg h1, if_neg h2, if_neg h3, if_neg h4, if_neg h5, if_neg h6]; rfl⟩
  simp only [backslashed, List.mem_cons, List.not_mem_nil, or_false] at hm
  rcases hm with rfl | rfl | rfl | rfl | rfl | rfl | rfl
  · exact h0 rfl
  · exact h1 rfl
  · exact h2 rfl
  · exact h4 rfl
  · exact h5 rfl
  · exact h3 rfl
  · exact h6 rfl

/-! ## NO_BACKSLASH_ESCAPES -/

/-- how a string must be written in this mode -/
def doubled (b : UInt8) : Bytes := if b = 39 then [39, 39] else [b]

theorem lexPlain_inv {x v r : Bytes} (h : lexPlain x = some (v, r)) : x = v.flatMap doubled ++ 39 :: r := by
  fun_induction lexPlain x generalizing v with
  | case1 => cases h
  | case2 t ih =>
    obtain ⟨⟨v', r'⟩, h1, h2⟩ := Option.map_eq_some_iff.mp h
    cases h2
    rw [ih h1]
    rfl
  | case3 t _ =>
    cases h
    rfl
  | case4 c t h1 h2 ih =>
    obtain ⟨⟨v', r'⟩, h3, h4⟩ := Option.map_eq_some_iff.mp h
    cases h4
    have hc : c ≠ 39 := by
      rintro rfl
      exact h2 rfl
    rw [ih h3, List.flatMap_cons, doubled, if_neg hc]
    rfl

theorem lexPlain_of {v r : Bytes} (hr : r.head? ≠ some 39) : lexPlain (v.flatMap doubled ++ 39 :: r) = some (v, r) := by
  induction v with
  | nil =>
    cases r with
    | nil => rfl
    | cons b r =>
      have : b ≠ 39 := fun e => hr (by rw [e]; rfl)
      rw [List.flatMap_nil, List.nil_append, lexPlain.eq_def]
      split <;> simp_all
  | cons c v ih =>
    rw [List.flatMap_cons, List.append_assoc, doubled]
    split
    · rename_i hc
      subst hc
      rw [List.cons_append, List.cons_append, List.nil_append, lexPlain, ih]
      rfl
    · rename_i hc
      rw [List.singleton_append, lexPlain.eq_def]
      split <;> simp_all

theorem doubled_length_le (s : Bytes) : (s.flatMap doubled).length ≤ (s.flatMap escByte).length := by
  induction s with
  | nil => exact Nat.le_refl _
  | cons b s ih =>
    rw [List.flatMap_cons, List.flatMap_cons, List.length_append, List.length_append]
    have : (doubled b).length ≤ (escByte b).length := by
      unfold doubled
      rcases esc_backslashed b with ⟨_, c, e, _⟩ | ⟨hn, e⟩
      · rw [e]
        split <;> simp
      · rw [e, if_neg (by rintro rfl; exact hn (by decide))]
        exact Nat.le_refl _
    omega

def escByteLength (s : Bytes) : Nat := (s.flatMap escByte).length

theorem esc_eq_doubled (s : Bytes) : s.flatMap escByte = s.flatMap doubled ↔ ∀ b ∈ s, b ∉ backslashed := by
  induction s with
  | nil => simp
  | cons b s ih =>
    rw [List.flatMap_cons, List.flatMap_cons, List.forall_mem_cons]
    rcases esc_backslashed b with ⟨hm, c, e, hc⟩ | ⟨hn, e⟩
    · refine ⟨fun h => ?_, fun h => absurd hm h.1⟩
      rw [e] at h
      unfold doubled at h
      split at h
      · rename_i h39
        injection h with h _
        exact absurd h (by decide)
      · rename_i h39
        injection h with h1 h2
        have hl : (escByteLength s).succ = (s.flatMap doubled).length := congrArg List.length h2
        have hle := doubled_length_le s
        exact absurd hl (by unfold escByteLength; omega)
    · have h39 : b ≠ 39 := by rintro rfl; exact hn (by decide)
      rw [e, doubled, if_neg h39, List.append_cancel_left_eq, ih]
      exact ⟨fun h => ⟨hn, h⟩, fun h => h.2⟩

/-- **C94, NO_BACKSLASH_ESCAPES, exactly:** a string is read back if and only if nothing in it is printed with a backslash. -/
theorem C94_plain_iff (s rest : Bytes) (hs : s ≠ b! "0001-01-01T00:00:00Z") (h : rest.head? ≠ some 39) :
    lexPlain (escapeValue s ++ 39 :: rest) = some (s, rest) ↔ ∀ b ∈ s, b ∉ [0, 10, 13, 39, 34, 92, 26] := by
  rw [escapeValue_ne hs]
  constructor
  · intro e
    exact (esc_eq_doubled s).mp (List.append_cancel_right (lexPlain_inv e))
  · intro e
    rw [(esc_eq_doubled s).mpr e]
    exact lexPlain_of h

/-! ## Characters of two bytes -/

/-- No first byte of a character is followed by something that is printed with a backslash. -/
def Separate (cs : TwoByte) : Bytes → Bool
  | [] => true
  | [_] => true
  | c :: d :: t =>
    if cs.lead c then
      if cs.trail d then !backslashed.contains d && Separate cs t else !backslashed.contains d && Separate cs (d :: t)
    else Separate cs (d :: t)

theorem lexTwo_close (cs : TwoByte) (fuel : Nat) (rest : Bytes) (h : rest.head? ≠ some 39) : lexTwo cs (fuel + 1) (39 :: rest) = some ([], rest) := by
  cases rest with
  | nil => rfl
  | cons d u =>
    rw [lexTwo]
    have hd : d ≠ 39 := fun e => h (by rw [e]; rfl)
    have hl : cs.lead 39 = false := by
      cases hl : cs.lead 39 with
      | false => rfl
      | true => exact absurd (cs.lead_high 39 hl) (by decide)
    simp [hl, hd]

theorem lexTwo_escaped (cs : TwoByte) (s rest : Bytes) (hs : Separate cs s = true) (h : rest.head? ≠ some 39) (fuel : Nat)
    (hf : (s.flatMap escByte ++ 39 :: rest).length ≤ fuel) : lexTwo cs fuel (s.flatMap escByte ++ 39 :: rest) = some (s, rest) := by
  have hlow : ∀ b : UInt8, b.toNat < 128 → cs.lead b = false := by
    intro b hb
    cases hl : cs.lead b with
    | false => rfl
    | true => exact absurd (cs.lead_high b hl) (by omega)
  have single : ∀ (b d : UInt8) (u : Bytes) (fuel : Nat), b ∉ backslashed → (cs.lead b && cs.trail d) = false →
      lexTwo cs (fuel + 1) (b :: d :: u) = (lexTwo cs fuel (d :: u)).map fun r => (b :: r.1, r.2) := by
    intro b d u fuel hb hl
    have h1 : b ≠ 39 := by rintro rfl; exact hb (by decide)
    have h2 : b ≠ 92 := by rintro rfl; exact hb (by decide)
    rw [lexTwo]
    simp [hl, h1, h2]
  have quoteFirst : ∀ t : Bytes, ∃ d u, t.flatMap escByte ++ 39 :: rest = d :: u := by
    intro t
    cases hx : t.flatMap escByte ++ 39 :: rest with
    | nil => simp at hx
    | cons d u => exact ⟨d, u, rfl⟩
  fun_induction Separate cs s generalizing fuel with
  | case1 =>
    cases fuel with
    | zero => simp at hf
    | succ fuel => exact lexTwo_close cs fuel rest h
  | case2 b =>
    rw [List.flatMap_cons, List.flatMap_nil, List.append_nil] at hf ⊢
    rcases esc_backslashed b with ⟨hm, c, e, hc⟩ | ⟨hn, e⟩
    · rw [e] at hf ⊢
      match fuel, hf with
      | fuel + 2, _ =>
        rcases escByte_cases b with ⟨e', h1, h2⟩ | ⟨c', e', hu⟩
        · rw [e] at e'; cases e'
        · rw [e] at e'
          injection e' with _ e'
          injection e' with e'
          subst e'
          show lexTwo cs (fuel + 2) (92 :: c :: 39 :: rest) = _
          rw [lexTwo]
          rw [hlow 92 (by decide), lexTwo_close cs fuel rest h]
          simp [hu]
      | 0, hf => simp at hf
      | 1, hf => simp at hf
    · rw [e] at hf ⊢
      match fuel, hf with
      | fuel + 2, _ =>
        rw [List.singleton_append, single b 39 rest (fuel + 1) hn (by rw [cs.trail_quote, Bool.and_false]), lexTwo_close cs fuel rest h]
        rfl
      | 0, hf => simp at hf
      | 1, hf => simp at hf
  | case3 c d t hl ht ih =>
    rw [Bool.and_eq_true, Bool.not_eq_true', List.contains_eq_mem, decide_eq_false_iff_not] at hs
    have hc : escByte c = [c] := by
      rcases esc_backslashed c with ⟨hm, _⟩ | ⟨_, e⟩
      · have := cs.lead_high c hl
        simp only [backslashed, List.mem_cons, List.not_mem_nil, or_false] at hm
        rcases hm with rfl | rfl | rfl | rfl | rfl | rfl | rfl <;> simp at this
      · exact e
    have hd : escByte d = [d] := by
      rcases esc_backslashed d with ⟨hm, _⟩ | ⟨_, e⟩
      · exact absurd hm hs.1
      · exact e
    rw [List.flatMap_cons, List.flatMap_cons, hc, hd] at hf ⊢
    match fuel, hf with
    | fuel + 1, hf =>
      show lexTwo cs (fuel + 1) (c :: d :: (t.flatMap escByte ++ 39 :: rest)) = _
      rw [lexTwo]
      rw [hl, ht]
      simp only [Bool.and_self, if_true]
      rw [ih hs.2 fuel (by simp at hf ⊢; omega)]
      rfl
    | 0, hf => simp at hf
  | case4 c d t hl ht ih =>
    rw [Bool.and_eq_true, Bool.not_eq_true', List.contains_eq_mem, decide_eq_false_iff_not] at hs
    have hcn : c ∉ backslashed := by
      intro hm
      have := cs.lead_high c hl
      simp only [backslashed, List.mem_cons, List.not_mem_nil, or_false] at hm
      rcases hm with rfl | rfl | rfl | rfl | rfl | rfl | rfl <;> simp at this
    have hc : escByte c = [c] := by
      rcases esc_backslashed c with ⟨hm, _⟩ | ⟨_, e⟩
      · exact absurd hm hcn
      · exact e
    have hd : escByte d = [d] := by
      rcases esc_backslashed d with ⟨hm, _⟩ | ⟨_, e⟩
      · exact absurd hm hs.1
      · exact e
    rw [List.flatMap_cons, hc] at hf ⊢
    match fuel, hf with
    | fuel + 1, hf =>
      have e : (d :: t).flatMap escByte ++ 39 :: rest = d :: (t.flatMap escByte ++ 39 :: rest) := by rw [List.flatMap_cons, hd]; rfl
      rw [List.append_assoc, List.singleton_append, e, single c d _ fuel hcn (by rw [hl]; simpa using ht), ← e, ih hs.2 fuel (by simp at hf ⊢; omega)]
      rfl
    | 0, hf => simp at hf
  | case5 c d t hl ih =>
    have hl' : cs.lead c = false := by simpa using hl
    rw [List.flatMap_cons] at hf ⊢
    rcases esc_backslashed c with ⟨hm, c', e, hc⟩ | ⟨hn, e⟩
    · rw [e] at hf ⊢
      match fuel, hf with
      | fuel + 1, hf =>
        rcases escByte_cases c with ⟨e', h1, h2⟩ | ⟨c'', e', hu⟩
        · rw [e] at e'; cases e'
        · rw [e] at e'
          injection e' with _ e'
          injection e' with e'
          subst e'
          rw [List.append_assoc]
          show lexTwo cs (fuel + 1) (92 :: c' :: ((d :: t).flatMap escByte ++ 39 :: rest)) = _
          rw [lexTwo]
          rw [hlow 92 (by decide), ih hs fuel (by simp at hf ⊢; omega)]
          simp [hu]
      | 0, hf => simp at hf
    · rw [e] at hf ⊢
      match fuel, hf with
      | fuel + 1, hf =>
        obtain ⟨x, u, hx⟩ := quoteFirst (d :: t)
        rw [List.append_assoc, List.singleton_append, hx, single c x u fuel hn (by rw [hl', Bool.false_and]), ← hx, ih hs fuel (by simp at hf ⊢; omega)]
        rfl
      | 0, hf => simp at hf

/-- **C94 (partial), character sets:** a string is read back if no first byte of a character is followed by a character that is printed with a
backslash.  (Missing, and false in general: other strings, see `C94_leaves`.) -/
theorem C94_charset_partial (cs : TwoByte) (s rest : Bytes) (hs : s ≠ b! "0001-01-01T00:00:00Z") (h : rest.head? ≠ some 39)
    (hsep : Separate cs s = true) : lexTwo cs (escapeValue s ++ 39 :: rest).length (escapeValue s ++ 39 :: rest) = some (s, rest) := by
  rw [escapeValue_ne hs]
  exact lexTwo_escaped cs s rest hsep h _ (Nat.le_refl _)

/-- **What else can happen:** a first byte followed by a quote in a value ends the literal, in every character set in which a backslash can be the
second byte of a character; what follows in the value is then outside of the literal.  (The three bytes E4 BD A0, one character in utf8, followed by
a quote are such a value for GBK.) -/
theorem C94_leaves (cs : TwoByte) (a : UInt8) (t rest : Bytes) (ha : cs.lead a = true) (hb : cs.trail 92 = true) (ht : t.head? ≠ some 39)
    (hne : t ≠ []) (fuel : Nat) : escapeValue (a :: 39 :: t) = a :: 92 :: 39 :: t.flatMap escByte ∧
      lexTwo cs (fuel + 2) (escapeValue (a :: 39 :: t) ++ 39 :: rest) = some ([a, 92], t.flatMap escByte ++ 39 :: rest) := by
  have h128 := cs.lead_high a ha
  have e : escapeValue (a :: 39 :: t) = a :: 92 :: 39 :: t.flatMap escByte := by
    rw [escapeValue_ne (by intro h; injection h with h _; rw [h] at h128; exact absurd h128 (by decide)), List.flatMap_cons, escByte_high h128]
    rfl
  refine ⟨e, ?_⟩
  rw [e]
  show lexTwo cs (fuel + 2) (a :: 92 :: 39 :: (t.flatMap escByte ++ 39 :: rest)) = _
  rw [lexTwo]
  rw [ha, hb]
  simp only [Bool.and_self, if_true]
  rw [lexTwo_close cs fuel]
  · rfl
  · cases t with
    | nil => exact absurd rfl hne
    | cons b t =>
      rw [List.flatMap_cons]
      rcases escByte_cases b with ⟨e', h1, h2⟩ | ⟨c', e', hu⟩
      · rw [e']
        exact fun h => h1 (Option.some.inj h)
      · rw [e']
        exact fun h => absurd (Option.some.inj h) (by decide)

/-- **C94 is false:** a string with a newline is read back as another one with NO_BACKSLASH_ESCAPES. -/
theorem C94_false : ¬ C94_statement := by
  intro h
  exact (C94_plain_iff [10] [] (by decide) (by decide)).mp (h [10] [] (by decide) (by decide)).1 10 (by decide) (by decide)

/-- the hypotheses of `C94_plain_iff` and `C94_charset_partial`: a string with characters of three bytes; with a quote behind them it is read as
something else in GBK -/
example : lexPlain (escapeValue (b! "Ann") ++ b! "')") = some (b! "Ann", b! ")") ∧
    lexTwo GBK 12 (escapeValue [0xE4, 0xBD, 0xA0, 65, 39] ++ b! "')") = some ([0xE4, 0xBD, 0xA0, 65, 39], b! ")") :=
  ⟨(C94_plain_iff (b! "Ann") (b! ")") (by decide) (by decide)).mpr (by decide),
    by
      have := C94_charset_partial GBK [0xE4, 0xBD, 0xA0, 65, 39] (b! ")") (by decide) (by decide) (by decide)
      revert this
      decide⟩

/-- a statement in a value, behind the last byte of a character -/
example : lexTwo GBK 60 (escapeValue (0xA0 :: 39 :: b! "; drop table t; -- ") ++ b! "')") = some ([0xA0, 92], b! "; drop table t; -- ')") :=
  (C94_leaves GBK 0xA0 (b! "; drop table t; -- ") (b! ")") (by decide) (by decide) (by decide) (by decide) 58).2

end Verif.Props
