import Verif.Proofs.Typed
import Verif.Props.Text
/-!
# Exact conditions

For properties that are false of the code: which values are handled correctly, and that no others are.
-/

namespace Verif.Props
open Verif Spec

theorem beEnc_mod (w n : Nat) : beEnc w (n % 256 ^ w) = beEnc w n := by
  have key : ∀ k m : Nat, k ≤ w → beEnc k (m % 256 ^ w) = beEnc k m := by
    intro k m hk
    induction k with
    | zero => rfl
    | succ k ih =>
      rw [beEnc, beEnc, ih (by omega)]
      have : m % 256 ^ w / 256 ^ k % 256 = m / 256 ^ k % 256 := by
        obtain ⟨j, rfl⟩ : ∃ j, w = k + (1 + j) := ⟨w - k - 1, by omega⟩
        rw [Nat.pow_add, Nat.mod_mul_right_div_self, Nat.pow_add, Nat.pow_one, Nat.mod_mul_right_mod]
      rw [this]
  exact key w n (Nat.le_refl _)

theorem beEnc_beVal (l : Bytes) : beEnc l.length (beVal l) = l := by
  induction l with
  | nil => rfl
  | cons x l ih =>
    have hl := beVal_lt l
    rw [List.length_cons, beEnc, beVal_cons]
    have e1 : (x.toNat * 256 ^ l.length + beVal l) / 256 ^ l.length % 256 = x.toNat := by
      rw [Nat.mul_comm, Nat.mul_add_div (Nat.pow_pos (by decide)), Nat.div_eq_of_lt hl, Nat.add_zero]
      exact Nat.mod_eq_of_lt (u8lt x)
    have e2 : beEnc l.length (x.toNat * 256 ^ l.length + beVal l) = l := by
      rw [← beEnc_mod, Nat.mul_comm, Nat.mul_add_mod, Nat.mod_eq_of_lt hl, ih]
    rw [e1, e2]
    congr 1
    exact UInt8.toNat.inj (by simp)

/-- **C04, exactly.** The number is read correctly if and only if enough bytes follow and the four bytes read for its low word, which begin
too far to the right, happen to be the same as those stored. -/
theorem C04_iff (pre suf : Bytes) (n : Nat) (out : Out) (h : n < 2 ^ 64) :
    matchUllReadComPressed (pre ++ ullCompEnc n ++ suf) (pre.length, out) = .ok n (pre.length + (ullCompEnc n).length, out) ↔
      (compEnc (n / 2 ^ 32)).length ≤ suf.length ∧
        ((beEnc 4 (n % 2 ^ 32) ++ suf).drop (compEnc (n / 2 ^ 32)).length).take 4 = beEnc 4 (n % 2 ^ 32) := by
  by_cases hs : (compEnc (n / 2 ^ 32)).length ≤ suf.length
  · obtain ⟨low, h1, h2, h3⟩ := C04_cursor_and_high_word_partial pre suf n out h hs
    have hl : (((beEnc 4 (n % 2 ^ 32) ++ suf).drop (compEnc (n / 2 ^ 32)).length).take 4).length = 4 := by
      simp only [List.length_take, List.length_drop, List.length_append, beEnc_length]
      omega
    rw [h3]
    constructor
    · intro e
      injection e with e _
      refine ⟨hs, ?_⟩
      have e1 : low = n % 2 ^ 32 := by omega
      have := beEnc_beVal (((beEnc 4 (n % 2 ^ 32) ++ suf).drop (compEnc (n / 2 ^ 32)).length).take 4)
      rw [hl, ← h2, e1] at this
      exact this.symm
    · rintro ⟨_, e⟩
      rw [e, beVal_beEnc (by omega)] at h2
      rw [h2, Nat.div_add_mod']
  · obtain ⟨s, hp⟩ := C04_panics_at_end pre suf n out h (by omega)
    rw [hp]
    exact ⟨fun e => (nomatch e), fun e => absurd e.1 hs⟩

/-- a number that is read correctly, because its low word repeats itself -/
example : matchUllReadComPressed ([9] ++ ullCompEnc (5 * 2 ^ 32 + 0x07070707) ++ [7]) (1, []) = .ok (5 * 2 ^ 32 + 0x07070707) (6, []) :=
  (C04_iff [9] [7] (5 * 2 ^ 32 + 0x07070707) [] (by decide)).mpr (by decide)

/-- **C05, exactly.** -/
theorem C05_iff (n : Nat) (rest : Bytes) (h : n < 2 ^ 64) :
    matchUllReadMuchCompressed (ullMuchEnc n ++ rest) = some (n, none) ↔ n < 2 ^ 32 := by
  constructor
  · intro e
    refine Nat.lt_of_not_le fun hge => ?_
    rw [(C05_high_word_lost n rest hge h).1] at e
    injection e with e
    injection e with e _
    omega
  · exact fun h => (C05_below_2_32_partial n rest h).1

example : ¬ matchUllReadMuchCompressed (ullMuchEnc (2 ^ 40 + 5) ++ [1]) = some (2 ^ 40 + 5, none) :=
  fun h => absurd ((C05_iff _ _ (by decide)).mp h) (by decide)

/-- **C07, exactly.** -/
theorem C07_iff (env : Env) (w n : Nat) (rest : Bytes) (dtype mtype : Nat) (isUnsigned isBinary : Bool) (out : Out)
    (hc : UintCol dtype mtype isUnsigned) (hw : 1 ≤ w ∧ w ≤ 8) (hn : n < 256 ^ w) :
    parseData env dtype mtype (beEnc w n ++ rest) w w isUnsigned isBinary out = .ok (.uint n, isBinary) out ↔
      w ∈ [1, 2, 4, 8] ∨ w = 3 ∧ n < 2 ^ 22 := by
  by_cases h1 : w ∈ [1, 2, 4, 8]
  · exact ⟨fun _ => .inl h1, fun _ => C07_widths_1_2_4_8_partial env w n rest dtype mtype isUnsigned isBinary out hc h1 hn⟩
  by_cases h3 : w = 3
  · subst h3
    rw [C07_width3 env n rest dtype mtype isUnsigned isBinary out hc hn]
    constructor
    · intro e
      injection e with e _
      injection e with e _
      injection e with e
      exact .inr ⟨rfl, by omega⟩
    · rintro (h | ⟨_, h⟩)
      · exact absurd h h1
      · rw [Nat.mod_eq_of_lt h]
  · have h5 : w ∈ [5, 6, 7] := by
      simp only [List.mem_cons, List.not_mem_nil, or_false] at h1 ⊢
      omega
    rw [C07_widths567_panic env w n rest dtype mtype isUnsigned isBinary out hc h5]
    exact ⟨fun e => (nomatch e), fun e => e.elim (fun h => absurd h h1) fun h => absurd h.1 h3⟩

example (env : Env) : ¬ parseData env 6 9 (beEnc 3 0x400001 ++ [1]) 3 3 true false [] = .ok (.uint 0x400001, false) [] :=
  fun h => absurd ((C07_iff env 3 0x400001 [1] 6 9 true false [] (.int 9 (by decide) (by decide)) (by decide) (by decide)).mp h) (by decide)

/-- **C11, exactly.** A timestamp is printed correctly if and only if it is from one o'clock to before one in the afternoon. -/
theorem C11_iff (zone : Nat → Int) (t : Nat) (c : Civil) (rest : Bytes) (ht : t < 2 ^ 32) (hz1 : -86400 ≤ zone t) (hz2 : zone t ≤ 86400)
    (hc : c.Valid) (he : c.epoch = t + zone t) :
    parseTimeStamp zone (beEnc 4 t ++ rest) = some c.text ↔ 1 ≤ c.hour ∧ c.hour ≤ 12 := by
  obtain ⟨c', v, e, p⟩ := C11_timestamp_12_hour_partial zone t rest ht hz1 hz2
  cases epoch_inj hc v (he.trans e.symm)
  have hh := hc.2.2.2.2.2.2.1
  rw [p]
  constructor
  · intro h
    have h := Option.some.inj h
    simp only [Civil.text, clock12, List.append_assoc] at h
    obtain ⟨_, h⟩ := List.append_inj h rfl
    obtain ⟨_, h⟩ := List.append_inj h rfl
    obtain ⟨_, h⟩ := List.append_inj h rfl
    obtain ⟨_, h⟩ := List.append_inj h rfl
    obtain ⟨_, h⟩ := List.append_inj h rfl
    obtain ⟨_, h⟩ := List.append_inj h rfl
    obtain ⟨h, _⟩ := List.append_inj h (by simp)
    have := decEnc_inj (w := 2) (by split <;> omega) (by omega) h
    split at this <;> omega
  · intro h
    have : clock12 c = c := by
      unfold clock12
      have : (if c.hour % 12 = 0 then 12 else c.hour % 12) = c.hour := by split <;> omega
      rw [this]
    rw [this]

/-- ten o'clock in the evening in a zone eight hours ahead -/
example : ¬ parseTimeStamp (fun _ => 28800) (beEnc 4 50400 ++ []) = some (b! "1970-01-01 22:00:00") :=
  fun h => absurd ((C11_iff (fun _ => 28800) 50400 ⟨1970, 1, 1, 22, 0, 0⟩ [] (by decide) (by decide) (by decide) (by decide) (by decide)).mp h) (by decide)

/-- **C13, exactly.** -/
theorem C13_iff (s rest : Bytes) (h : rest.head? ≠ some 39) :
    lexString (escapeValue s ++ 39 :: rest) = some (s, rest) ↔ s ≠ b! "0001-01-01T00:00:00Z" := by
  constructor
  · rintro e rfl
    rw [C13_zero_time] at e
    have := C13_escape_roundtrip_partial [] rest (by decide) h
    rw [show escapeValue [] = [] by decide, e] at this
    exact absurd this (by simp)
  · exact fun hs => C13_escape_roundtrip_partial s rest hs h

end Verif.Props
