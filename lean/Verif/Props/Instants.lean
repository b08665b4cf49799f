import Verif.Props.ZeroDates
/-!
# C93: the instants of TIMESTAMP columns
-/

namespace Verif.Props
open Verif Spec

/-- How a server turns a clock reading into an instant, in a session with the time zone `zone`: an instant with this reading, whenever there is
one.  (If there are several, it takes one of them.) -/
structure Session (zone : Nat → Int) where
  instant : Civil → Option Nat
  right : ∀ c t, instant c = some t → (t : Int) + zone t = c.epoch
  finds : ∀ (c : Civil) (t : Nat), t < 2 ^ 32 → (t : Int) + zone t = c.epoch → (instant c).isSome = true

/-- the instant that the session makes of what is printed for a TIMESTAMP column -/
def Session.restored {zone : Nat → Int} (s : Session zone) (t : Nat) (rest : Bytes) : Option Nat :=
  ((parseTimeStamp zone (beEnc 4 t ++ rest)).bind readMoment).bind s.instant

/-- a time zone, at an instant -/
def ZoneAt (zone : Nat → Int) (t : Nat) : Prop := -86400 ≤ zone t ∧ zone t ≤ 86400

/-- **C93**, as stated: what is printed for a TIMESTAMP column is, in a session with the time zone of the tool, the stored instant. -/
def C93_statement : Prop :=
  ∀ (zone : Nat → Int) (s : Session zone) (t : Nat) (rest : Bytes), (∀ t, ZoneAt zone t) → 1 ≤ t → t < 2 ^ 32 → s.restored t rest = some t

/-- **C93, exactly:** the instant comes back if and only if its clock reading is from one o'clock to before one in the afternoon, and the session
takes it for this reading. -/
theorem C93_iff (zone : Nat → Int) (s : Session zone) (t : Nat) (c : Civil) (rest : Bytes) (ht : t < 2 ^ 32) (hz : ZoneAt zone t) (hc : c.Valid)
    (he : c.epoch = t + zone t) : s.restored t rest = some t ↔ (1 ≤ c.hour ∧ c.hour ≤ 12) ∧ s.instant c = some t := by
  obtain ⟨c', v, e, p⟩ := C11_timestamp_12_hour_partial zone t rest ht hz.1 hz.2
  cases epoch_inj hc v (he.trans e.symm)
  obtain ⟨k1, k2, k3, k4, k5, k6, k7, k8, k9⟩ := hc
  have hd := daysIn_le c.year c.month
  have hh : (if c.hour % 12 = 0 then 12 else c.hour % 12) ≤ 12 := by split <;> omega
  unfold Session.restored
  rw [p, Option.bind_some, read_text (c := clock12 c) (show c.year < 10000 by omega) (show c.month < 100 by omega) (show c.day < 100 by omega)
    (show (if c.hour % 12 = 0 then 12 else c.hour % 12) < 100 by omega) (show c.min < 100 by omega) (show c.sec < 100 by omega), Option.bind_some]
  constructor
  · intro h
    have hv : (clock12 c).Valid := ⟨k1, k2, k3, k4, k5, k6, show (if c.hour % 12 = 0 then 12 else c.hour % 12) < 24 by omega, k8, k9⟩
    have hcc : clock12 c = c := epoch_inj hv ⟨k1, k2, k3, k4, k5, k6, k7, k8, k9⟩ ((s.right _ _ h).symm.trans e.symm)
    rw [hcc] at h
    have := congrArg Civil.hour hcc
    change (if c.hour % 12 = 0 then 12 else c.hour % 12) = c.hour at this
    refine ⟨?_, h⟩
    split at this <;> omega
  · rintro ⟨h1, h2⟩
    have : clock12 c = c := by
      unfold clock12
      have : (if c.hour % 12 = 0 then 12 else c.hour % 12) = c.hour := by split <;> omega
      rw [this]
    rw [this, h2]

/-- **C93 (partial):** true of the instants whose clock reading is from one o'clock to before one in the afternoon, if no other instant has the
same reading.  (Missing, and false: other hours; hours that the clock shows twice.) -/
theorem C93_instant_partial (zone : Nat → Int) (s : Session zone) (t : Nat) (c : Civil) (rest : Bytes) (ht : t < 2 ^ 32) (hz : ZoneAt zone t)
    (hc : c.Valid) (he : c.epoch = t + zone t) (hh : 1 ≤ c.hour ∧ c.hour ≤ 12) (hu : ∀ u : Nat, (u : Int) + zone u = t + zone t → u = t) :
    s.restored t rest = some t := by
  refine (C93_iff zone s t c rest ht hz hc he).mpr ⟨hh, ?_⟩
  have := s.finds c t ht he.symm
  cases hi : s.instant c with
  | none => rw [hi] at this; cases this
  | some u => rw [hu u ((s.right c u hi).trans he)]

/-- **Hours that the clock shows twice:** of two instants with the same clock reading at most one comes back, whatever is done with what is
printed. -/
theorem C93_overlap (zone : Nat → Int) (t u : Nat) (rest rest' : Bytes) (ht : t < 2 ^ 32) (hu : u < 2 ^ 32) (hz : ZoneAt zone t) (hz' : ZoneAt zone u)
    (h : (t : Int) + zone t = u + zone u) (hne : t ≠ u) (back : Bytes → Option Nat) :
    ¬ ((parseTimeStamp zone (beEnc 4 t ++ rest)).bind back = some t ∧ (parseTimeStamp zone (beEnc 4 u ++ rest')).bind back = some u) := by
  obtain ⟨c, v, e, p⟩ := C11_timestamp_12_hour_partial zone t rest ht hz.1 hz.2
  obtain ⟨c', v', e', p'⟩ := C11_timestamp_12_hour_partial zone u rest' hu hz'.1 hz'.2
  cases epoch_inj v v' (e.trans (h.trans e'.symm))
  rintro ⟨h1, h2⟩
  rw [p] at h1
  rw [p', h1] at h2
  exact hne (Option.some.inj h2)

/-! ## Examples -/

/-- the clock is put back by one hour at the instant 1000000 (13:46:40 on the twelfth of January 1970, UTC) -/
def winter (t : Nat) : Int := if t < 1000000 then 3600 else 0

theorem winter_at (t : Nat) : ZoneAt winter t := by
  unfold ZoneAt winter
  split <;> decide

/-- a session that takes the later instant -/
def winterSession : Session winter where
  instant c := if 1000000 ≤ c.epoch then some c.epoch.toNat else if 3600 ≤ c.epoch ∧ c.epoch < 1003600 then some (c.epoch - 3600).toNat else none
  right := by
    intro c t h
    unfold winter
    split at h
    · injection h with h
      rw [if_neg (by omega)]
      omega
    · split at h
      · injection h with h
        rw [if_pos (by omega)]
        omega
      · cases h
  finds := by
    intro c t _ h
    unfold winter at h
    split at h
    · split
      · rfl
      · rw [if_pos (by omega)]
        rfl
    · rw [if_pos (by omega)]
      rfl

/-- **C93 is false:** the clock shows 13:46:40 twice, and the session takes one of the two instants.  (It is false for each instant in the
afternoon, too: `C93_iff`.) -/
theorem C93_false : ¬ C93_statement := by
  intro h
  refine C93_overlap winter 996400 1000000 [] [] (by decide) (by decide) (winter_at _) (winter_at _) (by decide) (by decide)
    (fun x => (readMoment x).bind winterSession.instant) ⟨?_, ?_⟩
  · have := h winter winterSession 996400 [] winter_at (by decide) (by decide)
    rw [Session.restored, Option.bind_assoc] at this
    exact this
  · have := h winter winterSession 1000000 [] winter_at (by decide) (by decide)
    rw [Session.restored, Option.bind_assoc] at this
    exact this

/-- the hypotheses of `C93_instant_partial`: nine o'clock on the first of January 1970, in winter -/
example : winterSession.restored 28800 [7] = some 28800 :=
  C93_instant_partial winter winterSession 28800 ⟨1970, 1, 1, 9, 0, 0⟩ [7] (by decide) (winter_at _) (by decide) (by decide) (by decide) (by
    intro u hu
    unfold winter at hu
    split at hu
    · rw [if_pos (by decide)] at hu
      omega
    · rw [if_pos (by decide)] at hu
      omega)

/-- … and of `C93_iff`: nine o'clock in the evening -/
example : ¬ winterSession.restored 72000 [7] = some 72000 := fun h =>
  absurd ((C93_iff winter winterSession 72000 ⟨1970, 1, 1, 21, 0, 0⟩ [7] (by decide) (winter_at _) (by decide) (by decide)).mp h).1 (by decide)

end Verif.Props
