import Verif.Spec.Page
import Mathlib.Logic.Relation
/-!
# Specification: record lists of an index page

From page0page.h and rem0rec.h: the two bytes before the origin of a record hold the position of the next record, relative
to the record (modulo 2^16) in COMPACT pages, absolute in REDUNDANT pages.
-/

namespace Verif.Spec

/-- The top bit of PAGE_N_HEAP marks COMPACT (and DYNAMIC) pages. -/
def isCompact (d : Bytes) : Bool := decide (32768 ≤ numAt d 42 2)

/-- origins of the two system records -/
def infimumAt (compact : Bool) : Nat := if compact then 99 else 101
def supremumAt (compact : Bool) : Nat := if compact then 112 else 116

/-- the next-record field of the record at `o` -/
def link (d : Bytes) (o : Nat) : Nat := numAt d (o - 2) 2

/-- the record that the one at `o` points to -/
def follow (d : Bytes) (compact : Bool) (o : Nat) : Nat := if compact then (o + link d o) % 65536 else link d o

/-- User records lie after the supremum record and before the page trailer. -/
def UserAt (compact : Bool) (o : Nat) : Prop := supremumAt compact < o ∧ o < 16384 - 8

instance (compact : Bool) (o : Nat) : Decidable (UserAt compact o) := inferInstanceAs (Decidable (_ ∧ _))

/-- The records linked after `o` are `os`, in this order; the last one points to the supremum record. -/
inductive Linked (d : Bytes) (compact : Bool) : Nat → List Nat → Prop where
  | last {o} : follow d compact o = supremumAt compact → Linked d compact o []
  | next {o os} : UserAt compact (follow d compact o) → Linked d compact (follow d compact o) os →
      Linked d compact o (follow d compact o :: os)

/-- The free list starting at `o` consists of the records `os`; the last one has link zero. -/
inductive FreeList (d : Bytes) (compact : Bool) : Nat → List Nat → Prop where
  | last {o} : UserAt compact o → link d o = 0 → FreeList d compact o [o]
  | next {o os} : UserAt compact o → link d o ≠ 0 → FreeList d compact (follow d compact o) os →
      FreeList d compact o (o :: os)

/-- One step along the links within the area of user records. -/
def Next (d : Bytes) (compact : Bool) (o o' : Nat) : Prop :=
  o < 16384 - 6 ∧ o ≠ supremumAt compact ∧ link d o ≠ 0 ∧ o' = follow d compact o

/-- the first record visited: the first of the free list or the one that the infimum record points to -/
def firstRecord (d : Bytes) (recovery : Bool) (free : Nat) : Nat :=
  if recovery then free else follow d (isCompact d) (infimumAt (isCompact d))

/-- A chain of links from the record at `o` leads into a cycle. -/
def LeadsToCycle (d : Bytes) (compact : Bool) (o : Nat) : Prop :=
  ∃ x, Relation.ReflTransGen (Next d compact) o x ∧ Relation.TransGen (Next d compact) x x

end Verif.Spec
