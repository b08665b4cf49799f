import Verif.Proofs.Redundant
import Verif.Spec.Chain
/-! Pages built by writing bytes at given offsets; used for the concrete pages of examples and counterexamples. -/

namespace Verif
open Spec

/-- `n` bytes at offset `o` -/
def sub (d : Bytes) (o n : Nat) : Bytes := (d.drop o).take n

/-- write `e` at offset `o` -/
def poke (d : Bytes) (o : Nat) (e : Bytes) : Bytes := d.take o ++ e ++ d.drop (o + e.length)

/-- an empty page -/
def blank : Bytes := List.replicate 16384 0

theorem blank_length : blank.length = 16384 := List.length_replicate

theorem poke_length (d : Bytes) (o : Nat) (e : Bytes) (h : o + e.length ≤ d.length) : (poke d o e).length = d.length := by
  unfold poke
  simp only [List.length_append, List.length_take, List.length_drop]
  omega

theorem sub_poke (d : Bytes) (o : Nat) (e : Bytes) (h : o ≤ d.length) (n : Nat) (hn : n = e.length) :
    sub (poke d o e) o n = e := by
  subst hn
  unfold sub poke
  rw [List.append_assoc, List.drop_left' (by simp; omega), List.take_left' rfl]

theorem sub_poke_before (d : Bytes) (o : Nat) (e : Bytes) (o' n : Nat) (h : o' + n ≤ o) (hd : o ≤ d.length) :
    sub (poke d o e) o' n = sub d o' n := by
  unfold sub poke
  rw [List.append_assoc, List.drop_append_of_le_length (by simp; omega), List.take_append_of_le_length (by simp; omega),
    List.drop_take, List.take_take]
  congr 1; omega

theorem sub_poke_after (d : Bytes) (o : Nat) (e : Bytes) (o' n : Nat) (h : o + e.length ≤ o') (hd : o ≤ d.length) :
    sub (poke d o e) o' n = sub d o' n := by
  unfold sub poke
  have hl : (d.take o ++ e).length = o + e.length := by simp; omega
  have : o' = (d.take o ++ e).length + (o' - (o + e.length)) := by omega
  rw [this, List.drop_append, List.drop_of_length_le (by omega), List.nil_append, List.drop_drop]
  congr 2
  omega

theorem sub_blank (o n : Nat) (h : o + n ≤ 16384) : sub blank o n = List.replicate n 0 := by
  unfold sub blank
  rw [List.drop_replicate, List.take_replicate]
  congr 1; omega

theorem numAt_sub (d : Bytes) (o w : Nat) : numAt d o w = beVal (sub d o w) := rfl

theorem split_sub (d : Bytes) (o n : Nat) : d = d.take o ++ sub d o n ++ d.drop (o + n) := by
  unfold sub
  rw [← List.drop_drop, List.append_assoc, List.take_append_drop, List.take_append_drop]

/-- the bytes of a REDUNDANT record -/
def oldRecord (w : Nat) (row : List OldCell) (next : Nat) : Bytes :=
  endInfos w 0 row ++ [0, 0, 0] ++ [if w = 1 then 1 else 0] ++ beEnc 2 next

theorem redundantHead_of_sub (d : Bytes) (o w : Nat) (row : List OldCell) (next : Nat) (hw : w = 1 ∨ w = 2)
    (ho : w * row.length + 6 ≤ o) (hd : o ≤ d.length)
    (h : sub d (o - (w * row.length + 6)) (w * row.length + 6) = oldRecord w row next) : RedundantHead d o w row := by
  refine ⟨d.take (o - (w * row.length + 6)), [0, 0, 0], if w = 1 then 1 else 0, beEnc 2 next, d.drop o, rfl,
    beEnc_length' 2 next, ?_, ?_, ?_⟩
  · rcases hw with rfl | rfl <;> decide
  · conv => lhs; rw [split_sub d (o - (w * row.length + 6)) (w * row.length + 6), h]
    rw [show o - (w * row.length + 6) + (w * row.length + 6) = o by omega]
    simp only [oldRecord, List.append_assoc]
  · simp only [List.length_append, List.length_take, endInfos_length, List.length_cons, List.length_nil, beEnc_length']
    omega

theorem redundantAt_of_sub (d : Bytes) (o w : Nat) (row : List OldCell) (next : Nat) (hw : w = 1 ∨ w = 2)
    (ho : w * row.length + 6 ≤ o) (hd : o + (oldData row).length ≤ d.length)
    (h : sub d (o - (w * row.length + 6)) (w * row.length + 6 + (oldData row).length) = oldRecord w row next ++ oldData row) :
    RedundantAt d o w row := by
  refine ⟨d.take (o - (w * row.length + 6)), [0, 0, 0], if w = 1 then 1 else 0, beEnc 2 next,
    d.drop (o + (oldData row).length), rfl, beEnc_length' 2 next, ?_, ?_, ?_⟩
  · rcases hw with rfl | rfl <;> decide
  · conv => lhs; rw [split_sub d (o - (w * row.length + 6)) (w * row.length + 6 + (oldData row).length), h]
    rw [show o - (w * row.length + 6) + (w * row.length + 6 + (oldData row).length) = o + (oldData row).length by omega]
    simp only [oldRecord, List.append_assoc]
  · simp only [List.length_append, List.length_take, endInfos_length, List.length_cons, List.length_nil, beEnc_length']
    omega

/-- the bytes of a COMPACT record, up to its data -/
def newRecord (row : Row) (next : Nat) : Bytes := compactPrefix row ([0, 0, 0] ++ beEnc 2 next)

theorem compactAt_of_sub (d : Bytes) (o : Nat) (row : Row) (next n : Nat) (hn : n = (newRecord row next).length)
    (ho : n < o) (hd : o + (rowData row).length ≤ d.length)
    (h : sub d (o - n) (n + (rowData row).length) = newRecord row next ++ rowData row) : CompactAt d o row := by
  refine ⟨d.take (o - n), [0, 0, 0] ++ beEnc 2 next, d.drop (o + (rowData row).length), ?_, ?_, ?_, ?_⟩
  · intro h0
    have := congrArg List.length h0
    rw [List.length_take, List.length_nil] at this
    omega
  · simp
  · conv => lhs; rw [split_sub d (o - n) (n + (rowData row).length), h]
    rw [show o - n + (n + (rowData row).length) = o + (rowData row).length by omega]
    simp only [newRecord, List.append_assoc]
  · have : (compactPrefix row ([0, 0, 0] ++ beEnc 2 next)).length = n := by rw [hn]; rfl
    rw [List.length_append, this, List.length_take]
    omega

end Verif
