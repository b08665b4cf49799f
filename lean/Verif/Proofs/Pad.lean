import Verif.Proofs.Poke
/-! Pages given by their first bytes, filled up with zeros; used for the concrete files of examples. -/

namespace Verif
open Spec

/-- fill up with zeros to the size of a page -/
def pad (p : Bytes) : Bytes := p ++ List.replicate (16384 - p.length) 0

theorem pad_length (p : Bytes) (h : p.length ≤ 16384) : (pad p).length = 16384 := by
  unfold pad
  rw [List.length_append, List.length_replicate]
  omega

theorem numAt_pad (p : Bytes) (o w : Nat) (h : o + w ≤ p.length) : numAt (pad p) o w = numAt p o w := by
  unfold numAt pad
  rw [List.drop_append_of_le_length (by omega), List.take_append_of_le_length (by rw [List.length_drop]; omega)]

theorem link_pad (p : Bytes) (o : Nat) (h : o ≤ p.length) (h2 : 2 ≤ o) : link (pad p) o = link p o :=
  numAt_pad p (o - 2) 2 (by omega)

theorem redundantAt_pad {p : Bytes} {o w : Nat} {row : List OldCell} (h : RedundantAt p o w row) : RedundantAt (pad p) o w row := by
  obtain ⟨pre, h3, flag, h2, post, l3, l2, hf, hp, ho⟩ := h
  refine ⟨pre, h3, flag, h2, post ++ List.replicate (16384 - p.length) 0, l3, l2, hf, ?_, ho⟩
  unfold pad
  generalize List.replicate (16384 - p.length) (0 : UInt8) = z
  rw [hp]
  simp only [List.append_assoc]

theorem compactAt_pad {p : Bytes} {o : Nat} {row : Row} (h : CompactAt p o row) : CompactAt (pad p) o row := by
  obtain ⟨pre, hdr, post, h1, h2, hp, ho⟩ := h
  refine ⟨pre, hdr, post ++ List.replicate (16384 - p.length) 0, h1, h2, ?_, ho⟩
  unfold pad
  generalize List.replicate (16384 - p.length) (0 : UInt8) = z
  rw [hp]
  simp only [List.append_assoc]

end Verif
