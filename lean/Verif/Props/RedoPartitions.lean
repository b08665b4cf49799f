import Verif.Props.RedoNames
import Verif.Props.Partitions
/-!
# C75, C80: names that are not in the dictionary, given to the redo command
-/

namespace Verif.Props
open Verif Spec

/-- Given a table name that no entry of the dictionary has, the redo command prints no statement, whatever the log files hold. -/
theorem redo_unknown (env : Env) (fs : Bytes → File) (a : FromRedo) (spare : Nat) (sys : Bytes) (trs : List TableRow) (crs : List ColumnRow)
    (irs : List IndexRow) (frs : List FieldRow) (hsys : a.sysFile = .ok sys) (hdict : Dictionary sys trs crs irs frs)
    (harr : ∀ t ∈ trs, UsualKeys irs frs crs t.id) (hne : a.table ≠ []) (hno : ∀ t ∈ trs, (splitName t.name).2 ≠ a.table) (out : Out) :
    ∃ (c : R Unit Unit) (lines : List Bytes), fromRedoFile env fs a spare out = withOutput c (out ++ lines) ∧
      ∀ line ∈ lines, ¬ (b! "update `") <+: line := by
  obtain ⟨c, ls, h1, h2⟩ := C84_command env fs a spare out
  refine ⟨c, _, h2 a.db a.table, ?_⟩
  intro line hline
  obtain ⟨l, hl, rfl⟩ := List.mem_map.mp hline
  obtain ⟨hl, hp⟩ := List.mem_filter.mp hl
  have hp : l.Passes a.db a.table := of_decide_eq_true hp
  obtain ⟨s, hs, hprop⟩ := h1 l hl
  cases ht : l.table with
  | none =>
    unfold Line.Proper at hprop
    rw [ht] at hprop
    exact hprop
  | some t =>
    exfalso
    unfold Line.Proper at hprop
    rw [ht] at hprop
    obtain ⟨⟨id, hid⟩, -⟩ := hprop
    obtain ⟨lay, hload, -⟩ := loads_arranged env sys trs crs irs frs hdict.file hdict.indexes harr
    obtain ⟨tables, dict, g1, g2, g3⟩ := hload out
    rw [hsys, g1] at hs
    injection hs with _ hs
    have e : tables = s.tables := by rw [← hs]
    have := g3 id
    rw [e, hid] at this
    obtain ⟨r, ixs, e1, e2, -⟩ := this
    have hn : t.name = a.table := by
      rcases hp t ht with h | h
      · rcases h.2 with h | h
        · exact absurd h hne
        · exact h
      · exact h.2
    refine hno r (lastWith_some e1).2 ?_
    rw [← hn, e2]
    rfl

/-- **C80 for the redo command:** given the name of a partitioned table, it prints no statement. -/
theorem C80_redo_lost (env : Env) (fs : Bytes → File) (a : FromRedo) (spare : Nat) (part sys : Bytes) (trs : List TableRow) (crs : List ColumnRow)
    (irs : List IndexRow) (frs : List FieldRow) (t : TableRow) (hsys : a.sysFile = .ok sys) (hdict : Dictionary sys trs crs irs frs) (_ht : t ∈ trs)
    (_hname : t.name = a.db ++ b! "/" ++ partitionName a.table part) (harr : ∀ t ∈ trs, UsualKeys irs frs crs t.id) (hne : a.table ≠ [])
    (hno : ∀ t ∈ trs, t.name ≠ a.table ∧ ∀ db, t.name ≠ db ++ b! "/" ++ a.table) (out : Out) :
    ∃ (c : R Unit Unit) (lines : List Bytes), fromRedoFile env fs a spare out = withOutput c (out ++ lines) ∧
      ∀ line ∈ lines, ¬ (b! "update `") <+: line := by
  refine redo_unknown env fs a spare sys trs crs irs frs hsys hdict harr hne (fun u hu he => ?_) out
  rcases hdict.names.2 u hu with h | ⟨db, n, e, h1, h2, h3⟩
  · rw [splitName, if_neg h] at he
    exact (hno u hu).1 he
  · rw [e, splitName_pair _ _ h2 h3] at he
    exact (hno u hu).2 db (by rw [e, ← he])

/-- **C75 for the redo command:** given the name of a table as the user knows it, with a character that MySQL encodes, it prints no statement. -/
theorem C75_redo_silent (env : Env) (fs : Bytes → File) (a : FromRedo) (spare : Nat) (sys : Bytes) (trs : List TableRow) (crs : List ColumnRow)
    (irs : List IndexRow) (frs : List FieldRow) (hsys : a.sysFile = .ok sys) (hdict : Dictionary sys trs crs irs frs)
    (harr : ∀ t ∈ trs, UsualKeys irs frs crs t.id) (hch : ∀ t ∈ trs, ∀ c ∈ t.name, storedChar c = true) (hsp : Special a.table) (out : Out) :
    ∃ (c : R Unit Unit) (lines : List Bytes), fromRedoFile env fs a spare out = withOutput c (out ++ lines) ∧
      ∀ line ∈ lines, ¬ (b! "update `") <+: line := by
  obtain ⟨x, hx, hs⟩ := hsp
  refine redo_unknown env fs a spare sys trs crs irs frs hsys hdict harr (fun e => by rw [e] at hx; cases hx) (fun u hu he => ?_) out
  rw [split_chars u.name (hch u hu) x (.inr (by rw [he]; exact hx))] at hs
  cases hs

/-- the hypotheses of `C80_redo_lost` hold for the partition p0 of shop.t -/
example (env : Env) (fs : Bytes → File) (spare : Nat) (out : Out) : ∃ (c : R Unit Unit) (lines : List Bytes),
    fromRedoFile env fs { shopRedo with sysFile := .ok (namedFile partName), table := b! "t" } spare out = withOutput c (out ++ lines) ∧
      ∀ line ∈ lines, ¬ (b! "update `") <+: line := by
  refine C80_redo_lost env fs _ spare (b! "p0") _ _ _ _ _ ⟨partName, 20, 5⟩ rfl part_dictionary (List.mem_singleton.mpr rfl) (by decide) (named_keys _)
    (by decide) (fun t ht => ?_) out
  cases List.mem_singleton.mp ht
  refine ⟨by show partName ≠ _; decide, fun db h => ?_⟩
  have h : partName = db ++ b! "/" ++ b! "t" := h
  have e := congrArg List.reverse h
  rw [List.reverse_append, List.reverse_append] at e
  have e := congrArg (List.head? ·) e
  exact absurd e (by simp; decide)

/-- and those of `C75_redo_silent` for a table called `my-table` -/
example (env : Env) (fs : Bytes → File) (spare : Nat) (out : Out) : ∃ (c : R Unit Unit) (lines : List Bytes),
    fromRedoFile env fs { shopRedo with table := b! "my-table" } spare out = withOutput c (out ++ lines) ∧
      ∀ line ∈ lines, ¬ (b! "update `") <+: line :=
  C75_redo_silent env fs _ spare _ _ _ _ _ rfl (shop_dictionary (.inl rfl)) shop_arranged (by decide) (by decide) out

end Verif.Props
