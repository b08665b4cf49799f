import Verif.Props.DictWitness
import Verif.Props.KeyOrder
/-!
# C56: exactly which tables are loaded with their columns in stored order
-/

namespace Verif.Props
open Verif Spec

/-- The indexes of a table with these two names are what their names say: PRIMARY is a clustered unique index with at least one field,
GEN_CLUST_INDEX a clustered index that is not unique. -/
def UsualNames (irs : List IndexRow) (id : Nat) : Prop :=
  ∀ x ∈ irs, x.tableId = id → (x.name = b! "PRIMARY" → x.itype % 4 = 3 ∧ 0 < x.nFields) ∧ (x.name = b! "GEN_CLUST_INDEX" → x.itype % 4 = 1)

instance (irs : List IndexRow) (id : Nat) : Decidable (UsualNames irs id) :=
  inferInstanceAs (Decidable (∀ x ∈ irs, x.tableId = id → (x.name = b! "PRIMARY" → x.itype % 4 = 3 ∧ 0 < x.nFields) ∧ (x.name = b! "GEN_CLUST_INDEX" → x.itype % 4 = 1)))

theorem withInternal_inj {id n : Nat} {a b : List Column} (ha : n ≤ a.length) (hb : n ≤ b.length)
    (h : withInternal id n a = withInternal id n b) : a = b := by
  unfold withInternal at h
  rw [List.append_assoc, List.append_assoc] at h
  obtain ⟨h1, h2⟩ := List.append_inj h (by rw [List.length_take, List.length_take]; omega)
  have h2 := List.append_cancel_left h2
  rw [← List.take_append_drop n a, h1, h2, List.take_append_drop]

/-- the columns of a primary key that is not the first column are not where the records have them -/
theorem primary_wrong {irs : List IndexRow} {frs : List FieldRow} {crs : List ColumnRow} {id : Nat} {r : IndexRow} {moved l : List Column}
    (hn : UsualNames irs id) (hc : ClusteredBy irs id r) (hp : r.name = b! "PRIMARY") (hle : r.nFields ≤ (columnsOf crs id).length)
    (hf : (fieldsOf frs r).length ≤ (columnsOf crs id).length) (hm : moveColumns2First (fieldsOf frs r) (columnsOf crs id) = some moved)
    (hl : Layout irs frs id (columnsOf crs id) l) (he : withInternal id r.nFields moved = l) : Handled irs frs crs id := by
  obtain ⟨h3, h0⟩ := (hn r hc.1 hc.2.1).1 hp
  have same : ∀ r', ClusteredIndex irs id r' → r' = r := by
    intro r' h'
    rcases h'.2.2.2 r hc.1 hc.2.1 with h | h
    · exact h.symm
    · omega
  cases hl with
  | generated h' hi => cases same _ h'; omega
  | @key r' h' hi hk hK =>
    cases same _ h'
    obtain ⟨_, h1, h2⟩ := C31_total _ _ hf
    rw [hm] at h1
    injection h1 with h1
    subst h1
    have hco := clusteredOrder_length (fs := fieldsOf frs r) hK.1
    have := withInternal_inj (by omega) (by omega) he
    rcases (C31_iff _ _ hK).mp ⟨_, hm, by rw [this]⟩ with h4 | ⟨f, c, rest, h4, h5, h6⟩
    · rw [h4] at hk
      simp at hk
      omega
    · exact ⟨r, hc, by omega, .inr ⟨hp, by omega, c, rest, h5, by rw [h4, ← h6]; rfl⟩⟩

/-- **C56**, exactly: all tables of SYS_TABLES are loaded, and a table has its columns in stored order if and only if its clustered index
has been generated or is a primary key that is the first column of the table.  So every table with a primary key of two or more columns,
with another first column, or clustered by a unique key, is loaded wrongly. -/
theorem C56_exact (env : Env) (content : Bytes) (trs : List TableRow) (crs : List ColumnRow) (irs : List IndexRow)
    (frs : List FieldRow) (h : SystemFile content trs crs irs frs) (hk : ∀ r ∈ irs, ∃ t ∈ trs, t.id = r.tableId)
    (harr : ∀ t ∈ trs, UsualKeys irs frs crs t.id) (hn : ∀ t ∈ trs, UsualNames irs t.id) :
    ∃ lay, Loads env content trs crs irs frs lay ∧
      ∀ t ∈ trs, ∀ l, Layout irs frs t.id (columnsOf crs t.id) l → (lay t.id = l ↔ Handled irs frs crs t.id) := by
  obtain ⟨lay, h1, h2⟩ := loads_arranged env content trs crs irs frs h hk harr
  refine ⟨lay, h1, fun t ht l hl => ⟨fun he => ?_, fun hh => h2 t ht l (handled_layout hh hl).1⟩⟩
  rcases harr t ht with hs | ⟨r, hc, hg | ⟨hp, h3, h4, h5⟩⟩
  · have := layout_length hl
    rw [← he, h2 t ht _ (.plain hs)] at this
    omega
  · have := (hn t ht r hc.1 hc.2.1).2 hg
    exact ⟨r, hc, by omega, .inl ⟨hg, by omega⟩⟩
  · obtain ⟨moved, hm, _⟩ := C31_total _ _ h4
    rw [h2 t ht _ (.primary hc hp h3 h5 (.other h4 hm))] at he
    exact primary_wrong (hn t ht) hc hp h3 h4 hm hl he

/-- The hypotheses hold for the two files with a primary key; the key `id` is the first column, the key `name` is not. -/
example (env : Env) : ∃ lay, Loads env (shopFile nameKey) shopTables shopColumns (shopIndexes nameKey) (shopFields nameKey) lay ∧
    lay 20 ≠ [shopName, trxColumn 20 1, rollColumn 20 2, shopId] := by
  obtain ⟨lay, h1, h2⟩ := C56_exact env _ _ _ _ _ (shop_system (.inr (.inl rfl))) (by decide) (by
    intro t ht
    cases List.mem_singleton.mp ht
    exact .inr ⟨⟨20, 30, b! "PRIMARY", 1, 3⟩, by decide, .inr ⟨by decide, by decide, by decide, by decide⟩⟩) (by decide)
  refine ⟨lay, h1, fun e => ?_⟩
  obtain ⟨r, hc, _, hr⟩ := (h2 ⟨b! "shop/t", 20, 5⟩ (by decide) _
    (.key (r := ⟨20, 30, b! "PRIMARY", 1, 3⟩) (by decide) (by decide) (by decide) (by decide))).mp e
  cases List.mem_singleton.mp hc.1
  rcases hr with ⟨h3, _⟩ | ⟨_, _, c, rest, h3, h4⟩
  · exact absurd h3 (by decide)
  · rw [show columnsOf shopColumns 20 = [shopId, shopName] by decide] at h3
    injection h3 with h3
    subst h3
    exact absurd h4 (by decide)

end Verif.Props
