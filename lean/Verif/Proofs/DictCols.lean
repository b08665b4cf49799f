import Verif.Proofs.Dict
import Mathlib.Data.List.Nodup
/-!
# Lemmas about the dictionary loader: arranging the columns of a table
-/

namespace Verif
open Spec

/-! ## Moving the primary key -/

theorem moveOne_length {columns r : List Column} {j : Nat} {c : Column} (h : moveOne columns j c = some r) :
    r.length = columns.length := by
  unfold moveOne at h
  split at h
  · injection h with h
    subst h
    simp
    omega
  · cases h

theorem moveInner_length (i : Nat) (fs : List IdxField) (j : Nat) (columns r : List Column)
    (h : moveInner i fs j columns = some r) : r.length = columns.length := by
  induction fs generalizing j columns with
  | nil => injection h with h; rw [h]
  | cons f fs ih =>
    unfold moveInner at h
    cases hc : columns[i]? with
    | none => rw [hc] at h; cases h
    | some c =>
      rw [hc] at h
      simp only [Option.bind_eq_bind, Option.bind_some] at h
      split at h
      · cases hm : moveOne columns j c with
        | none => rw [hm] at h; cases h
        | some r' =>
          rw [hm] at h
          rw [ih _ _ h, moveOne_length hm]
      · exact ih _ _ h

theorem moveOuter_length (fs : List IdxField) (k i : Nat) (columns r : List Column)
    (h : moveOuter fs k i columns = some r) : r.length = columns.length := by
  induction k generalizing i columns with
  | zero => injection h with h; rw [h]
  | succ k ih =>
    unfold moveOuter at h
    cases hm : moveInner i fs 0 columns with
    | none => rw [hm] at h; cases h
    | some r' =>
      rw [hm] at h
      rw [ih _ _ h, moveInner_length _ _ _ _ _ hm]

/-- with no more fields than columns nothing goes out of range -/
theorem moveInner_total (i : Nat) (fs : List IdxField) (j : Nat) (columns : List Column) (hi : i < columns.length)
    (h : j + fs.length ≤ columns.length) : ∃ r, moveInner i fs j columns = some r := by
  induction fs generalizing j columns with
  | nil => exact ⟨_, rfl⟩
  | cons f fs ih =>
    rw [List.length_cons] at h
    unfold moveInner
    rw [List.getElem?_eq_getElem hi]
    simp only [Option.bind_eq_bind, Option.bind_some]
    split
    · have hm : moveOne columns j columns[i] = some (columns[i] :: (columns.take j ++ columns.drop (j + 1))) := by
        unfold moveOne; rw [if_pos (by omega)]
      have hl := moveOne_length hm
      rw [hm]
      exact ih (j + 1) _ (by omega) (by omega)
    · exact ih (j + 1) _ hi (by omega)

theorem moveOuter_total (fs : List IdxField) (k i : Nat) (columns : List Column) (hk : i + k ≤ columns.length)
    (h : fs.length ≤ columns.length) : ∃ r, moveOuter fs k i columns = some r := by
  induction k generalizing i columns with
  | zero => exact ⟨_, rfl⟩
  | succ k ih =>
    obtain ⟨r, hr⟩ := moveInner_total i fs 0 columns (by omega) (by omega)
    have hl := moveInner_length _ _ _ _ _ hr
    unfold moveOuter
    rw [hr]
    exact ih (i + 1) r (by omega) (by omega)

/-- a column that is not a key column stays -/
theorem moveInner_other (i : Nat) (fs : List IdxField) (j : Nat) (columns : List Column) (c : Column)
    (hc : columns[i]? = some c) (h : ∀ f ∈ fs, f.name ≠ c.name) : moveInner i fs j columns = some columns := by
  induction fs generalizing j with
  | nil => rfl
  | cons f fs ih =>
    unfold moveInner
    rw [hc]
    simp only [Option.bind_eq_bind, Option.bind_some]
    rw [if_neg (h f (by simp))]
    exact ih (j + 1) fun g hg => h g (by simp [hg])

/-- the first key column with the name of the column at `i` moves it -/
theorem moveInner_hit (i : Nat) (pre post : List IdxField) (f : IdxField) (j : Nat) (columns : List Column) (c : Column)
    (hc : columns[i]? = some c) (h : ∀ g ∈ pre, g.name ≠ c.name) (hf : f.name = c.name) :
    moveInner i (pre ++ f :: post) j columns =
      (moveOne columns (j + pre.length) c).bind fun columns => moveInner i post (j + pre.length + 1) columns := by
  induction pre generalizing j with
  | nil =>
    rw [List.nil_append]
    conv => lhs; unfold moveInner
    rw [hc]
    simp only [Option.bind_eq_bind, Option.bind_some]
    rw [if_pos hf]
    rfl
  | cons g pre ih =>
    rw [List.cons_append]
    conv => lhs; unfold moveInner
    rw [hc]
    simp only [Option.bind_eq_bind, Option.bind_some]
    rw [if_neg (h g (by simp)), ih (j + 1) fun g' hg => h g' (by simp [hg]), List.length_cons]
    rw [show j + 1 + pre.length = j + (pre.length + 1) by omega]

/-- a stretch of columns that are not key columns -/
theorem moveOuter_others (fs : List IdxField) (k i : Nat) (columns : List Column) (hk : i + k ≤ columns.length)
    (h : ∀ m c, i ≤ m → m < i + k → columns[m]? = some c → ∀ f ∈ fs, f.name ≠ c.name) :
    moveOuter fs k i columns = some columns := by
  induction k generalizing i with
  | zero => rfl
  | succ k ih =>
    unfold moveOuter
    have hc : columns[i]? = some (columns[i]'(by omega)) := List.getElem?_eq_getElem _
    rw [moveInner_other i fs 0 columns _ hc fun f hf => h i _ (by omega) (by omega) hc f hf]
    exact ih (i + 1) (by omega) fun m c h1 h2 => h m c (by omega) (by omega)

theorem moveOuter_add (fs : List IdxField) (k m i : Nat) (columns : List Column) :
    moveOuter fs (k + m) i columns = (moveOuter fs k i columns).bind fun c => moveOuter fs m (i + k) c := by
  induction k generalizing i columns with
  | zero => rw [Nat.zero_add]; rfl
  | succ k ih =>
    rw [show k + 1 + m = (k + m) + 1 by omega]
    rw [moveOuter, moveOuter]
    cases moveInner i fs 0 columns with
    | none => rfl
    | some r =>
      simp only [Option.bind_eq_bind, Option.bind_some]
      rw [ih (i + 1) r, show i + 1 + k = i + (k + 1) by omega]

theorem name_ne {cols : List Column} (hn : (cols.map (·.name)).Nodup) {p q : Nat} (hp : p < cols.length) (hq : q < cols.length)
    (h : p ≠ q) : cols[p].name ≠ cols[q].name := by
  intro e
  have := (List.Nodup.getElem_inj_iff hn (i := p) (j := q) (hi := by simpa using hp) (hj := by simpa using hq)).mp (by simpa using e)
  exact h this

/-- a key of one column: that column overwrites the first one -/
theorem moveColumns2First_single (cols : List Column) (hn : (cols.map (·.name)).Nodup) (f : IdxField) (p : Nat)
    (hp : p < cols.length) (hf : f.name = cols[p].name) : moveColumns2First [f] cols = some (cols.set 0 cols[p]) := by
  unfold moveColumns2First
  rw [show cols.length = p + (1 + (cols.length - p - 1)) by omega, moveOuter_add,
    moveOuter_others [f] p 0 cols (by omega) ?_, Option.bind_some, moveOuter_add]
  · have hc : cols[p]? = some cols[p] := List.getElem?_eq_getElem hp
    have hset : cols.set 0 cols[p] = cols[p] :: cols.drop 1 := by
      cases cols with
      | nil => cases hp
      | cons a l => rfl
    have h1 : moveOuter [f] 1 (0 + p) cols = some (cols.set 0 cols[p]) := by
      rw [Nat.zero_add]
      unfold moveOuter
      have := moveInner_hit p [] [] f 0 cols cols[p] hc (by simp) hf
      rw [List.nil_append] at this
      rw [this]
      unfold moveOne
      rw [if_pos (by simp; omega), hset]
      rfl
    rw [h1, Option.bind_some]
    refine moveOuter_others [f] _ _ _ (by rw [List.length_set]; omega) ?_
    intro m c h2 h3 hm g hg
    rw [List.mem_singleton] at hg
    subst hg
    rw [List.getElem?_set] at hm
    rw [if_neg (by omega)] at hm
    have hm' : m < cols.length := by omega
    rw [List.getElem?_eq_getElem hm'] at hm
    injection hm with hm
    rw [← hm, hf]
    exact name_ne hn hp hm' (by omega)
  · intro m c h2 h3 hm g hg
    rw [List.mem_singleton] at hg
    subst hg
    have hm' : m < cols.length := by omega
    rw [List.getElem?_eq_getElem hm'] at hm
    injection hm with hm
    rw [← hm, hf]
    exact name_ne hn hp hm' (by omega)

theorem field_name {fs : List IdxField} {cols : List Column} {k : Nat} (hk : k ≤ cols.length)
    (hf : fs.map (·.name) = (cols.take k).map (·.name)) {j : Nat} (hj : j < fs.length) :
    ∃ h : j < cols.length, fs[j].name = cols[j].name := by
  have hl : fs.length = k := by
    have := congrArg List.length hf
    simp at this
    omega
  refine ⟨by omega, ?_⟩
  have h1 : (fs.map (·.name))[j]? = ((cols.take k).map (·.name))[j]? := by rw [hf]
  rw [List.getElem?_map, List.getElem?_map, List.getElem?_eq_getElem hj,
    List.getElem?_eq_getElem (show j < (cols.take k).length by simp; omega)] at h1
  simpa using h1

/-- a key made of the first `k` columns: they end up in reverse order -/
theorem moveColumns2First_prefix (cols : List Column) (hn : (cols.map (·.name)).Nodup) (fs : List IdxField) (k : Nat)
    (hk : k ≤ cols.length) (hf : fs.map (·.name) = (cols.take k).map (·.name)) :
    moveColumns2First fs cols = some ((cols.take k).reverse ++ cols.drop k) := by
  have hl : fs.length = k := by
    have := congrArg List.length hf
    simp at this
    omega
  have step : ∀ i, i ≤ k → moveOuter fs i 0 cols = some ((cols.take i).reverse ++ cols.drop i) := by
    intro i
    induction i with
    | zero => intro _; rfl
    | succ i ih =>
      intro hi
      rw [moveOuter_add, ih (by omega), Option.bind_some, Nat.zero_add]
      have hil : i < cols.length := by omega
      have hfi : i < fs.length := by omega
      have hlen : ((cols.take i).reverse).length = i := by simp; omega
      unfold moveOuter
      have hc : ((cols.take i).reverse ++ cols.drop i)[i]? = some cols[i] := by
        rw [List.getElem?_append_right (by omega), hlen, Nat.sub_self, List.getElem?_drop, Nat.add_zero,
          List.getElem?_eq_getElem hil]
      have hsplit : fs = fs.take i ++ fs[i] :: fs.drop (i + 1) := by
        rw [← List.drop_eq_getElem_cons hfi, List.take_append_drop]
      have hin : moveInner i fs 0 ((cols.take i).reverse ++ cols.drop i) =
          some ((cols.take (i + 1)).reverse ++ cols.drop (i + 1)) := by
        conv => lhs; rw [hsplit]
        rw [moveInner_hit i (fs.take i) (fs.drop (i + 1)) fs[i] 0 _ cols[i] hc ?_ (field_name hk hf hfi).2]
        · have hmv : moveOne ((cols.take i).reverse ++ cols.drop i) (0 + (fs.take i).length) cols[i] =
              some ((cols.take (i + 1)).reverse ++ cols.drop (i + 1)) := by
            have h1 : (fs.take i).length = i := by simp; omega
            unfold moveOne
            rw [h1, Nat.zero_add, if_pos (by simp; omega)]
            have h2 : ((cols.take i).reverse ++ cols.drop i).take i = (cols.take i).reverse := by
              conv => lhs; rw [show i = ((cols.take i).reverse).length from hlen.symm]
              rw [hlen, List.take_left' hlen]
            have h3 : ((cols.take i).reverse ++ cols.drop i).drop (i + 1) = cols.drop (i + 1) := by
              rw [← List.drop_drop, List.drop_left' hlen, List.drop_drop]
            rw [h2, h3, List.take_add_one, List.getElem?_eq_getElem hil]
            simp [-List.take_append_getElem]
          rw [hmv, Option.bind_some]
          have h0 : 0 < cols.length := by omega
          have hc0 : ((cols.take (i + 1)).reverse ++ cols.drop (i + 1))[i]? = some cols[0] := by
            rw [List.getElem?_append_left (by simp; omega), List.getElem?_reverse (by simp; omega)]
            rw [show (cols.take (i + 1)).length - 1 - i = 0 by simp; omega]
            rw [List.getElem?_take_of_lt (by omega), List.getElem?_eq_getElem h0]
          refine moveInner_other i _ _ _ cols[0] hc0 ?_
          intro f hfm
          obtain ⟨j, hj, rfl⟩ := List.getElem_of_mem hfm
          rw [List.getElem_drop]
          rw [List.length_drop] at hj
          obtain ⟨hj', e⟩ := field_name hk hf (show i + 1 + j < fs.length by omega)
          rw [e]
          exact name_ne hn hj' h0 (by omega)
        · intro g hg
          obtain ⟨j, hj, rfl⟩ := List.getElem_of_mem hg
          rw [List.getElem_take]
          rw [List.length_take] at hj
          obtain ⟨hj', e⟩ := field_name hk hf (show j < fs.length by omega)
          rw [e]
          exact name_ne hn hj' hil (by omega)
      rw [hin]
      rfl
  unfold moveColumns2First
  conv => lhs; rw [show cols.length = k + (cols.length - k) by omega]
  rw [moveOuter_add, step k (Nat.le_refl k), Option.bind_some]
  refine moveOuter_others fs _ _ _ (by simp; omega) ?_
  intro m c h2 h3 hm g hg
  have hlen : ((cols.take k).reverse).length = k := by simp; omega
  have hm' : m < cols.length := by omega
  rw [List.getElem?_append_right (by omega), hlen, List.getElem?_drop, show k + (m - k) = m by omega,
    List.getElem?_eq_getElem hm'] at hm
  injection hm with hm
  obtain ⟨j, hj, rfl⟩ := List.getElem_of_mem hg
  obtain ⟨hj', e⟩ := field_name hk hf hj
  rw [← hm, e]
  exact name_ne hn hj' hm' (by omega)

theorem moveColumns2First_nil (cols : List Column) : moveColumns2First [] cols = some cols := by
  have : ∀ k i, moveOuter [] k i cols = some cols := by
    intro k
    induction k with
    | zero => intro i; rfl
    | succ k ih => intro i; unfold moveOuter moveInner; exact ih (i + 1)
  exact this _ _

/-! ## The indexes of a table -/

theorem movePrimaryTable_none (ixs : List (Nat × Index)) (cols : List Column) (h : ∀ e ∈ ixs, e.2.name ≠ b! "PRIMARY") :
    movePrimaryTable ixs cols = some cols := by
  induction ixs with
  | nil => rfl
  | cons e ixs ih =>
    unfold movePrimaryTable
    rw [if_neg (h e (by simp))]
    exact ih fun x hx => h x (by simp [hx])

theorem movePrimaryTable_append (l m : List (Nat × Index)) (cols : List Column) :
    movePrimaryTable (l ++ m) cols = (movePrimaryTable l cols).bind (movePrimaryTable m) := by
  induction l generalizing cols with
  | nil => rfl
  | cons e l ih =>
    rw [List.cons_append]
    unfold movePrimaryTable
    simp only [Option.bind_eq_bind]
    split
    · cases moveColumns2First e.2.fields cols with
      | none => rfl
      | some c => exact ih c
    · exact ih cols

/-- exactly one primary index, wherever it stands among the others -/
theorem movePrimaryTable_one (l m : List (Nat × Index)) (e : Nat × Index) (cols : List Column)
    (hl : ∀ x ∈ l, x.2.name ≠ b! "PRIMARY") (hm : ∀ x ∈ m, x.2.name ≠ b! "PRIMARY") (he : e.2.name = b! "PRIMARY") :
    movePrimaryTable (l ++ e :: m) cols = moveColumns2First e.2.fields cols := by
  rw [movePrimaryTable_append, movePrimaryTable_none l cols hl, Option.bind_some]
  unfold movePrimaryTable
  rw [if_pos he]
  simp only [Option.bind_eq_bind]
  cases moveColumns2First e.2.fields cols with
  | none => rfl
  | some c => exact movePrimaryTable_none m c hm

theorem addColumns_eq {cols : List Column} {i : Nat} (h : i ≤ cols.length) (c : Column) :
    addColumns cols i c = some (cols.take i ++ [c] ++ cols.drop i) := by
  unfold addColumns; rw [if_pos h]

/-- the index adds no columns -/
def PlainIndex (ix : Index) : Prop := ix.name ≠ b! "PRIMARY" ∧ ix.name ≠ b! "GEN_CLUST_INDEX"

theorem addInternalTable_none (id : Nat) (ixs : List (Nat × Index)) (cols : List Column) (h : ∀ e ∈ ixs, PlainIndex e.2) :
    addInternalTable id ixs cols = some cols := by
  induction ixs with
  | nil => rfl
  | cons e ixs ih =>
    unfold addInternalTable
    rw [if_neg (h e (by simp)).1, if_neg (h e (by simp)).2]
    exact ih fun x hx => h x (by simp [hx])

theorem addInternalTable_append (id : Nat) (l m : List (Nat × Index)) (cols : List Column) :
    addInternalTable id (l ++ m) cols = (addInternalTable id l cols).bind (addInternalTable id m) := by
  induction l generalizing cols with
  | nil => rfl
  | cons e l ih =>
    rw [List.cons_append]
    unfold addInternalTable
    simp only [Option.bind_eq_bind]
    split
    · rw [Option.bind_assoc]
      congr 1
      funext c
      rw [Option.bind_assoc]
      congr 1
      funext c
      exact ih c
    · split
      · rw [Option.bind_assoc]
        congr 1
        funext c
        rw [Option.bind_assoc]
        congr 1
        funext c
        rw [Option.bind_assoc]
        congr 1
        funext c
        exact ih c
      · exact ih cols

/-- the hidden columns as InnoDB defines them: 6, 6 and 7 bytes of system data, never NULL -/
def hiddenColumn (name : Bytes) (len id pos : Nat) : Column :=
  { name := name, ftype := 0, pos := pos, len := len, isNull := false, tableId := id }

def trxColumn (id pos : Nat) : Column := hiddenColumn (b! "DB_TRX_ID") 6 id pos
def rollColumn (id pos : Nat) : Column := hiddenColumn (b! "DB_ROLL_PTR") 7 id pos
def rowIdColumn (id : Nat) : Column := hiddenColumn (b! "DB_ROW_ID") 6 id 0

theorem add_trx (id p : Nat) : addInternalColumn (b! "DB_TRX_ID") id p = trxColumn id p := rfl
theorem add_roll (id p : Nat) : addInternalColumn (b! "DB_ROLL_PTR") id p = rollColumn id p := rfl
theorem add_rowId (id : Nat) : addInternalColumn (b! "DB_ROW_ID") id 0 = rowIdColumn id := rfl

theorem addInternalTable_primary (id : Nat) (l m : List (Nat × Index)) (e : Nat × Index) (cols : List Column)
    (hl : ∀ x ∈ l, PlainIndex x.2) (hm : ∀ x ∈ m, PlainIndex x.2) (he : e.2.name = b! "PRIMARY")
    (hn : e.2.fieldNum ≤ cols.length) :
    addInternalTable id (l ++ e :: m) cols = some (cols.take e.2.fieldNum ++
      [trxColumn id e.2.fieldNum, rollColumn id (e.2.fieldNum + 1)] ++ cols.drop e.2.fieldNum) := by
  rw [addInternalTable_append, addInternalTable_none id l cols hl, Option.bind_some]
  unfold addInternalTable
  rw [if_pos he]
  dsimp only
  rw [addColumns_eq hn, add_trx, add_roll]
  simp only [Option.bind_eq_bind, Option.bind_some]
  generalize hA : cols.take e.2.fieldNum = A
  have hAl : A.length = e.2.fieldNum := by rw [← hA]; simp; omega
  have hAl' : (A ++ [trxColumn id e.2.fieldNum]).length = e.2.fieldNum + 1 := by simp [hAl]
  rw [addColumns_eq (by rw [List.length_append]; omega), Option.bind_some]
  rw [List.take_left' hAl', List.drop_left' hAl', addInternalTable_none id m _ hm]
  simp

theorem addInternalTable_primary_panics (id : Nat) (l m : List (Nat × Index)) (e : Nat × Index) (cols : List Column)
    (hl : ∀ x ∈ l, PlainIndex x.2) (he : e.2.name = b! "PRIMARY") (hn : cols.length < e.2.fieldNum) :
    addInternalTable id (l ++ e :: m) cols = none := by
  rw [addInternalTable_append, addInternalTable_none id l cols hl, Option.bind_some]
  unfold addInternalTable
  rw [if_pos he]
  dsimp only
  unfold addColumns
  rw [if_neg (show ¬ e.2.fieldNum ≤ cols.length by omega)]
  rfl

theorem addInternalTable_generated (id : Nat) (l m : List (Nat × Index)) (e : Nat × Index) (cols : List Column)
    (hl : ∀ x ∈ l, PlainIndex x.2) (hm : ∀ x ∈ m, PlainIndex x.2) (he : e.2.name = b! "GEN_CLUST_INDEX") :
    addInternalTable id (l ++ e :: m) cols = some ([rowIdColumn id, trxColumn id 1, rollColumn id 2] ++ cols) := by
  rw [addInternalTable_append, addInternalTable_none id l cols hl, Option.bind_some]
  unfold addInternalTable
  rw [if_neg (by rw [he]; decide), if_pos he]
  dsimp only
  rw [add_trx, add_roll, add_rowId, addColumns_eq (by omega)]
  simp only [Option.bind_eq_bind, Option.bind_some]
  rw [addColumns_eq (by simp), Option.bind_some, addColumns_eq (by simp), Option.bind_some, addInternalTable_none id m _ hm]
  rfl

end Verif
