import Verif.Props.Files
import Verif.Proofs.Keeps
/-!
# Lemmas: dictionaries that differ only in the values left by the decoder
-/

namespace Verif.Props
open Verif Spec

/-- the two tables differ at most in what the decoder leaves in the columns -/
def SameTable (t t' : Table) : Prop :=
  { t' with columns := t.columns } = t ∧ t'.columns.map (skelB true) = t.columns.map (skelB true)

/-- the two dictionaries have the same tables, apart from what the decoder leaves in the columns -/
def SameDict (m m' : TableMap) : Prop := All2 (fun e e' => e'.1 = e.1 ∧ SameTable e.2 e'.2) m m'

theorem SameDict.refl (m : TableMap) : SameDict m m := by
  induction m with
  | nil => exact .nil
  | cons e m ih => exact .cons ⟨rfl, rfl, rfl⟩ ih

theorem SameTable.trans {a b c : Table} (h : SameTable a b) (h' : SameTable b c) : SameTable a c := by
  obtain ⟨h1, h2⟩ := h
  obtain ⟨h3, h4⟩ := h'
  refine ⟨?_, h4.trans h2⟩
  rw [← h3] at h1
  exact h1

theorem SameDict.trans {a b c : TableMap} (h : SameDict a b) (h' : SameDict b c) : SameDict a c := by
  unfold SameDict at *
  induction h generalizing c with
  | nil => cases h'; exact .nil
  | cons h _ ih =>
    cases h' with
    | cons k k' => exact .cons ⟨k.1.trans h.1, h.2.trans k.2⟩ (ih k')

theorem SameDict.get? {m m' : TableMap} (h : SameDict m m') (id : Nat) :
    (m.get? id = none ∧ m'.get? id = none) ∨ ∃ t t', m.get? id = some t ∧ m'.get? id = some t' ∧ SameTable t t' := by
  unfold SameDict at h
  induction h with
  | nil => exact .inl ⟨rfl, rfl⟩
  | @cons e e' m m' h _ ih =>
    obtain ⟨k, t⟩ := e
    obtain ⟨k', t'⟩ := e'
    obtain ⟨rfl, h2⟩ := h
    unfold GoMap.get? at *
    rw [List.lookup_cons, List.lookup_cons]
    by_cases hk : id = k'
    · simp only [hk, beq_self_eq_true]
      exact .inr ⟨t, t', rfl, rfl, h2⟩
    · have : (id == k') = false := by simpa using hk
      simp only [this]
      exact ih

theorem newLoop_skel {f : Bool} (d : Bytes) (cs ds : List Column) (h : cs.map (skelB f) = ds.map (skelB f)) (i : Nat) (st : NewSt)
    (offsets : List Nat) : newLoop d cs i st offsets = newLoop d ds i st offsets := by
  induction cs generalizing ds i st offsets with
  | nil =>
    cases ds with
    | nil => rfl
    | cons => simp at h
  | cons c cs ih =>
    cases ds with
    | nil => simp at h
    | cons e ds =>
      simp only [List.map_cons, List.cons.injEq] at h
      obtain ⟨_, h2, _, _, h5, h6, _, _, _⟩ := skel_fields h.1
      have hs : newStep d c st = newStep d e st := by
        have hn : ∀ s, newNotNull d c s = newNotNull d e s := by intro s; unfold newNotNull; rw [h2, h5]
        unfold newStep
        simp only [h6, hn]
      unfold newLoop
      rw [hs]
      cases newStep d e st with
      | none => rfl
      | some p =>
        obtain ⟨length, st'⟩ := p
        simp only [Option.bind_eq_bind, Option.bind_some]
        cases setIdx offsets (2 + (1 + i)) length with
        | none => rfl
        | some o => exact ih ds h.2 _ _ _

theorem recOffsets_dict {m m' : TableMap} (h : SameDict m m') (d : Bytes) (compact : Bool) (o : Nat) (cs : List Column) :
    recOffsets m' d compact o cs = recOffsets m d compact o cs := by
  unfold recOffsets
  cases compact with
  | false => rfl
  | true =>
    cases hs : sliceFrom d o with
    | none => rfl
    | some _ =>
      cases hc : cs[0]? with
      | none => rfl
      | some c =>
        simp only [Option.bind_eq_bind, Option.bind_some, if_true]
        rcases h.get? c.tableId with ⟨h1, h2⟩ | ⟨t, t', h1, h2, h3, h4⟩
        · rw [h1, h2]
        · rw [h1, h2]
          have hl : t'.columns.length = t.columns.length := by simpa using congrArg List.length h4
          have hn : t'.nullCount = t.nullCount := by rw [← h3]
          have : ∀ offs, ibRecInitOffsetsNew d o offs t' = ibRecInitOffsetsNew d o offs t := by
            intro offs
            unfold ibRecInitOffsetsNew
            simp only [hl, hn, newLoop_skel d _ _ h4]
          simp only [this]

theorem parseOne_dict {m m' : TableMap} (h : SameDict m m') (env : Env) (d : Bytes) (compact : Bool) (o : Nat) :
    parseOne env m' d compact o = parseOne env m d compact o := by
  unfold parseOne
  simp only [recOffsets_dict h]

theorem walk_dict {m m' : TableMap} (h : SameDict m m') (env : Env) (d : Bytes) (compact : Bool) (fuel o : Nat) (rows : List (List Column)) :
    walk env m' d compact fuel o rows = walk env m d compact fuel o rows := by
  induction fuel generalizing o rows with
  | zero => rfl
  | succ fuel ih =>
    unfold walk
    simp only [parseOne_dict h, ih]

theorem parsePage_dict {m m' : TableMap} (h : SameDict m m') (env : Env) (d : Bytes) (recovery : Bool) (free : Nat) :
    parsePage env m' d recovery free = parsePage env m d recovery free := by
  unfold parsePage
  simp only [walk_dict h]

theorem lookup_dict {m m' : TableMap} (h : SameDict m m') (db name : Bytes) :
    (lookupTable m db name = none ∧ lookupTable m' db name = none) ∨
      ∃ e e', lookupTable m db name = some e ∧ lookupTable m' db name = some e' ∧ e'.1 = e.1 ∧ SameTable e.2 e'.2 := by
  have hf : SameDict (m.filter fun e => e.2.db == db && e.2.name == name) (m'.filter fun e => e.2.db == db && e.2.name == name) := by
    unfold SameDict at *
    induction h with
    | nil => exact .nil
    | @cons e e' m m' h _ ih =>
      have h1 : e'.2.db = e.2.db := by rw [← h.2.1]
      have h2 : e'.2.name = e.2.name := by rw [← h.2.1]
      rw [List.filter_cons, List.filter_cons, h1, h2]
      split
      · exact .cons h ih
      · exact ih
  unfold lookupTable
  generalize (m.filter fun e => e.2.db == db && e.2.name == name) = l at *
  generalize (m'.filter fun e => e.2.db == db && e.2.name == name) = l' at *
  clear h
  unfold SameDict at hf
  induction hf with
  | nil => exact .inl ⟨rfl, rfl⟩
  | @cons e e' l l' h hl ih =>
    cases hl with
    | nil => exact .inr ⟨e, e', rfl, rfl, h⟩
    | cons _ _ =>
      rw [List.getLast?_cons_cons, List.getLast?_cons_cons]
      exact ih

theorem columns_dict {m m' : TableMap} (h : SameDict m m') (db name : Bytes) :
    (getTableColumnsFromDict m' db name).map (skelB true) = (getTableColumnsFromDict m db name).map (skelB true) := by
  unfold getTableColumnsFromDict
  rcases lookup_dict h db name with ⟨h1, h2⟩ | ⟨e, e', h1, h2, _, h3, h4⟩
  · rw [h1, h2]
  · rw [h1, h2]; exact h4

/-- the columns left by a run have the definitions of the dictionary -/
theorem pagesRun_cols (env : Env) (m : TableMap) (db name : Bytes) (recovery : Bool) (ds : List Bytes) (hd : ∀ d ∈ ds, d.length = 16384)
    (s : PState) (hs : s.cols.map (skelB true) = (getTableColumnsFromDict m db name).map (skelB true)) :
    (pagesRun env m db name recovery ds s).st.cols.map (skelB true) = (getTableColumnsFromDict m db name).map (skelB true) := by
  induction ds generalizing s with
  | nil => exact hs
  | cons d ds ih =>
    have hrel := page_in_file env m db name recovery d (hd d (by simp)) s hs
    rw [pagesRun_cons, GoM.bind_run, printPage_full]
    generalize parsePage env m d recovery (field d PAGE_FREE) s = r at hrel
    generalize pageAlone env m db name recovery d = r' at hrel
    cases hrel with
    | ok _ hst => exact ih (fun x hx => hd x (by simp [hx])) _ hst.1
    | panic hst => exact hst.1
    | hang hst => exact hst.1

/-- writing such columns back keeps the definitions -/
theorem writeBack_dict (m : TableMap) (hw : m.WF) (db name : Bytes) (cols : List Column)
    (h : cols.map (skelB true) = (getTableColumnsFromDict m db name).map (skelB true)) : SameDict m (writeBack m db name cols) := by
  unfold getTableColumnsFromDict at h
  unfold writeBack
  cases hl : lookupTable m db name with
  | none => exact SameDict.refl m
  | some e =>
    rw [hl] at h
    dsimp only at h ⊢
    have he : e ∈ m := by
      unfold lookupTable at hl
      exact (List.mem_filter.mp (List.mem_of_getLast? hl)).1
    have hu : ∀ x ∈ m, x.1 = e.1 → x = e := by
      intro x hx hk
      have h1 := (GoMap.get?_iff hw x.1 x.2).mpr hx
      have h2 := (GoMap.get?_iff hw e.1 e.2).mpr he
      rw [hk, h2] at h1
      injection h1 with h1
      exact Prod.ext hk h1.symm
    clear hl he hw
    unfold SameDict
    induction m with
    | nil => exact .nil
    | cons x m ih =>
      rw [List.map_cons]
      refine .cons ?_ (ih fun y hy => hu y (by simp [hy]))
      by_cases hx : x.1 = e.1
      · have := hu x (by simp) hx
        subst this
        rw [if_pos (by simp)]
        exact ⟨rfl, rfl, h⟩
      · have : (x.1 == e.1) = false := by simpa using hx
        rw [this]
        exact ⟨rfl, rfl, rfl⟩

end Verif.Props
