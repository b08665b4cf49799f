import Verif.Proofs.RedoUndo
/-!
# Lemmas: undo records that print nothing
-/

namespace Verif
open Spec

/-- An undo record up to its primary key. -/
theorem undo_start (cfg : RCfg) (s : Stream) (u : Undo) (hu : u.Fits) (hn : u.undoNo < 2 ^ 32) (ht : u.tableId < 2 ^ 32)
    (pre suf : Bytes) (hd : s.data = pre ++ (beEnc 2 u.enc.length ++ u.enc) ++ suf) (hs : 5 ≤ (keyEnc u.key ++ (u.vecEnc ++ (u.tail ++ suf))).length) (out : Out) :
    mlogUndoInsert cfg s ⟨pre.length, out⟩ = match cfg.tables.get? u.tableId with
      | none => .ok (some (b! "table not found, table id is " ++ dec u.tableId)) ⟨(pre ++ (beEnc 2 u.enc.length ++ u.enc)).length, out⟩
      | some table =>
        match undoTable cfg s (pre.length + 2) u.enc.length u.kind table ⟨(pre ++ beEnc 2 u.enc.length ++ Undo.hdrEnc u).length, out⟩ with
        | .ok r st => .ok r st
        | .panic st => .ok none ⟨(pre ++ (beEnc 2 u.enc.length ++ u.enc)).length, st.out⟩
        | .hang st => .hang st := by
  have hlen : u.enc.length < 2 ^ 16 := hu.2.2.2.2.2.2.2
  unfold mlogUndoInsert
  have r1 : read2 s.data pre.length = some u.enc.length := by
    rw [read2_eq, hd, List.append_assoc, List.append_assoc, ← List.append_assoc]
    exact readW_beEnc pre _ hlen
  rw [here_bind_some (s := ⟨pre.length, out⟩) r1, addPos_bind, getPos_bind]
  dsimp only
  have hend : (pre ++ (beEnc 2 u.enc.length ++ u.enc)).length = pre.length + 2 + u.enc.length := by
    simp only [List.length_append, beEnc_length, Nat.add_assoc]
  rw [hend]
  have hp2 : pre.length + 2 = (pre ++ beEnc 2 u.enc.length).length := by rw [List.length_append, beEnc_length]
  generalize hq : pre.length + 2 = q
  rw [hq] at hp2
  have hd1 : s.data = (pre ++ beEnc 2 u.enc.length) ++ Undo.hdrEnc u ++ (keyEnc u.key ++ (u.vecEnc ++ (u.tail ++ suf))) := by
    clear r1 hend hp2
    generalize beEnc 2 u.enc.length = h2 at hd ⊢
    rw [hd, Undo.enc_eq]
    simp only [List.append_assoc]
  have hb := undoBody_enc cfg s q u.enc.length u (Undo.Fits.kind_lt hu) hu.2.1 hn ht hu.2.2.2.2.1 hu.2.2.2.2.2.1 (pre ++ beEnc 2 u.enc.length) _ hd1 hs out
  rw [← hp2] at hb
  unfold GoM.recover
  rw [hb]
  cases cfg.tables.get? u.tableId with
  | none => rfl
  | some table =>
    dsimp only
    cases undoTable cfg s q u.enc.length u.kind table ⟨(pre ++ beEnc 2 u.enc.length ++ Undo.hdrEnc u).length, out⟩ <;> rfl

theorem undo_data {s : Stream} {u : Undo} {pre suf : Bytes} (hd : s.data = pre ++ (beEnc 2 u.enc.length ++ u.enc) ++ suf) :
    s.data = (pre ++ beEnc 2 u.enc.length ++ Undo.hdrEnc u) ++ keyEnc u.key ++ (u.vecEnc ++ (u.tail ++ suf)) := by
  generalize beEnc 2 u.enc.length = h2 at hd ⊢
  rw [hd, Undo.enc_eq]
  simp only [List.append_assoc]

/-- An undo record of a table that is not in the dictionary. -/
theorem undo_unknown (cfg : RCfg) (s : Stream) (u : Undo) (hu : u.Fits) (hn : u.undoNo < 2 ^ 32) (ht : u.tableId < 2 ^ 32)
    (htab : cfg.tables.get? u.tableId = none) (pre suf : Bytes) (hd : s.data = pre ++ (beEnc 2 u.enc.length ++ u.enc) ++ suf)
    (hs : 5 ≤ (keyEnc u.key ++ (u.vecEnc ++ (u.tail ++ suf))).length) (out : Out) :
    ∃ r, mlogUndoInsert cfg s ⟨pre.length, out⟩ = .ok r ⟨(pre ++ (beEnc 2 u.enc.length ++ u.enc)).length, out⟩ := by
  rw [undo_start cfg s u hu hn ht pre suf hd hs out, htab]
  exact ⟨_, rfl⟩

/-- An undo record that is not of an update of an existing row. -/
theorem undo_other (cfg : RCfg) (s : Stream) (u : Undo) (hu : u.Fits) (hk : u.kind ≠ 12) (hn : u.undoNo < 2 ^ 32) (ht : u.tableId < 2 ^ 32)
    (table : Table) (htab : cfg.tables.get? u.tableId = some table) (pk : List PkVal)
    (hkv : KeyVals cfg table (getPrimaryKey table.indexes []) u.key pk) (pre suf : Bytes)
    (hd : s.data = pre ++ (beEnc 2 u.enc.length ++ u.enc) ++ suf) (hs : 5 ≤ (keyEnc u.key ++ (u.vecEnc ++ (u.tail ++ suf))).length) (out : Out) :
    mlogUndoInsert cfg s ⟨pre.length, out⟩ = .ok none ⟨(pre ++ (beEnc 2 u.enc.length ++ u.enc)).length, out⟩ := by
  rw [undo_start cfg s u hu hn ht pre suf hd hs out, htab]
  have hend : (pre ++ (beEnc 2 u.enc.length ++ u.enc)).length = pre.length + 2 + u.enc.length := by
    simp only [List.length_append, beEnc_length, Nat.add_assoc]
  rw [hend]
  generalize pre.length + 2 = q
  dsimp only
  have hpk := pkLoop_vals cfg s table _ u.key pk hkv (fun v hv => Undo.Fits.key_lt hu hv) _ _ (undo_data hd) out
  rw [undoTable, GoM.bind_ok hpk]
  dsimp only
  rw [if_neg (show ¬ u.kind = TRX_UNDO_UPD_EXIST_REC from hk)]
  rfl

/-- A key column on which the decoder panics. -/
theorem pkLoop_panic (cfg : RCfg) (s : Stream) (table : Table) (fs : List IdxField) (f : IdxField) (fs' : List IdxField) (key : List Bytes) (v : Bytes)
    (key' : List Bytes) (ps : List PkVal) (h : KeyVals cfg table fs key ps) (hk : ∀ x ∈ key ++ v :: key', x.length < 2 ^ 32)
    (hp : ∀ rest out, keyDecode cfg table f v rest out = .panic out)
    (pre suf : Bytes) (hd : s.data = pre ++ keyEnc (key ++ v :: key') ++ suf) (out : Out) :
    ∃ p, pkLoop cfg s table (fs ++ f :: fs') ⟨pre.length, out⟩ = .panic ⟨p, out⟩ := by
  induction h generalizing pre with
  | nil =>
    have hd1 : s.data = pre ++ (compEnc v.length ++ v) ++ (keyEnc key' ++ suf) := by
      rw [hd, List.nil_append, keyEnc, List.flatMap_cons]
      simp only [keyEnc, List.append_assoc]
    rw [List.nil_append, pkLoop_cons cfg s table f fs' (hk v (by simp)) hd1 out, hp]
    exact ⟨_, rfl⟩
  | cons hx ht ih =>
    rename_i f1 fs1 v1 vs1 x b ps1
    have hd1 : s.data = pre ++ (compEnc v1.length ++ v1) ++ (keyEnc (vs1 ++ v :: key') ++ suf) := by
      rw [hd, List.cons_append, keyEnc, List.flatMap_cons]
      simp only [keyEnc, List.append_assoc]
    obtain ⟨p, ih⟩ := ih (fun x h => hk x (List.mem_cons_of_mem _ h)) (pre ++ (compEnc v1.length ++ v1)) (by rw [hd1]; simp only [List.append_assoc])
    rw [List.cons_append, pkLoop_cons cfg s table f1 _ (hk v1 List.mem_cons_self) hd1 out, hx]
    dsimp only
    rw [pkTail, GoM.bind_panic ih]
    exact ⟨p, rfl⟩

/-- An undo record on whose key the decoder panics prints nothing. -/
theorem undo_key_panics (cfg : RCfg) (s : Stream) (u : Undo) (hu : u.Fits) (hn : u.undoNo < 2 ^ 32) (ht : u.tableId < 2 ^ 32)
    (table : Table) (htab : cfg.tables.get? u.tableId = some table) (fs : List IdxField) (f : IdxField) (fs' : List IdxField)
    (hpk : getPrimaryKey table.indexes [] = fs ++ f :: fs') (key : List Bytes) (v : Bytes) (key' : List Bytes) (huk : u.key = key ++ v :: key')
    (ps : List PkVal) (h : KeyVals cfg table fs key ps) (hp : ∀ rest out, keyDecode cfg table f v rest out = .panic out) (pre suf : Bytes)
    (hd : s.data = pre ++ (beEnc 2 u.enc.length ++ u.enc) ++ suf) (hs : 5 ≤ (keyEnc u.key ++ (u.vecEnc ++ (u.tail ++ suf))).length) (out : Out) :
    mlogUndoInsert cfg s ⟨pre.length, out⟩ = .ok none ⟨(pre ++ (beEnc 2 u.enc.length ++ u.enc)).length, out⟩ := by
  rw [undo_start cfg s u hu hn ht pre suf hd hs out, htab]
  dsimp only
  have hd' := undo_data hd
  have hk : ∀ x ∈ key ++ v :: key', x.length < 2 ^ 32 := fun x hx => Undo.Fits.key_lt hu (by rw [huk]; exact hx)
  rw [huk] at hd'
  obtain ⟨p, hpp⟩ := pkLoop_panic cfg s table fs f fs' key v key' ps h hk hp _ _ hd' out
  rw [undoTable, hpk, GoM.bind_panic hpp]

end Verif
