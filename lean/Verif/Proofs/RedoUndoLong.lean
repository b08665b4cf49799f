import Verif.Proofs.RedoUndoMore
/-!
# Lemmas: undo records with a value whose length field is beyond the log
-/

namespace Verif
open Spec

/-- put columns before those of a result -/
def thenCols (cs : List UpdCol) : R RS (Ret (List UpdCol)) → R RS (Ret (List UpdCol))
  | .ok (.ok ds) st => .ok (.ok (cs ++ ds)) st
  | r => r

theorem thenCols_nil (r : R RS (Ret (List UpdCol))) : thenCols [] r = r := by
  cases r with
  | ok x st => cases x <;> rfl
  | panic st => rfl
  | hang st => rfl

theorem thenCols_cons (c : UpdCol) (cs : List UpdCol) (r : R RS (Ret (List UpdCol))) : thenCols [c] (thenCols cs r) = thenCols (c :: cs) r := by
  cases r with
  | ok x st => cases x <;> rfl
  | panic st => rfl
  | hang st => rfl

theorem updTail_eq (cfg : RCfg) (s : Stream) (table : Table) (n : Nat) (name : Bytes) (x : Val) (st : RS) :
    updTail cfg s table n name x st = thenCols [⟨name, x⟩] (updLoop cfg s table n st) := by
  rw [updTail, GoM.bind_run]
  cases updLoop cfg s table n st with
  | ok x st => cases x <;> rfl
  | panic st => rfl
  | hang st => rfl

/-- The decoded columns come first, whatever follows. -/
theorem updLoop_vals_then (cfg : RCfg) (s : Stream) (table : Table) (hl : s.data.length < 2 ^ 32) (m : Nat) (fields : List (Nat × Option Bytes))
    (cols : List UpdCol) {ahead : Nat} (h : OldVals cfg table ahead fields cols) (hf : ∀ f ∈ fields, fieldFits f) (pre suf : Bytes)
    (hd : s.data = pre ++ fields.flatMap fieldEnc ++ suf) (h5 : ahead ≤ suf.length) (out : Out) :
    updLoop cfg s table (fields.length + m) ⟨pre.length, out⟩ = thenCols cols (updLoop cfg s table m ⟨(pre ++ fields.flatMap fieldEnc).length, out⟩) := by
  induction h generalizing pre with
  | nil => rw [List.length_nil, Nat.zero_add, List.flatMap_nil, List.append_nil, thenCols_nil]
  | null hc t ih =>
    rename_i k c fs cs
    obtain ⟨h1, h2⟩ := hf _ List.mem_cons_self
    have hd1 : s.data = pre ++ fieldEnc (k, none) ++ (fs.flatMap fieldEnc ++ suf) := by
      rw [hd, List.flatMap_cons]; simp only [List.append_assoc]
    have e : pre ++ fieldEnc (k, none) ++ fs.flatMap fieldEnc = pre ++ ((k, none) :: fs).flatMap fieldEnc := by
      rw [List.flatMap_cons]; simp only [List.append_assoc]
    have ih := ih (fun f h => hf f (List.mem_cons_of_mem _ h)) (pre ++ fieldEnc (k, none)) (by rw [hd1]; simp only [List.append_assoc])
    rw [List.length_cons, Nat.add_right_comm, updLoop_null cfg s table _ hc h1 hd1 hl out, updTail_eq, ih, thenCols_cons, e]
  | val hc hx t ih =>
    rename_i k c v x b fs cs
    obtain ⟨h1, h2⟩ := hf _ List.mem_cons_self
    have hd1 : s.data = pre ++ fieldEnc (k, some v) ++ (fs.flatMap fieldEnc ++ suf) := by
      rw [hd, List.flatMap_cons]; simp only [List.append_assoc]
    have e : pre ++ fieldEnc (k, some v) ++ fs.flatMap fieldEnc = pre ++ ((k, some v) :: fs).flatMap fieldEnc := by
      rw [List.flatMap_cons]; simp only [List.append_assoc]
    have ih := ih (fun f h => hf f (List.mem_cons_of_mem _ h)) (pre ++ fieldEnc (k, some v)) (by rw [hd1]; simp only [List.append_assoc])
    have h3 : v.length < 2 ^ 32 := by
      have : v.length < 2 ^ 32 - 1 := h2 v rfl
      omega
    rw [List.length_cons, Nat.add_right_comm, updLoop_some cfg s table _ hc h1 h3 hd1 out, hx _ _ (by simp only [List.length_append]; omega)]
    dsimp only
    rw [updTail_eq, ih, thenCols_cons, e]

/-- A value whose length field is beyond the log is taken for NULL, and none of its bytes are skipped. -/
theorem updLoop_long (cfg : RCfg) (s : Stream) (table : Table) (m : Nat) {k len : Nat} {c : Column} (hc : table.columns[k]? = some c) (hk : k < 2 ^ 32)
    (hn : len < 2 ^ 32) {pre suf : Bytes} (hd : s.data = pre ++ (compEnc k ++ compEnc len) ++ suf) (hl : s.data.length ≤ len) (out : Out) :
    updLoop cfg s table (m + 1) ⟨pre.length, out⟩ =
      thenCols [⟨c.name, .nil⟩] (updLoop cfg s table m ⟨(pre ++ (compEnc k ++ compEnc len)).length, out⟩) := by
  rw [← updTail_eq, updLoop]
  have hd1 : s.data = pre ++ compEnc k ++ (compEnc len ++ suf) := by
    rw [hd]; simp only [List.append_assoc]
  have r1 : matchParseCompressed s.data pre.length = some ⟨k, (compEnc k).length, none⟩ := by
    rw [hd1]
    exact mpc_compEnc pre _ hk
  rw [here_bind_some (s := ⟨pre.length, out⟩) r1]
  dsimp only
  rw [addPos_bind]
  unfold getColumnByPos
  rw [hc]
  dsimp only
  have r2 : matchParseCompressed s.data (pre.length + (compEnc k).length) = some ⟨len, (compEnc len).length, none⟩ := by
    rw [hd1, ← List.append_assoc, ← List.length_append]
    exact mpc_compEnc _ _ hn
  rw [here_bind_some (s := ⟨pre.length + (compEnc k).length, out⟩) r2, addPos_bind, getPos_bind]
  have r3 : ∀ p, 0 < p → updValue cfg s c p len = pure (Val.nil, 0) := by
    intro p hp
    unfold updValue
    rw [if_pos (by omega)]
  have hpos : 0 < (compEnc k).length := List.length_pos_iff.mpr (compEnc_ne_nil k)
  rw [r3 _ (by dsimp only; omega), GoM.bind_ok (GoM.pure_run _ _), addPos_bind]
  simp only [List.length_append, Nat.add_assoc, Nat.add_zero]
  rfl

/-- An undo record of an update with such a value: decoded columns before it, `m` more after it. -/
theorem undo_update_long (cfg : RCfg) (s : Stream) (u : Undo) (hk : u.kind = 12) (hfl : u.flags < 16) (hn : u.undoNo < 2 ^ 32) (ht : u.tableId < 2 ^ 32)
    (h1 : u.trx < 2 ^ 64) (h2 : u.roll < 2 ^ 64) (table : Table) (htab : cfg.tables.get? u.tableId = some table) (key : List Bytes) (pk : List PkVal)
    (hkv : KeyVals cfg table (getPrimaryKey table.indexes []) key pk) (hkl : ∀ v ∈ key, v.length < 2 ^ 32)
    (fields : List (Nat × Option Bytes)) (cols : List UpdCol) {ahead : Nat} (hov : OldVals cfg table ahead fields cols) (hf : ∀ f ∈ fields, fieldFits f)
    {k len : Nat} {c : Column} (hc : table.columns[k]? = some c) (hk2 : k < 2 ^ 32) (hlen : len < 2 ^ 32) (hbig : 0x10000000 ≤ len) (hl : s.data.length ≤ len)
    (m : Nat) (rest body : Bytes) (hm : fields.length + (m + 1) < 2 ^ 32)
    (hb : body = Undo.hdrEnc u ++ (keyEnc key ++ (compEnc (fields.length + (m + 1)) ++ (fields.flatMap fieldEnc ++ (compEnc k ++ compEnc len ++ rest)))))
    (hbl : body.length < 2 ^ 16) (pre suf : Bytes) (hd : s.data = pre ++ (beEnc 2 body.length ++ body) ++ suf)
    (ha : ahead ≤ (rest ++ suf).length) (out : Out) :
    mlogUndoInsert cfg s ⟨pre.length, out⟩ =
      match updLoop cfg s table m ⟨(pre ++ (beEnc 2 body.length ++ body)).length - rest.length, out⟩ with
      | .ok (.ok ds) st => .ok none ⟨(pre ++ (beEnc 2 body.length ++ body)).length,
          st.out ++ if filterPrints cfg table then [updateStmt cfg.env.ff table pk (cols ++ ⟨c.name, .nil⟩ :: ds)] else []⟩
      | .ok (.error e) st => .ok (some e) st
      | .panic st => .ok none ⟨(pre ++ (beEnc 2 body.length ++ body)).length, st.out⟩
      | .hang st => .hang st := by
  unfold mlogUndoInsert
  have r1 : read2 s.data pre.length = some body.length := by
    rw [read2_eq, hd, List.append_assoc, List.append_assoc, ← List.append_assoc]
    exact readW_beEnc pre _ hbl
  rw [here_bind_some (s := ⟨pre.length, out⟩) r1, addPos_bind, getPos_bind]
  dsimp only
  have hend : (pre ++ (beEnc 2 body.length ++ body)).length = pre.length + 2 + body.length := by
    simp only [List.length_append, beEnc_length, Nat.add_assoc]
  rw [hend]
  have hp2 : pre.length + 2 = (pre ++ beEnc 2 body.length).length := by rw [List.length_append, beEnc_length]
  generalize hP : pre ++ beEnc 2 body.length = P at hp2
  have hd1 : s.data = P ++ Undo.hdrEnc u ++ (keyEnc key ++ (compEnc (fields.length + (m + 1)) ++ (fields.flatMap fieldEnc ++ (compEnc k ++ compEnc len ++ rest)) ++ suf)) := by
    rw [hd, ← List.append_assoc pre, hP, hb]
    simp only [List.append_assoc]
  have h5 : 5 ≤ (keyEnc key ++ (compEnc (fields.length + (m + 1)) ++ (fields.flatMap fieldEnc ++ (compEnc k ++ compEnc len ++ rest)) ++ suf)).length := by
    have : (compEnc len).length = 5 := by
      unfold compEnc
      rw [if_neg (by omega), if_neg (by omega), if_neg (by omega), if_neg (by omega), List.length_cons, beEnc_length]
    simp only [List.length_append]
    omega
  have hbd := undoBody_enc cfg s (pre.length + 2) body.length u (by omega) hfl hn ht h1 h2 P _ hd1 h5 out
  rw [← hp2] at hbd
  unfold GoM.recover
  rw [hbd, htab]
  dsimp only
  have hd2 : s.data = (P ++ Undo.hdrEnc u) ++ keyEnc key ++ (compEnc (fields.length + (m + 1)) ++ (fields.flatMap fieldEnc ++ (compEnc k ++ compEnc len ++ rest)) ++ suf) := by
    rw [hd1]; simp only [List.append_assoc]
  have hd3 : s.data = (P ++ Undo.hdrEnc u ++ keyEnc key) ++ compEnc (fields.length + (m + 1)) ++ (fields.flatMap fieldEnc ++ (compEnc k ++ compEnc len ++ rest) ++ suf) := by
    rw [hd1]; simp only [List.append_assoc]
  have hd4 : s.data = (P ++ Undo.hdrEnc u ++ keyEnc key ++ compEnc (fields.length + (m + 1))) ++ fields.flatMap fieldEnc ++ ((compEnc k ++ compEnc len) ++ (rest ++ suf)) := by
    rw [hd1]; simp only [List.append_assoc]
  have hd5 : s.data = (P ++ Undo.hdrEnc u ++ keyEnc key ++ compEnc (fields.length + (m + 1)) ++ fields.flatMap fieldEnc) ++ (compEnc k ++ compEnc len) ++ (rest ++ suf) := by
    rw [hd1]; simp only [List.append_assoc]
  have e : pre.length + 2 + body.length - rest.length =
      (P ++ Undo.hdrEnc u ++ keyEnc key ++ compEnc (fields.length + (m + 1)) ++ fields.flatMap fieldEnc ++ (compEnc k ++ compEnc len)).length := by
    rw [hp2, hb]
    simp only [List.length_append]
    omega
  rw [e, undoTable, GoM.bind_ok (pkLoop_vals cfg s table _ key pk hkv hkl _ _ hd2 out)]
  dsimp only
  rw [if_pos (show u.kind = TRX_UNDO_UPD_EXIST_REC from hk)]
  have r2 : matchParseCompressed s.data (P ++ Undo.hdrEnc u ++ keyEnc key).length =
      some ⟨fields.length + (m + 1), (compEnc (fields.length + (m + 1))).length, none⟩ := by
    rw [hd3]
    exact mpc_compEnc _ _ hm
  rw [here_bind_some (s := ⟨_, out⟩) r2]
  dsimp only
  rw [addPos_bind, ← List.length_append, GoM.bind_run,
    updLoop_vals_then cfg s table (by omega) (m + 1) fields cols hov hf _ _ hd4 (by rw [List.length_append]; omega) out,
    updLoop_long cfg s table m hc hk2 hlen hd5 hl out]
  cases updLoop cfg s table m ⟨(P ++ Undo.hdrEnc u ++ keyEnc key ++ compEnc (fields.length + (m + 1)) ++ fields.flatMap fieldEnc ++ (compEnc k ++ compEnc len)).length, out⟩ with
  | ok x st =>
    cases x with
    | ok ds =>
      dsimp only [thenCols]
      by_cases hp : filterPrints cfg table = true
      · rw [if_pos hp, if_pos hp]; rfl
      · rw [if_neg hp, if_neg hp, List.append_nil]; rfl
    | error e => rfl
  | panic st => rfl
  | hang st => rfl

end Verif
