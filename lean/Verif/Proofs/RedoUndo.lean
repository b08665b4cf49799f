import Verif.Proofs.RedoSync
import Verif.Props.Ints
/-!
# Lemmas: how the redo parser processes documented undo records
-/

namespace Verif
open Spec

set_option maxRecDepth 10000 in
theorem kind_eq {n : Nat} (h : n < 256) : andNot64 n TRX_UNDO_UPD_EXTERN &&& (TRX_UNDO_CMPL_INFO_MULT - 1) = n % 16 := by
  have : ∀ n < 256, andNot64 n TRX_UNDO_UPD_EXTERN &&& (TRX_UNDO_CMPL_INFO_MULT - 1) = n % 16 := by decide
  exact this n h

theorem sliceFrom_append {d pre r : Bytes} {p : Nat} (hd : d = pre ++ r) (hp : p = pre.length) : sliceFrom d p = some r := by
  subst hd hp
  rw [sliceFrom, if_pos (by rw [List.length_append]; omega), List.drop_left]

theorem Eats.run {α : Type} {la : Nat} {d e : Bytes} {m : RM α} {a : α} (h : Eats la d m e (Pure.pure a)) {pre suf : Bytes}
    (hd : d = pre ++ e ++ suf) (hs : la ≤ suf.length) (out : Out) : m ⟨pre.length, out⟩ = .ok a ⟨(pre ++ e).length, out⟩ := by
  rw [List.length_append]
  exact h pre suf hd hs out

theorem Eats.sysColumns {d : Bytes} (u : Undo) (h1 : u.trx < 2 ^ 64) (h2 : u.roll < 2 ^ 64) :
    Eats 5 d (skipSysColumns d u.kind) u.sysEnc (Pure.pure ()) := by
  unfold skipSysColumns Undo.sysEnc
  by_cases hk : u.kind = 11
  · rw [if_neg (show ¬ u.kind ≠ TRX_UNDO_INSERT_REC from fun h => h hk), if_pos hk]
    exact Eats.pure _
  · rw [if_pos (show u.kind ≠ TRX_UNDO_INSERT_REC from hk), if_neg hk]
    refine Eats.rd read1_eq (beEnc_length 1 _) (Eats.ull h1 (by have := compEnc_length_le (u.trx / 2 ^ 32); omega) fun _ => ?_)
    exact Eats.congr (Eats.ull h2 (by have := compEnc_length_le (u.roll / 2 ^ 32); omega) fun _ => Eats.pure _) (List.append_nil _)

/-- without anything known about what follows: the right number of bytes is skipped, or the read runs over the end -/
theorem ull_or {d pre suf : Bytes} {n : Nat} (hn : n < 2 ^ 64) (hd : d = pre ++ ullCompEnc n ++ suf) (out : Out) :
    (∃ v, ullReadCompressed d ⟨pre.length, out⟩ = .ok v ⟨pre.length + (ullCompEnc n).length, out⟩) ∨
      ∃ t, ullReadCompressed d ⟨pre.length, out⟩ = .panic t := by
  have hh : n / 2 ^ 32 < 2 ^ 32 := by omega
  have hr : matchParseCompressed d pre.length = some ⟨n / 2 ^ 32, (compEnc (n / 2 ^ 32)).length, none⟩ := by
    rw [hd, ullCompEnc, List.append_assoc, List.append_assoc, ← List.append_assoc]
    exact mpc_compEnc pre _ hh
  unfold ullReadCompressed
  rw [GoM.zoom_run]
  unfold matchUllReadComPressed
  dsimp only
  rw [hr]
  dsimp only
  rw [ullCompEnc, List.length_append, beEnc_length, ← Nat.add_assoc]
  generalize (do let s ← sliceFrom d (pre.length + (compEnc (n / 2 ^ 32)).length); let s ← sliceFrom s _; matchReadFrom4 s : Option Nat) = r
  cases r with
  | none => exact Or.inr ⟨_, rfl⟩
  | some v => exact Or.inl ⟨_, rfl⟩

theorem sysColumns_or {d : Bytes} (u : Undo) (h1 : u.trx < 2 ^ 64) (h2 : u.roll < 2 ^ 64) {pre suf : Bytes} (hd : d = pre ++ u.sysEnc ++ suf)
    (out : Out) : skipSysColumns d u.kind ⟨pre.length, out⟩ = .ok () ⟨(pre ++ u.sysEnc).length, out⟩ ∨
      ∃ t, skipSysColumns d u.kind ⟨pre.length, out⟩ = .panic t := by
  unfold skipSysColumns
  unfold Undo.sysEnc at hd ⊢
  by_cases hk : u.kind = 11
  · rw [if_neg (show ¬ u.kind ≠ TRX_UNDO_INSERT_REC from fun h => h hk), if_pos hk, List.append_nil]
    exact Or.inl rfl
  · rw [if_pos (show u.kind ≠ TRX_UNDO_INSERT_REC from hk), if_neg hk] at *
    obtain ⟨v, r1⟩ : ∃ v, read1 d pre.length = some v := by
      rw [read1_eq, readW, if_pos (by rw [hd]; simp only [List.length_append, beEnc_length]; omega)]
      exact ⟨_, rfl⟩
    rw [here_bind_some (s := ⟨pre.length, out⟩) r1, addPos_bind]
    have e1 : pre.length + 1 = (pre ++ beEnc 1 u.info).length := by rw [List.length_append, beEnc_length]
    dsimp only
    rw [e1]
    rcases ull_or (d := d) (pre := pre ++ beEnc 1 u.info) (suf := ullCompEnc u.roll ++ suf) h1 (by rw [hd]; simp only [List.append_assoc]) out with ⟨v, hv⟩ | ⟨t, ht⟩
    case inr => exact Or.inr ⟨t, GoM.bind_panic ht⟩
    rw [GoM.bind_ok hv, ← List.length_append]
    rcases ull_or (d := d) (pre := pre ++ beEnc 1 u.info ++ ullCompEnc u.trx) (suf := suf) h2 (by rw [hd]; simp only [List.append_assoc]) out with ⟨v, hv⟩ | ⟨t, ht⟩
    case inr => exact Or.inr ⟨t, GoM.bind_panic ht⟩
    rw [GoM.bind_ok hv, ← List.length_append]
    left
    simp only [List.append_assoc]
    rfl

/-- everything before the primary key -/
def Undo.hdrEnc (u : Undo) : Bytes := beEnc 1 (u.flags * 16 + u.kind) ++ (ullMuchEnc u.undoNo ++ (ullMuchEnc u.tableId ++ u.sysEnc))

/-- the part of it before the system columns -/
def Undo.idsEnc (u : Undo) : Bytes := beEnc 1 (u.flags * 16 + u.kind) ++ (ullMuchEnc u.undoNo ++ ullMuchEnc u.tableId)

theorem Undo.hdrEnc_eq (u : Undo) : Undo.hdrEnc u = Undo.idsEnc u ++ u.sysEnc := by
  unfold Undo.hdrEnc Undo.idsEnc
  simp only [List.append_assoc]

theorem undoBody_ids (cfg : RCfg) (s : Stream) (q n : Nat) (u : Undo) (hk : u.kind < 16) (hf : u.flags < 16) (hn : u.undoNo < 2 ^ 32)
    (ht : u.tableId < 2 ^ 32) (pre suf : Bytes) (hd : s.data = pre ++ Undo.hdrEnc u ++ suf) (out : Out) :
    undoBody cfg s q n ⟨pre.length, out⟩ = (skipSysColumns s.data u.kind >>= fun _ => match cfg.tables.get? u.tableId with
      | none => do
        setPos (q + n)
        return some (b! "table not found, table id is " ++ dec u.tableId)
      | some table => undoTable cfg s q n u.kind table) ⟨(pre ++ Undo.idsEnc u).length, out⟩ := by
  unfold undoBody
  dsimp only
  have hb : u.flags * 16 + u.kind < 256 := by omega
  have r1 : read1 s.data pre.length = some (u.flags * 16 + u.kind) := by
    rw [read1_eq, hd, Undo.hdrEnc, List.append_assoc, List.append_assoc, ← List.append_assoc]
    exact readW_beEnc pre _ hb
  rw [here_bind_some (s := ⟨pre.length, out⟩) r1, addPos_bind, kind_eq hb]
  have e1 : (u.flags * 16 + u.kind) % 16 = u.kind := by omega
  rw [e1]
  have r2 : sliceFrom s.data (pre.length + 1) = some (ullMuchEnc u.undoNo ++ (ullMuchEnc u.tableId ++ (u.sysEnc ++ suf))) := by
    apply sliceFrom_append (pre := pre ++ beEnc 1 (u.flags * 16 + u.kind))
    · rw [hd, Undo.hdrEnc]; simp only [List.append_assoc]
    · rw [List.length_append, beEnc_length]
  rw [here_bind_some (s := ⟨pre.length + 1, out⟩) r2]
  obtain ⟨c1, c2⟩ := Props.C05_below_2_32_partial u.undoNo (ullMuchEnc u.tableId ++ (u.sysEnc ++ suf)) hn
  rw [c1, GoM.bind_ok (GoM.lift_some _ _)]
  dsimp only
  rw [c2, addPos_bind]
  have r3 : sliceFrom s.data (pre.length + 1 + (ullMuchEnc u.undoNo).length) = some (ullMuchEnc u.tableId ++ (u.sysEnc ++ suf)) := by
    apply sliceFrom_append (pre := pre ++ beEnc 1 (u.flags * 16 + u.kind) ++ ullMuchEnc u.undoNo)
    · rw [hd, Undo.hdrEnc]; simp only [List.append_assoc]
    · rw [List.length_append, List.length_append, beEnc_length]
  rw [here_bind_some (s := ⟨pre.length + 1 + (ullMuchEnc u.undoNo).length, out⟩) r3]
  obtain ⟨c3, c4⟩ := Props.C05_below_2_32_partial u.tableId (u.sysEnc ++ suf) ht
  rw [c3, GoM.bind_ok (GoM.lift_some _ _)]
  dsimp only
  rw [c4, addPos_bind]
  simp only [Undo.idsEnc, List.length_append, beEnc_length, Nat.add_assoc]
  cases cfg.tables.get? u.tableId <;> rfl

theorem undoBody_enc (cfg : RCfg) (s : Stream) (q n : Nat) (u : Undo) (hk : u.kind < 16) (hf : u.flags < 16) (hn : u.undoNo < 2 ^ 32)
    (ht : u.tableId < 2 ^ 32) (h1 : u.trx < 2 ^ 64) (h2 : u.roll < 2 ^ 64) (pre suf : Bytes) (hd : s.data = pre ++ Undo.hdrEnc u ++ suf)
    (hs : 5 ≤ suf.length) (out : Out) :
    undoBody cfg s q n ⟨pre.length, out⟩ = match cfg.tables.get? u.tableId with
      | none => .ok (some (b! "table not found, table id is " ++ dec u.tableId)) ⟨q + n, out⟩
      | some table => undoTable cfg s q n u.kind table ⟨(pre ++ Undo.hdrEnc u).length, out⟩ := by
  rw [undoBody_ids cfg s q n u hk hf hn ht pre suf hd out]
  rw [Undo.hdrEnc_eq, ← List.append_assoc] at hd ⊢
  rw [GoM.bind_ok ((Eats.sysColumns (d := s.data) u h1 h2).run hd hs out)]
  cases cfg.tables.get? u.tableId with
  | none => rfl
  | some table => rfl

/-- without anything known about what follows -/
theorem undoBody_or (cfg : RCfg) (s : Stream) (q n : Nat) (u : Undo) (hk : u.kind < 16) (hf : u.flags < 16) (hn : u.undoNo < 2 ^ 32)
    (ht : u.tableId < 2 ^ 32) (h1 : u.trx < 2 ^ 64) (h2 : u.roll < 2 ^ 64) (pre suf : Bytes) (hd : s.data = pre ++ Undo.hdrEnc u ++ suf)
    (out : Out) :
    (undoBody cfg s q n ⟨pre.length, out⟩ = match cfg.tables.get? u.tableId with
      | none => .ok (some (b! "table not found, table id is " ++ dec u.tableId)) ⟨q + n, out⟩
      | some table => undoTable cfg s q n u.kind table ⟨(pre ++ Undo.hdrEnc u).length, out⟩) ∨
    ∃ t, undoBody cfg s q n ⟨pre.length, out⟩ = .panic t := by
  rw [undoBody_ids cfg s q n u hk hf hn ht pre suf hd out]
  rw [Undo.hdrEnc_eq, ← List.append_assoc] at hd ⊢
  rcases sysColumns_or u h1 h2 hd out with h | ⟨t, h⟩
  case inr => exact Or.inr ⟨t, GoM.bind_panic h⟩
  rw [GoM.bind_ok h]
  cases cfg.tables.get? u.tableId with
  | none => exact Or.inl rfl
  | some table => exact Or.inl rfl

/-! ## The primary key -/

/-- what follows the value, for the decoders that can see it -/
def seen (c : Column) (rest : Bytes) : Bytes := if c.ftype = DATA_FLOAT ∨ c.ftype = DATA_DOUBLE then rest else []

/-- the decoder applied to a value of a key column, followed by `rest` -/
def keyDecode (cfg : RCfg) (table : Table) (f : IdxField) (v rest : Bytes) : GoM Out (Val × Bool) :=
  let c := getColumnsByName table f.name
  parseData cfg.env c.ftype c.mtype (v ++ seen c rest) v.length (getFixedLength c.ftype c.len) c.isUnsigned c.isBinary

theorem sliceCap_mid (s : Stream) {pre v suf : Bytes} (hd : s.data = pre ++ v ++ suf) :
    sliceCap s pre.length (pre.length + v.length) = some v := by
  unfold sliceCap
  rw [if_pos ⟨by omega, by rw [hd]; simp only [List.length_append]; omega⟩, hd]
  rw [show pre ++ v ++ suf ++ List.replicate s.spare 0 = pre ++ (v ++ (suf ++ List.replicate s.spare 0)) by simp only [List.append_assoc],
    List.drop_left, Nat.add_sub_cancel_left, List.take_left]

theorem withSpare_eq (s : Stream) (c : Column) {pre v suf : Bytes} (hd : s.data = pre ++ v ++ suf) :
    withSpare s c.ftype pre.length v = v ++ seen c (suf ++ List.replicate s.spare 0) := by
  unfold withSpare seen
  split
  · rw [hd, List.append_assoc, List.append_assoc, List.drop_left]
  · rw [List.append_nil]

/-- the program after the value of a key column -/
def pkTail (cfg : RCfg) (s : Stream) (table : Table) (fs : List IdxField) (name : Bytes) (x : Val) : RM (Ret (List PkVal)) := do
  match ← pkLoop cfg s table fs with
  | .error e => return .error e
  | .ok rest => return .ok (⟨name, x⟩ :: rest)

theorem pkLoop_cons (cfg : RCfg) (s : Stream) (table : Table) (f : IdxField) (fs : List IdxField) {pre v suf : Bytes} (hv : v.length < 2 ^ 32)
    (hd : s.data = pre ++ (compEnc v.length ++ v) ++ suf) (out : Out) :
    pkLoop cfg s table (f :: fs) ⟨pre.length, out⟩ = match keyDecode cfg table f v (suf ++ List.replicate s.spare 0) out with
      | .ok x out' => pkTail cfg s table fs f.name x.1 ⟨(pre ++ (compEnc v.length ++ v)).length, out'⟩
      | .panic out' => .panic ⟨(pre ++ compEnc v.length).length, out'⟩
      | .hang out' => .hang ⟨(pre ++ compEnc v.length).length, out'⟩ := by
  rw [pkLoop]
  have r1 : matchParseCompressed s.data pre.length = some ⟨v.length, (compEnc v.length).length, none⟩ := by
    rw [hd, List.append_assoc, List.append_assoc, ← List.append_assoc]
    exact mpc_compEnc pre _ hv
  rw [here_bind_some (s := ⟨pre.length, out⟩) r1]
  dsimp only
  rw [addPos_bind, getPos_bind]
  dsimp only
  have r2 := sliceCap_mid s (pre := pre ++ compEnc v.length) (v := v) (suf := suf) (by rw [hd]; simp only [List.append_assoc])
  have r3 := withSpare_eq s (getColumnsByName table f.name) (pre := pre ++ compEnc v.length) (v := v) (suf := suf)
    (by rw [hd]; simp only [List.append_assoc])
  rw [List.length_append] at r2 r3
  rw [r2, GoM.bind_ok (GoM.lift_some _ _), GoM.bind_run, r3]
  unfold outM
  rw [GoM.zoom_run]
  generalize hg : keyDecode cfg table f v (suf ++ List.replicate s.spare 0) out = r
  unfold keyDecode at hg
  dsimp only at hg ⊢
  rw [hg]
  cases r with
  | ok x out' =>
    dsimp only
    rw [addPos_bind]
    simp only [List.length_append, Nat.add_assoc]
    rfl
  | panic out' => dsimp only; rw [List.length_append]
  | hang out' => dsimp only; rw [List.length_append]

theorem keyDecode_terminates (cfg : RCfg) (table : Table) (f : IdxField) (v rest : Bytes) : Terminates (keyDecode cfg table f v rest) :=
  parseData_terminates _ _ _ _ _ _ _ _

/-- Whatever the decoders do, the key of a documented record is skipped, or the code panics. -/
theorem pkLoop_ends (cfg : RCfg) (s : Stream) (table : Table) (fs : List IdxField) (key : List Bytes) (hl : key.length = fs.length)
    (hk : ∀ v ∈ key, v.length < 2 ^ 32) (pre suf : Bytes) (hd : s.data = pre ++ keyEnc key ++ suf) (out : Out) :
    (∃ pk out', pkLoop cfg s table fs ⟨pre.length, out⟩ = .ok (.ok pk) ⟨(pre ++ keyEnc key).length, out'⟩) ∨
    ∃ t, pkLoop cfg s table fs ⟨pre.length, out⟩ = .panic t := by
  induction fs generalizing key pre out with
  | nil =>
    have : key = [] := List.length_eq_zero_iff.mp hl
    subst this
    left
    refine ⟨[], out, ?_⟩
    rw [pkLoop, keyEnc, List.flatMap_nil, List.append_nil]
    rfl
  | cons f fs ih =>
    cases key with
    | nil => cases hl
    | cons v key =>
      have hd1 : s.data = pre ++ (compEnc v.length ++ v) ++ (keyEnc key ++ suf) := by
        rw [hd, keyEnc, List.flatMap_cons]
        simp only [keyEnc, List.append_assoc]
      rw [pkLoop_cons cfg s table f fs (hk v List.mem_cons_self) hd1 out]
      cases hr : keyDecode cfg table f v (keyEnc key ++ suf ++ List.replicate s.spare 0) out with
      | hang o => exact absurd hr (keyDecode_terminates cfg table f v _ out o)
      | panic o => exact Or.inr ⟨_, rfl⟩
      | ok x o =>
        dsimp only
        rcases ih key (Nat.succ.inj hl) (fun v h => hk v (List.mem_cons_of_mem _ h)) (pre ++ (compEnc v.length ++ v))
          (by rw [hd1]; simp only [List.append_assoc]) o with ⟨pk, o', h⟩ | ⟨t, h⟩
        · left
          refine ⟨⟨f.name, x.1⟩ :: pk, o', ?_⟩
          rw [pkTail, GoM.bind_ok h]
          have e : pre ++ (compEnc v.length ++ v) ++ keyEnc key = pre ++ keyEnc (v :: key) := by
            simp only [keyEnc, List.flatMap_cons, List.append_assoc]
          rw [e]
          rfl
        · exact Or.inr ⟨t, by rw [pkTail]; exact GoM.bind_panic h⟩

/-- the text of the values -/
inductive KeyVals (cfg : RCfg) (table : Table) : List IdxField → List Bytes → List PkVal → Prop
  | nil : KeyVals cfg table [] [] []
  | cons {f fs v vs x b ps} (h : ∀ rest out, keyDecode cfg table f v rest out = .ok (x, b) out) (t : KeyVals cfg table fs vs ps) :
      KeyVals cfg table (f :: fs) (v :: vs) (⟨f.name, x⟩ :: ps)

theorem pkLoop_vals (cfg : RCfg) (s : Stream) (table : Table) (fs : List IdxField) (key : List Bytes) (ps : List PkVal)
    (h : KeyVals cfg table fs key ps) (hk : ∀ v ∈ key, v.length < 2 ^ 32) (pre suf : Bytes) (hd : s.data = pre ++ keyEnc key ++ suf) (out : Out) :
    pkLoop cfg s table fs ⟨pre.length, out⟩ = .ok (.ok ps) ⟨(pre ++ keyEnc key).length, out⟩ := by
  induction h generalizing pre with
  | nil =>
    rw [pkLoop, keyEnc, List.flatMap_nil, List.append_nil]
    rfl
  | cons hx ht ih =>
    rename_i f fs v vs x b ps
    have hd1 : s.data = pre ++ (compEnc v.length ++ v) ++ (keyEnc vs ++ suf) := by
      rw [hd, keyEnc, List.flatMap_cons]
      simp only [keyEnc, List.append_assoc]
    rw [pkLoop_cons cfg s table f fs (hk v List.mem_cons_self) hd1 out, hx]
    dsimp only
    have := ih (fun v h => hk v (List.mem_cons_of_mem _ h)) (pre ++ (compEnc v.length ++ v)) (by rw [hd1]; simp only [List.append_assoc])
    rw [pkTail, GoM.bind_ok this]
    have e : pre ++ (compEnc v.length ++ v) ++ keyEnc vs = pre ++ keyEnc (v :: vs) := by
      simp only [keyEnc, List.flatMap_cons, List.append_assoc]
    rw [e]
    rfl

/-! ## The update vector -/

/-- the decoder applied to an old value; `rest` is what follows it in the stream -/
def oldDecode (cfg : RCfg) (c : Column) (v rest : Bytes) : GoM Out (Val × Bool) :=
  parseData cfg.env c.ftype c.mtype (v ++ rest) v.length (getFixedLength c.ftype c.len) c.isUnsigned c.isBinary

/-- the program after the value of a column -/
def updTail (cfg : RCfg) (s : Stream) (table : Table) (n : Nat) (name : Bytes) (x : Val) : RM (Ret (List UpdCol)) := do
  match ← updLoop cfg s table n with
  | .error e => return .error e
  | .ok rest => return .ok (⟨name, x⟩ :: rest)

theorem updLoop_null (cfg : RCfg) (s : Stream) (table : Table) (n : Nat) {k : Nat} {c : Column} (hc : table.columns[k]? = some c) (hk : k < 2 ^ 32)
    {pre suf : Bytes} (hd : s.data = pre ++ fieldEnc (k, none) ++ suf) (hl : s.data.length < 2 ^ 32) (out : Out) :
    updLoop cfg s table (n + 1) ⟨pre.length, out⟩ = updTail cfg s table n c.name .nil ⟨(pre ++ fieldEnc (k, none)).length, out⟩ := by
  rw [updLoop]
  have hd1 : s.data = pre ++ compEnc k ++ (compEnc SQL_NULL ++ suf) := by
    rw [hd]; simp only [fieldEnc, valueEnc, List.append_assoc]
  have r1 : matchParseCompressed s.data pre.length = some ⟨k, (compEnc k).length, none⟩ := by
    rw [hd1]
    exact mpc_compEnc pre _ hk
  rw [here_bind_some (s := ⟨pre.length, out⟩) r1]
  dsimp only
  rw [addPos_bind]
  unfold getColumnByPos
  rw [hc]
  dsimp only
  have r2 : matchParseCompressed s.data (pre.length + (compEnc k).length) = some ⟨SQL_NULL, (compEnc SQL_NULL).length, none⟩ := by
    rw [hd1, ← List.append_assoc, ← List.length_append]
    exact mpc_compEnc _ _ (by decide)
  rw [here_bind_some (s := ⟨pre.length + (compEnc k).length, out⟩) r2, addPos_bind, getPos_bind]
  have r3 : ∀ p, p + 5 ≥ 5 → 0 < p → updValue cfg s c p SQL_NULL = pure (Val.nil, 0) := by
    intro p _ hp
    unfold updValue
    rw [if_pos (by unfold SQL_NULL; omega)]
  have hpos : 0 < (compEnc k).length := List.length_pos_iff.mpr (compEnc_ne_nil k)
  rw [r3 _ (by omega) (by dsimp only; omega), GoM.bind_ok (GoM.pure_run _ _), addPos_bind]
  simp only [fieldEnc, valueEnc, List.length_append, Nat.add_assoc, Nat.add_zero]
  rfl

theorem updLoop_some (cfg : RCfg) (s : Stream) (table : Table) (n : Nat) {k : Nat} {c : Column} (hc : table.columns[k]? = some c) (hk : k < 2 ^ 32)
    {pre v suf : Bytes} (hv : v.length < 2 ^ 32) (hd : s.data = pre ++ fieldEnc (k, some v) ++ suf) (out : Out) :
    updLoop cfg s table (n + 1) ⟨pre.length, out⟩ = match oldDecode cfg c v (suf ++ seen c (List.replicate s.spare 0)) out with
      | .ok x out' => updTail cfg s table n c.name x.1 ⟨(pre ++ fieldEnc (k, some v)).length, out'⟩
      | .panic out' => .panic ⟨(pre ++ (compEnc k ++ compEnc v.length)).length, out'⟩
      | .hang out' => .hang ⟨(pre ++ (compEnc k ++ compEnc v.length)).length, out'⟩ := by
  rw [updLoop]
  have hd1 : s.data = pre ++ compEnc k ++ (compEnc v.length ++ (v ++ suf)) := by
    rw [hd]; simp only [fieldEnc, valueEnc, List.append_assoc]
  have r1 : matchParseCompressed s.data pre.length = some ⟨k, (compEnc k).length, none⟩ := by
    rw [hd1]
    exact mpc_compEnc pre _ hk
  rw [here_bind_some (s := ⟨pre.length, out⟩) r1]
  dsimp only
  rw [addPos_bind]
  unfold getColumnByPos
  rw [hc]
  dsimp only
  have r2 : matchParseCompressed s.data (pre.length + (compEnc k).length) = some ⟨v.length, (compEnc v.length).length, none⟩ := by
    rw [hd1, ← List.append_assoc, ← List.length_append]
    exact mpc_compEnc _ _ hv
  rw [here_bind_some (s := ⟨pre.length + (compEnc k).length, out⟩) r2, addPos_bind, getPos_bind]
  dsimp only
  have r3 : updValue cfg s c (pre.length + (compEnc k).length + (compEnc v.length).length) v.length ⟨pre.length + (compEnc k).length + (compEnc v.length).length, out⟩ =
      match oldDecode cfg c v (suf ++ seen c (List.replicate s.spare 0)) out with
      | .ok x out' => .ok (x.1, v.length) ⟨pre.length + (compEnc k).length + (compEnc v.length).length, out'⟩
      | .panic out' => .panic ⟨pre.length + (compEnc k).length + (compEnc v.length).length, out'⟩
      | .hang out' => .hang ⟨pre.length + (compEnc k).length + (compEnc v.length).length, out'⟩ := by
    unfold updValue
    rw [if_neg (by rw [hd1]; simp only [List.length_append]; omega)]
    rw [sliceFrom_append (pre := pre ++ compEnc k ++ compEnc v.length) (r := v ++ suf) (by rw [hd1]; simp only [List.append_assoc])
      (by simp only [List.length_append]), GoM.bind_ok (GoM.lift_some _ _), GoM.bind_run]
    have r4 : withSpare s c.ftype (pre.length + (compEnc k).length + (compEnc v.length).length) (v ++ suf) =
        v ++ (suf ++ seen c (List.replicate s.spare 0)) := by
      have := withSpare_eq s c (pre := pre ++ compEnc k ++ compEnc v.length) (v := v ++ suf) (suf := [])
        (by rw [hd1]; simp only [List.append_assoc, List.append_nil])
      rw [List.length_append, List.length_append, List.nil_append, List.append_assoc] at this
      exact this
    rw [r4]
    unfold outM
    rw [GoM.zoom_run]
    generalize hg : oldDecode cfg c v (suf ++ seen c (List.replicate s.spare 0)) out = r
    unfold oldDecode at hg
    dsimp only at hg ⊢
    rw [hg]
    cases r <;> rfl
  rw [GoM.bind_run, r3]
  cases oldDecode cfg c v (suf ++ seen c (List.replicate s.spare 0)) out with
  | ok x out' =>
    dsimp only
    rw [addPos_bind]
    simp only [fieldEnc, valueEnc, List.length_append, Nat.add_assoc]
    rfl
  | panic out' => simp only [List.length_append, Nat.add_assoc]
  | hang out' => simp only [List.length_append, Nat.add_assoc]

theorem oldDecode_terminates (cfg : RCfg) (c : Column) (v rest : Bytes) : Terminates (oldDecode cfg c v rest) :=
  parseData_terminates _ _ _ _ _ _ _ _

theorem updLoop_ends (cfg : RCfg) (s : Stream) (table : Table) (hl : s.data.length < 2 ^ 32) (fields : List (Nat × Option Bytes))
    (hf : ∀ f ∈ fields, fieldFits f) (hc : ∀ f ∈ fields, f.1 < table.columns.length) (pre suf : Bytes)
    (hd : s.data = pre ++ fields.flatMap fieldEnc ++ suf) (out : Out) :
    (∃ cols out', updLoop cfg s table fields.length ⟨pre.length, out⟩ = .ok (.ok cols) ⟨(pre ++ fields.flatMap fieldEnc).length, out'⟩) ∨
    ∃ t, updLoop cfg s table fields.length ⟨pre.length, out⟩ = .panic t := by
  induction fields generalizing pre out with
  | nil =>
    left
    refine ⟨[], out, ?_⟩
    rw [List.length_nil, updLoop, List.flatMap_nil, List.append_nil]
    rfl
  | cons f fs ih =>
    obtain ⟨k, v⟩ := f
    obtain ⟨h1, h2⟩ := hf _ List.mem_cons_self
    have hk := hc _ List.mem_cons_self
    dsimp only at h1 h2 hk
    have hcol : table.columns[k]? = some table.columns[k] := List.getElem?_eq_getElem hk
    have hd1 : s.data = pre ++ fieldEnc (k, v) ++ (fs.flatMap fieldEnc ++ suf) := by
      rw [hd, List.flatMap_cons]; simp only [List.append_assoc]
    have e : pre ++ fieldEnc (k, v) ++ fs.flatMap fieldEnc = pre ++ ((k, v) :: fs).flatMap fieldEnc := by
      rw [List.flatMap_cons]; simp only [List.append_assoc]
    have ih := ih (fun f h => hf f (List.mem_cons_of_mem _ h)) (fun f h => hc f (List.mem_cons_of_mem _ h)) (pre ++ fieldEnc (k, v))
      (by rw [hd1]; simp only [List.append_assoc])
    have tail : ∀ name x o, (∃ cols out', updTail cfg s table fs.length name x ⟨(pre ++ fieldEnc (k, v)).length, o⟩ =
        .ok (.ok cols) ⟨(pre ++ ((k, v) :: fs).flatMap fieldEnc).length, out'⟩) ∨
        ∃ t, updTail cfg s table fs.length name x ⟨(pre ++ fieldEnc (k, v)).length, o⟩ = .panic t := by
      intro name x o
      rcases ih o with ⟨cols, o', h⟩ | ⟨t, h⟩
      · left
        refine ⟨⟨name, x⟩ :: cols, o', ?_⟩
        rw [updTail, GoM.bind_ok h, e]
        rfl
      · exact Or.inr ⟨t, by rw [updTail]; exact GoM.bind_panic h⟩
    rw [List.length_cons]
    cases v with
    | none =>
      rw [updLoop_null cfg s table fs.length hcol h1 hd1 hl out]
      exact tail _ _ _
    | some v =>
      have h3 : v.length < 2 ^ 32 := by
        have : v.length < 2 ^ 32 - 1 := h2 v rfl
        omega
      rw [updLoop_some cfg s table fs.length hcol h1 h3 hd1 out]
      cases hr : oldDecode cfg table.columns[k] v (fs.flatMap fieldEnc ++ suf ++ seen table.columns[k] (List.replicate s.spare 0)) out with
      | hang o => exact absurd hr (oldDecode_terminates _ _ _ _ _ _)
      | panic o => exact Or.inr ⟨_, rfl⟩
      | ok x o => exact tail _ _ _

/-- the values of the update vector; the decoder looks at no more than `ahead` bytes behind each -/
inductive OldVals (cfg : RCfg) (table : Table) (ahead : Nat) : List (Nat × Option Bytes) → List UpdCol → Prop
  | nil : OldVals cfg table ahead [] []
  | null {k c fs cs} (hc : table.columns[k]? = some c) (t : OldVals cfg table ahead fs cs) : OldVals cfg table ahead ((k, none) :: fs) (⟨c.name, .nil⟩ :: cs)
  | val {k c v x b fs cs} (hc : table.columns[k]? = some c) (h : ∀ rest out, ahead ≤ rest.length → oldDecode cfg c v rest out = .ok (x, b) out)
      (t : OldVals cfg table ahead fs cs) : OldVals cfg table ahead ((k, some v) :: fs) (⟨c.name, x⟩ :: cs)

theorem updLoop_vals (cfg : RCfg) (s : Stream) (table : Table) (hl : s.data.length < 2 ^ 32) (fields : List (Nat × Option Bytes)) (cols : List UpdCol) {ahead : Nat}
    (h : OldVals cfg table ahead fields cols) (hf : ∀ f ∈ fields, fieldFits f) (pre suf : Bytes)
    (hd : s.data = pre ++ fields.flatMap fieldEnc ++ suf) (h5 : ahead ≤ suf.length) (out : Out) :
    updLoop cfg s table fields.length ⟨pre.length, out⟩ = .ok (.ok cols) ⟨(pre ++ fields.flatMap fieldEnc).length, out⟩ := by
  induction h generalizing pre with
  | nil =>
    rw [List.length_nil, updLoop, List.flatMap_nil, List.append_nil]
    rfl
  | null hc t ih =>
    rename_i k c fs cs
    obtain ⟨h1, h2⟩ := hf _ List.mem_cons_self
    have hd1 : s.data = pre ++ fieldEnc (k, none) ++ (fs.flatMap fieldEnc ++ suf) := by
      rw [hd, List.flatMap_cons]; simp only [List.append_assoc]
    have e : pre ++ fieldEnc (k, none) ++ fs.flatMap fieldEnc = pre ++ ((k, none) :: fs).flatMap fieldEnc := by
      rw [List.flatMap_cons]; simp only [List.append_assoc]
    have ih := ih (fun f h => hf f (List.mem_cons_of_mem _ h)) (pre ++ fieldEnc (k, none)) (by rw [hd1]; simp only [List.append_assoc])
    rw [List.length_cons, updLoop_null cfg s table fs.length hc h1 hd1 hl out, updTail, GoM.bind_ok ih, e]
    rfl
  | val hc hx t ih =>
    rename_i k c v x b fs cs
    obtain ⟨h1, h2⟩ := hf _ List.mem_cons_self
    have h3 : v.length < 2 ^ 32 := by
      have : v.length < 2 ^ 32 - 1 := h2 v rfl
      omega
    have hd1 : s.data = pre ++ fieldEnc (k, some v) ++ (fs.flatMap fieldEnc ++ suf) := by
      rw [hd, List.flatMap_cons]; simp only [List.append_assoc]
    have e : pre ++ fieldEnc (k, some v) ++ fs.flatMap fieldEnc = pre ++ ((k, some v) :: fs).flatMap fieldEnc := by
      rw [List.flatMap_cons]; simp only [List.append_assoc]
    have ih := ih (fun f h => hf f (List.mem_cons_of_mem _ h)) (pre ++ fieldEnc (k, some v)) (by rw [hd1]; simp only [List.append_assoc])
    rw [List.length_cons, updLoop_some cfg s table fs.length hc h1 h3 hd1 out, hx _ _ (by simp only [List.length_append]; omega)]
    dsimp only
    rw [updTail, GoM.bind_ok ih, e]
    rfl

/-! ## The whole record -/

theorem keyEnc_length_mem {key : List Bytes} {v : Bytes} (h : v ∈ key) : v.length ≤ (keyEnc key).length := by
  induction key with
  | nil => cases h
  | cons w key ih =>
    rw [keyEnc, List.flatMap_cons, List.length_append, List.length_append]
    rcases List.mem_cons.mp h with rfl | h
    · omega
    · have := ih h
      rw [keyEnc] at this
      omega

theorem flatMap_fieldEnc_length (fs : List (Nat × Option Bytes)) : fs.length ≤ (fs.flatMap fieldEnc).length := by
  induction fs with
  | nil => exact Nat.le_refl _
  | cons f fs ih =>
    have : 0 < (compEnc f.1).length := List.length_pos_iff.mpr (compEnc_ne_nil _)
    rw [List.flatMap_cons, List.length_append, fieldEnc, List.length_append, List.length_cons]
    omega

theorem Undo.enc_eq (u : Undo) : u.enc = Undo.hdrEnc u ++ (keyEnc u.key ++ (u.vecEnc ++ u.tail)) := by
  unfold Undo.enc Undo.hdrEnc
  simp only [List.append_assoc]

theorem Undo.Fits.key_lt {u : Undo} (h : u.Fits) {v : Bytes} (hv : v ∈ u.key) : v.length < 2 ^ 32 := by
  have h1 := h.2.2.2.2.2.2.2
  have h2 := keyEnc_length_mem hv
  rw [Undo.enc_eq] at h1
  simp only [List.length_append] at h1
  omega

theorem Undo.Fits.fields_lt {u : Undo} (h : u.Fits) (hk : u.kind = 12) : u.fields.length < 2 ^ 32 := by
  have h1 := h.2.2.2.2.2.2.2
  rw [Undo.enc_eq, Undo.vecEnc, if_pos (Or.inl hk)] at h1
  have h2 := flatMap_fieldEnc_length u.fields
  simp only [List.length_append] at h1
  omega

theorem Undo.Fits.kind_lt {u : Undo} (h : u.Fits) : u.kind < 16 := by
  have h1 := h.1
  simp only [List.mem_cons, List.not_mem_nil, or_false] at h1
  omega

/-- What a dictionary must know to parse an undo record: for its table, if known, the number of columns of the primary key and at
least the columns that were updated. -/
def Undo.Matches (cfg : RCfg) (u : Undo) : Prop := ∀ table, cfg.tables.get? u.tableId = some table →
  u.key.length = (getPrimaryKey table.indexes []).length ∧ (u.kind = 12 → ∀ f ∈ u.fields, f.1 < table.columns.length)

/-- A documented undo record is consumed exactly. -/
theorem undo_ends (cfg : RCfg) (s : Stream) (u : Undo) (hu : u.Fits) (hn : u.undoNo < 2 ^ 32) (ht : u.tableId < 2 ^ 32)
    (hm : Undo.Matches cfg u) (hl : s.data.length < 2 ^ 32) (pre suf : Bytes) (hd : s.data = pre ++ (beEnc 2 u.enc.length ++ u.enc) ++ suf)
    (out : Out) :
    ∃ r out', mlogUndoInsert cfg s ⟨pre.length, out⟩ = .ok r ⟨(pre ++ (beEnc 2 u.enc.length ++ u.enc)).length, out'⟩ := by
  have hlen : u.enc.length < 2 ^ 16 := hu.2.2.2.2.2.2.2
  unfold mlogUndoInsert
  have r1 : read2 s.data pre.length = some u.enc.length := by
    rw [read2_eq, hd, List.append_assoc, List.append_assoc, ← List.append_assoc]
    exact readW_beEnc pre _ hlen
  rw [here_bind_some (s := ⟨pre.length, out⟩) r1, addPos_bind, getPos_bind]
  dsimp only
  have hend : (pre ++ (beEnc 2 u.enc.length ++ u.enc)).length = pre.length + 2 + u.enc.length := by
    simp only [List.length_append, beEnc_length, Nat.add_assoc]
  rw [hend]
  have hp2 : pre.length + 2 = (pre ++ beEnc 2 u.enc.length).length := by rw [List.length_append, beEnc_length]
  -- it is enough that the body ends at the end of the record, or panics
  have key : (∃ r out', undoBody cfg s (pre.length + 2) u.enc.length ⟨pre.length + 2, out⟩ = .ok r ⟨pre.length + 2 + u.enc.length, out'⟩) ∨
      (∃ t, undoBody cfg s (pre.length + 2) u.enc.length ⟨pre.length + 2, out⟩ = .panic t) := by
    generalize hq : pre.length + 2 = q
    rw [hq] at hp2
    have hd1 : s.data = (pre ++ beEnc 2 u.enc.length) ++ Undo.hdrEnc u ++ (keyEnc u.key ++ (u.vecEnc ++ (u.tail ++ suf))) := by
      clear r1 hend hp2
      generalize beEnc 2 u.enc.length = h2 at hd ⊢
      rw [hd, Undo.enc_eq]
      simp only [List.append_assoc]
    have hb := undoBody_or cfg s q u.enc.length u (Undo.Fits.kind_lt hu) hu.2.1 hn ht hu.2.2.2.2.1 hu.2.2.2.2.2.1 (pre ++ beEnc 2 u.enc.length) _ hd1 out
    rw [← hp2] at hb
    rcases hb with hb | hb
    case inr => exact Or.inr hb
    rw [hb]
    cases htab : cfg.tables.get? u.tableId with
    | none => exact Or.inl ⟨_, _, rfl⟩
    | some table =>
      dsimp only
      obtain ⟨hkl, hfl⟩ := hm table htab
      have hd2 : s.data = (pre ++ beEnc 2 u.enc.length ++ Undo.hdrEnc u) ++ keyEnc u.key ++ (u.vecEnc ++ (u.tail ++ suf)) := by
        rw [hd1]; simp only [List.append_assoc]
      rw [undoTable]
      rcases pkLoop_ends cfg s table _ u.key hkl (fun v hv => Undo.Fits.key_lt hu hv) _ _ hd2 out with ⟨pk, o, hpk⟩ | ⟨t, hpk⟩
      case inr => exact Or.inr ⟨t, GoM.bind_panic hpk⟩
      rw [GoM.bind_ok hpk]
      dsimp only
      by_cases hk : u.kind = 12
      case neg =>
        rw [if_neg (show ¬ u.kind = TRX_UNDO_UPD_EXIST_REC from hk)]
        exact Or.inl ⟨_, _, rfl⟩
      rw [if_pos (show u.kind = TRX_UNDO_UPD_EXIST_REC from hk)]
      have hd3 : s.data = (pre ++ beEnc 2 u.enc.length ++ Undo.hdrEnc u ++ keyEnc u.key) ++ compEnc u.fields.length ++
          (u.fields.flatMap fieldEnc ++ (u.tail ++ suf)) := by
        rw [hd2, Undo.vecEnc, if_pos (Or.inl hk)]; simp only [List.append_assoc]
      have r2 : matchParseCompressed s.data (pre ++ beEnc 2 u.enc.length ++ Undo.hdrEnc u ++ keyEnc u.key).length =
          some ⟨u.fields.length, (compEnc u.fields.length).length, none⟩ := by
        rw [hd3]
        exact mpc_compEnc _ _ (Undo.Fits.fields_lt hu hk)
      rw [here_bind_some (s := ⟨_, o⟩) r2]
      dsimp only
      rw [addPos_bind, ← List.length_append]
      rcases updLoop_ends cfg s table hl u.fields hu.2.2.2.2.2.2.1 (hfl hk) _ _ (by rw [hd3, ← List.append_assoc]) o with ⟨cols, o', hup⟩ | ⟨t, hup⟩
      case inr => exact Or.inr ⟨t, GoM.bind_panic hup⟩
      rw [GoM.bind_ok hup]
      dsimp only
      split
      · exact Or.inl ⟨_, _, rfl⟩
      · exact Or.inl ⟨_, _, rfl⟩
  unfold GoM.recover
  rcases key with ⟨r, o, h⟩ | ⟨t, h⟩
  · rw [h]
    exact ⟨r, o, rfl⟩
  · rw [h]
    exact ⟨none, t.out, rfl⟩

/-- An undo record of an update, with values that can be decoded. -/
theorem undo_update (cfg : RCfg) (s : Stream) (u : Undo) (hu : u.Fits) (hk : u.kind = 12) (hn : u.undoNo < 2 ^ 32) (ht : u.tableId < 2 ^ 32)
    (table : Table) (htab : cfg.tables.get? u.tableId = some table) (pk : List PkVal) (cols : List UpdCol)
    (hkv : KeyVals cfg table (getPrimaryKey table.indexes []) u.key pk) {ahead : Nat} (hov : OldVals cfg table ahead u.fields cols)
    (hl : s.data.length < 2 ^ 32) (pre suf : Bytes) (hd : s.data = pre ++ (beEnc 2 u.enc.length ++ u.enc) ++ suf)
    (hs : 5 ≤ (keyEnc u.key ++ (u.vecEnc ++ (u.tail ++ suf))).length)
    (ha : ahead ≤ suf.length) (out : Out) :
    mlogUndoInsert cfg s ⟨pre.length, out⟩ = .ok none ⟨(pre ++ (beEnc 2 u.enc.length ++ u.enc)).length,
      out ++ if filterPrints cfg table then [updateStmt cfg.env.ff table pk cols] else []⟩ := by
  have hlen : u.enc.length < 2 ^ 16 := hu.2.2.2.2.2.2.2
  unfold mlogUndoInsert
  have r1 : read2 s.data pre.length = some u.enc.length := by
    rw [read2_eq, hd, List.append_assoc, List.append_assoc, ← List.append_assoc]
    exact readW_beEnc pre _ hlen
  rw [here_bind_some (s := ⟨pre.length, out⟩) r1, addPos_bind, getPos_bind]
  dsimp only
  have hend : (pre ++ (beEnc 2 u.enc.length ++ u.enc)).length = pre.length + 2 + u.enc.length := by
    simp only [List.length_append, beEnc_length, Nat.add_assoc]
  rw [hend]
  have hp2 : pre.length + 2 = (pre ++ beEnc 2 u.enc.length).length := by rw [List.length_append, beEnc_length]
  have key : undoBody cfg s (pre.length + 2) u.enc.length ⟨pre.length + 2, out⟩ = .ok none ⟨pre.length + 2 + u.enc.length,
      out ++ if filterPrints cfg table then [updateStmt cfg.env.ff table pk cols] else []⟩ := by
    generalize hq : pre.length + 2 = q
    rw [hq] at hp2
    have hd1 : s.data = (pre ++ beEnc 2 u.enc.length) ++ Undo.hdrEnc u ++ (keyEnc u.key ++ (u.vecEnc ++ (u.tail ++ suf))) := by
      clear r1 hend hp2
      generalize beEnc 2 u.enc.length = h2 at hd ⊢
      rw [hd, Undo.enc_eq]
      simp only [List.append_assoc]
    have hb := undoBody_enc cfg s q u.enc.length u (Undo.Fits.kind_lt hu) hu.2.1 hn ht hu.2.2.2.2.1 hu.2.2.2.2.2.1 (pre ++ beEnc 2 u.enc.length) _ hd1 hs out
    rw [← hp2] at hb
    rw [hb, htab]
    dsimp only
    have hd2 : s.data = (pre ++ beEnc 2 u.enc.length ++ Undo.hdrEnc u) ++ keyEnc u.key ++ (u.vecEnc ++ (u.tail ++ suf)) := by
      rw [hd1]; simp only [List.append_assoc]
    rw [undoTable]
    have hpk := pkLoop_vals cfg s table _ u.key pk hkv (fun v hv => Undo.Fits.key_lt hu hv) _ _ hd2 out
    rw [GoM.bind_ok hpk]
    dsimp only
    rw [if_pos (show u.kind = TRX_UNDO_UPD_EXIST_REC from hk)]
    have hd3 : s.data = (pre ++ beEnc 2 u.enc.length ++ Undo.hdrEnc u ++ keyEnc u.key) ++ compEnc u.fields.length ++
        (u.fields.flatMap fieldEnc ++ (u.tail ++ suf)) := by
      rw [hd2, Undo.vecEnc, if_pos (Or.inl hk)]; simp only [List.append_assoc]
    have r2 : matchParseCompressed s.data (pre ++ beEnc 2 u.enc.length ++ Undo.hdrEnc u ++ keyEnc u.key).length =
        some ⟨u.fields.length, (compEnc u.fields.length).length, none⟩ := by
      rw [hd3]
      exact mpc_compEnc _ _ (Undo.Fits.fields_lt hu hk)
    rw [here_bind_some (s := ⟨_, out⟩) r2]
    dsimp only
    rw [addPos_bind, ← List.length_append]
    have hup := updLoop_vals cfg s table hl u.fields cols hov hu.2.2.2.2.2.2.1 _ _ (by rw [hd3, ← List.append_assoc])
      (by rw [List.length_append]; omega) out
    rw [GoM.bind_ok hup]
    dsimp only
    split
    · rfl
    · rw [List.append_nil]; rfl
  unfold GoM.recover
  rw [key]

end Verif
