import Verif.Proofs.RedoUndoLong
import Verif.Props.RedoEffect
/-!
# C113: old values that are stored off-page

Of a long value the row contains only a prefix, which may be empty, and a reference of 20 bytes to further pages.  These are what the undo record of
an update contains as well, with a length field that has `UNIV_EXTERN_STORAGE_FIELD` added.
-/

namespace Verif.Props
open Verif Spec

/-- `UNIV_EXTERN_STORAGE_FIELD`: `UNIV_SQL_NULL - UNIV_PAGE_SIZE_DEF` -/
def EXTERN_FIELD : Nat := SQL_NULL - 16384

/-- an old value in an undo record -/
inductive OldCol where
  | null
  | inline (v : TVal)
  /-- prefix and reference -/
  | offPage (stored : Bytes)

/-- `trx_undo_page_report_modify` -/
def OldCol.enc : OldCol → Bytes
  | .null => compEnc SQL_NULL
  | .inline v => compEnc v.enc.length ++ v.enc
  | .offPage b => compEnc (EXTERN_FIELD + b.length) ++ b

def oldColEnc (e : Nat × OldCol) : Bytes := compEnc e.1 ++ e.2.enc

/-- The undo record of an update of an existing row with these key and old values; of `u`, everything else. -/
def offPageEnc (u : Undo) (keys : List TVal) (olds : List (Nat × OldCol)) : Bytes :=
  beEnc 1 (u.flags * 16 + 12) ++ (ullMuchEnc u.undoNo ++ (ullMuchEnc u.tableId ++ (beEnc 1 u.info ++ (ullCompEnc u.trx ++ (ullCompEnc u.roll ++
    (keyEnc (keys.map TVal.enc) ++ (compEnc olds.length ++ (olds.flatMap oldColEnc ++ u.tail))))))))

/-- What is known of the record, the table and the values. -/
structure OffRecorded (cfg : RCfg) (u : Undo) (table : Table) (names : List Bytes) (keys : List TVal) (olds : List (Nat × OldCol)) : Prop where
  flags : u.flags < 16
  undoNo : u.undoNo < 2 ^ 32
  tableId : u.tableId < 2 ^ 32
  trx : u.trx < 2 ^ 64
  roll : u.roll < 2 ^ 64
  known : cfg.tables.get? u.tableId = some table
  hasKey : HasKey table names
  keyTyped : KeyTyped table names keys
  keyFits : ∀ v ∈ keys, v.Fits cfg.env.zone
  columns : ∀ e ∈ olds, e.1 < 2 ^ 32 ∧ ∃ c, table.columns[e.1]? = some c ∧ ∀ v, e.2 = .inline v → v.Of c ∧ v.Fits cfg.env.zone
  stored : ∀ e ∈ olds, ∀ b, e.2 = .offPage b → b.length < 16384
  size : (offPageEnc u keys olds).length < 2 ^ 16

/-- **C113**, as stated: no statement sets a column to NULL whose old value was not NULL. -/
def C113_statement : Prop :=
  ∀ (cfg : RCfg) (s : Stream) (u : Undo) (table : Table) (names : List Bytes) (keys : List TVal) (olds : List (Nat × OldCol)) (pre suf : Bytes) (out lines : Out),
    OffRecorded cfg u table names keys olds → s.data.length < 2 ^ 31 →
    s.data = pre ++ (beEnc 2 (offPageEnc u keys olds).length ++ offPageEnc u keys olds) ++ suf → 5 ≤ suf.length →
    (mlogUndoInsert cfg s ⟨pre.length, out⟩).st.out = out ++ lines →
    ∀ l ∈ lines, ∀ upd, readUpdate l = some upd → ∀ n, (n, [.word (b! "null")]) ∈ upd.sets → ∃ e ∈ olds, nameAt table e.1 = n ∧ e.2 = .null

/-! ### Records with an off-page value -/

def inlineOld : Option TVal → OldCol
  | none => .null
  | some v => .inline v

/-- values in the row itself -/
def inlineOlds (olds : List (Nat × Option TVal)) : List (Nat × OldCol) := olds.map fun e => (e.1, inlineOld e.2)

theorem inlineOlds_enc (olds : List (Nat × Option TVal)) :
    (inlineOlds olds).flatMap oldColEnc = (olds.map fun e => (e.1, e.2.map TVal.enc)).flatMap fieldEnc := by
  unfold inlineOlds
  rw [List.flatMap_map, List.flatMap_map]
  congr 1
  funext e
  obtain ⟨k, v⟩ := e
  cases v <;> rfl

theorem flatMap_mem_length {α : Type} {f : α → Bytes} {l : List α} {x : α} (h : x ∈ l) : (f x).length ≤ (l.flatMap f).length := by
  induction l with
  | nil => cases h
  | cons y l ih =>
    rw [List.flatMap_cons, List.length_append]
    rcases List.mem_cons.mp h with rfl | h
    · omega
    · have := ih h
      omega

theorem flatMap_count {l : List (Nat × OldCol)} : l.length ≤ (l.flatMap oldColEnc).length := by
  induction l with
  | nil => exact Nat.le_refl _
  | cons y l ih =>
    rw [List.flatMap_cons, List.length_append, List.length_cons]
    have : 0 < (compEnc y.1).length := List.length_pos_iff.mpr (compEnc_ne_nil _)
    have e : (oldColEnc y).length = (compEnc y.1).length + y.2.enc.length := List.length_append
    omega

/-- What `mlogUndoInsert` makes of a record with an off-page value. -/
theorem off_page_record (cfg : RCfg) (s : Stream) (u : Undo) (table : Table) (names : List Bytes) (keys : List TVal) (inl : List (Nat × Option TVal))
    (k : Nat) (b : Bytes) (more : List (Nat × OldCol)) (h : OffRecorded cfg u table names keys (inlineOlds inl ++ (k, .offPage b) :: more))
    (hk : ∀ v ∈ keys, KeyDecodable v) (ho : ∀ e ∈ inl, ∀ v, e.2 = some v → TVal.Decodable v)
    (hl : s.data.length < 2 ^ 31) (pre suf : Bytes)
    (hd : s.data = pre ++ (beEnc 2 (offPageEnc u keys (inlineOlds inl ++ (k, .offPage b) :: more)).length ++
      offPageEnc u keys (inlineOlds inl ++ (k, .offPage b) :: more)) ++ suf)
    (ha : ∀ e ∈ inl, ∀ v, e.2 = some v → TVal.lookahead v ≤ suf.length) (out : Out) :
    ∃ (ps : List PkVal) (cs : List UpdCol) (c : Column) (p : Nat), PkText cfg.env.ff ps (shownConds cfg.env.ff names keys) ∧
      UpdText cfg.env.ff cs (shownSets cfg.env.ff table inl) ∧ table.columns[k]? = some c ∧
      mlogUndoInsert cfg s ⟨pre.length, out⟩ = match updLoop cfg s table more.length ⟨p, out⟩ with
        | .ok (.ok ds) st => .ok none ⟨(pre ++ (beEnc 2 (offPageEnc u keys (inlineOlds inl ++ (k, .offPage b) :: more)).length ++
              offPageEnc u keys (inlineOlds inl ++ (k, .offPage b) :: more))).length,
            st.out ++ if filterPrints cfg table then [updateStmt cfg.env.ff table ps (cs ++ ⟨c.name, .nil⟩ :: ds)] else []⟩
        | .ok (.error e) st => .ok (some e) st
        | .panic st => .ok none ⟨(pre ++ (beEnc 2 (offPageEnc u keys (inlineOlds inl ++ (k, .offPage b) :: more)).length ++
              offPageEnc u keys (inlineOlds inl ++ (k, .offPage b) :: more))).length, st.out⟩
        | .hang st => .hang st := by
  have hnames := key_names h.hasKey
  subst hnames
  obtain ⟨ps, k1, k2⟩ := keyVals_typed cfg table _ keys h.keyTyped fun v hv => ⟨h.keyFits v hv, hk v hv⟩
  have hin : ∀ e ∈ inl, (e.1, inlineOld e.2) ∈ inlineOlds inl ++ (k, .offPage b) :: more := fun e he =>
    List.mem_append_left _ (List.mem_map.mpr ⟨e, he, rfl⟩)
  obtain ⟨cs, o1, o2⟩ := oldVals_typed cfg table inl (by
      intro e he
      obtain ⟨_, c, hc, hv⟩ := h.columns _ (hin e he)
      exact ⟨c, hc, fun v hv' => (hv v (by show inlineOld e.2 = _; rw [hv']; rfl)).1⟩) (ahead := suf.length) (by
      intro e he v hv'
      obtain ⟨_, c, hc, hv⟩ := h.columns _ (hin e he)
      exact ⟨(hv v (by show inlineOld e.2 = _; rw [hv']; rfl)).2, ho e he v hv', ha e he v hv'⟩)
  obtain ⟨hk32, c, hc, -⟩ := h.columns (k, .offPage b) (by simp)
  have hb : b.length < 16384 := h.stored (k, .offPage b) (by simp) b rfl
  have hE : EXTERN_FIELD = 4294950911 := by decide
  have hlen : (inlineOlds inl ++ (k, OldCol.offPage b) :: more).length = (inl.map fun e => (e.1, e.2.map TVal.enc)).length + (more.length + 1) := by
    unfold inlineOlds
    rw [List.length_append, List.length_map, List.length_map, List.length_cons]
  have hcount : (inlineOlds inl ++ (k, OldCol.offPage b) :: more).length < 2 ^ 16 := by
    have h1 := h.size
    have h2 := flatMap_count (l := inlineOlds inl ++ (k, OldCol.offPage b) :: more)
    unfold offPageEnc at h1
    simp only [List.length_append] at h1 h2 ⊢
    omega
  have hbody : offPageEnc u keys (inlineOlds inl ++ (k, .offPage b) :: more) = Undo.hdrEnc { u with kind := 12 } ++ (keyEnc (keys.map TVal.enc) ++
      (compEnc ((inl.map fun e => (e.1, e.2.map TVal.enc)).length + (more.length + 1)) ++ ((inl.map fun e => (e.1, e.2.map TVal.enc)).flatMap fieldEnc ++
        (compEnc k ++ compEnc (EXTERN_FIELD + b.length) ++ (b ++ (more.flatMap oldColEnc ++ u.tail)))))) := by
    unfold offPageEnc
    rw [hlen, List.flatMap_append, inlineOlds_enc, List.flatMap_cons]
    show _ = (_ ++ (_ ++ (_ ++ Undo.sysEnc { u with kind := 12 }))) ++ _
    unfold Undo.sysEnc
    rw [if_neg (show ¬ 12 = 11 by decide)]
    simp only [oldColEnc, OldCol.enc, List.append_assoc]
  have hsize := h.size
  have g1 : ∀ v ∈ keys.map TVal.enc, v.length < 2 ^ 32 := by
    intro v hv
    have h1 := keyEnc_length_mem hv
    unfold offPageEnc at hsize
    simp only [List.length_append] at hsize
    omega
  have g2 : ∀ f ∈ inl.map (fun e => (e.1, e.2.map TVal.enc)), fieldFits f := by
    intro f hf
    obtain ⟨e, he, rfl⟩ := List.mem_map.mp hf
    refine ⟨(h.columns _ (hin e he)).1, ?_⟩
    intro v hv
    have hm := flatMap_mem_length (f := oldColEnc) (hin e he)
    have hv : e.2.map TVal.enc = some v := hv
    obtain ⟨x, hx, rfl⟩ := Option.map_eq_some_iff.mp hv
    rw [hx] at hm
    have e1 : (oldColEnc (e.1, inlineOld (some x))).length = (compEnc e.1).length + ((compEnc x.enc.length).length + x.enc.length) := by
      show (compEnc e.1 ++ (compEnc x.enc.length ++ x.enc)).length = _
      simp only [List.length_append]
    unfold offPageEnc at hsize
    unfold SQL_NULL
    simp only [List.length_append] at hsize hm
    omega
  exact ⟨ps, cs, c, _, k2, o2, hc, undo_update_long cfg s { u with kind := 12 } rfl h.flags h.undoNo h.tableId h.trx h.roll table h.known (keys.map TVal.enc) ps k1 g1
    (inl.map fun e => (e.1, e.2.map TVal.enc)) cs o1 g2 hc hk32 (len := EXTERN_FIELD + b.length) (by omega) (by omega) (by omega) more.length
    (b ++ (more.flatMap oldColEnc ++ u.tail)) _ (by omega) hbody hsize pre suf hd (by simp only [List.length_append]; omega) out⟩

theorem updText_self (ff : FloatFmt) (cs : List UpdCol) : UpdText ff cs (cs.map fun c => (c.name, if c.value = .nil then none else some (fmtV ff c.value))) := by
  induction cs with
  | nil => exact .nil
  | cons c cs ih => exact .cons rfl ih

theorem updText_append {ff : FloatFmt} {cs ds : List UpdCol} {xs ys : List (Bytes × Option Bytes)} (h : UpdText ff cs xs) (h' : UpdText ff ds ys) :
    UpdText ff (cs ++ ds) (xs ++ ys) := by
  induction h with
  | nil => exact h'
  | cons h1 _ ih => exact .cons h1 ih

theorem updText_null (ff : FloatFmt) (n : Bytes) {cs : List UpdCol} {xs : List (Bytes × Option Bytes)} (h : UpdText ff cs xs) :
    UpdText ff (⟨n, .nil⟩ :: cs) ((n, none) :: xs) := .cons rfl h

theorem nameAt_eq {table : Table} {k : Nat} {c : Column} (h : table.columns[k]? = some c) : nameAt table k = c.name := by
  rw [nameAt, h]
  rfl

/-- Exactly what is printed if the off-page value is the last: the column is set to NULL. -/
theorem C113_exact (cfg : RCfg) (s : Stream) (u : Undo) (table : Table) (names : List Bytes) (keys : List TVal) (inl : List (Nat × Option TVal))
    (k : Nat) (b : Bytes) (h : OffRecorded cfg u table names keys (inlineOlds inl ++ [(k, .offPage b)]))
    (hk : ∀ v ∈ keys, KeyDecodable v) (ho : ∀ e ∈ inl, ∀ v, e.2 = some v → TVal.Decodable v)
    (hl : s.data.length < 2 ^ 31) (pre suf : Bytes)
    (hd : s.data = pre ++ (beEnc 2 (offPageEnc u keys (inlineOlds inl ++ [(k, .offPage b)])).length ++
      offPageEnc u keys (inlineOlds inl ++ [(k, .offPage b)])) ++ suf)
    (ha : ∀ e ∈ inl, ∀ v, e.2 = some v → TVal.lookahead v ≤ suf.length) (out : Out) :
    mlogUndoInsert cfg s ⟨pre.length, out⟩ = .ok none
      ⟨(pre ++ (beEnc 2 (offPageEnc u keys (inlineOlds inl ++ [(k, .offPage b)])).length ++ offPageEnc u keys (inlineOlds inl ++ [(k, .offPage b)]))).length,
        out ++ if filterPrints cfg table then [updateText (b! " and ") table.db table.name
          (shownSets cfg.env.ff table inl ++ [(nameAt table k, none)]) (shownConds cfg.env.ff names keys)] else []⟩ := by
  obtain ⟨ps, cs, c, p, h1, h2, h3, h4⟩ := off_page_record cfg s u table names keys inl k b [] h hk ho hl pre suf hd ha out
  rw [h4]
  have e : updLoop cfg s table ([] : List (Nat × OldCol)).length ⟨p, out⟩ = .ok (.ok []) ⟨p, out⟩ := rfl
  rw [e]
  dsimp only
  rw [updateStmt_text cfg.env.ff table h1 (updText_append h2 (updText_null _ _ .nil)), nameAt_eq h3]

/-- Whatever else the record contains: if a statement is printed at all, it sets the first off-page column to NULL. -/
theorem C113_always (cfg : RCfg) (s : Stream) (u : Undo) (table : Table) (names : List Bytes) (keys : List TVal) (inl : List (Nat × Option TVal))
    (k : Nat) (b : Bytes) (more : List (Nat × OldCol)) (h : OffRecorded cfg u table names keys (inlineOlds inl ++ (k, .offPage b) :: more))
    (hk : ∀ v ∈ keys, KeyDecodable v) (ho : ∀ e ∈ inl, ∀ v, e.2 = some v → TVal.Decodable v)
    (hl : s.data.length < 2 ^ 31) (pre suf : Bytes)
    (hd : s.data = pre ++ (beEnc 2 (offPageEnc u keys (inlineOlds inl ++ (k, .offPage b) :: more)).length ++
      offPageEnc u keys (inlineOlds inl ++ (k, .offPage b) :: more)) ++ suf)
    (ha : ∀ e ∈ inl, ∀ v, e.2 = some v → TVal.lookahead v ≤ suf.length) (out : Out) :
    updates (mlogUndoInsert cfg s ⟨pre.length, out⟩).st.out = updates out ∨
      ∃ rest, updates (mlogUndoInsert cfg s ⟨pre.length, out⟩).st.out = updates (out ++ [updateText (b! " and ") table.db table.name
        (shownSets cfg.env.ff table inl ++ (nameAt table k, none) :: rest) (shownConds cfg.env.ff names keys)]) := by
  obtain ⟨ps, cs, c, p, h1, h2, h3, h4⟩ := off_page_record cfg s u table names keys inl k b more h hk ho hl pre suf hd ha out
  rw [h4]
  have hq := updLoop_quiet cfg s table more.length (updates out) ⟨p, out⟩ rfl
  cases hr : updLoop cfg s table more.length ⟨p, out⟩ with
  | ok x st =>
    rw [hr] at hq
    replace hq : updates st.out = updates out := hq
    cases x with
    | error e => exact .inl hq
    | ok ds =>
      by_cases hp : filterPrints cfg table = true
      · right
        refine ⟨ds.map fun c => (c.name, if c.value = .nil then none else some (fmtV cfg.env.ff c.value)), ?_⟩
        dsimp only [R.st]
        rw [if_pos hp, updates_append, hq, updates_append,
          updateStmt_text cfg.env.ff table h1 (updText_append h2 (updText_null _ _ (updText_self _ ds))), nameAt_eq h3]
      · left
        dsimp only [R.st]
        rw [if_neg hp, List.append_nil]
        exact hq
  | panic st =>
    rw [hr] at hq
    exact .inl hq
  | hang st =>
    rw [hr] at hq
    exact .inl hq

/-! ### A record -/

/-- a TEXT column -/
def textColumn : Column := { name := b! "c", ftype := 5, mtype := 252, len := 10 }

/-- the reference of an off-page value -/
def someRef : Bytes := [0, 0, 0, 5, 0, 0, 0, 9, 0, 0, 0, 38, 0, 0, 0, 0, 0, 1, 0, 0]

theorem exOff : OffRecorded (exCfg textColumn) (exUndo none) (exTable textColumn) [b! "id"] [.int 4 7] (inlineOlds [] ++ [(3, .offPage someRef)]) where
  flags := by decide
  undoNo := by show 3 < 2 ^ 32; decide
  tableId := by show 77 < 2 ^ 32; decide
  trx := by show 2 ^ 33 < 2 ^ 64; decide
  roll := by show 2 ^ 50 < 2 ^ 64; decide
  known := rfl
  hasKey := exKey textColumn
  keyTyped := .cons ⟨_, ⟨[], _, rfl, rfl, nofun⟩, rfl, by decide, by decide, rfl, rfl⟩ .nil
  keyFits := by
    intro w hw
    cases List.mem_singleton.mp hw
    exact ⟨by decide, by decide, by decide⟩
  columns := by
    intro e he
    cases List.mem_singleton.mp he
    exact ⟨by show 3 < 2 ^ 32; decide, textColumn, rfl, nofun⟩
  stored := by
    intro e he b hb
    cases List.mem_singleton.mp he
    cases hb
    decide
  size := by decide

def exOffBytes : Bytes := beEnc 2 (offPageEnc (exUndo none) [.int 4 7] [(3, .offPage someRef)]).length ++ offPageEnc (exUndo none) [.int 4 7] [(3, .offPage someRef)]

/-- the hypotheses of `C113_exact`: a row with an off-page text -/
theorem exOff_line (out : Out) : ∃ p, mlogUndoInsert (exCfg textColumn) ⟨[22, 0, 5] ++ exOffBytes ++ [1, 2, 3, 4, 5], 0⟩ ⟨3, out⟩ =
    .ok none ⟨p, out ++ [b! "update `d`.`t` set `c`=NULL where `id`='7';"]⟩ := by
  have h := C113_exact (exCfg textColumn) ⟨[22, 0, 5] ++ exOffBytes ++ [1, 2, 3, 4, 5], 0⟩ (exUndo none) _ [b! "id"] [.int 4 7] [] 3 someRef exOff
    (fun v hv => by cases List.mem_singleton.mp hv; exact ⟨trivial, rfl⟩) nofun (by decide) [22, 0, 5] [1, 2, 3, 4, 5] rfl nofun out
  exact ⟨_, h⟩

/-- the hypotheses of `C113_always` -/
example (out : Out) := C113_always (exCfg textColumn) ⟨[22, 0, 5] ++ exOffBytes ++ [1, 2, 3, 4, 5], 0⟩ (exUndo none) _ [b! "id"] [.int 4 7] [] 3 someRef [] exOff
  (fun v hv => by cases List.mem_singleton.mp hv; exact ⟨trivial, rfl⟩) nofun (by decide) [22, 0, 5] [1, 2, 3, 4, 5] rfl nofun out

/-- **C113 is false of the code:** an off-page text is set to NULL. -/
theorem C113_false : ¬ C113_statement := by
  intro h
  obtain ⟨p, hp⟩ := exOff_line []
  obtain ⟨e, he, _, h2⟩ := h (exCfg textColumn) ⟨[22, 0, 5] ++ exOffBytes ++ [1, 2, 3, 4, 5], 0⟩ (exUndo none) _ [b! "id"] [.int 4 7] _ [22, 0, 5] [1, 2, 3, 4, 5] []
    [b! "update `d`.`t` set `c`=NULL where `id`='7';"] exOff (by decide) rfl (by decide) (by
      show (mlogUndoInsert (exCfg textColumn) ⟨[22, 0, 5] ++ exOffBytes ++ [1, 2, 3, 4, 5], 0⟩ ⟨3, []⟩).st.out = _
      rw [hp]
      rfl) _ List.mem_cons_self
    ⟨b! "d", b! "t", [(b! "c", [.word (b! "null")])], [(b! "id", [.str (b! "7")])]⟩ (by decide) (b! "c") List.mem_cons_self
  cases List.mem_singleton.mp he
  cases h2

/-! ### Logs without off-page values -/

theorem undoes_null {ff : FloatFmt} {line : Bytes} {ch : Change} (h : Undoes ff line ch) {upd : Update} (hu : readUpdate line = some upd) {n : Bytes}
    (hm : (n, [Tok.word (b! "null")]) ∈ upd.sets) : (n, none) ∈ ch.sets := by
  obtain ⟨u, h1, _, _, h2, _⟩ := h
  rw [hu] at h1
  cases h1
  clear hu
  generalize upd.sets = xs at hm h2
  generalize ch.sets = ys at h2 ⊢
  induction h2 with
  | nil => cases hm
  | @cons x y _ _ h _ ih =>
    rcases List.mem_cons.mp hm with rfl | hm
    · obtain ⟨n', o⟩ := y
      obtain ⟨e, v, hv, hd⟩ := h
      have e : n = n' := e
      subst e
      have hv : some SqlVal.null = some v := hv
      cases hv
      cases o with
      | none => exact List.mem_cons_self
      | some v =>
        exfalso
        revert hd
        show Denotes ff .null (origOf ff (some v)) → False
        cases v <;> exact id
    · exact List.mem_cons_of_mem _ (ih hm)

/-- **C113, in part:** true of the logs of C58, in which no value is stored off-page. -/
theorem C113_inline_partial (env : Env) (fs : Bytes → File) (a : FromRedo) (spare : Nat) (sys : Bytes) (trs : List TableRow) (crs : List ColumnRow)
    (irs : List IndexRow) (frs : List FieldRow) (names : List Bytes) (parts : List (List Bytes)) (its : List Item) (chs : List (Option Change))
    (hsys : a.sysFile = .ok sys) (hdict : Dictionary sys trs crs irs frs) (hne : names ≠ []) (hn : ∀ n ∈ names, 44 ∉ n)
    (ha : a.redoFile = commaList names) (hp : All2 (fun chunks n => ∃ content, fs n = .ok content ∧ IsLogFile chunks content) parts names)
    (hs : parts.flatten.flatten = its.flatMap Item.enc) (hf : ∀ it ∈ its, it.Fits)
    (harr : ∀ t ∈ trs, UsualKeys irs frs crs t.id) (hfl : All2 (Followed env a trs crs irs frs) its chs)
    (hplain : ∀ ch, some ch ∈ chs → Wanted a ch = true → Plainly env.ff ch)
    (hah : Ahead its) (hlen : (its.flatMap Item.enc).length < 2 ^ 32) :
    ∃ lines, fromRedoFile env fs a spare [] = .ok () lines ∧ ∀ l ∈ lines, ∃ upd, readUpdate l = some upd ∧
      ∀ n, (n, [.word (b! "null")]) ∈ upd.sets → ∃ ch, some ch ∈ chs ∧ ch.db = upd.db ∧ ch.table = upd.table ∧ (n, none) ∈ ch.sets := by
  obtain ⟨lines, h1, h2⟩ := C58_command_partial env fs a spare sys trs crs irs frs names parts its chs hsys hdict hne hn ha hp hs hf harr hfl hplain hah hlen []
  refine ⟨lines, by simpa using h1, fun l hl => ?_⟩
  obtain ⟨ch, hch, hu⟩ := all2_mem h2 l hl
  obtain ⟨upd, r1, r2, r3, _⟩ := id hu
  obtain ⟨x, hx, rfl⟩ := List.mem_filterMap.mp (List.mem_filter.mp hch).1
  exact ⟨upd, r1, fun n hm => ⟨ch, hx, r2.symm, r3.symm, undoes_null hu r1 hm⟩⟩

/-- the hypotheses of `C113_inline_partial` -/
example (env : Env) (spare : Nat) := C113_inline_partial env (shopDisk2 8) shopRedo2 spare (shopFile idKey) shopTables shopColumns (shopIndexes idKey) (shopFields idKey)
    [b! "ib_logfile0"] [[(shopLog2 8).flatMap Item.enc]] (shopLog2 8) (shopChanges2 8) rfl (shop_dictionary (.inl rfl)) (by decide)
    (by decide) rfl (shop2_disk (.inr rfl)) (by simp) (shop2_fits (.inr rfl)) shop_arranged (shop2_followed env (.inr rfl))
    (fun ch hch _ => by
      rcases shop2_mem hch with rfl | rfl
      · exact shopChange2_plainly env (.inl rfl) (.inl rfl)
      · exact shopChange2_plainly env (.inr rfl) (.inr rfl))
    (shop2_ahead (.inr rfl)) (by have := shop2_length (.inr rfl : SevenEight 8); omega)

end Verif.Props
