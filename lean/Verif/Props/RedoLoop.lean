import Verif.Proofs.Redo
import Verif.Proofs.Pages
/-!
# C40, C43, C45, C46, C47, C49: the redo record loop
-/

namespace Verif.Props
open Verif Spec

/-! ## C40 -/

/-- **C40.** Parsing any redo byte stream terminates. -/
theorem C40_terminates (cfg : RCfg) (s : Stream) (out o : Out) : parseRedoBlockData cfg s out ≠ .hang o := by
  unfold parseRedoBlockData
  have := redoLoop_terminates cfg s (s.data.length + 1) ⟨0, out⟩
  cases hr : redoLoop cfg s (s.data.length + 1) ⟨0, out⟩ with
  | ok e st => intro h; cases h
  | panic st => intro h; cases h
  | hang st => exact absurd hr (this st (by omega) (by exact Nat.le_refl _))

/-- The bound on the number of iterations used in the model does not matter: any larger bound gives the same result, so the
unbounded loop of the code makes at most one iteration per byte of the stream. -/
theorem C40_iterations (cfg : RCfg) (s : Stream) (st : RS) (k : Nat) :
    redoLoop cfg s (s.data.length + 1 + k) st = redoLoop cfg s (s.data.length + 1) st :=
  redoLoop_fuel cfg s _ k st fun t => redoLoop_terminates cfg s _ st t (by omega) (by omega)

/-- Every iteration that completes consumes at least one byte. -/
theorem C40_progress (cfg : RCfg) (s : Stream) (st t : RS) (c : Ctl) (h : redoStep cfg s st = .ok c t) : st.pos < t.pos := by
  have := redoStep_progress cfg s st
  rw [h] at this
  exact this

/-- The whole redo command terminates, whatever the files contain. -/
theorem C40_files (cfg : RCfg) (files : List File) (spare : Nat) (out o : Out) : parseRedoLogs cfg files spare out ≠ .hang o := by
  unfold parseRedoLogs
  cases readRedoFiles files [] with
  | ok d => exact C40_terminates cfg ⟨d, spare⟩ out o
  | err e => intro h; cases h
  | panic => intro h; cases h

theorem mpc_before_end {d : Bytes} {pos : Nat} (h : d.length ≤ pos) : matchParseCompressed d pos = none := by
  cases hm : matchParseCompressed d pos with
  | none => rfl
  | some pc => have := (mpc_num hm).2.2.1; omega

/-- The loop over the fields of an update-in-place record (its count is read from the stream, up to 2^32-1) makes at most one
iteration per remaining byte: any two counts above that give the same result. -/
theorem C40_fields_loop (d : Bytes) (n m : Nat) (st : RS) (hn : d.length + 1 ≤ n + st.pos) (hn1 : 1 ≤ n)
    (hm : d.length + 1 ≤ m + st.pos) (hm1 : 1 ≤ m) : updFieldsLoop d n st = updFieldsLoop d m st := by
  induction n generalizing m st with
  | zero => omega
  | succ n ih =>
    obtain ⟨m, rfl⟩ : ∃ k, m = k + 1 := ⟨m - 1, by omega⟩
    rw [updFieldsLoop, updFieldsLoop]
    cases h1 : matchParseCompressed d st.pos with
    | none => rw [here_bind_none h1, here_bind_none h1]
    | some pc =>
      have b1 := mpc_num h1
      rw [here_bind_some h1, here_bind_some h1]
      cases pc.err with
      | some e => rfl
      | none =>
        dsimp only
        rw [addPos_bind, addPos_bind]
        cases h2 : matchParseCompressed d (st.pos + pc.num) with
        | none => rw [here_bind_none h2, here_bind_none h2]
        | some fl =>
          have b2 := mpc_num h2
          rw [here_bind_some h2, here_bind_some h2]
          cases fl.err with
          | some e => rfl
          | none =>
            dsimp only
            rw [addPos_bind, addPos_bind, addPos_bind, addPos_bind]
            exact ih m _ (by dsimp only; omega) (by omega) (by dsimp only; omega) (by omega)

theorem updValue_pos (cfg : RCfg) (s : Stream) (c : Column) (q n : Nat) (st t : RS) (v : Val × Nat)
    (h : updValue cfg s c q n st = .ok v t) : t.pos = st.pos := by
  unfold updValue at h
  split at h
  · cases h; rfl
  · obtain ⟨rest, s1, h1, h⟩ := GoM.bind_eq_ok h
    obtain ⟨v1, s2, h2, h⟩ := GoM.bind_eq_ok h
    cases h
    have e1 : s1 = st := by
      cases hs : sliceFrom s.data q with
      | none => rw [hs] at h1; cases h1
      | some x => rw [hs] at h1; cases h1; rfl
    unfold outM at h2
    rw [GoM.zoom_run] at h2
    split at h2 <;> cases h2
    rw [e1]

/-- Likewise for the loop over the update vector of an undo record. -/
theorem C40_update_vector_loop (cfg : RCfg) (s : Stream) (table : Table) (n m : Nat) (st : RS)
    (hn : s.data.length + 1 ≤ n + st.pos) (hn1 : 1 ≤ n) (hm : s.data.length + 1 ≤ m + st.pos) (hm1 : 1 ≤ m) :
    updLoop cfg s table n st = updLoop cfg s table m st := by
  induction n generalizing m st with
  | zero => omega
  | succ n ih =>
    obtain ⟨m, rfl⟩ : ∃ k, m = k + 1 := ⟨m - 1, by omega⟩
    rw [updLoop, updLoop]
    cases h1 : matchParseCompressed s.data st.pos with
    | none => rw [here_bind_none h1, here_bind_none h1]
    | some pc =>
      have b1 := mpc_num h1
      rw [here_bind_some h1, here_bind_some h1]
      cases pc.err with
      | some e => rfl
      | none =>
        dsimp only
        rw [addPos_bind, addPos_bind]
        cases getColumnByPos table pc.val with
        | none => rfl
        | some c =>
          dsimp only
          cases h2 : matchParseCompressed s.data (st.pos + pc.num) with
          | none => rw [here_bind_none h2, here_bind_none h2]
          | some fl =>
            have b2 := mpc_num h2
            rw [here_bind_some h2, here_bind_some h2]
            rw [addPos_bind, addPos_bind, getPos_bind, getPos_bind, GoM.bind_run, GoM.bind_run]
            cases h3 : updValue cfg s c (st.pos + pc.num + fl.num) fl.val ⟨st.pos + pc.num + fl.num, st.out⟩ with
            | panic t => rfl
            | hang t => rfl
            | ok v t =>
              have b3 := updValue_pos cfg s c _ _ _ _ _ h3
              dsimp only at b3 ⊢
              rw [addPos_bind, addPos_bind, GoM.bind_run, GoM.bind_run,
                ih m _ (by dsimp only; omega) (by omega) (by dsimp only; omega) (by omega)]

/-- The loop over the columns of an index description runs only when all of them lie inside the stream. -/
theorem C40_index_loop (d : Bytes) (pos q : Nat) (h : parseIndex true d pos = some (q, none)) : pos + 4 ≤ q ∧ q ≤ d.length := by
  unfold parseIndex at h
  rw [if_pos rfl] at h
  split at h
  · cases h
  · obtain ⟨n, _, h⟩ := Option.bind_eq_some_iff.mp h
    obtain ⟨u, _, h⟩ := Option.bind_eq_some_iff.mp h
    dsimp only at h
    split at h
    · cases h
    · obtain ⟨r, hr, h⟩ := Option.bind_eq_some_iff.mp h
      cases h
      have := parseIndexLoop_le _ _ _ _ hr
      omega

/-- The loop over copied records terminates: every iteration consumes at least one byte. -/
theorem C40_copy_loop (d : Bytes) (recEnd : Nat) (st t : RS) : copyLoop d recEnd (recEnd + 1) st ≠ .hang t := by
  intro h
  have := copyLoop_fwd (p := 0) d recEnd (recEnd + 1) st (by omega) (by omega) (by omega)
  rw [h] at this
  exact this

/-- non-vacuity: a field count of 2^32 - 1 with five bytes left -/
example : updFieldsLoop [1, 2, 3, 4, 5] 4294967295 ⟨0, []⟩ = updFieldsLoop [1, 2, 3, 4, 5] 6 ⟨0, []⟩ :=
  C40_fields_loop _ _ _ _ (by decide) (by decide) (by decide) (by decide)

/-! ## The filter by names (C43 itself is in `RedoSelect.lean`) -/

/-- the tables that the given names select; an empty name selects everything -/
def NameSelected (dbName tableName : Bytes) (t : Table) : Prop :=
  (dbName = [] ∨ t.db = dbName) ∧ (tableName = [] ∨ t.name = tableName)

/-- Exactly which tables are printed: the selected ones, and those of another database with the selected table name. -/
theorem filter_exact (cfg : RCfg) (t : Table) :
    filterPrints cfg t = true ↔ NameSelected cfg.dbName cfg.tableName t ∨ (cfg.tableName ≠ [] ∧ t.name = cfg.tableName) := by
  unfold filterPrints NameSelected
  simp only [beq_iff_eq, Bool.and_eq_true, ne_eq]
  by_cases h1 : t.db = cfg.dbName
  · rw [if_pos h1]
    by_cases h2 : t.name = cfg.tableName
    · simp [h1, h2]
    · simp [h1, h2]
  · rw [if_neg h1]
    by_cases h3 : cfg.dbName = [] <;> by_cases h4 : cfg.tableName = [] <;>
      simp [h1, h3, h4, eq_comm (a := cfg.tableName)]

/-- No selected table is missed. -/
theorem filter_complete (cfg : RCfg) (t : Table) (h : NameSelected cfg.dbName cfg.tableName t) : filterPrints cfg t = true :=
  (filter_exact cfg t).mpr (Or.inl h)

/-- The filter, if the database or the table name is not given. -/
theorem filter_one_name (cfg : RCfg) (t : Table) (h : cfg.dbName = [] ∨ cfg.tableName = []) :
    filterPrints cfg t = true ↔ NameSelected cfg.dbName cfg.tableName t := by
  rw [filter_exact]
  constructor
  · rintro (h1 | ⟨h1, h2⟩)
    · exact h1
    · rcases h with h | h
      · exact ⟨Or.inl h, Or.inr h2⟩
      · exact absurd h h1
  · exact Or.inl

def someEnv : Env := { zone := fun _ => 0, ff := ⟨fun _ => [], fun _ => []⟩ }

example : NameSelected (b! "a") [] ({ db := b! "a", name := b! "t" } : Table) := by unfold NameSelected; decide

/-! ## C47 -/

/-- The record types of InnoDB 5.7 (mtr0types.h), except 28, which only debug builds write. -/
def DocumentedType (t : Nat) : Prop :=
  t = 1 ∨ t = 2 ∨ t = 4 ∨ (8 ≤ t ∧ t ≤ 11) ∨ (13 ≤ t ∧ t ≤ 27) ∨ (29 ≤ t ∧ t ≤ 61)

/-- **C47.** Exactly the documented types are accepted. -/
theorem C47_accepted (t : Nat) : validateLogHeader t = true ↔ DocumentedType t := by
  unfold validateLogHeader DocumentedType
  simp only [MLOG_1BYTE, MLOG_2BYTES, MLOG_4BYTES, MLOG_8BYTES, MLOG_REC_SEC_DELETE_MARK, MLOG_UNDO_INSERT, MLOG_UNDO_ERASE_END,
   MLOG_UNDO_INIT, MLOG_UNDO_HDR_DISCARD, MLOG_UNDO_HDR_REUSE, MLOG_UNDO_HDR_CREATE, MLOG_IBUF_BITMAP_INIT,
   MLOG_INIT_FILE_PAGE, MLOG_INIT_FILE_PAGE2, MLOG_WRITE_STRING, MLOG_MULTI_REC_END, MLOG_DUMMY_RECORD,
   MLOG_FILE_RENAME, MLOG_FILE_CREATE, MLOG_FILE_DELETE, MLOG_FILE_CREATE2, MLOG_FILE_RENAME2, MLOG_FILE_NAME,
   MLOG_REC_MIN_MARK, MLOG_COMP_REC_MIN_MARK, MLOG_PAGE_CREATE, MLOG_COMP_PAGE_CREATE, MLOG_REC_INSERT,
   MLOG_COMP_REC_INSERT, MLOG_REC_CLUST_DELETE_MARK, MLOG_COMP_REC_CLUST_DELETE_MARK, MLOG_COMP_REC_SEC_DELETE_MARK,
   MLOG_REC_UPDATE_IN_PLACE, MLOG_COMP_REC_UPDATE_IN_PLACE, MLOG_REC_DELETE, MLOG_COMP_REC_DELETE,
   MLOG_LIST_END_DELETE, MLOG_COMP_LIST_END_DELETE, MLOG_LIST_START_DELETE, MLOG_COMP_LIST_START_DELETE,
   MLOG_LIST_END_COPY_CREATED, MLOG_COMP_LIST_END_COPY_CREATED, MLOG_PAGE_REORGANIZE, MLOG_COMP_PAGE_REORGANIZE,
   MLOG_ZIP_PAGE_REORGANIZE, MLOG_ZIP_WRITE_NODE_PTR, MLOG_ZIP_WRITE_BLOB_PTR, MLOG_ZIP_WRITE_HEADER,
   MLOG_ZIP_PAGE_COMPRESS, MLOG_ZIP_PAGE_COMPRESS_NO_DATA, MLOG_CHECKPOINT, MLOG_COMP_PAGE_CREATE_RTREE,
   MLOG_PAGE_CREATE_RTREE, MLOG_TRUNCATE, MLOG_INDEX_LOAD, List.contains_iff_mem, List.mem_cons, List.not_mem_nil, or_false]
  omega

/-- the type of a record whose first byte is `b`: the highest bit is a flag -/
def typeOf (b : UInt8) : Nat := b.toNat % 128

set_option maxRecDepth 10000 in
theorem typeOf_eq (b : UInt8) : andNot64 b.toNat MLOG_SINGLE_REC_FLAG = typeOf b := by
  have : ∀ n < 256, andNot64 n MLOG_SINGLE_REC_FLAG = n % 128 := by decide
  exact this _ (u8lt b)

theorem read1_getElem {d : Bytes} {p : Nat} {b : UInt8} (h : d[p]? = some b) : read1 d p = some b.toNat := by
  obtain ⟨hl, rfl⟩ := List.getElem?_eq_some_iff.mp h
  rw [read1_eq, read_at d p (by omega)]
  unfold numAt
  rw [List.drop_eq_getElem_cons hl, List.take_succ_cons]
  simp [beVal]

/-- With eleven bytes left the space id and page number can be read. -/
theorem header_readable (d : Bytes) (p : Nat) (h : p + 10 ≤ d.length) : ∃ sp pg,
    matchParseCompressed d p = some sp ∧ sp.err = none ∧ matchParseCompressed d (p + sp.num) = some pg ∧ pg.err = none := by
  have key : ∀ q, q + 5 ≤ d.length → ∃ x, matchParseCompressed d q = some x ∧ x.err = none := by
    intro q hq
    unfold matchParseCompressed
    simp only [read1_eq, read2_eq, read3_eq, read4_eq]
    rw [read_at (w := 1) d q (by omega), read_at (w := 2) d q (by omega), read_at (w := 3) d q (by omega),
      read_at (w := 4) d q (by omega), read_at (w := 4) d (q + 1) (by omega)]
    simp only [Option.bind_eq_bind, Option.bind_some]
    rw [if_neg (by omega : ¬ q + 5 > d.length)]
    split
    · exact ⟨_, rfl, rfl⟩
    split
    · exact ⟨_, rfl, rfl⟩
    split
    · exact ⟨_, rfl, rfl⟩
    split
    · exact ⟨_, rfl, rfl⟩
    · exact ⟨_, rfl, rfl⟩
  obtain ⟨sp, h1, h2⟩ := key p (by omega)
  have := mpc_num h1
  obtain ⟨pg, h3, h4⟩ := key (p + sp.num) (by omega)
  exact ⟨sp, pg, h1, h2, h3, h4⟩

/-- A record with a readable header whose type is accepted is given to its handler, with the cursor behind the header; any
other byte is skipped alone. -/
theorem C47_step (cfg : RCfg) (s : Stream) (st : RS) (b : UInt8) (hb : s.data[st.pos]? = some b) (hb1 : b.toNat ≠ 31)
    (hb2 : typeOf b ≠ 56) (sp pg : PC) (h1 : matchParseCompressed s.data (st.pos + 1) = some sp) (h2 : sp.err = none)
    (h3 : matchParseCompressed s.data (st.pos + 1 + sp.num) = some pg) (h4 : pg.err = none) :
    redoStep cfg s st = if validateLogHeader (typeOf b) then dispatch cfg s (typeOf b) ⟨st.pos + 1 + sp.num + pg.num, st.out⟩
      else .ok .next ⟨st.pos + 1, st.out⟩ := by
  unfold redoStep
  rw [here_bind_some (read1_getElem hb), addPos_bind, getPos_bind, if_neg (show ¬ b.toNat = MLOG_MULTI_REC_END from hb1)]
  dsimp only
  rw [typeOf_eq, if_pos (show typeOf b ≠ MLOG_CHECKPOINT from hb2)]
  have h1' : matchParseCompressed s.data (⟨st.pos + 1, st.out⟩ : RS).pos = some sp := h1
  rw [here_bind_some h1', addPos_bind, h2]
  dsimp only
  have h3' : matchParseCompressed s.data (⟨st.pos + 1 + sp.num, st.out⟩ : RS).pos = some pg := h3
  rw [here_bind_some h3', addPos_bind, h4]
  dsimp only
  cases validateLogHeader (typeOf b) <;> rfl

/-- **C47**, as stated: an undocumented type byte makes the parser skip exactly that byte (at any position at which the loop
looks at a record, that is, with at least five bytes left). -/
def C47_statement : Prop := ∀ cfg (s : Stream) (st : RS) (b : UInt8), s.data[st.pos]? = some b → st.pos + 5 ≤ s.data.length →
  ¬ DocumentedType (typeOf b) → redoStep cfg s st = .ok .next ⟨st.pos + 1, st.out⟩

/-- **C47**, except in the last ten bytes of the stream. -/
theorem C47_skip_partial (cfg : RCfg) (s : Stream) (st : RS) (b : UInt8) (hb : s.data[st.pos]? = some b)
    (hl : st.pos + 11 ≤ s.data.length) (ht : ¬ DocumentedType (typeOf b)) :
    redoStep cfg s st = .ok .next ⟨st.pos + 1, st.out⟩ := by
  obtain ⟨sp, pg, h1, h2, h3, h4⟩ := header_readable s.data (st.pos + 1) (by omega)
  have hn : b.toNat ≠ 31 := by
    intro h
    apply ht
    unfold typeOf DocumentedType
    omega
  have hn2 : typeOf b ≠ 56 := by
    intro h
    apply ht
    rw [h]
    unfold DocumentedType
    omega
  rw [C47_step cfg s st b hb hn hn2 sp pg h1 h2 h3 h4]
  rw [if_neg (by rw [C47_accepted]; exact ht)]

/-- A documented type is always given to its handler. -/
theorem C47_handled (cfg : RCfg) (s : Stream) (st : RS) (b : UInt8) (hb : s.data[st.pos]? = some b)
    (hl : st.pos + 11 ≤ s.data.length) (ht : DocumentedType (typeOf b)) (hb1 : b.toNat ≠ 31) (hb2 : typeOf b ≠ 56) :
    ∃ n, 2 ≤ n ∧ n ≤ 10 ∧ redoStep cfg s st = dispatch cfg s (typeOf b) ⟨st.pos + 1 + n, st.out⟩ := by
  obtain ⟨sp, pg, h1, h2, h3, h4⟩ := header_readable s.data (st.pos + 1) (by omega)
  have b1 := mpc_num h1
  have b2 := mpc_num h3
  refine ⟨sp.num + pg.num, by omega, by omega, ?_⟩
  rw [C47_step cfg s st b hb hb1 hb2 sp pg h1 h2 h3 h4, if_pos ((C47_accepted _).mpr ht)]
  rw [Nat.add_assoc]

/-- The byte that ends a group of records has no header. -/
theorem C47_group_end (cfg : RCfg) (s : Stream) (st : RS) (hb : s.data[st.pos]? = some 31) :
    redoStep cfg s st = .ok .next ⟨st.pos + 1, st.out⟩ := by
  unfold redoStep
  rw [here_bind_some (read1_getElem hb), addPos_bind, getPos_bind]
  rfl

/-- A checkpoint record has no header either; it is followed by eight bytes. -/
theorem C47_checkpoint (cfg : RCfg) (s : Stream) (st : RS) (b : UInt8) (hb : s.data[st.pos]? = some b) (ht : typeOf b = 56) :
    redoStep cfg s st = .ok .next ⟨st.pos + 9, st.out⟩ := by
  unfold redoStep
  have hn : b.toNat ≠ 31 := by unfold typeOf at ht; omega
  rw [here_bind_some (read1_getElem hb), addPos_bind, getPos_bind, if_neg (show ¬ b.toNat = MLOG_MULTI_REC_END from hn)]
  dsimp only
  rw [typeOf_eq, ht]
  rfl

/-- **C47 is false** at the end of the stream: the header of the unknown record is read before its type is checked, and the
error ends the parsing. -/
theorem C47_false : ¬ C47_statement := by
  intro h
  have := h ⟨someEnv, [], [], []⟩ ⟨[0, 0xF0, 0, 0, 0], 0⟩ ⟨0, []⟩ 0 rfl (by decide) (by unfold DocumentedType typeOf; decide)
  revert this
  decide

example : ¬ DocumentedType (typeOf 140) ∧ DocumentedType (typeOf 148) := by unfold DocumentedType typeOf; decide

end Verif.Props
