import Verif.Proofs.Redundant
/-!
# C20, C21: decoding of COMPACT and REDUNDANT records
-/

set_option linter.unusedSimpArgs false

namespace Verif.Props
open Verif Spec

/-! ## C20 -/

/-- The row `cells` of a table defined by `defs`. -/
def rowOf (defs : List ColDef) (cells : List Cell) : Row := (defs.zip cells).map fun e => (e.1.scol, e.2)

/-- The dictionary knows the table: the columns of the slice and of the dictionary entry describe `defs`, and the
nullable columns are counted. -/
structure Known (tables : TableMap) (cols : List Column) (defs : List ColDef) : Prop where
  desc : All2 Describes cols defs
  entry : ∃ c0 table, cols[0]? = some c0 ∧ tables.get? c0.tableId = some table ∧ All2 Describes table.columns defs ∧
    table.nullCount = (defs.filter (·.nullable)).length

/-- The cells can be stored in the columns. -/
def Storable (defs : List ColDef) (cells : List Cell) : Prop := All2 (fun k x => Fits k.scol x) defs cells

instance (defs : List ColDef) (cells : List Cell) : Decidable (Storable defs cells) :=
  inferInstanceAs (Decidable (All2 _ _ _))

/-- The full claim of C20: for every table definition with at least three stored columns, every row, every position and
every other content of the page, the record is decoded column by column from exactly the stored bytes. -/
def C20_statement : Prop :=
  ∀ (env : Env) (tables : TableMap) (defs : List ColDef) (cells : List Cell) (d : Bytes) (o : Nat) (s : PState),
    Known tables s.cols defs → Storable defs cells → 3 ≤ defs.length → d.length ≤ 16384 →
    CompactAt d o (rowOf defs cells) →
    parseOne env tables d true o s =
      rowResult s (decodeRow env s.cols (rowOf defs cells) (d.drop (o + (rowData (rowOf defs cells)).length)) s.out)

theorem agrees_of_describes {c : Column} {k : ColDef} (h : Describes c k) (hr : k.kind.Readable) : Agrees c k.scol := by
  obtain ⟨h1, h2, h3⟩ := h
  obtain ⟨kind, nullable⟩ := k
  refine ⟨h1, ?_⟩
  simp only [ColDef.scol]
  cases kind with
  | charSingle m => exact absurd hr (by simp [Kind.Readable])
  | varbinary m =>
    simp [Kind.Readable] at hr
    simp [Kind.mainType] at h2 h3
    simp [Kind.storage, h2, h3, getFixedLength, DATA_BLOB, DATA_VARMYSQL, DATA_MYSQL, DATA_BINARY]
    omega
  | _ =>
    simp [Kind.Readable] at hr
    simp [Kind.mainType, Kind.declLen] at h2 h3
    simp [Kind.storage, h2, h3, getFixedLength, DATA_BLOB, DATA_VARMYSQL, DATA_MYSQL, DATA_BINARY, hr]

theorem all2_rowOf {defs : List ColDef} {cells : List Cell} (h : Storable defs cells) {cols : List Column}
    (hd : All2 Describes cols defs) (hr : ∀ k ∈ defs, k.kind.Readable) :
    All2 (fun c e => Agrees c e.1 ∧ Fits e.1 e.2) cols (rowOf defs cells) := by
  induction h generalizing cols with
  | nil => cases hd; exact .nil
  | @cons k x defs cells hf hrest ih =>
    cases hd with
    | @cons c _ cols' _ hck hcs =>
      exact .cons ⟨agrees_of_describes hck (hr k (by simp)), hf⟩ (ih hcs fun k' hk' => hr k' (by simp [hk']))

theorem rowOf_length {defs : List ColDef} {cells : List Cell} (h : Storable defs cells) :
    (rowOf defs cells).length = defs.length := by
  have := all2_length h
  simp [rowOf, this]

theorem rowOf_nullBits {defs : List ColDef} {cells : List Cell} (h : Storable defs cells) :
    (nullBits (rowOf defs cells)).length = (defs.filter (·.nullable)).length := by
  induction h with
  | nil => rfl
  | @cons k x defs cells hf hrest ih =>
    simp only [rowOf, nullBits, List.zip_cons_cons, List.map_cons, List.filter_cons, ColDef.scol, List.length_map] at ih ⊢
    split <;> simp_all

theorem all2_imp {α β : Type} {R S : α → β → Prop} (h : ∀ a b, R a b → S a b) {l : List α} {m : List β}
    (hl : All2 R l m) : All2 S l m := by
  induction hl with
  | nil => exact .nil
  | cons h1 _ ih => exact .cons (h _ _ h1) ih

theorem compactAt_bounds {d : Bytes} {o : Nat} {row : Row} (h : CompactAt d o row) :
    o + (rowData row).length ≤ d.length ∧ d.drop o = rowData row ++ d.drop (o + (rowData row).length) := by
  obtain ⟨pre, hdr, post, _, _, hd, ho⟩ := h
  constructor
  · rw [hd, ho]; simp only [List.length_append]; omega
  · rw [← List.drop_drop, hd, ho]
    generalize pre ++ compactPrefix row hdr = a
    rw [List.append_assoc, List.drop_left' rfl, List.drop_left' rfl]

/-- the offsets computed for a well-formed COMPACT record -/
theorem recOffsets_compact (tables : TableMap) (defs : List ColDef) (cells : List Cell) (d : Bytes)
    (o : Nat) (cols : List Column) (hk : Known tables cols defs) (hst : Storable defs cells) (h3 : 3 ≤ defs.length)
    (hd : d.length ≤ 16384) (hc : CompactAt d o (rowOf defs cells)) (hr : ∀ k ∈ defs, k.kind.Readable) :
    recOffsets tables d true o cols = some (some (offsetsOf 0 (rowOf defs cells).length 0 (rowOf defs cells)
      (List.replicate ((rowOf defs cells).length - 3) 0))) := by
  obtain ⟨hdesc, c0, table, hc0, htab, htd, hnc⟩ := hk
  have hlen := rowOf_length hst
  obtain ⟨hb1, hb2⟩ := compactAt_bounds hc
  generalize hrow : rowOf defs cells = row at *
  have hlt : (rowData row).length < 2 ^ 16 := by omega
  have hcl : cols.length = row.length := by rw [all2_length hdesc, hlen]
  have hag2 := all2_rowOf hst htd hr
  rw [hrow] at hag2
  have hnb := rowOf_nullBits hst
  rw [hrow] at hnb
  have hoff := initOffsetsNew_eq d o row hc table hag2 (by rw [hnc, hnb]) (by omega) hlt
  unfold recOffsets
  have hs : sliceFrom d o = some (d.drop o) := by unfold sliceFrom; rw [if_pos (by omega)]
  rw [hs, hcl]
  simp only [Option.bind_eq_bind, Option.bind_some, if_true, hc0, htab]
  rw [hoff]
  rfl

/-- **C20 (partial).** True for all tables whose column types are `Readable`.  Missing: latin1 VARCHAR and CHAR of a
single-byte character set other than latin1 (their storage is misjudged) and VARBINARY of more than 255 bytes (two-byte
lengths are not recognised), for which the claim is false (`C20_false`, `C20_false_varbinary`, `C20_false_char`; exactly: `C20_iff` in Props/Tables).
(Every record of a clustered index has at least three columns, DB_TRX_ID and DB_ROLL_PTR among them.) -/
theorem C20_compact_rows_partial (env : Env) (tables : TableMap) (defs : List ColDef) (cells : List Cell) (d : Bytes)
    (o : Nat) (s : PState) (hk : Known tables s.cols defs) (hst : Storable defs cells) (h3 : 3 ≤ defs.length)
    (hd : d.length ≤ 16384) (hc : CompactAt d o (rowOf defs cells)) (hr : ∀ k ∈ defs, k.kind.Readable) :
    parseOne env tables d true o s =
      rowResult s (decodeRow env s.cols (rowOf defs cells) (d.drop (o + (rowData (rowOf defs cells)).length)) s.out) := by
  have hoff := recOffsets_compact tables defs cells d o s.cols hk hst h3 hd hc hr
  have hag := all2_rowOf hst hk.desc hr
  have hlen := rowOf_length hst
  obtain ⟨hb1, hb2⟩ := compactAt_bounds hc
  generalize hrow : rowOf defs cells = row at *
  have hlt : (rowData row).length < 2 ^ 16 := by omega
  apply parseOne_of_offsets env tables d true o s 0 row (List.replicate (row.length - 3) 0)
  · exact hoff
  · exact all2_imp (fun c e h => sizeOk_of_agrees h.1 h.2) hag
  · intro h; rw [h] at hlen; simp at hlen; omega
  · exact hlt
  · unfold sliceFrom; rw [if_pos (by omega), hb2]
  · rw [List.length_drop]; omega

/-- What `decodeRow` means for a single column: a NULL is reported as NULL, every other column is what the value decoder
makes of its stored bytes. -/
theorem C20_row_columns (env : Env) (cols cols' : List Column) (row : Row) (post : Bytes) (out out' : Out)
    (h : decodeRow env cols row post out = .ok cols' out') (hl : cols.length = row.length) (i : Nat) (c : Column) (x : Cell)
    (st : SCol) (hc : cols[i]? = some c) (hx : row[i]? = some (st, x)) :
    ∃ c', cols'[i]? = some c' ∧ c'.name = c.name ∧
      (x = .null → c'.value = .str (b! "NULL")) ∧
      (x ≠ .null → ∃ o1 o2 b rest, parseData env c.ftype c.mtype (x.bytes ++ rest) x.bytes.length
        (getFixedLength c.ftype c.len) c.isUnsigned c.isBinary o1 = .ok (c'.value, b) o2) := by
  induction cols generalizing row i out out' cols' with
  | nil => simp at hc
  | cons c1 cs ih =>
    cases row with
    | nil => simp at hl
    | cons e xs =>
      rw [decodeRow] at h
      obtain ⟨c1', o1, h1, h⟩ := GoM.bind_eq_ok h
      obtain ⟨cs', o2, h2, h⟩ := GoM.bind_eq_ok h
      simp only [GoM.pure_run, R.ok.injEq] at h
      obtain ⟨rfl, rfl⟩ := h
      cases i with
      | zero =>
        simp only [List.getElem?_cons_zero, Option.some.injEq] at hc hx
        subst hc; subst hx
        refine ⟨c1', rfl, ?_⟩
        simp only at h1
        cases x with
        | null =>
          simp only [decodeCell, GoM.pure_run, R.ok.injEq] at h1
          rw [← h1.1]
          exact ⟨rfl, fun _ => rfl, fun hn => absurd rfl hn⟩
        | val v =>
          obtain ⟨p, o3, h3, h4⟩ := GoM.bind_eq_ok h1
          simp only [GoM.pure_run, R.ok.injEq] at h4
          rw [← h4.1]
          exact ⟨rfl, (by simp), fun _ => ⟨out, o3, p.2, _, h3⟩⟩
        | ext v =>
          obtain ⟨p, o3, h3, h4⟩ := GoM.bind_eq_ok h1
          simp only [GoM.pure_run, R.ok.injEq] at h4
          rw [← h4.1]
          exact ⟨rfl, (by simp), fun _ => ⟨out, o3, p.2, _, h3⟩⟩
      | succ i =>
        simp only [List.getElem?_cons_succ] at hc hx ⊢
        exact ih cs' xs o1 o2 h2 (by simpa using hl) i hc hx

/-! Witnesses: small pages with one record. -/

def testEnv : Env := ⟨fun _ => 0, ⟨fun _ => [], fun _ => []⟩⟩

/-- dictionary columns for a table definition, with table id 1 -/
def testCols (defs : List ColDef) : List Column :=
  defs.map fun k => { name := b! "c", ftype := k.kind.mainType, len := if k.kind.mainType = 4 then 0 else k.kind.declLen,
                      isNull := k.nullable, tableId := 1 }

def testTables (defs : List ColDef) : TableMap :=
  [(1, { columns := testCols defs, nullCount := (defs.filter (·.nullable)).length })]

/-- a page with a single COMPACT record -/
def testPage (row : Row) : Bytes := [1] ++ compactPrefix row [0, 0, 0, 0, 0] ++ rowData row ++ [7, 7, 7]

theorem testPage_at (row : Row) : CompactAt (testPage row) ([1] ++ compactPrefix row [0, 0, 0, 0, 0]).length row :=
  ⟨[1], [0, 0, 0, 0, 0], [7, 7, 7], by simp, rfl, rfl, rfl⟩

theorem test_describes (defs : List ColDef) : All2 Describes (testCols defs) defs := by
  induction defs with
  | nil => exact .nil
  | cons k ks ih => exact .cons ⟨rfl, rfl, rfl⟩ ih

theorem test_known (k : ColDef) (ks : List ColDef) : Known (testTables (k :: ks)) (testCols (k :: ks)) (k :: ks) :=
  ⟨test_describes _, _, _, rfl, rfl, test_describes _, rfl⟩

/-- the record of a definition and cells, as an instance of the full claim -/
theorem C20_instance (h : C20_statement) (k : ColDef) (ks : List ColDef) (cells : List Cell)
    (hs : Storable (k :: ks) cells) (h3 : 3 ≤ (k :: ks).length) (hl : (testPage (rowOf (k :: ks) cells)).length ≤ 16384) :
    parseOne testEnv (testTables (k :: ks)) (testPage (rowOf (k :: ks) cells)) true
      ([1] ++ compactPrefix (rowOf (k :: ks) cells) [0, 0, 0, 0, 0]).length ⟨testCols (k :: ks), []⟩ =
      rowResult ⟨testCols (k :: ks), []⟩ (decodeRow testEnv (testCols (k :: ks)) (rowOf (k :: ks) cells)
        ((testPage (rowOf (k :: ks) cells)).drop (([1] ++ compactPrefix (rowOf (k :: ks) cells) [0, 0, 0, 0, 0]).length +
          (rowData (rowOf (k :: ks) cells)).length)) []) :=
  h testEnv (testTables (k :: ks)) (k :: ks) cells (testPage (rowOf (k :: ks) cells)) _ ⟨testCols (k :: ks), []⟩
    (test_known k ks) hs h3 hl (testPage_at _)

def trxAndRoll : List ColDef := [⟨.system 6, false⟩, ⟨.system 7, false⟩]
def trxAndRollCells : List Cell := [.val [1, 2, 3, 4, 5, 6], .val [1, 2, 3, 4, 5, 6, 7]]

/-- C20 is false of the code: a latin1 VARCHAR(10) holding `ab` makes the decoder read past the record. -/
theorem C20_false : ¬ C20_statement := by
  intro h
  have := C20_instance h ⟨.varcharLatin1 10, false⟩ trxAndRoll (.val (b! "ab") :: trxAndRollCells) (by decide) (by decide)
    (by decide)
  revert this; decide

set_option maxRecDepth 10000 in
/-- A VARBINARY(300) holding 200 bytes is read as 128 bytes. -/
theorem C20_false_varbinary : ¬ C20_statement := by
  intro h
  have := C20_instance h ⟨.varbinary 300, false⟩ trxAndRoll (.val (List.replicate 200 65) :: trxAndRollCells) (by decide)
    (by decide) (by decide)
  revert this; decide

/-- A CHAR(3) CHARACTER SET ascii is taken for a variable-length column. -/
theorem C20_false_char : ¬ C20_statement := by
  intro h
  have := C20_instance h ⟨.charSingle 3, false⟩ trxAndRoll (.val (b! "abc") :: trxAndRollCells) (by decide) (by decide)
    (by decide)
  revert this; decide

/-- The hypotheses of `C20_compact_rows_partial` can be met: an integer key, the internal columns, a NULL, a nullable
VARCHAR(300) with a two-byte length and a TEXT. -/
def goodDefs : List ColDef := ⟨.int 4, false⟩ :: trxAndRoll ++
  [⟨.varchar 90, true⟩, ⟨.varchar 300, true⟩, ⟨.blob, true⟩, ⟨.charMulti 30, false⟩]
def goodCells : List Cell := .val [128, 0, 0, 5] :: trxAndRollCells ++
  [.null, .val (List.replicate 130 66), .val (b! "text"), .val (b! "x  ")]

example : Known (testTables goodDefs) (testCols goodDefs) goodDefs := test_known _ _
set_option maxRecDepth 10000 in
example : Storable goodDefs goodCells ∧ 3 ≤ goodDefs.length ∧ (∀ k ∈ goodDefs, k.kind.Readable) := by
  decide
set_option maxRecDepth 10000 in
example : compactPrefix (rowOf goodDefs goodCells) [0, 0, 0, 0, 0] =
    [3, 4, 130, 128] ++ [1] ++ [0, 0, 0, 0, 0] := by decide
set_option maxRecDepth 10000 in
example : (match parseOne testEnv (testTables goodDefs) (testPage (rowOf goodDefs goodCells)) true 11
      ⟨testCols goodDefs, []⟩ with
    | .ok (some cs) _ => cs.map (·.value)
    | _ => []) =
  [.int 5, .nil, .nil, .str (b! "NULL"), .str (List.replicate 130 66), .str (b! "text"), .str (b! "x")] := by decide

/-! ## C21 -/

/-- Decoding of a REDUNDANT row column by column. -/
def decodeOld (env : Env) : List Column → List OldCell → Bytes → GoM Out (List Column)
  | c :: cs, x :: xs, post => do
    let c' ← decodeCell env c (if x.null then .null else .val x.bytes) (oldData xs ++ post)
    let cs' ← decodeOld env cs xs post
    return c' :: cs'
  | _, _, _ => pure []

/-- Fixed-length columns have their length (also when NULL: the bytes are reserved), and only nullable columns are NULL. -/
def OldStorable (defs : List ColDef) (row : List OldCell) : Prop :=
  All2 (fun k x => (x.null = true → k.nullable = true) ∧ match k.kind.storage with
    | .fixed n => x.bytes.length = n
    | .var _ => x.null = true → x.bytes = []) defs row

instance (k : ColDef) (x : OldCell) : Decidable ((x.null = true → k.nullable = true) ∧ match k.kind.storage with
    | .fixed n => x.bytes.length = n
    | .var _ => x.null = true → x.bytes = []) := by
  refine @instDecidableAnd _ _ inferInstance ?_
  split <;> infer_instance
instance (defs : List ColDef) (row : List OldCell) : Decidable (OldStorable defs row) :=
  inferInstanceAs (Decidable (All2 _ _ _))

/-- The full claim of C21, for one-byte (`w = 1`) and two-byte end offsets. -/
def C21_statement : Prop :=
  ∀ (env : Env) (tables : TableMap) (defs : List ColDef) (row : List OldCell) (d : Bytes) (o w : Nat) (s : PState),
    All2 Describes s.cols defs → OldStorable defs row → 3 ≤ defs.length → d.length ≤ 16384 →
    RedundantAt d o w row → (w = 1 ∧ (oldData row).length ≤ 127 ∨ w = 2) →
    parseOne env tables d false o s =
      rowResult s (decodeOld env s.cols row (d.drop (o + (oldData row).length)) s.out)

theorem redundantAt_bounds {d : Bytes} {o w : Nat} {row : List OldCell} (h : RedundantAt d o w row) :
    6 ≤ o ∧ o + (oldData row).length ≤ d.length ∧ d.drop o = oldData row ++ d.drop (o + (oldData row).length) := by
  obtain ⟨pre, h3, flag, h2, post, hl3, hl2, _, hd, ho⟩ := h
  refine ⟨?_, ?_, ?_⟩
  · rw [ho]; simp; omega
  · rw [hd, ho]; simp only [List.length_append]; omega
  · rw [← List.drop_drop, hd, ho]
    generalize pre ++ endInfos w 0 row ++ h3 ++ [flag] ++ h2 = a
    rw [List.append_assoc, List.drop_left' rfl, List.drop_left' rfl]

theorem oldSizeOk {cols : List Column} {defs : List ColDef} {row : List OldCell} (hdesc : All2 Describes cols defs)
    (hst : OldStorable defs row) (hr : ∀ k ∈ defs, ∀ m, k.kind = .varcharLatin1 m → m = 0) :
    All2 (fun c x => SizeOk c x.2) cols (viewOld row) := by
  induction hst generalizing cols with
  | nil => cases hdesc; exact .nil
  | @cons k x defs row hx hrest ih =>
    cases hdesc with
    | @cons c _ cols' _ hck hcs =>
      refine .cons ?_ (ih hcs fun k' hk' => hr k' (by simp [hk']))
      intro hg
      obtain ⟨h1, h2, h3⟩ := hck
      right; right
      simp only [Cell.bytes]
      have hr := hr k (by simp)
      obtain ⟨kind, nullable⟩ := k
      cases kind <;>
        simp_all [Kind.mainType, Kind.declLen, Kind.storage, getFixedLength, DATA_BLOB, DATA_VARMYSQL, DATA_MYSQL, DATA_BINARY]

/-- the offsets computed for a well-formed REDUNDANT record -/
theorem recOffsets_redundant (tables : TableMap) (row : List OldCell) (d : Bytes)
    (o w : Nat) (cols : List Column) (hcl : cols.length = row.length) (h3 : 3 ≤ row.length)
    (hd : d.length ≤ 16384) (hat : RedundantAt d o w row) (hw : w = 1 ∧ (oldData row).length ≤ 127 ∨ w = 2) :
    recOffsets tables d false o cols = some (some (offsetsOf 0 row.length (6 + w * row.length) (viewOld row)
      (List.replicate (row.length - 3) 0))) := by
  obtain ⟨hb0, hb1, hb2⟩ := redundantAt_bounds hat
  have hoff := initOffsetsOld_eq d o w row hat (by omega) (by omega)
    (by rcases hw with ⟨rfl, h⟩ | rfl
        · rw [if_pos rfl]; omega
        · rw [if_neg (by omega)]; omega) (by omega)
  unfold recOffsets
  have hs : sliceFrom d o = some (d.drop o) := by unfold sliceFrom; rw [if_pos (by omega)]
  rw [hs, hcl]
  have hb : ∀ x : Option (Option (List Nat)), (some (d.drop o) >>= fun _ => x) = x := fun _ => rfl
  rw [hb, if_neg (by decide), hoff]
  rfl

/-- **C21, what the code does.** Every REDUNDANT row of a table without latin1 VARCHAR columns is decoded from the stored
bytes of its columns; the NULL flag is ignored, so a NULL is decoded from the bytes reserved for it. -/
theorem C21_nulls_ignored (env : Env) (tables : TableMap) (defs : List ColDef) (row : List OldCell) (d : Bytes)
    (o w : Nat) (s : PState) (hdesc : All2 Describes s.cols defs) (hst : OldStorable defs row) (h3 : 3 ≤ defs.length)
    (hd : d.length ≤ 16384) (hat : RedundantAt d o w row) (hw : w = 1 ∧ (oldData row).length ≤ 127 ∨ w = 2)
    (hr : ∀ k ∈ defs, ∀ m, k.kind = .varcharLatin1 m → m = 0) :
    parseOne env tables d false o s =
      rowResult s (decodeOld env s.cols (row.map fun x => { x with null := false })
        (d.drop (o + (oldData row).length)) s.out) := by
  obtain ⟨hb0, hb1, hb2⟩ := redundantAt_bounds hat
  have hrl : row.length = defs.length := (all2_length hst).symm
  have hcl : s.cols.length = row.length := by rw [all2_length hdesc, hrl]
  have hoff := recOffsets_redundant tables row d o w s.cols hcl (by omega) hd hat hw
  have hdec : ∀ (cols : List Column) (r : List OldCell) (post : Bytes),
      decodeOld env cols (r.map fun x => { x with null := false }) post = decodeRow env cols (viewOld r) post := by
    intro cols r post
    induction r generalizing cols with
    | nil => cases cols <;> rfl
    | cons x r ih =>
      cases cols with
      | nil => rfl
      | cons c cs =>
        have hv : viewOld (x :: r) = (⟨false, .fixed 0⟩, .val x.bytes) :: viewOld r := rfl
        have ho : oldData (r.map fun x => { x with null := false }) = oldData r := by
          simp [oldData, List.flatMap_map]
        rw [List.map_cons, decodeOld, hv, decodeRow, ih, rowData_viewOld, ho]
        rfl
  rw [hdec]
  apply parseOne_of_offsets env tables d false o s (6 + w * row.length) (viewOld row) (List.replicate (row.length - 3) 0)
  · rw [viewOld_length]; exact hoff
  · exact oldSizeOk hdesc hst hr
  · intro h
    have := congrArg List.length h
    rw [viewOld_length] at this
    simp at this
    rw [this] at hrl
    simp at hrl
    omega
  · rw [rowData_viewOld]; omega
  · unfold sliceFrom; rw [if_pos (by omega), hb2, rowData_viewOld]
  · rw [List.length_drop, rowData_viewOld]; omega

/-- **C21 (partial).** True for rows without NULL columns of tables without latin1 VARCHAR columns.  Missing: NULL
columns, which the code decodes as values (`C21_nulls_ignored`, `C21_false`), and latin1 VARCHAR columns, whose size check
fails (`C21_false_varchar`); externally stored columns are treated in C54. -/
theorem C21_redundant_rows_partial (env : Env) (tables : TableMap) (defs : List ColDef) (row : List OldCell) (d : Bytes)
    (o w : Nat) (s : PState) (hdesc : All2 Describes s.cols defs) (hst : OldStorable defs row) (h3 : 3 ≤ defs.length)
    (hd : d.length ≤ 16384) (hat : RedundantAt d o w row) (hw : w = 1 ∧ (oldData row).length ≤ 127 ∨ w = 2)
    (hr : ∀ k ∈ defs, ∀ m, k.kind = .varcharLatin1 m → m = 0) (hn : ∀ x ∈ row, x.null = false) :
    parseOne env tables d false o s =
      rowResult s (decodeOld env s.cols row (d.drop (o + (oldData row).length)) s.out) := by
  rw [C21_nulls_ignored env tables defs row d o w s hdesc hst h3 hd hat hw hr]
  have : row.map (fun x => { x with null := false }) = row := by
    conv => rhs; rw [← List.map_id row]
    apply List.map_congr_left
    intro x hx
    have := hn x hx
    cases x; simp_all
  rw [this]

/-- a page with a single REDUNDANT record -/
def testOldPage (w : Nat) (row : List OldCell) : Bytes :=
  [1] ++ endInfos w 0 row ++ [0, 0, 0] ++ [if w = 1 then 7 else 6] ++ [0, 0] ++ oldData row ++ [9, 9]
def testOldAt (w : Nat) (row : List OldCell) : Nat := 7 + w * row.length

theorem testOldPage_at (w : Nat) (hw : w = 1 ∨ w = 2) (row : List OldCell) :
    RedundantAt (testOldPage w row) (testOldAt w row) w row := by
  refine ⟨[1], [0, 0, 0], (if w = 1 then 7 else 6), [0, 0], [9, 9], rfl, rfl, ?_, rfl, ?_⟩
  · rcases hw with rfl | rfl <;> decide
  · simp only [List.length_append, endInfos_length, testOldAt, List.length_cons, List.length_nil]
    omega

theorem C21_instance (h : C21_statement) (defs : List ColDef) (row : List OldCell)
    (hs : OldStorable defs row) (h3 : 3 ≤ defs.length) (hl : (testOldPage 1 row).length ≤ 16384)
    (hw : (oldData row).length ≤ 127) :
    parseOne testEnv [] (testOldPage 1 row) false (testOldAt 1 row) ⟨testCols defs, []⟩ =
      rowResult ⟨testCols defs, []⟩ (decodeOld testEnv (testCols defs) row
        ((testOldPage 1 row).drop (testOldAt 1 row + (oldData row).length)) []) :=
  h testEnv [] defs row _ _ 1 ⟨testCols defs, []⟩ (test_describes _) hs h3 hl (testOldPage_at 1 (by omega) row)
    (Or.inl ⟨rfl, hw⟩)

/-- C21 is false of the code: a NULL integer is decoded from the zero bytes reserved for it. -/
theorem C21_false : ¬ C21_statement := by
  intro h
  have := C21_instance h [⟨.int 4, false⟩, ⟨.int 4, true⟩, ⟨.varchar 10, true⟩]
    [⟨[128, 0, 0, 1], false⟩, ⟨[0, 0, 0, 0], true⟩, ⟨[], true⟩] (by decide) (by decide) (by decide) (by decide)
  revert this; decide

/-- A row with a latin1 VARCHAR(10) holding `ab` is rejected. -/
theorem C21_false_varchar : ¬ C21_statement := by
  intro h
  have := C21_instance h [⟨.int 4, false⟩, ⟨.int 4, true⟩, ⟨.varcharLatin1 10, true⟩]
    [⟨[128, 0, 0, 1], false⟩, ⟨[128, 0, 0, 2], false⟩, ⟨b! "ab", false⟩] (by decide) (by decide) (by decide) (by decide)
  revert this; decide

/-- The hypotheses of `C21_redundant_rows_partial` can be met, here with two-byte end offsets. -/
example : OldStorable [⟨.int 4, false⟩, ⟨.int 4, true⟩, ⟨.varchar 10, true⟩]
    [⟨[128, 0, 0, 1], false⟩, ⟨[128, 0, 0, 2], false⟩, ⟨b! "ab", false⟩] ∧
  RedundantAt (testOldPage 2 [⟨[128, 0, 0, 1], false⟩, ⟨[128, 0, 0, 2], false⟩, ⟨b! "ab", false⟩]) 13 2
    [⟨[128, 0, 0, 1], false⟩, ⟨[128, 0, 0, 2], false⟩, ⟨b! "ab", false⟩] :=
  ⟨by decide, testOldPage_at 2 (by omega) _⟩
/-- InnoDB's layout: end offsets 4, 8, 10 towards lower addresses -/
example : endInfos 1 0 [⟨[128, 0, 0, 1], false⟩, ⟨[0, 0, 0, 0], true⟩, ⟨b! "ab", false⟩] = [10, 136, 4] := by decide

end Verif.Props
