import Verif.Props.Enum
import Verif.Props.DataCut
/-!
# C97: tables whose primary key covers only the first bytes of a column

For `PRIMARY KEY (a(n))` the records of the clustered index begin with the first `n` bytes of `a`; DB_TRX_ID and DB_ROLL_PTR follow, and then all
columns of the table, `a` in full among them (dict0dict.cc, dict_index_build_internal_clust: only columns that the key contains in full are left out).
The prefix length is in SYS_FIELDS.POS (dict0crea.cc, dict_create_sys_fields_tuple).  The tool keeps POS but never reads it (parse.go:552, 561; the key
columns are moved by name, parse.go:327-337), so it takes the first field for `a` and every other column for the one after it.
-/

namespace Verif.Props
open Verif Spec

/-! ## What is stored -/

/-- The primary key of the table is on the first `n` bytes of its first column. -/
def PrefixKey (irs : List IndexRow) (frs : List FieldRow) (cols : List Column) (id : Nat) (r : IndexRow) (n : Nat) : Prop :=
  ClusteredBy irs id r ∧ r.name = b! "PRIMARY" ∧ r.itype % 2 = 1 ∧ r.itype / 2 % 2 = 1 ∧ r.nFields = 1 ∧ 0 < n ∧ n < 2 ^ 16 ∧
    (∀ x ∈ irs, x.tableId = id → x = r ∨ x.itype % 2 = 0) ∧
    ∃ c rest, cols = c :: rest ∧ frs.filter (·.indexId == r.id) = [⟨r.id, n, c.name⟩]

/-- A record for the row: the prefix of the first column, DB_TRX_ID, DB_ROLL_PTR, and all columns. -/
def PrefixCells (n : Nat) (cells : List Cell) (row : List Bytes) : Prop :=
  ∃ a rest trx roll, row = a :: rest ∧ cells = .val (a.take n) :: .val trx :: .val roll :: row.map .val

/-- the stored columns -/
def prefixDefs (m : Nat) (cols : List Column) : List ColDef :=
  ⟨.varchar m, false⟩ :: ⟨.system 6, false⟩ :: ⟨.system 7, false⟩ :: cols.map fun _ => ⟨.varchar m, false⟩

/-- The file holds these rows of a table with the columns `cols`, all of them VARCHAR of at most `m` bytes in a single-byte character set and NOT NULL,
in a clustered index on the first `n` bytes of the first column. -/
structure PrefixFile (content : Bytes) (cid : Nat) (cols : List Column) (m n : Nat) (deleted : Bool) (rows : List (List Bytes)) : Prop where
  names : (cols.map (·.name)).Nodup ∧ ∀ c ∈ cols, c.name ∉ internalNames
  types : ∀ c ∈ cols, c.mtype = 15 ∧ Describes c ⟨.varchar m, false⟩
  pages : ∃ rss, rows = rss.flatten ∧ All2 (fun d rs => ∃ cellss, PageHolds (prefixDefs m cols) deleted d cellss ∧
    All2 (PrefixCells n) cellss rs) (leafPages content cid deleted) rss

/-- a row of strings as values -/
def strings (row : List Bytes) : List (Option TVal) := row.map fun s => some (.varchar s)

/-- **C97**, as stated: the rows of the table are printed. -/
def C97_statement : Prop :=
  ∀ (env : Env) (a : FromData) (sys ibd : Bytes) (trs : List TableRow) (crs : List ColumnRow) (irs : List IndexRow) (frs : List FieldRow)
    (t : TableRow) (r : IndexRow) (m n : Nat) (deleted : Bool) (rows : List (List Bytes)),
    a.sysFile = .ok sys → a.tableFile = .ok ibd → Dictionary sys trs crs irs frs → t ∈ trs → t.name = a.db ++ b! "/" ++ a.table →
    (∀ t ∈ trs, UsualKeys irs frs crs t.id) → PrefixKey irs frs (columnsOf crs t.id) t.id r n →
    PrefixFile ibd r.id (columnsOf crs t.id) m n deleted rows → (deleted = true ↔ a.opType = b! "RecoveryData") →
    Marked ibd r.id deleted → 96 ∉ a.db → 96 ∉ a.table →
    (∀ row ∈ rows, ∀ s ∈ row, s ≠ b! "NULL" ∧ s ≠ b! "0001-01-01T00:00:00Z") →
    ∀ out, ∃ lines, fromDataFile env a out = .ok () (out ++ lines) ∧ All2 (Printed env.ff a.db a.table) lines (rows.map strings)

/-! ## Records without their last column -/

theorem rowOf_snoc {defs : List ColDef} {k : ColDef} {cells : List Cell} {x : Cell} (h : defs.length = cells.length) :
    rowOf (defs ++ [k]) (cells ++ [x]) = rowOf defs cells ++ [(k.scol, x)] := by
  unfold rowOf
  rw [List.zip_append h, List.map_append]
  rfl

theorem compactAt_init {d : Bytes} {o : Nat} {row : Row} {e : SCol × Cell} (he : e.1.nullable = false) (h : CompactAt d o (row ++ [e])) :
    CompactAt d o row := by
  obtain ⟨pre, hdr, post, h1, h2, h3, h4⟩ := h
  have e1 : lens (row ++ [e]) = lens row ++ lenBytes e.1 e.2 := by simp [lens]
  have e2 : nullBits (row ++ [e]) = nullBits row := by simp [nullBits, he]
  have e3 : rowData (row ++ [e]) = rowData row ++ e.2.bytes := by simp [rowData]
  have e4 : compactPrefix (row ++ [e]) hdr = (lenBytes e.1 e.2).reverse ++ compactPrefix row hdr := by
    unfold compactPrefix
    rw [e1, e2, List.reverse_append]
    simp only [List.append_assoc]
  refine ⟨pre ++ (lenBytes e.1 e.2).reverse, hdr, e.2.bytes ++ post, by simp [h1], h2, ?_, ?_⟩
  · rw [h3, e4, e3]
    simp only [List.append_assoc]
  · rw [h4, e4]
    simp only [List.append_assoc]

theorem all2_last {α β : Type} {R : α → β → Prop} {as : List α} {a : α} {bs : List β} (h : All2 R (as ++ [a]) bs) :
    ∃ bs' b, bs = bs' ++ [b] ∧ All2 R as bs' ∧ R a b := by
  induction as generalizing bs with
  | nil => cases h with | cons h1 h2 => cases h2; exact ⟨[], _, rfl, .nil, h1⟩
  | cons x as ih =>
    cases h with
    | cons h1 h2 =>
      obtain ⟨bs', b, rfl, h3, h4⟩ := ih h2
      exact ⟨_ :: bs', b, rfl, .cons h1 h3, h4⟩

theorem endInfos_snoc (w start : Nat) (row : List OldCell) (x : OldCell) :
    ∃ e, endInfos w start (row ++ [x]) = e ++ endInfos w start row := by
  induction row generalizing start with
  | nil => exact ⟨endInfos w start [x], by simp [endInfos]⟩
  | cons c cs ih =>
    obtain ⟨e, he⟩ := ih (start + c.bytes.length)
    refine ⟨e, ?_⟩
    rw [List.cons_append, endInfos, endInfos]
    rw [he, List.append_assoc]

theorem redundantAt_init {d : Bytes} {o w : Nat} {row : List OldCell} {x : OldCell} (h : RedundantAt d o w (row ++ [x])) : RedundantAt d o w row := by
  obtain ⟨pre, h3, flag, h2, post, a1, a2, a3, a4, a5⟩ := h
  obtain ⟨e, he⟩ := endInfos_snoc w 0 row x
  have hd : oldData (row ++ [x]) = oldData row ++ x.bytes := by simp [oldData]
  refine ⟨pre ++ e, h3, flag, h2, x.bytes ++ post, a1, a2, a3, ?_, ?_⟩
  · rw [a4, he, hd]
    simp only [List.append_assoc]
  · rw [a5, he]
    simp only [List.append_assoc]

/-- A page with records that have one more column, which is NOT NULL, holds the records without it. -/
theorem pageHolds_init {defs : List ColDef} {k : ColDef} {deleted : Bool} {d : Bytes} {cellss : List (List Cell)} (hk : k.nullable = false)
    (h : PageHolds (defs ++ [k]) deleted d cellss) : PageHolds defs deleted d (cellss.map List.dropLast) := by
  cases h with
  | @compact os _ h1 h2 h3 =>
    refine .compact h1 h2 ?_
    clear h1 h2
    induction h3 with
    | nil => exact .nil
    | @cons o cells os rows h _ ih =>
      refine .cons ?_ ih
      obtain ⟨⟨h4, h5⟩, h6⟩ := h
      obtain ⟨cells', x, rfl, h7, -⟩ := all2_last h4
      rw [rowOf_snoc (all2_length h7)] at h5 h6
      rw [List.dropLast_concat]
      refine ⟨⟨h7, compactAt_init hk h5⟩, ?_⟩
      have : (rowData (rowOf defs cells' ++ [(k.scol, x)])).length = (rowData (rowOf defs cells')).length + x.bytes.length := by simp [rowData]
      omega
  | @redundant os rows h1 h2 h3 =>
    have : (rows.map fun r => r.2.map OldCell.cell).map List.dropLast =
        (rows.map fun r => (r.1, r.2.dropLast)).map fun r => r.2.map OldCell.cell := by
      rw [List.map_map, List.map_map]
      refine List.map_congr_left fun r _ => ?_
      simp [List.map_dropLast]
    rw [this]
    refine .redundant h1 h2 ?_
    clear h1 h2 this
    induction h3 with
    | nil => exact .nil
    | @cons o r os rows h _ ih =>
      refine .cons ?_ ih
      obtain ⟨⟨⟨h4, h5, h6⟩, h7⟩, h8⟩ := h
      obtain ⟨w, r⟩ := r
      obtain ⟨r', x, hr, h9, -⟩ := all2_last h4
      dsimp only at hr h5 h6 h7 h8 ⊢
      subst hr
      obtain ⟨r'', x', hr, h10, -⟩ := all2_last h8
      obtain ⟨rfl, -⟩ := List.append_inj' hr rfl
      have : (oldData (r' ++ [x])).length = (oldData r').length + x.bytes.length := by simp [oldData]
      rw [List.dropLast_concat]
      refine ⟨⟨⟨h9, redundantAt_init h5, ?_⟩, ?_⟩, h10⟩
      · rcases h6 with ⟨h6, h6'⟩ | h6
        · exact .inl ⟨h6, by dsimp only; omega⟩
        · exact .inr h6
      · omega

/-! ## What the tool makes of the file -/

/-- The values that the tool takes for those of the row. -/
def shifted (n : Nat) : List Bytes → List Bytes
  | [] => []
  | a :: rest => a.take n :: (a :: rest).dropLast

/-- the columns as the tool takes them to be stored -/
def shiftedDefs (m : Nat) (cols : List Column) : List ColDef :=
  ⟨.varchar m, false⟩ :: ⟨.system 6, false⟩ :: ⟨.system 7, false⟩ :: cols.tail.map fun _ => ⟨.varchar m, false⟩

theorem prefixDefs_eq (m : Nat) {cols : List Column} (h : cols ≠ []) : prefixDefs m cols = shiftedDefs m cols ++ [⟨.varchar m, false⟩] := by
  cases cols with
  | nil => exact absurd rfl h
  | cons c cs =>
    unfold prefixDefs shiftedDefs
    rw [List.tail_cons, List.map_cons]
    show _ = _ :: _ :: _ :: (_ ++ _)
    congr 3
    simp only [List.map_const']
    rw [← List.replicate_succ, List.replicate_succ']

theorem stores_from {pre cs : List Column} {prec : List Cell} {row : List Bytes} (hl : pre.length = prec.length) (h : cs.length = row.length) :
    All2 (Stores (pre ++ cs) (prec ++ row.map .val)) cs (strings row) := by
  induction cs generalizing pre prec row with
  | nil => cases row with | nil => exact .nil | cons => cases h
  | cons c cs ih =>
    cases row with
    | nil => cases h
    | cons s row =>
      refine .cons ⟨pre.length, ?_, ?_⟩ ?_
      · simp
      · simp [hl, cellOfVal, TVal.enc]
      · have := ih (pre := pre ++ [c]) (prec := prec ++ [.val s]) (row := row) (by simp [hl]) (by simpa using h)
        simpa [strings] using this

theorem stores_shifted {n id : Nat} {c : Column} {cs : List Column} {cells : List Cell} {row : List Bytes} (h : PrefixCells n cells row)
    (hl : row.length = cs.length + 1) : All2 (Stores (c :: trxColumn id 1 :: rollColumn id 2 :: cs) cells.dropLast) (c :: cs) (strings (shifted n row)) := by
  obtain ⟨a, rest, trx, roll, rfl, rfl⟩ := h
  have e : (Cell.val (a.take n) :: .val trx :: .val roll :: (a :: rest).map Cell.val).dropLast =
      [.val (a.take n), .val trx, .val roll] ++ ((a :: rest).dropLast).map .val := by
    rw [List.map_dropLast]
    rfl
  rw [e]
  refine .cons ⟨0, rfl, rfl⟩ ?_
  exact stores_from (pre := [c, trxColumn id 1, rollColumn id 2]) rfl (by simpa using hl.symm)

theorem all2_origin {α β : Type} {R : α → β → Prop} {as : List α} {bs : List β} (h : All2 R as bs) (b : β) (hb : b ∈ bs) : ∃ a ∈ as, R a b := by
  induction h with
  | nil => cases hb
  | cons h1 _ ih =>
    rcases List.mem_cons.mp hb with rfl | hb
    · exact ⟨_, List.mem_cons_self, h1⟩
    · obtain ⟨a, h3, h4⟩ := ih hb
      exact ⟨a, List.mem_cons_of_mem _ h3, h4⟩

theorem prefix_length {m n : Nat} {cols : List Column} {deleted : Bool} {d : Bytes} {cellss : List (List Cell)}
    (h : PageHolds (prefixDefs m cols) deleted d cellss) : ∀ cells ∈ cellss, cells.length = cols.length + 3 := by
  intro cells hc
  have hd : (prefixDefs m cols).length = cols.length + 3 := by simp [prefixDefs]
  cases h with
  | compact h1 h2 h3 =>
    obtain ⟨o, -, ho⟩ := all2_origin h3 cells hc
    rw [← all2_length ho.1.1, hd]
  | redundant h1 h2 h3 =>
    obtain ⟨r, hr, rfl⟩ := List.mem_map.mp hc
    obtain ⟨o, -, ho⟩ := all2_origin h3 r hr
    rw [List.length_map, ← all2_length ho.1.1.1, hd]

theorem all2_mapLeft {α β γ δ : Type} {R : α → β → Prop} {S : γ → δ → Prop} (f : α → γ) (g : β → δ) {as : List α} {bs : List β}
    (h : All2 R as bs) (hi : ∀ a b, a ∈ as → R a b → S (f a) (g b)) : All2 S (as.map f) (bs.map g) := by
  induction h with
  | nil => exact .nil
  | cons h1 _ ih => exact .cons (hi _ _ List.mem_cons_self h1) (ih fun a b ha => hi a b (List.mem_cons_of_mem _ ha))

/-- For the tool the file holds the shifted rows. -/
theorem prefix_shifted (env : Env) {content : Bytes} {cid m n id : Nat} {c : Column} {cs : List Column} {deleted : Bool} {rows : List (List Bytes)}
    (h : PrefixFile content cid (c :: cs) m n deleted rows) :
    TableFile env content cid (c :: cs) (c :: trxColumn id 1 :: rollColumn id 2 :: cs) (shiftedDefs m (c :: cs)) deleted
      (rows.map fun row => strings (shifted n row)) ∧ ∀ row ∈ rows, row.length = cs.length + 1 := by
  obtain ⟨hn, ht, rss, rfl, hp⟩ := h
  have hlen : ∀ row ∈ rss.flatten, row.length = cs.length + 1 := by
    intro row hrow
    obtain ⟨rs, hrs, hr⟩ := List.mem_flatten.mp hrow
    obtain ⟨d, -, cellss, h1, h2⟩ := all2_origin hp rs hrs
    obtain ⟨cells, hc, a, rest, trx, roll, -, h3⟩ := all2_origin h2 row hr
    have := prefix_length (n := n) h1 cells hc
    rw [h3] at this
    simpa using this
  refine ⟨⟨hn, fun x hx e => ?_, ?_, ⟨rss.map (·.map fun row => strings (shifted n row)), ?_, ?_⟩, ?_⟩, hlen⟩
  · rw [(ht x hx).1] at e
    cases e
  · refine .cons (ht c List.mem_cons_self).2 (.cons ⟨rfl, rfl, rfl⟩ (.cons ⟨rfl, rfl, rfl⟩ ?_))
    show All2 Describes cs (cs.map _)
    exact all2_self _ cs fun x hx => (ht x (List.mem_cons_of_mem _ hx)).2
  · rw [List.map_flatten]
  · have := all2_mapLeft (S := fun d rs => ∃ cellss, PageHolds (shiftedDefs m (c :: cs)) deleted d cellss ∧
      All2 (fun cells row => All2 (Stores (c :: trxColumn id 1 :: rollColumn id 2 :: cs) cells) (c :: cs) row) cellss rs) (fun d => d)
      (fun rs => rs.map fun row => strings (shifted n row)) hp ?_
    · simpa using this
    rintro d rs - ⟨cellss, h1, h2⟩
    have hl := prefix_length (n := n) h1
    rw [prefixDefs_eq m (by simp)] at h1
    refine ⟨cellss.map List.dropLast, pageHolds_init rfl h1, all2_mapLeft _ _ h2 fun cells row hc hcr => ?_⟩
    refine stores_shifted hcr ?_
    have := hl cells hc
    obtain ⟨a, rest, trx, roll, -, rfl⟩ := hcr
    simpa using this
  · intro row hrow
    obtain ⟨row, hr, rfl⟩ := List.mem_map.mp hrow
    have : (shifted n row).length = (c :: cs).length := by
      have := hlen row hr
      cases row with
      | nil => cases this
      | cons a rest => simpa [shifted] using this
    generalize shifted n row = s at this
    clear hp hn hlen hrow hr
    generalize c :: cs = l at this ht
    induction l generalizing s with
    | nil => cases s with | nil => exact .nil | cons => cases this
    | cons x l ih =>
      cases s with
      | nil => cases this
      | cons v s =>
        refine .cons ?_ (ih s (by simpa using this) (fun y hy => ht y (List.mem_cons_of_mem _ hy)))
        rintro w ⟨⟩
        exact ⟨(ht x List.mem_cons_self).2.2.1, trivial⟩

theorem prefix_layout {irs : List IndexRow} {frs : List FieldRow} {c : Column} {cs : List Column} {id n : Nat} {r : IndexRow}
    (hk : PrefixKey irs frs (c :: cs) id r n) (hn : ((c :: cs).map (·.name)).Nodup) :
    Layout irs frs id (c :: cs) (c :: trxColumn id 1 :: rollColumn id 2 :: cs) := by
  obtain ⟨h1, h2, h3, h4, h5, -, -, h6, c', rest, h7, h8⟩ := hk
  injection h7 with e1 e2
  subst e1 e2
  have hf : fieldsOf frs r = [⟨n, c.name⟩] := by
    unfold fieldsOf
    rw [h8]
    rfl
  have := Layout.key (irs := irs) (frs := frs) (id := id) (cols := c :: cs) (r := r)
    ⟨h1.1, h1.2.1, h3, fun x hx hxt => (h6 x hx hxt).imp (fun e => e) fun h => ⟨?_, h⟩⟩ h4 (by rw [hf, h5]; rfl) (by
      rw [hf]
      refine ⟨hn, by simp, ?_⟩
      intro f hf'
      cases List.mem_singleton.mp hf'
      simp)
  · have e : clusteredOrder (fieldsOf frs r) (c :: cs) = c :: cs := by
      rw [hf]
      unfold clusteredOrder columnNamed
      simp only [List.filterMap_cons, List.filterMap_nil, List.find?_cons, beq_self_eq_true, List.map_cons, List.map_nil, List.filter_cons,
        List.contains_cons, List.contains_nil, Bool.or_false, Bool.not_true, Bool.false_eq_true, if_false, List.cons_append, List.nil_append]
      congr 1
      refine List.filter_eq_self.mpr fun x hx => ?_
      have := (List.nodup_cons.mp hn).1
      simp only [Bool.not_eq_true', beq_eq_false_iff_ne, ne_eq]
      rintro e
      exact this (List.mem_map.mpr ⟨x, hx, e⟩)
    rw [e, h5] at this
    exact this
  · rcases h1.2.2 x hx hxt with e | e
    · subst e
      omega
    · exact e.1

theorem prefix_handled {irs : List IndexRow} {frs : List FieldRow} {crs : List ColumnRow} {id n : Nat} {r : IndexRow}
    (hk : PrefixKey irs frs (columnsOf crs id) id r n) : Handled irs frs crs id := by
  obtain ⟨h1, h2, h3, h4, h5, -, -, h6, c, rest, h7, h8⟩ := hk
  refine ⟨r, h1, h3, .inr ⟨h2, h4, c, rest, h7, ?_⟩⟩
  unfold fieldsOf
  rw [h8]
  rfl

/-- **What is printed:** for every row its key prefix, then all its values but the last, each one column too late. -/
theorem C97_shifted (env : Env) (a : FromData) (sys ibd : Bytes) (trs : List TableRow) (crs : List ColumnRow) (irs : List IndexRow) (frs : List FieldRow)
    (t : TableRow) (r : IndexRow) (m n : Nat) (deleted : Bool) (rows : List (List Bytes)) (hsys : a.sysFile = .ok sys) (hibd : a.tableFile = .ok ibd)
    (hdict : Dictionary sys trs crs irs frs) (ht : t ∈ trs) (hname : t.name = a.db ++ b! "/" ++ a.table)
    (harr : ∀ t ∈ trs, UsualKeys irs frs crs t.id) (hk : PrefixKey irs frs (columnsOf crs t.id) t.id r n)
    (hf : PrefixFile ibd r.id (columnsOf crs t.id) m n deleted rows) (hop : deleted = true ↔ a.opType = b! "RecoveryData")
    (hmark : Marked ibd r.id deleted) (hdb : 96 ∉ a.db) (htab : 96 ∉ a.table)
    (hv : ∀ row ∈ rows, ∀ s ∈ shifted n row, s ≠ b! "NULL" ∧ s ≠ b! "0001-01-01T00:00:00Z") (out : Out) :
    ∃ lines, fromDataFile env a out = .ok () (out ++ lines) ∧
      All2 (Printed env.ff a.db a.table) lines (rows.map fun row => strings (shifted n row)) := by
  obtain ⟨c, cs, hc⟩ : ∃ c cs, columnsOf crs t.id = c :: cs := by
    obtain ⟨-, -, -, -, -, -, -, -, c, rest, h7, -⟩ := hk
    exact ⟨c, rest, h7⟩
  have hh := prefix_handled hk
  rw [hc] at hk hf
  obtain ⟨htf, hlen⟩ := prefix_shifted env (id := t.id) hf
  refine C57_command_partial env a sys ibd trs crs irs frs t r _ (shiftedDefs m (c :: cs)) deleted _ hsys hibd hdict ht hname
    (by rw [hc]; exact prefix_layout hk hf.names.1) (by rw [hc]; exact htf) hop harr hh hmark ?_ ?_ ?_ hdb htab out
  · intro d _ _ k hk
    have : k = ⟨.varchar m, false⟩ ∨ k = ⟨.system 6, false⟩ ∨ k = ⟨.system 7, false⟩ := by
      simp only [shiftedDefs, List.mem_cons, List.mem_map] at hk
      rcases hk with h | h | h | ⟨_, _, h⟩
      · exact .inl h
      · exact .inr (.inl h)
      · exact .inr (.inr h)
      · exact .inl h.symm
    rcases this with rfl | rfl | rfl
    · trivial
    · show 6 ≠ 0; decide
    · show 7 ≠ 0; decide
  · intro d _ _
    refine ⟨fun k hk x e => ?_, fun row hrow h => ?_⟩
    · simp only [shiftedDefs, List.mem_cons, List.mem_map] at hk
      rcases hk with h | h | h | ⟨_, _, h⟩ <;> subst h <;> cases e
    · obtain ⟨row, -, rfl⟩ := List.mem_map.mp hrow
      unfold strings at h
      obtain ⟨s, -, h⟩ := List.mem_map.mp h
      cases h
  · intro row hrow
    rw [hc]
    have := htf.typed row hrow
    obtain ⟨row, hr, rfl⟩ := List.mem_map.mp hrow
    have hs := hv row hr
    clear hv hrow hr
    generalize shifted n row = s at this hs
    generalize c :: cs = l at this
    unfold strings at this ⊢
    induction s generalizing l with
    | nil => cases this; exact .nil
    | cons v s ih =>
      cases this with
      | cons h1 h2 =>
        exact .cons ⟨trivial, hs v List.mem_cons_self⟩ (ih (fun y hy => hs y (List.mem_cons_of_mem _ hy)) _ h2)

/-! ## When the rows are right -/

theorem denotes_strings {ff : FloatFmt} {vs : List SqlVal} {r r' : List Bytes} (h : All2 (Denotes ff) vs ((strings r).map (origOf ff)))
    (h' : All2 (Denotes ff) vs ((strings r').map (origOf ff))) : r = r' := by
  unfold strings at h h'
  induction r generalizing vs r' with
  | nil =>
    cases h
    cases r' with
    | nil => rfl
    | cons => cases h'
  | cons s r ih =>
    cases h with
    | @cons v _ vs _ h1 h2 =>
      cases r' with
      | nil => cases h'
      | cons s' r' =>
        cases h' with
        | cons h3 h4 =>
          rw [ih h2 h4]
          have e1 : Denotes ff v (.text s) := h1
          have e2 : Denotes ff v (.text s') := h3
          cases v with
          | bytes x =>
            have e1 : x = s := e1
            have e2 : x = s' := e2
            rw [← e1, ← e2]
          | _ => cases e1

theorem printed_strings {ff : FloatFmt} {db table : Bytes} {lines : List Bytes} {rs rs' : List (List Bytes)}
    (h : All2 (Printed ff db table) lines (rs.map strings)) (h' : All2 (Printed ff db table) lines (rs'.map strings)) : rs = rs' := by
  induction rs generalizing lines rs' with
  | nil =>
    cases h
    cases rs' with
    | nil => rfl
    | cons => cases h'
  | cons r rs ih =>
    cases h with
    | cons h1 h2 =>
      cases rs' with
      | nil => cases h'
      | cons r' rs' =>
        cases h' with
        | cons h3 h4 =>
          rw [ih h2 h4]
          obtain ⟨vs, e1, e2⟩ := h1
          obtain ⟨vs', e3, e4⟩ := h3
          rw [e1] at e3
          injection e3 with e3
          injection e3 with _ _ e3
          subst e3
          rw [denotes_strings e2 e4]

theorem dropLast_shift {a : Bytes} {rest : List Bytes} (h : (a :: rest).dropLast = rest) : ∀ s ∈ rest, s = a := by
  induction rest generalizing a with
  | nil => intro s hs; cases hs
  | cons b rest ih =>
    rw [List.dropLast_cons_cons] at h
    injection h with h1 h2
    subst h1
    intro s hs
    rcases List.mem_cons.mp hs with rfl | hs
    · rfl
    · exact ih h2 s hs

theorem replicate_dropLast {a : Bytes} {rest : List Bytes} (h : ∀ s ∈ rest, s = a) : (a :: rest).dropLast = rest := by
  induction rest generalizing a with
  | nil => rfl
  | cons b rest ih =>
    rw [List.dropLast_cons_cons]
    have := h b List.mem_cons_self
    subst this
    rw [ih fun s hs => h s (List.mem_cons_of_mem _ hs)]

/-- A row is its own shifted row only if all its values are the same, and not longer than the prefix. -/
theorem shifted_iff (n : Nat) (a : Bytes) (rest : List Bytes) : shifted n (a :: rest) = a :: rest ↔ a.length ≤ n ∧ ∀ s ∈ rest, s = a := by
  unfold shifted
  constructor
  · intro h
    injection h with h1 h2
    refine ⟨?_, dropLast_shift h2⟩
    have := congrArg List.length h1
    rw [List.length_take] at this
    omega
  · rintro ⟨h1, h2⟩
    show a.take n :: (a :: rest).dropLast = a :: rest
    rw [List.take_of_length_le h1, replicate_dropLast h2]

/-- **C97, exactly:** the rows are printed if and only if in each of them all values are equal and no longer than the key prefix. -/
theorem C97_iff (env : Env) (a : FromData) (sys ibd : Bytes) (trs : List TableRow) (crs : List ColumnRow) (irs : List IndexRow) (frs : List FieldRow)
    (t : TableRow) (r : IndexRow) (m n : Nat) (deleted : Bool) (rows : List (List Bytes)) (hsys : a.sysFile = .ok sys) (hibd : a.tableFile = .ok ibd)
    (hdict : Dictionary sys trs crs irs frs) (ht : t ∈ trs) (hname : t.name = a.db ++ b! "/" ++ a.table)
    (harr : ∀ t ∈ trs, UsualKeys irs frs crs t.id) (hk : PrefixKey irs frs (columnsOf crs t.id) t.id r n)
    (hf : PrefixFile ibd r.id (columnsOf crs t.id) m n deleted rows) (hop : deleted = true ↔ a.opType = b! "RecoveryData")
    (hmark : Marked ibd r.id deleted) (hdb : 96 ∉ a.db) (htab : 96 ∉ a.table)
    (hv : ∀ row ∈ rows, ∀ s ∈ shifted n row, s ≠ b! "NULL" ∧ s ≠ b! "0001-01-01T00:00:00Z") (out : Out) :
    (∃ lines, fromDataFile env a out = .ok () (out ++ lines) ∧ All2 (Printed env.ff a.db a.table) lines (rows.map strings)) ↔
      ∀ row ∈ rows, ∀ s ∈ row, s.length ≤ n ∧ ∀ s' ∈ row, s = s' := by
  obtain ⟨lines, h1, h2⟩ := C97_shifted env a sys ibd trs crs irs frs t r m n deleted rows hsys hibd hdict ht hname harr hk hf hop hmark hdb htab hv out
  have e : (rows.map fun row => strings (shifted n row)) = (rows.map (shifted n)).map strings := by rw [List.map_map]; rfl
  rw [e] at h2
  have hne : ∀ row ∈ rows, row ≠ [] := by
    obtain ⟨-, -, -, -, -, -, -, -, c, cs, hc, -⟩ := hk
    rw [hc] at hf
    intro row hrow e
    have := (prefix_shifted env (id := 0) hf).2 row hrow
    rw [e] at this
    cases this
  have hrow : ∀ row ∈ rows, (shifted n row = row ↔ ∀ s ∈ row, s.length ≤ n ∧ ∀ s' ∈ row, s = s') := by
    intro row hrow
    cases row with
    | nil => exact absurd rfl (hne _ hrow)
    | cons a rest =>
      rw [shifted_iff]
      constructor
      · rintro ⟨h1, h2⟩
        have : ∀ s ∈ a :: rest, s = a := by
          intro s hs
          rcases List.mem_cons.mp hs with rfl | hs
          · rfl
          · exact h2 s hs
        exact fun s hs => ⟨by rw [this s hs]; exact h1, fun s' hs' => by rw [this s hs, this s' hs']⟩
      · exact fun h => ⟨(h a List.mem_cons_self).1, fun s hs => (h s (List.mem_cons_of_mem _ hs)).2 a List.mem_cons_self⟩
  constructor
  · rintro ⟨lines', k1, k2⟩
    rw [h1] at k1
    injection k1 with _ k1
    have k1 := List.append_cancel_left k1
    subst k1
    have := printed_strings h2 k2
    intro row hr
    refine (hrow row hr).mp ?_
    exact List.map_inj_left.mp (this.trans (List.map_id rows).symm) row hr
  · intro h
    refine ⟨lines, h1, ?_⟩
    have : rows.map (shifted n) = rows := by
      conv => rhs; rw [← List.map_id rows]
      exact List.map_congr_left fun row hr => (hrow row hr).mpr (h row hr)
    rwa [this] at h2

/-! ## Counterexample

`CREATE TABLE t (a VARCHAR(20) NOT NULL, b VARCHAR(20) NOT NULL, PRIMARY KEY (a(2)))` with the row ('alpha', 'beta'). -/

def keyColumns : List ColumnRow := [⟨20, 0, b! "a", 12, 590095, 20⟩, ⟨20, 1, b! "b", 12, 590095, 20⟩]
def keyFields : List FieldRow := [⟨30, 2, b! "a"⟩]
def keySys : Bytes := writeSystem shopTables keyColumns (shopIndexes idKey) keyFields
def keyDefs : List ColDef := [⟨.varchar 20, false⟩, ⟨.system 6, false⟩, ⟨.system 7, false⟩, ⟨.varchar 20, false⟩, ⟨.varchar 20, false⟩]
def keyLive (a b : Bytes) : List (List Cell) := [[.val (a.take 2), .val (zeros 6), .val (zeros 7), .val a, .val b]]
def keyData (a b : Bytes) : Bytes := writeTable 30 keyDefs (keyLive a b) []
def keyArgs (a b : Bytes) : FromData :=
  { sysFile := .ok keySys, tableFile := .ok (keyData a b), db := b! "shop", table := b! "t", opType := b! "RecoveryStruct" }

theorem key_writable : Writable shopTables keyColumns (shopIndexes idKey) keyFields where
  tables := by decide
  columns := by decide
  indexes := by decide
  fields := by decide
  onTables := by decide
  onColumns := by decide
  onIndexes := by decide
  onFields := by decide

theorem key_dictionary : Dictionary keySys shopTables keyColumns (shopIndexes idKey) keyFields where
  file := system_written _ _ _ _ key_writable
  indexes := by decide
  ids := by decide
  names := (shop_dictionary (.inl rfl)).names

theorem key_usual : ∀ t ∈ shopTables, UsualKeys (shopIndexes idKey) keyFields keyColumns t.id := by
  intro t ht
  cases List.mem_singleton.mp ht
  exact .inr ⟨⟨20, 30, b! "PRIMARY", 1, 3⟩, by decide, .inr ⟨by decide, by decide, by decide, by decide⟩⟩

theorem key_prefix : PrefixKey (shopIndexes idKey) keyFields (columnsOf keyColumns 20) 20 ⟨20, 30, b! "PRIMARY", 1, 3⟩ 2 :=
  ⟨by decide, by decide, by decide, by decide, by decide, by decide, by decide, by decide, _, _, rfl, rfl⟩

/-- the rows considered -/
def KeyRow (a b : Bytes) : Prop := a = b! "alpha" ∧ b = b! "beta" ∨ a = b! "x" ∧ b = b! "x"

theorem key_storable {a b : Bytes} (h : KeyRow a b) : ∀ c ∈ keyLive a b, Storable keyDefs c := by
  rcases h with ⟨rfl, rfl⟩ | ⟨rfl, rfl⟩ <;> decide

theorem key_size {a b : Bytes} (h : KeyRow a b) : 120 + rowsSize keyDefs (keyLive a b) + rowsSize keyDefs [] < 16384 - 8 := by
  rcases h with ⟨rfl, rfl⟩ | ⟨rfl, rfl⟩ <;> decide

/-- the records of a file with one page -/
theorem table_holds (cid : Nat) (defs : List ColDef) (live dead : List (List Cell)) (hcid : cid < 2 ^ 64) (hl : ∀ c ∈ live, Storable defs c)
    (hfit : 120 + rowsSize defs live + rowsSize defs dead < 16384 - 8) :
    ∃ d, leafPages (writeTable cid defs live dead) cid false = [d] ∧ PageHolds defs false d live := by
  obtain ⟨d, hf, hp⟩ := table_page cid defs live dead hcid hfit
  refine ⟨d, by rw [table_leaf hf hp]; simp, .compact hp.fmt (by unfold Records; rw [hp.fmt]; exact hp.linked) ?_⟩
  have hrow : ∀ (os : List Nat) (cs : List (List Cell)), (∀ c ∈ cs, Storable defs c) →
      All2 (fun o r => Written d o r ∧ o + r.data.length ≤ 16384 - 8) os (cs.map fun c => newRec (rowOf defs c)) →
      All2 (fun o cells => CompactRow d defs o cells ∧ o + (rowData (rowOf defs cells)).length ≤ 16384 - 8) os cs := by
    intro os cs hc h
    induction cs generalizing os with
    | nil => cases h; exact .nil
    | cons c cs ih =>
      cases h with
      | cons h1 h2 => exact .cons ⟨⟨hc c (by simp), written_new h1.1⟩, h1.2⟩ (ih _ (fun x hx => hc x (by simp [hx])) h2)
  exact hrow _ _ hl hp.used

theorem key_file {a b : Bytes} (h : KeyRow a b) : PrefixFile (keyData a b) 30 (columnsOf keyColumns 20) 20 2 false [[a, b]] where
  names := by decide
  types := by decide
  pages := by
    obtain ⟨d, h1, h2⟩ := table_holds 30 keyDefs (keyLive a b) [] (by decide) (key_storable h) (key_size h)
    unfold keyData
    rw [h1]
    exact ⟨[[[a, b]]], rfl, .cons ⟨_, h2, .cons ⟨a, [b], zeros 6, zeros 7, rfl, rfl⟩ .nil⟩ .nil⟩

theorem key_marked {a b : Bytes} (h : KeyRow a b) : Marked (keyData a b) 30 false :=
  table_marked 30 keyDefs _ [] false (by decide) (key_size h)

/-- The row ('alpha', 'beta') is not printed: the tool makes ('al', 'alpha') of it. -/
theorem C97_false : ¬ C97_statement := by
  intro h
  have hr : KeyRow (b! "alpha") (b! "beta") := .inl ⟨rfl, rfl⟩
  have h1 := h testEnv (keyArgs (b! "alpha") (b! "beta")) _ _ _ _ _ _ ⟨b! "shop/t", 20, 5⟩ _ 20 2 false [[b! "alpha", b! "beta"]] rfl rfl key_dictionary
    (by decide) rfl key_usual key_prefix (key_file hr) (by show false = true ↔ b! "RecoveryStruct" = b! "RecoveryData"; decide) (key_marked hr)
    (by decide) (by decide) (by decide) []
  have h2 := (C97_iff testEnv (keyArgs (b! "alpha") (b! "beta")) _ _ _ _ _ _ ⟨b! "shop/t", 20, 5⟩ _ 20 2 false [[b! "alpha", b! "beta"]] rfl rfl key_dictionary
    (by decide) rfl key_usual key_prefix (key_file hr) (by show false = true ↔ b! "RecoveryStruct" = b! "RecoveryData"; decide) (key_marked hr)
    (by decide) (by decide) (by decide) []).mp h1
  exact absurd h2 (by decide)

/-- **C97 (partial):** true for rows whose values are all equal and no longer than the key prefix.  (Missing: exactly the other rows, see `C97_iff`,
`C97_shifted`.) -/
theorem C97_equal_partial (env : Env) (a : FromData) (sys ibd : Bytes) (trs : List TableRow) (crs : List ColumnRow) (irs : List IndexRow) (frs : List FieldRow)
    (t : TableRow) (r : IndexRow) (m n : Nat) (deleted : Bool) (rows : List (List Bytes)) (hsys : a.sysFile = .ok sys) (hibd : a.tableFile = .ok ibd)
    (hdict : Dictionary sys trs crs irs frs) (ht : t ∈ trs) (hname : t.name = a.db ++ b! "/" ++ a.table)
    (harr : ∀ t ∈ trs, UsualKeys irs frs crs t.id) (hk : PrefixKey irs frs (columnsOf crs t.id) t.id r n)
    (hf : PrefixFile ibd r.id (columnsOf crs t.id) m n deleted rows) (hop : deleted = true ↔ a.opType = b! "RecoveryData")
    (hmark : Marked ibd r.id deleted) (hdb : 96 ∉ a.db) (htab : 96 ∉ a.table)
    (hv : ∀ row ∈ rows, ∀ s ∈ row, s ≠ b! "NULL" ∧ s ≠ b! "0001-01-01T00:00:00Z")
    (heq : ∀ row ∈ rows, ∀ s ∈ row, s.length ≤ n ∧ ∀ s' ∈ row, s = s') (out : Out) :
    ∃ lines, fromDataFile env a out = .ok () (out ++ lines) ∧ All2 (Printed env.ff a.db a.table) lines (rows.map strings) := by
  refine (C97_iff env a sys ibd trs crs irs frs t r m n deleted rows hsys hibd hdict ht hname harr hk hf hop hmark hdb htab (fun row hrow => ?_) out).mpr heq
  cases row with
  | nil => intro s hs; cases hs
  | cons x rest =>
    have h := heq _ hrow
    rw [(shifted_iff n x rest).mpr ⟨(h x List.mem_cons_self).1, fun s hs => (h s (List.mem_cons_of_mem _ hs)).2 x List.mem_cons_self⟩]
    exact hv _ hrow

/-- The row ('alpha', 'beta') comes out as ('al', 'alpha'). -/
example : ∃ lines, fromDataFile testEnv (keyArgs (b! "alpha") (b! "beta")) [] = .ok () lines ∧
    All2 (Printed testEnv.ff (b! "shop") (b! "t")) lines [[some (.varchar (b! "al")), some (.varchar (b! "alpha"))]] := by
  have hr : KeyRow (b! "alpha") (b! "beta") := .inl ⟨rfl, rfl⟩
  obtain ⟨lines, h1, h2⟩ := C97_shifted testEnv (keyArgs (b! "alpha") (b! "beta")) _ _ _ _ _ _ ⟨b! "shop/t", 20, 5⟩ _ 20 2 false [[b! "alpha", b! "beta"]]
    rfl rfl key_dictionary (by decide) rfl key_usual key_prefix (key_file hr)
    (by show false = true ↔ b! "RecoveryStruct" = b! "RecoveryData"; decide) (key_marked hr) (by decide) (by decide) (by decide) []
  exact ⟨lines, h1, h2⟩

/-- The row ('x', 'x') comes out right. -/
example : ∃ lines, fromDataFile testEnv (keyArgs (b! "x") (b! "x")) [] = .ok () lines ∧
    All2 (Printed testEnv.ff (b! "shop") (b! "t")) lines [[some (.varchar (b! "x")), some (.varchar (b! "x"))]] := by
  have hr : KeyRow (b! "x") (b! "x") := .inr ⟨rfl, rfl⟩
  obtain ⟨lines, h1, h2⟩ := C97_equal_partial testEnv (keyArgs (b! "x") (b! "x")) _ _ _ _ _ _ ⟨b! "shop/t", 20, 5⟩ _ 20 2 false [[b! "x", b! "x"]]
    rfl rfl key_dictionary (by decide) rfl key_usual key_prefix (key_file hr)
    (by show false = true ↔ b! "RecoveryStruct" = b! "RecoveryData"; decide) (key_marked hr) (by decide) (by decide) (by decide) (by decide) []
  exact ⟨lines, h1, h2⟩

end Verif.Props
