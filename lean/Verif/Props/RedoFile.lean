import Verif.Props.DataCommand
import Verif.Props.RedoCommand
import Verif.Props.RedoSql
/-!
# C58: the redo command, from files to statements
-/

namespace Verif.Props
open Verif Spec

/-- A change of a row, as the log records it: the old values of the columns that were changed, and the primary key. -/
structure Change where
  db : Bytes
  table : Bytes
  sets : List (Bytes × Option TVal)
  key : List (Bytes × TVal)

/-- The line is an UPDATE statement that gives the row its old values. -/
def Undoes (ff : FloatFmt) (line : Bytes) (ch : Change) : Prop :=
  ∃ u, readUpdate line = some u ∧ u.db = ch.db ∧ u.table = ch.table ∧
    All2 (fun e s => e.1 = s.1 ∧ ∃ v, evalExpr e.2 = some v ∧ Denotes ff v (origOf ff s.2)) u.sets ch.sets ∧
    All2 (fun e k => e.1 = k.1 ∧ ∃ v, evalExpr e.2 = some v ∧ Denotes ff v (origOf ff (some k.2))) u.conds ch.key

/-- The table `t` is stored with the columns `l` and has the primary key `names`. -/
structure Keyed (crs : List ColumnRow) (irs : List IndexRow) (frs : List FieldRow) (t : TableRow) (l : List Column) (names : List Bytes) : Prop where
  index : ∃ r, ClusteredIndex irs t.id r ∧ r.itype / 2 % 2 = 1 ∧ (fieldsOf frs r).map (·.name) = names
  layout : Layout irs frs t.id (columnsOf crs t.id) l
  names : ((columnsOf crs t.id).map (·.name)).Nodup ∧ ∀ c ∈ columnsOf crs t.id, c.name ∉ internalNames

/-- values of the columns with these names -/
def KeyValues (zone : Nat → Int) (cols : List Column) : List Bytes → List TVal → Prop :=
  All2 fun n v => (∃ c ∈ cols, c.name = n ∧ v.Of c) ∧ v.Fits zone

/-- values of the stored columns with these numbers -/
def OldValues (zone : Nat → Int) (l : List Column) : List (Nat × Option TVal) → List (Bytes × Option TVal) → Prop :=
  All2 fun e s => ∃ c, l[e.1]? = some c ∧ s = (c.name, e.2) ∧ ∀ v, e.2 = some v → v.Of c ∧ v.Fits zone

/-- What the elements of the log record: a change for the undo record of an update of an existing row, otherwise nothing.  (Tables without
a primary key are left out: no SQL statement can identify their rows.) -/
inductive Logs (zone : Nat → Int) (trs : List TableRow) (crs : List ColumnRow) (irs : List IndexRow) (frs : List FieldRow) :
    Item → Option Change → Prop
  | other {it} : (∀ b sp pg u, it ≠ .record b sp pg (.undoInsert u)) → Logs zone trs crs irs frs it none
  | unknown {b sp pg u} : (∀ t ∈ trs, t.id ≠ u.tableId) → Logs zone trs crs irs frs (.record b sp pg (.undoInsert u)) none
  | notUpdate {b sp pg u t l names keys} : t ∈ trs → t.id = u.tableId → Keyed crs irs frs t l names →
      KeyValues zone (columnsOf crs t.id) names keys → u.key = keys.map TVal.enc → u.kind ≠ 12 →
      Logs zone trs crs irs frs (.record b sp pg (.undoInsert u)) none
  | update {b sp pg u t db table l names keys olds sets} : t ∈ trs → t.id = u.tableId → t.name = db ++ b! "/" ++ table →
      Keyed crs irs frs t l names → KeyValues zone (columnsOf crs t.id) names keys → OldValues zone l olds sets → UpdateOf u keys olds →
      Logs zone trs crs irs frs (.record b sp pg (.undoInsert u)) (some ⟨db, table, sets, names.zip keys⟩)

/-- the table of the change is one of those the command line asks for; an empty name asks for all -/
def Wanted (a : FromRedo) (ch : Change) : Bool := (a.db == [] || ch.db == a.db) && (a.table == [] || ch.table == a.table)

/-- **C58**, as stated -/
def C58_statement : Prop :=
  ∀ (env : Env) (fs : Bytes → File) (a : FromRedo) (spare : Nat) (sys : Bytes) (trs : List TableRow) (crs : List ColumnRow)
    (irs : List IndexRow) (frs : List FieldRow) (names : List Bytes) (parts : List (List Bytes)) (its : List Item) (chs : List (Option Change)),
    a.sysFile = .ok sys → Dictionary sys trs crs irs frs → names ≠ [] → (∀ n ∈ names, 44 ∉ n) → a.redoFile = commaList names →
    All2 (fun chunks n => ∃ content, fs n = .ok content ∧ IsLogFile chunks content) parts names →
    parts.flatten.flatten = its.flatMap Item.enc → (∀ it ∈ its, it.Fits) →
    All2 (Logs env.zone trs crs irs frs) its chs →
    ∀ out, ∃ lines, fromRedoFile env fs a spare out = .ok () (out ++ lines) ∧ All2 (Undoes env.ff) lines ((chs.filterMap id).filter (Wanted a))

/-! ## The loaded table -/

/-- the table has the key `key`, once loaded -/
structure Loaded (tb : Table) (db table : Bytes) (l : List Column) (names : List Bytes) : Prop where
  db : tb.db = db
  name : tb.name = table
  columns : tb.columns = l
  key : HasKey tb names

/-- a table whose primary key is its first column -/
theorem first_layout {irs : List IndexRow} {frs : List FieldRow} {id : Nat} {c : Column} {rest l : List Column} {r : IndexRow}
    (hr : ClusteredIndex irs id r) (hu : r.itype / 2 % 2 = 1) (hf : (fieldsOf frs r).map (·.name) = [c.name])
    (hl : Layout irs frs id (c :: rest) l) : l = c :: trxColumn id 1 :: rollColumn id 2 :: rest := by
  have same : ∀ x, ClusteredIndex irs id x → x = r := by
    intro x hx
    rcases hr.2.2.2 x hx.1 hx.2.1 with h | h
    · exact h
    · have := hx.2.2.1; omega
  cases hl with
  | generated h' hi => cases same _ h'; omega
  | key h' hi hn hK =>
    cases same _ h'
    obtain ⟨f, hfs, hfc⟩ : ∃ f, fieldsOf frs r = [f] ∧ f.name = c.name := by
      cases hfs : fieldsOf frs r with
      | nil => rw [hfs] at hf; simp at hf
      | cons f l =>
        rw [hfs] at hf
        simp only [List.map_cons, List.cons.injEq, List.map_eq_nil_iff] at hf
        exact ⟨f, by rw [hf.2], hf.1⟩
    have h2 := C31_first_column_partial c rest hK.1 f hfc
    rw [C31_single (c :: rest) hK.1 f 0 (by simp) hfc] at h2
    injection h2 with h2
    have hn1 : r.nFields = 1 := by rw [hn, hfs]; rfl
    rw [hfs, ← h2, hn1]
    rfl

theorem loaded_key {trs : List TableRow} {crs : List ColumnRow} {irs : List IndexRow} {frs : List FieldRow} {lay : Nat → List Column}
    (hids : (trs.map (·.id)).Nodup) {tables : TableMap}
    (h : ∀ id, LoadedTable trs crs irs frs lay id (tables.get? id)) {t : TableRow} (ht : t ∈ trs)
    (hh : Handled irs frs crs t.id) (htrim : ∀ x ∈ irs, x.tableId = t.id → trimSpace x.name = x.name) {l : List Column} {names : List Bytes}
    (hk : Keyed crs irs frs t l names) (hlay : lay t.id = l) :
    ∃ tb c rest, tables.get? t.id = some tb ∧ Loaded tb (splitName t.name).1 (splitName t.name).2 l names ∧ names = [c.name] ∧
      columnsOf crs t.id = c :: rest ∧ l = c :: trxColumn t.id 1 :: rollColumn t.id 2 :: rest := by
  have hg := h t.id
  cases hgt : tables.get? t.id with
  | none => rw [hgt] at hg; exact absurd rfl (hg t ht)
  | some tb =>
    rw [hgt] at hg
    obtain ⟨r0, ixs, e1, e2, hw, hix⟩ := hg
    obtain ⟨hid, hmem⟩ := lastWith_some e1
    have : r0 = t := List.inj_on_of_nodup_map hids hmem ht (by simpa using hid)
    subst this
    obtain ⟨r, hcb, hodd, hr⟩ := hh
    obtain ⟨r', hci, hu, hnames⟩ := hk.index
    have : r' = r := by
      rcases hci.2.2.2 r hcb.1 hcb.2.1 with h | h
      · exact h.symm
      · omega
    subst this
    rcases hr with ⟨_, h0⟩ | ⟨hname, _, c, rest, hcs, hf⟩
    · omega
    have hl := hk.layout
    rw [hcs] at hl
    refine ⟨tb, c, rest, rfl, ⟨by rw [e2]; rfl, by rw [e2]; rfl, by rw [e2, ← hlay], ?_⟩, by rw [← hnames, hf], hcs, first_layout hci hu hf hl⟩
    have hdef : definedIndex irs frs r0.id r'.id = some { indexOf r' with fields := fieldsOf frs r' } := by
      unfold definedIndex
      rw [lastWith_unique hcb.1 (by simp [hcb.2.1]) ?_]
      · rfl
      · intro x hx hp
        simp only [Bool.and_eq_true, beq_iff_eq] at hp
        rcases hcb.2.2 x hx hp.1 with h | h
        · exact h
        · exact absurd hp.2 h.1
    have hm : (r'.id, ({ indexOf r' with fields := fieldsOf frs r' } : Index)) ∈ ixs :=
      (GoMap.get?_iff hw _ _).mp (by rw [hix, hdef])
    obtain ⟨a, b, hab⟩ := List.append_of_mem hm
    refine ⟨a, _, b, by rw [e2]; exact hab, hname, hnames, ?_⟩
    intro j hj
    have hjm : j ∈ ixs := by
      rw [hab]
      rcases List.mem_append.mp hj with h | h
      · exact List.mem_append_left _ h
      · exact List.mem_append_right _ (List.mem_cons_of_mem _ h)
    have hjne : j.1 ≠ r'.id := by
      have hw' : (ixs.map (·.1)).Nodup := hw
      rw [hab, List.map_append, List.map_cons] at hw'
      intro he
      have := List.nodup_middle.mp hw'
      rw [List.nodup_cons, ← List.map_append] at this
      exact this.1 (List.mem_map.mpr ⟨j, hj, he⟩)
    have hj' := (GoMap.get?_iff hw j.1 j.2).mpr hjm
    rw [hix] at hj'
    unfold definedIndex at hj'
    cases hlw : lastWith (fun r => r.tableId == r0.id && r.id == j.1) irs with
    | none => rw [hlw] at hj'; cases hj'
    | some x =>
      rw [hlw] at hj'
      obtain ⟨hp, hx⟩ := lastWith_some hlw
      simp only [Bool.and_eq_true, beq_iff_eq] at hp
      have hjn : j.2.name = x.name := by
        have := Option.some.inj hj'
        rw [← this]
        rfl
      rw [hjn, htrim x hx hp.1]
      rcases hcb.2.2 x hx hp.1 with h | h
      · rw [h] at hp
        exact absurd hp.2.symm hjne
      · exact h.2

/-! ## Statements -/

theorem lit_denotes (env : Env) {c : Column} {v : TVal} (hc : v.Of c) (hf : v.Fits env.zone) (h : Printable v) :
    Denotes env.ff (.bytes (v.lit env.ff)) (origOf env.ff (some v)) := by
  obtain ⟨x, _, h1, h2, _⟩ := decode_value env c v hc hf h.1
  rw [shown_lit h] at h1
  obtain ⟨_, hx, hb⟩ := h
  have hu : ∀ n : Nat, Numeral (fmtV env.ff (.uint n)) (n : Int) := fun n => numeral_dec n
  cases v with
  | int w i =>
    show Numeral _ _
    rw [← h1]
    rcases h2 with rfl | ⟨n, rfl, rfl⟩
    · exact numeral_decInt i
    · exact hu n
  | uint w n => show Numeral _ _; rw [← h1, h2]; exact hu n
  | year n => show Numeral _ _; rw [← h1, h2]; exact hu n
  | bit w n => exact absurd rfl (hb w n)
  | binary s => cases hx
  | varbinary s => cases hx
  | blob s => cases hx
  | _ => rfl

/-- what the statement for a change must say -/
def Change.text (ff : FloatFmt) (ch : Change) : Bytes :=
  updateText (b! " and ") ch.db ch.table (ch.sets.map fun s => (s.1, s.2.map (TVal.lit ff))) (ch.key.map fun k => (k.1, k.2.lit ff))

/-- the statement of a change of one column can be read if its values and names need no quoting -/
theorem text_undoes (env : Env) (ch : Change) (s : Bytes × Option TVal) (hs : ch.sets = [s]) (hk : ch.key ≠ []) (hdb : 96 ∉ ch.db) (ht : 96 ∉ ch.table)
    (hn : 96 ∉ s.1 ∧ ∀ k ∈ ch.key, 96 ∉ k.1)
    (hv : ∀ v, s.2 = some v → Raw (v.lit env.ff) ∧ Denotes env.ff (.bytes (v.lit env.ff)) (origOf env.ff (some v)))
    (hkv : ∀ k ∈ ch.key, Raw (k.2.lit env.ff) ∧ Denotes env.ff (.bytes (k.2.lit env.ff)) (origOf env.ff (some k.2))) :
    Undoes env.ff (ch.text env.ff) ch := by
  let pk : List PkVal := ch.key.map fun k => ⟨k.1, .str (k.2.lit env.ff)⟩
  let col : UpdCol := ⟨s.1, match s.2 with | none => .nil | some v => .str (v.lit env.ff)⟩
  have e : ch.text env.ff = updateStmt env.ff { db := ch.db, name := ch.table } pk [col] := by
    rw [updateStmt_text (sets := [(s.1, s.2.map (TVal.lit env.ff))]) (conds := ch.key.map fun k => (k.1, k.2.lit env.ff))]
    · unfold Change.text
      rw [hs]
      rfl
    · show PkText env.ff (ch.key.map _) _
      generalize ch.key = ks
      induction ks with
      | nil => exact .nil
      | cons k ks ih => exact .cons rfl ih
    · refine .cons ?_ .nil
      obtain ⟨n, v⟩ := s
      cases v <;> rfl
  obtain ⟨u, h1, h2, h3, h4, h5⟩ := C44_one_column_partial env.ff { db := ch.db, name := ch.table } pk col
    ⟨hdb, ht, by
      intro c hc
      cases List.mem_singleton.mp hc
      exact hn.1, by
      intro v hv
      obtain ⟨k, hk, rfl⟩ := List.mem_map.mp hv
      exact hn.2 k hk⟩
    ⟨by
      intro c hc hne
      cases List.mem_singleton.mp hc
      cases hv' : s.2 with
      | none => simp [col, hv'] at hne
      | some v =>
        show Raw (fmtV env.ff (match s.2 with | none => .nil | some v => .str (v.lit env.ff)))
        rw [hv']
        exact (hv v hv').1, by
      intro v hv
      obtain ⟨k, hk, rfl⟩ := List.mem_map.mp hv
      exact (hkv k hk).1⟩
    (by simpa [pk] using hk)
  obtain ⟨udb, utable, usets, uconds⟩ := u
  dsimp only at h2 h3 h4 h5
  refine ⟨_, by rw [e]; exact h1, h2, h3, ?_, ?_⟩
  · rw [hs]
    dsimp only
    cases h4 with
    | @cons x _ xs _ hx hxs =>
      cases hxs
      refine .cons ⟨hx.1, _, hx.2, ?_⟩ .nil
      cases hv' : s.2 with
      | none =>
        have : setVal env.ff col = .null := by simp [setVal, col, hv']
        rw [this]
        trivial
      | some v =>
        have : setVal env.ff col = .bytes (v.lit env.ff) := by
          have hc : col.value = .str (v.lit env.ff) := by simp [col, hv']
          unfold setVal
          rw [hc]
          rfl
        rw [this]
        exact (hv v hv').2
  · have : ∀ (ks : List (Bytes × TVal)) (es : List (Bytes × List Tok)),
        (∀ k ∈ ks, Denotes env.ff (.bytes (k.2.lit env.ff)) (origOf env.ff (some k.2))) →
        All2 (fun e (v : PkVal) => e.1 = v.name ∧ evalExpr e.2 = some (.bytes (fmtV env.ff v.value))) es
          (ks.map fun k => ⟨k.1, .str (k.2.lit env.ff)⟩) →
        All2 (fun e k => e.1 = k.1 ∧ ∃ v, evalExpr e.2 = some v ∧ Denotes env.ff v (origOf env.ff (some k.2))) es ks := by
      intro ks
      induction ks with
      | nil => intro es _ h; cases h; exact .nil
      | cons k ks ih =>
        intro es hd h
        cases h with
        | cons h1 h2 =>
          exact .cons ⟨h1.1, _, h1.2, hd k (by simp)⟩ (ih _ (fun k hk => hd k (by simp [hk])) h2)
    exact this ch.key uconds (fun k hk => (hkv k hk).2) h5

/-! ## The records the tool gets right -/

/-- names without spaces around them -/
def Trimmed (irs : List IndexRow) (id : Nat) : Prop := ∀ x ∈ irs, x.tableId = id → trimSpace x.name = x.name

/-- As `Logs`, for the records that the tool follows and the statements it prints correctly. -/
inductive Followed (env : Env) (a : FromRedo) (trs : List TableRow) (crs : List ColumnRow) (irs : List IndexRow) (frs : List FieldRow) :
    Item → Option Change → Prop
  | other {it} : (∀ b sp pg u, it ≠ .record b sp pg (.undoInsert u)) → (∀ cfg, InSync cfg it) → Followed env a trs crs irs frs it none
  | unknown {b sp pg u} : (∀ t ∈ trs, t.id ≠ u.tableId) → u.undoNo < 2 ^ 32 → u.tableId < 2 ^ 32 →
      Followed env a trs crs irs frs (.record b sp pg (.undoInsert u)) none
  | notUpdate {b sp pg u t l names keys} : t ∈ trs → t.id = u.tableId → Keyed crs irs frs t l names →
      KeyValues env.zone (columnsOf crs t.id) names keys → u.key = keys.map TVal.enc → u.kind ≠ 12 →
      u.undoNo < 2 ^ 32 → u.tableId < 2 ^ 32 → Handled irs frs crs t.id → Trimmed irs t.id → (∀ v ∈ keys, KeyDecodable v) →
      Followed env a trs crs irs frs (.record b sp pg (.undoInsert u)) none
  | update {b sp pg u t db table l names keys olds sets} : t ∈ trs → t.id = u.tableId → t.name = db ++ b! "/" ++ table →
      Keyed crs irs frs t l names → KeyValues env.zone (columnsOf crs t.id) names keys → OldValues env.zone l olds sets → UpdateOf u keys olds →
      u.undoNo < 2 ^ 32 → u.tableId < 2 ^ 32 → Handled irs frs crs t.id → Trimmed irs t.id → (∀ v ∈ keys, KeyDecodable v) →
      (∀ e ∈ olds, ∀ v, e.2 = some v → TVal.Decodable v) →
      (Wanted a ⟨db, table, sets, names.zip keys⟩ = false → table ≠ a.table) →
      (Wanted a ⟨db, table, sets, names.zip keys⟩ = true → (∀ v ∈ keys, Printable v) ∧ ∀ e ∈ olds, ∀ v, e.2 = some v → Printable v) →
      Followed env a trs crs irs frs (.record b sp pg (.undoInsert u)) (some ⟨db, table, sets, names.zip keys⟩)

/-- the lines for an element of the log -/
def linesOf (ff : FloatFmt) (a : FromRedo) : Option Change → List Bytes
  | none => []
  | some ch => if Wanted a ch then [ch.text ff] else []

theorem oldValues_sets {zone : Nat → Int} {l : List Column} {olds : List (Nat × Option TVal)} {sets : List (Bytes × Option TVal)}
    (h : OldValues zone l olds sets) (ff : FloatFmt) {tb : Table} (htb : tb.columns = l) :
    setsOf ff tb olds = sets.map fun s => (s.1, s.2.map (TVal.lit ff)) := by
  unfold setsOf
  induction h with
  | nil => rfl
  | cons h _ ih =>
    obtain ⟨c, h1, rfl, _⟩ := h
    rw [List.map_cons, List.map_cons, ih]
    unfold nameAt
    rw [htb, h1]
    rfl

theorem condsOf_key (ff : FloatFmt) (names : List Bytes) (keys : List TVal) :
    condsOf ff names keys = (names.zip keys).map fun k => (k.1, k.2.lit ff) := by
  unfold condsOf
  rw [List.zip_map_right]
  rfl

theorem wanted_selected (a : FromRedo) (tb : Table) {db table : Bytes} (h1 : tb.db = db) (h2 : tb.name = table) (sets : List (Bytes × Option TVal))
    (key : List (Bytes × TVal)) : Wanted a ⟨db, table, sets, key⟩ = true ↔ NameSelected a.db a.table tb := by
  unfold Wanted NameSelected
  rw [h1, h2]
  simp

/-- the key of a handled table -/
theorem handled_key {crs : List ColumnRow} {irs : List IndexRow} {frs : List FieldRow} {zone : Nat → Int} {t : TableRow} {l : List Column}
    {names : List Bytes} (hk : Keyed crs irs frs t l names) {tb : Table} (hcols : tb.columns = l) {c : Column} {rest : List Column}
    (hn : names = [c.name]) (hcs : columnsOf crs t.id = c :: rest) (hl : l = c :: trxColumn t.id 1 :: rollColumn t.id 2 :: rest)
    {keys : List TVal} (hkv : KeyValues zone (columnsOf crs t.id) names keys) :
    KeyTyped tb names keys ∧ ∀ v ∈ keys, v.Fits zone := by
  subst hn
  cases hkv with
  | @cons _ v _ vs h1 h2 =>
    cases h2
    obtain ⟨⟨c', hc', hname, hof⟩, hfit⟩ := h1
    have hc : c ∈ columnsOf crs t.id := by rw [hcs]; simp
    have : c' = c := List.inj_on_of_nodup_map hk.names.1 hc' hc hname
    subst this
    refine ⟨.cons ⟨c', ⟨[], _, by rw [hcols, hl]; rfl, rfl, nofun⟩, hof⟩ .nil, ?_⟩
    intro v hv
    cases List.mem_singleton.mp hv
    exact hfit

theorem followed_lines {env : Env} {a : FromRedo} {trs : List TableRow} {crs : List ColumnRow} {irs : List IndexRow} {frs : List FieldRow}
    {lay : Nat → List Column} (hids : (trs.map (·.id)).Nodup) (hnames : ∀ t ∈ trs, TableName t.name) {tables : TableMap}
    (h : ∀ id, LoadedTable trs crs irs frs lay id (tables.get? id))
    (hlay : ∀ t ∈ trs, ∀ l, Arranged irs frs t.id (columnsOf crs t.id) l → lay t.id = l) {it : Item} (hf : it.Fits) {ch : Option Change}
    (hfl : Followed env a trs crs irs frs it ch) :
    Lines { env := env, tables := tables, tableName := a.table, dbName := a.db } it (linesOf env.ff a ch) := by
  have load : ∀ {t : TableRow} {l : List Column} {names : List Bytes}, t ∈ trs → Handled irs frs crs t.id → Trimmed irs t.id →
      Keyed crs irs frs t l names → ∃ tb c rest, tables.get? t.id = some tb ∧ Loaded tb (splitName t.name).1 (splitName t.name).2 l names ∧
        names = [c.name] ∧ columnsOf crs t.id = c :: rest ∧ l = c :: trxColumn t.id 1 :: rollColumn t.id 2 :: rest := by
    intro t l names ht hh htrim hk
    exact loaded_key hids h ht hh htrim hk (hlay t ht l (handled_layout hh hk.layout).1)
  cases hfl with
  | other hu hs => exact .other (hs _) hu
  | @unknown _ _ _ u hu h1 h2 =>
    refine .unknown h1 h2 ?_
    show tables.get? u.tableId = none
    have := h u.tableId
    cases hg : tables.get? u.tableId with
    | none => rfl
    | some tb =>
      rw [hg] at this
      obtain ⟨r, _, e1, _⟩ := this
      obtain ⟨hid, hmem⟩ := lastWith_some e1
      exact absurd (by simpa using hid) (hu r hmem)
  | @notUpdate _ _ _ u t l names keys ht hid hk hkv huk h12 h1 h2 hh htrim hkd =>
    obtain ⟨tb, c, rest, g1, g2, g3, g4, g5⟩ := load ht hh htrim hk
    obtain ⟨k1, k2⟩ := handled_key hk g2.columns g3 g4 g5 hkv
    exact .notUpdate h1 h2 (by rw [← hid]; exact g1) g2.key k1 huk (fun v hv => ⟨k2 v hv, hkd v hv⟩) h12
  | @update _ _ _ u t db table l names keys olds sets ht hid hname hk hkv hov hup h1 h2 hh htrim hkd hod hsel hpr =>
    obtain ⟨tb, c, rest, g1, g2, g3, g4, g5⟩ := load ht hh htrim hk
    obtain ⟨k1, k2⟩ := handled_key hk g2.columns g3 g4 g5 hkv
    have hsp : splitName t.name = (db, table) := by
      have := hnames t ht
      rw [hname] at this ⊢
      exact tableName_pair this
    have hdb : tb.db = db := by rw [g2.db, hsp]
    have htab : tb.name = table := by rw [g2.name, hsp]
    have hrec : Recorded { env := env, tables := tables, tableName := a.table, dbName := a.db } u tb names keys olds := by
      refine ⟨hf.2.2, h1, h2, by rw [← hid]; exact g1, g2.key, hup, k1, ?_, k2, ?_⟩
      · intro e he
        obtain ⟨s, _, c, hc, _, hv⟩ := all2_mem hov e he
        exact ⟨c, by rw [g2.columns]; exact hc, fun v hv' => (hv v hv').1⟩
      · intro e he v hv'
        obtain ⟨s, _, c, hc, _, hv⟩ := all2_mem hov e he
        exact (hv v hv').2
    by_cases hw : Wanted a ⟨db, table, sets, names.zip keys⟩ = true
    · have : linesOf env.ff a (some ⟨db, table, sets, names.zip keys⟩) =
          [updateText (b! " and ") tb.db tb.name (setsOf env.ff tb olds) (condsOf env.ff names keys)] := by
        show (if _ then _ else _) = _
        rw [if_pos hw, oldValues_sets hov env.ff g2.columns, condsOf_key, hdb, htab]
        rfl
      rw [this]
      exact .update hrec ((wanted_selected a tb hdb htab sets _).mp hw) (fun v hv => ⟨(hpr hw).1 v hv, (hkd v hv).2⟩) (hpr hw).2
    · have : linesOf env.ff a (some ⟨db, table, sets, names.zip keys⟩) = [] := if_neg hw
      rw [this]
      exact .notSelected hrec hkd hod (fun hs => hw ((wanted_selected a tb hdb htab sets _).mpr hs)) (by
        rw [htab]
        exact hsel (by simpa using hw))

/-! ## The command -/

theorem followed_all {env : Env} {a : FromRedo} {trs : List TableRow} {crs : List ColumnRow} {irs : List IndexRow} {frs : List FieldRow}
    {cfg : RCfg} {its : List Item} (hf : ∀ it ∈ its, it.Fits) {chs : List (Option Change)}
    (h : ∀ it ch, it.Fits → Followed env a trs crs irs frs it ch → Lines cfg it (linesOf env.ff a ch))
    (hfl : All2 (Followed env a trs crs irs frs) its chs) : All2 (Lines cfg) its (chs.map (linesOf env.ff a)) := by
  induction hfl with
  | nil => exact .nil
  | cons h1 _ ih => exact .cons (h _ _ (hf _ (by simp)) h1) (ih fun it hit => hf it (by simp [hit]))

theorem linesOf_flatten (ff : FloatFmt) (a : FromRedo) (chs : List (Option Change)) :
    (chs.map (linesOf ff a)).flatten = ((chs.filterMap id).filter (Wanted a)).map (Change.text ff) := by
  induction chs with
  | nil => rfl
  | cons ch chs ih =>
    rw [List.map_cons, List.flatten_cons, ih]
    cases ch with
    | none => rfl
    | some ch =>
      show linesOf ff a (some ch) ++ _ = ((ch :: chs.filterMap id).filter (Wanted a)).map (Change.text ff)
      rw [List.filter_cons]
      show (if Wanted a ch = true then [ch.text ff] else []) ++ _ = _
      split <;> rfl

/-- Exactly the lines that are printed for these logs. -/
theorem C58_lines (env : Env) (fs : Bytes → File) (a : FromRedo) (spare : Nat) (sys : Bytes) (trs : List TableRow) (crs : List ColumnRow)
    (irs : List IndexRow) (frs : List FieldRow) (names : List Bytes) (parts : List (List Bytes)) (its : List Item) (chs : List (Option Change))
    (hsys : a.sysFile = .ok sys) (hdict : Dictionary sys trs crs irs frs) (hne : names ≠ []) (hn : ∀ n ∈ names, 44 ∉ n)
    (ha : a.redoFile = commaList names) (hp : All2 (fun chunks n => ∃ content, fs n = .ok content ∧ IsLogFile chunks content) parts names)
    (hs : parts.flatten.flatten = its.flatMap Item.enc) (hf : ∀ it ∈ its, it.Fits)
    (harr : ∀ t ∈ trs, UsualKeys irs frs crs t.id) (hfl : All2 (Followed env a trs crs irs frs) its chs)
    (hah : Ahead its) (hlen : (its.flatMap Item.enc).length < 2 ^ 32) (out : Out) :
    fromRedoFile env fs a spare out = .ok () (out ++ ((chs.filterMap id).filter (Wanted a)).map (Change.text env.ff)) := by
  obtain ⟨lay, hload, hlay⟩ := loads_arranged env sys trs crs irs frs hdict.file hdict.indexes harr
  obtain ⟨tables, dict, h1, h2, h3⟩ := hload out
  rw [C55_statements_partial env fs a spare out { tables, dict, out } names parts its (chs.map (linesOf env.ff a)) (by rw [hsys]; exact h1) hne hn ha
    hp hs hf (followed_all hf (fun it ch h h' => followed_lines hdict.ids hdict.names.2 h3 hlay h h') hfl) hah hlen, linesOf_flatten]

/-- one column was changed, and neither its old value nor the key needs quoting -/
structure Plainly (ff : FloatFmt) (ch : Change) : Prop where
  sets : ∃ s, ch.sets = [s] ∧ 96 ∉ s.1 ∧ ∀ v, s.2 = some v → Raw (v.lit ff)
  key : ∀ k ∈ ch.key, 96 ∉ k.1 ∧ Raw (k.2.lit ff)
  names : 96 ∉ ch.db ∧ 96 ∉ ch.table

/-- `Followed` is `Logs` with more conditions. -/
theorem followed_logs {env : Env} {a : FromRedo} {trs : List TableRow} {crs : List ColumnRow} {irs : List IndexRow} {frs : List FieldRow}
    {it : Item} {ch : Option Change} (h : Followed env a trs crs irs frs it ch) : Logs env.zone trs crs irs frs it ch := by
  cases h with
  | other h _ => exact .other h
  | unknown h _ _ => exact .unknown h
  | notUpdate h1 h2 h3 h4 h5 h6 => exact .notUpdate h1 h2 h3 h4 h5 h6
  | update h1 h2 h3 h4 h5 h6 h7 => exact .update h1 h2 h3 h4 h5 h6 h7

theorem followed_undoes {env : Env} {a : FromRedo} {trs : List TableRow} {crs : List ColumnRow} {irs : List IndexRow} {frs : List FieldRow}
    {it : Item} {ch : Change} (h : Followed env a trs crs irs frs it (some ch)) (hw : Wanted a ch = true) (hp : Plainly env.ff ch) :
    Undoes env.ff (ch.text env.ff) ch := by
  obtain ⟨⟨s, hs, hs1, hs2⟩, hk, hdb, ht⟩ := hp
  cases h with
  | @update _ _ _ u t db table l names keys olds sets _ _ _ hkeyed hkv hov _ _ _ hh _ _ _ _ hpr =>
    obtain ⟨pk, po⟩ := hpr hw
    refine text_undoes env _ s hs ?_ hdb ht ⟨hs1, fun k hk' => (hk k hk').1⟩ ?_ ?_
    · obtain ⟨r, hcb, hodd, hr⟩ := hh
      obtain ⟨r', hci, hu, hnames⟩ := hkeyed.index
      have : r' = r := by
        rcases hci.2.2.2 r hcb.1 hcb.2.1 with h | h
        · exact h.symm
        · omega
      subst this
      rcases hr with ⟨_, h0⟩ | ⟨_, _, c, rest, _, hf⟩
      · omega
      rw [hnames] at hf
      subst hf
      cases hkv
      simp
    · intro v hv
      refine ⟨hs2 v hv, ?_⟩
      have hs : sets = [s] := hs
      subst hs
      cases hov with
      | @cons e _ olds _ he hes =>
        obtain ⟨c, hc, rfl, hv'⟩ := he
        obtain ⟨ho, hf⟩ := hv' v hv
        exact lit_denotes env ho hf (po e (by simp) v hv)
    · intro k hk'
      refine ⟨(hk k hk').2, ?_⟩
      obtain ⟨n, v⟩ := k
      have hv : v ∈ keys := (List.of_mem_zip hk').2
      obtain ⟨⟨c, _, _, ho⟩, hf⟩ : (∃ c ∈ columnsOf crs t.id, c.name = n ∧ v.Of c) ∧ v.Fits env.zone := by
        have hk'' : (n, v) ∈ names.zip keys := hk'
        clear * - hkv hk''
        induction hkv with
        | nil => cases hk''
        | cons h _ ih =>
          rcases List.mem_cons.mp hk'' with he | hm
          · cases he; exact h
          · exact ih hm
      exact lit_denotes env ho hf (pk v hv)

/-- **C58**, in part: for a log of records that the tool follows, of tables whose primary key is their first column, the command prints exactly
one statement for each update of a row of the tables asked for, in order, which gives the changed column its old value and identifies the row by
its key.  Missing: updates of several columns and values or names that need quoting (C44), values that are not decoded correctly (C42), other
primary keys (C31, C56), records that the tool does not follow (C41), tables of the same name in other databases (C43), logs of 4 GiB
and more, and logs that end with a record whose decoder reads behind its end. -/
theorem C58_command_partial (env : Env) (fs : Bytes → File) (a : FromRedo) (spare : Nat) (sys : Bytes) (trs : List TableRow) (crs : List ColumnRow)
    (irs : List IndexRow) (frs : List FieldRow) (names : List Bytes) (parts : List (List Bytes)) (its : List Item) (chs : List (Option Change))
    (hsys : a.sysFile = .ok sys) (hdict : Dictionary sys trs crs irs frs) (hne : names ≠ []) (hn : ∀ n ∈ names, 44 ∉ n)
    (ha : a.redoFile = commaList names) (hp : All2 (fun chunks n => ∃ content, fs n = .ok content ∧ IsLogFile chunks content) parts names)
    (hs : parts.flatten.flatten = its.flatMap Item.enc) (hf : ∀ it ∈ its, it.Fits)
    (harr : ∀ t ∈ trs, UsualKeys irs frs crs t.id) (hfl : All2 (Followed env a trs crs irs frs) its chs)
    (hplain : ∀ ch, some ch ∈ chs → Wanted a ch = true → Plainly env.ff ch)
    (hah : Ahead its) (hlen : (its.flatMap Item.enc).length < 2 ^ 32) (out : Out) :
    ∃ lines, fromRedoFile env fs a spare out = .ok () (out ++ lines) ∧ All2 (Undoes env.ff) lines ((chs.filterMap id).filter (Wanted a)) := by
  refine ⟨_, C58_lines env fs a spare sys trs crs irs frs names parts its chs hsys hdict hne hn ha hp hs hf harr hfl hah hlen out, ?_⟩
  have hu : ∀ ch ∈ (chs.filterMap id).filter (Wanted a), Undoes env.ff (ch.text env.ff) ch := by
    intro ch hch
    obtain ⟨hm, hw⟩ := List.mem_filter.mp hch
    obtain ⟨x, hx, rfl⟩ := List.mem_filterMap.mp hm
    have hx : some ch ∈ chs := hx
    obtain ⟨it, _, hit⟩ : ∃ it ∈ its, Followed env a trs crs irs frs it (some ch) := by
      clear * - hfl hx
      induction hfl with
      | nil => cases hx
      | cons h _ ih =>
        rcases List.mem_cons.mp hx with rfl | hm
        · exact ⟨_, by simp, h⟩
        · obtain ⟨it, h1, h2⟩ := ih hm
          exact ⟨it, List.mem_cons_of_mem _ h1, h2⟩
    exact followed_undoes hit hw (hplain ch hx hw)
  generalize (chs.filterMap id).filter (Wanted a) = l at hu
  clear * - hu
  induction l with
  | nil => exact .nil
  | cons ch l ih => exact .cons (hu ch (by simp)) (ih fun c hc => hu c (by simp [hc]))

end Verif.Props
